import Verif.Proofs.Reports
/-! # The errors of the specification are reported -/
namespace CT
open Spec Props

set_option linter.unusedSectionVars false

variable {α β : Type} {cfg : Cfg} {e : ThriftError}

/-- More fuel does not change what a read reports. -/
theorem fuelSim (cfg : Cfg) (f : Fail) : CfgSim (uP f).A cfg cfg := CfgSim.refl _ _

theorem fuelInput (cfg : Cfg) (f : Fail) : InputSim (uP f) cfg (sliceInput cfg) (sliceInput cfg) :=
  slice_cfg_sim (.inl rfl) (fuelSim cfg f) rfl

theorem PD.here {x : Rd Bytes α} {s : Bytes} {f : Fail} (h : x s = .error f) : PD f (x s) := .inl h

/-- After a part that is read. -/
theorem PD.after {x : Rd Bytes α} {k : α → Rd Bytes β} {s s' : Bytes} {a : α} {f : Fail} (hx : x s = .ok (a, s')) (hk : PD f (k a s')) : PD f ((x >>= k) s) := by
  rw [Rd.bind_ok hx]; exact hk

section
variable (hc : SkipReads cfg)

include hc in
theorem pe_uleb {s : Bytes} (h : Unended s) : decodeUleb cfg List.length Slice.readByte s = .error (.err ended) := (uleb_err hc.reads.ov s _).2 ⟨rfl, h⟩

include hc in
theorem pe_header {s : Bytes} (h : HeaderWrong s e) (last : BitVec 16) : (sliceInput cfg).readFieldHeader cfg last s = .error (.err e) := by
  cases h with
  | none => rfl
  | id b s h1 h2 h =>
    have hb := byte_lt b
    rw [readHeader_long cfg last b s (by omega) (fun e => h2 (by rw [e]; rfl))]
    have e : (sliceInput cfg).readFullFieldId cfg s = .error (.err ended) := Rd.bind_err (pe_uleb hc h)
    rw [e]

include hc in
theorem pe_len {b : Byte} (h1 : b.toNat / 16 = 15) (s : Bytes) : (sliceInput cfg).readCollectionLenAndType cfg (b :: s) =
    ((sliceInput cfg).readLen cfg >>= fun len => if MAX_COLLECTION_LEN < len then Rd.throw .invalidCollectionLen else pure (len, b &&& 0x0F#8)) s := by
  have h0 : (b &&& 0xF0#8) >>> 4 = 0x0F#8 := by
    apply BitVec.eq_of_toNat_eq; rw [and_f0_shr4_toNat, h1]; rfl
  unfold Input.readCollectionLenAndType
  rw [Rd.bind_ok (slice_readByte_cons cfg b s)]
  simp only [h0, ne_eq, not_true_eq_false, if_false]

include hc in
theorem pe_readLen {p : Bytes} {n : Nat} (hp : VarintVal p n) (s : Bytes) : decodeUleb cfg List.length Slice.readByte (p ++ s) = .ok (BitVec.ofNat 64 n, s) := by
  have e : (BitVec.ofNat 64 n).toNat = n := by rw [BitVec.toNat_ofNat, Nat.mod_eq_of_lt hp.2.1]
  exact compl_uleb hc.reads _ p (by dsimp only; rw [e]; exact hp) s

include hc in
theorem pe_collection {s : Bytes} (h : ListWrong s e) : (sliceInput cfg).readCollectionLenAndType cfg s = .error (.err e) := by
  cases h with
  | none => rfl
  | noLen b s h1 h => rw [pe_len hc h1]; exact Rd.bind_err (Rd.bind_err (pe_uleb hc h))
  | len b p n s h1 hp h =>
    have en : (BitVec.ofNat 64 n).toNat = n := by rw [BitVec.toNat_ofNat, Nat.mod_eq_of_lt hp.2.1]
    rw [pe_len hc h1, Rd.bind_ok (Rd.bind_ok (pe_readLen hc hp s)), en, if_pos (show MAX_COLLECTION_LEN < n from h)]
    rfl

include hc in
theorem pe_map {s : Bytes} (h : MapWrong s e) : (sliceInput cfg).readMapLenAndTypes cfg s = .error (.err e) := by
  unfold Input.readMapLenAndTypes
  cases h with
  | noLen s h => exact Rd.bind_err (Rd.bind_err (pe_uleb hc h))
  | noTypes p n hp h =>
    have en : (BitVec.ofNat 64 n).toNat = n := by rw [BitVec.toNat_ofNat, Nat.mod_eq_of_lt hp.2.1]
    have := pe_readLen hc hp []
    rw [List.append_nil] at this
    rw [Rd.bind_ok (Rd.bind_ok this), en, if_neg (by omega)]
    rfl
  | len p n b s hp h =>
    have en : (BitVec.ofNat 64 n).toNat = n := by rw [BitVec.toNat_ofNat, Nat.mod_eq_of_lt hp.2.1]
    rw [Rd.bind_ok (Rd.bind_ok (pe_readLen hc hp (b :: s))), en, if_neg (by omega), Rd.bind_ok (slice_readByte_cons cfg b s), if_pos (show MAX_COLLECTION_LEN < n from h)]
    rfl

include hc in
theorem pe_readBinary {s : Bytes} (h : BinaryWrong s e) : (sliceInput cfg).readBinary s = .error (.err e) := by
  show Slice.readBinary cfg s = _
  rw [slice_readBinary_eq]
  cases h with
  | noLen s h => exact Rd.bind_err (pe_uleb hc h)
  | len p n s hp h =>
    have en : (BitVec.ofNat 64 n).toNat = n := by rw [BitVec.toNat_ofNat, Nat.mod_eq_of_lt hp.2.1]
    rw [Rd.bind_ok (pe_readLen hc hp s), en, if_pos (show MAX_BINARY_LEN < n from h)]
    rfl
  | short p n s hp h hs =>
    have en : (BitVec.ofNat 64 n).toNat = n := by rw [BitVec.toNat_ofNat, Nat.mod_eq_of_lt hp.2.1]
    rw [Rd.bind_ok (pe_readLen hc hp s), en, if_neg (show ¬ MAX_BINARY_LEN < n from Nat.not_lt.2 h)]
    unfold sliceTake
    rw [if_pos hs]
    rfl

variable {env : List Def} (hd : defaultsDefined env = true)

/-- What reading at a place does, whatever the bounds. -/
def PlaceRuns (e : ThriftError) (cfg : Cfg) (env : List Def) (s : Bytes) : Place → Prop
  | .skip ft ins => ∀ (b : Byte), b.toNat = ft → ∀ m, PD (.err e) (skipFieldF cfg (sliceInput cfg) m b ins s)
  | .skipElems ft n => ∀ (b : Byte), b.toNat = ft → ∀ m, PD (.err e) (repeatRd (skipFieldF cfg (sliceInput cfg) m b true) n s)
  | .skipEntries k v n => ∀ (b c : Byte), b.toNat = k → c.toNat = v → ∀ m, PD (.err e) (repeatRd (skipFieldF cfg (sliceInput cfg) m b true >>= fun _ =>
      skipFieldF cfg (sliceInput cfg) m c true) n s)
  | .skipFields last => ∀ m fuel, PD (.err e) (skipStructLoop cfg (sliceInput cfg) (fun ft => skipFieldF cfg (sliceInput cfg) m ft false) fuel last s)
  | .value t o => ∀ n, PD (.err e) (fillTy cfg (sliceInput cfg) env (fillNamed cfg (sliceInput cfg) env n) t o s)
  | .field t ft o => ∀ n (b : Byte), b.toNat = ft → PD (.err e) (fillField cfg (sliceInput cfg) env (fillNamed cfg (sliceInput cfg) env n) t o b s)
  | .elems t k => ∀ n, PD (.err e) (fillElems (fillTy cfg (sliceInput cfg) env (fillNamed cfg (sliceInput cfg) env n) t (dflt env t)) k s)
  | .encodings k => ∀ mask, PD (.err e) (encodingSetLoop cfg (sliceInput cfg) k mask s)
  | .fields name fs last met vs => ∀ n flags fuel, FlagsMet fs flags met →
      PD (.err e) (structLoop cfg (sliceInput cfg) env (fillNamed cfg (sliceInput cfg) env n) name fs fuel last flags vs s)
  | .stop => ∀ v : Val, PD (.err e) (((sliceInput cfg).readByte >>= fun stop => if stop ≠ 0#8 then Rd.throw .missingStop else pure v) s)

/-- After a well-formed value that is skipped. -/
theorem pe_skipped (hc : SkipReads cfg) {ft : Nat} {ins : Bool} {p : Bytes} (hp : LWireOf (skippedInt cfg.sse2) (.value ft ins) p) {k : Unit → Rd Bytes β} {s : Bytes} {f : Fail}
    (hk : PD f (k () s)) (m : Nat) (b : Byte) (hb : b.toNat = ft) :
    PD f ((skipFieldF cfg (sliceInput cfg) m b ins >>= k) (p ++ s)) := by
  obtain ⟨_, _, N, h⟩ := skip_complete hc.reads hp
  have e : b = BitVec.ofNat 8 ft := by
    apply BitVec.eq_of_toNat_eq
    rw [hb, ofNat8_toNat (by rw [← hb]; exact byte_lt b)]
  rw [e]
  exact PD.next ((Sim.skipF (fuelSim cfg f) (fuelInput cfg f) m (m + N) (by omega)).2.2 _ ins) (h (m + N) (by omega) s) hk


/-- `skip_collection` on elements that are wrong. -/
theorem pe_skipCollection (hc : SkipReads cfg) {m n et : Nat} {h s : Bytes} {f : Fail} (hh : ListHeader h et n) (ht : IsType et)
    (hr : ∀ m, PD f (repeatRd (skipFieldF cfg (sliceInput cfg) m (BitVec.ofNat 8 et) true) n s)) : PD f (skipCollection cfg (sliceInput cfg) m (h ++ s)) := by
  cases m with
  | zero => rw [skipCollection]; exact .inr rfl
  | succ m =>
    rw [skipCollection]
    have he : (BitVec.ofNat 8 et).toNat = et := ofNat8_toNat (by have := ht.2; omega)
    refine PD.after (compl_collection hc.reads (n, BitVec.ofNat 8 et) h (by dsimp only; rw [he]; exact hh) s) ?_
    dsimp only
    have h1 := hr (m + 1)
    have h0 := hr m
    rw [skipFieldF] at h1
    rw [he] at h1 ⊢
    split at h1
    all_goals first
      | exact h1
      | (have e : skipFieldF cfg (sliceInput cfg) m 12#8 false = skipFieldF cfg (sliceInput cfg) m 12#8 true := by
           cases m with
           | zero => rw [skipFieldF, skipFieldF]
           | succ m => rw [skipFieldF, skipFieldF]; rfl
         rw [e]; exact h0)
      | skip
    exfalso
    obtain ⟨h1, h2⟩ := ht
    have : et = 1 ∨ et = 2 ∨ et = 3 ∨ et = 4 ∨ et = 5 ∨ et = 6 ∨ et = 7 ∨ et = 8 ∨ et = 9 ∨ et = 10 ∨ et = 11 ∨ et = 12 := by omega
    rcases this with h | h | h | h | h | h | h | h | h | h | h | h <;> simp_all

theorem skipFieldF_other {b : Byte} (h : ¬ IsType b.toNat) (m : Nat) (ins : Bool) : skipFieldF cfg (sliceInput cfg) (m + 1) b ins = Rd.throw .invalidType := by
  rw [skipFieldF]
  split
  all_goals first
    | rfl
    | (rename_i hk; exact absurd ⟨by omega, by omega⟩ h)

include hc hd in
/-- What is wrong at a place is reported. -/
theorem wrong_reported {pl : Place} {s : Bytes} (h : WrongAt cfg.sse2 env pl s e) : PlaceRuns e cfg env s pl := by
  have succ : ∀ {b : Byte} {ins : Bool} {s : Bytes} {f : Fail}, (∀ m, PD f (skipFieldF cfg (sliceInput cfg) (m + 1) b ins s)) →
      ∀ m, PD f (skipFieldF cfg (sliceInput cfg) m b ins s) := by
    intro b ins s f h m
    cases m with
    | zero => rw [skipFieldF]; exact .inr rfl
    | succ m => exact h m
  have bits : ∀ {b : Byte} {k : Nat}, k < 256 → b.toNat = k → b = BitVec.ofNat 8 k := fun hk h => BitVec.eq_of_toNat_eq (by rw [h, ofNat8_toNat hk])
  have hcoll : ∀ {s : Bytes}, ListWrong s e → ∀ m, PD (.err e) (skipCollection cfg (sliceInput cfg) m s) := by
    intro s h m
    cases m with
    | zero => rw [skipCollection]; exact .inr rfl
    | succ m => rw [skipCollection]; exact .inl (Rd.bind_err (pe_collection hc h))
  have hstruct : ∀ {s : Bytes}, HeaderWrong s e → ∀ last fuel (n : Nat) name fs flags vs,
      PD (.err e) (structLoop cfg (sliceInput cfg) env (fillNamed cfg (sliceInput cfg) env n) name fs fuel last flags vs s) := by
    intro s h last fuel n name fs flags vs
    cases fuel with
    | zero => rw [structLoop]; exact .inr rfl
    | succ fuel => rw [structLoop]; exact .inl (Rd.bind_err (pe_header hc h last))
  cases h with
  | skipType ft ins s h =>
    rintro b rfl
    exact succ fun m => by rw [skipFieldF_other h]; exact .inl rfl
  | skipBool ft h =>
    intro b hb
    refine succ fun m => ?_
    rcases h with rfl | rfl
    · cases bits (by omega) hb; rw [skipFieldF]; exact .inl rfl
    · cases bits (by omega) hb; rw [skipFieldF]; exact .inl rfl
  | skipByte ins =>
    intro b hb
    cases bits (by omega) hb
    exact succ fun m => by rw [skipFieldF]; exact .inl rfl
  | skipInt ft ins s hft h2 h =>
    intro b hb
    refine succ fun m => ?_
    have := (hc.cut s ended).2 ⟨rfl, h2, h⟩
    rcases hft with rfl | rfl | rfl
    · cases bits (by omega) hb; rw [skipFieldF]; exact .inl this
    · cases bits (by omega) hb; rw [skipFieldF]; exact .inl this
    · cases bits (by omega) hb; rw [skipFieldF]; exact .inl this
  | skipDouble ins s h =>
    intro b hb
    cases bits (by omega) hb
    refine succ fun m => ?_
    rw [skipFieldF]
    refine .inl (Rd.bind_err ?_)
    show (if s.length < 8 then eof else Except.ok _) = _
    rw [if_pos h]; rfl
  | skipBinary ins s e h =>
    intro b hb
    cases bits (by omega) hb
    refine succ fun m => ?_
    rw [skipFieldF]
    show PD _ (Slice.skipBinary cfg s)
    rw [slice_skipBinary_eq]
    exact .inl (Rd.bind_err (pe_readBinary hc h))
  | skipListHeader ft ins s e hft h =>
    intro b hb
    refine succ fun m => ?_
    rcases hft with rfl | rfl
    · cases bits (by omega) hb; rw [skipFieldF]; exact hcoll h m
    · cases bits (by omega) hb; rw [skipFieldF]; exact hcoll h m
  | skipListType ft ins h et n s hft hh het =>
    intro b hb
    refine succ fun m => ?_
    have het' : et < 16 := by cases hh <;> omega
    have he : (BitVec.ofNat 8 et).toNat = et := ofNat8_toNat (by omega)
    have key : PD (.err .invalidType) (skipCollection cfg (sliceInput cfg) m (h ++ s)) := by
      cases m with
      | zero => rw [skipCollection]; exact .inr rfl
      | succ m =>
        rw [skipCollection]
        refine PD.after (compl_collection hc.reads (n, BitVec.ofNat 8 et) h (by dsimp only; rw [he]; exact hh) s) ?_
        dsimp only
        rw [he]
        split
        all_goals first
          | exact .inl rfl
          | exact absurd ⟨by omega, by omega⟩ het
    rcases hft with rfl | rfl
    · cases bits (by omega) hb; rw [skipFieldF]; exact key
    · cases bits (by omega) hb; rw [skipFieldF]; exact key
  | skipMapHeader ins s e h =>
    intro b hb
    cases bits (by omega) hb
    refine succ fun m => ?_
    rw [skipFieldF]
    show PD _ (skipMap cfg (sliceInput cfg) m s)
    cases m with
    | zero => rw [skipMap]; exact .inr rfl
    | succ m => rw [skipMap]; exact .inl (Rd.bind_err (pe_map hc h))
  | skipHeader last s e h =>
    intro m fuel
    cases fuel with
    | zero => rw [skipStructLoop]; exact .inr rfl
    | succ fuel => rw [skipStructLoop]; exact .inl (Rd.bind_err (pe_header hc h last))
  | byte t o ht => intro n; rcases ht with rfl | rfl <;> (rw [fillTy]; exact .inl rfl)
  | int t o s ht h =>
    intro n
    rcases ht with rfl | rfl | rfl <;> (rw [fillTy]; exact .inl (Rd.bind_err (Rd.bind_err (pe_uleb hc h))))
  | double o s h =>
    intro n
    rw [fillTy]
    refine .inl (Rd.bind_err ?_)
    show (if s.length < 8 then eof else Except.ok _) = _
    rw [if_pos h]; rfl
  | binary t o s e ht h =>
    intro n
    rcases ht with rfl | rfl
    · rw [fillTy]; exact .inl (Rd.bind_err (pe_readBinary hc h))
    · rw [fillTy]; exact .inl (Rd.bind_err (Rd.bind_err (pe_readBinary hc h)))
  | utf8 o p bs s hp hb hu =>
    intro n
    rw [fillTy]
    refine .inl (Rd.bind_err ?_)
    unfold Input.readString
    have := compl_readBinary hc.reads bs (p ++ bs) ⟨p, rfl, hp, hb⟩ s
    rw [List.append_assoc] at this
    rw [Rd.bind_ok this, if_neg fun h => hu ((utf8Valid_iff bs).1 h)]
    rfl
  | listHeader t o s e ht h =>
    intro n
    rcases ht with rfl | ⟨t, rfl⟩ <;> (rw [fillTy]; exact .inl (Rd.bind_err (pe_collection hc h)))
  | encodingType o h et n s hh het =>
    intro m
    have het' : et < 16 := by cases hh <;> omega
    have he : (BitVec.ofNat 8 et).toNat = et := ofNat8_toNat (by omega)
    rw [fillTy]
    refine PD.after (compl_collection hc.reads (n, BitVec.ofNat 8 et) h (by dsimp only; rw [he]; exact hh) s) ?_
    dsimp only
    rw [if_pos fun h => het (by rw [← he, h]; rfl)]
    exact .inl rfl
  | elemType t o h et n s hh het =>
    intro m
    have het' : et < 16 := by cases hh <;> omega
    have he : (BitVec.ofNat 8 et).toNat = et := ofNat8_toNat (by omega)
    rw [fillTy]
    refine PD.after (compl_collection hc.reads (n, BitVec.ofNat 8 et) h (by dsimp only; rw [he]; exact hh) s) ?_
    dsimp only
    rw [if_pos]
    · exact .inl rfl
    · rw [wireType_eq]
      refine ⟨fun h => het (.inl (by rw [← h, he])), fun ⟨h1, h2⟩ => het (.inr ⟨h1, ?_⟩)⟩
      rw [← he, h2]; rfl
  | noEncoding n s h =>
    intro mask
    rw [encodingSetLoop]
    exact .inl (Rd.bind_err (Rd.bind_err (pe_uleb hc h)))
  | encoding n x p s hp hx =>
    intro mask
    rw [encodingSetLoop]
    refine PD.after (compl_readI32 hc.reads x p hp s) ?_
    rw [if_pos ((slt31 x).2 hx)]
    exact .inl rfl
  | again t v s => intro n; rw [fillTy]; exact .inl rfl
  | shared t v s => intro n; rw [fillTy, if_pos rfl]; exact .inl rfl
  | enum k name o s hk h =>
    intro n
    rw [fillTy]
    cases n with
    | zero => exact .inr rfl
    | succ n => rw [fillNamed_enum hk]; exact .inl (Rd.bind_err (Rd.bind_err (pe_uleb hc h)))
  | unionHeader k name us j o s e hk h =>
    intro n
    rw [fillTy]
    cases n with
    | zero => exact .inr rfl
    | succ n => rw [fillNamed_union hk]; exact .inl (Rd.bind_err (pe_header hc h _))
  | noVariant k name us j o b s hk h =>
    intro n
    rw [fillTy]
    cases n with
    | zero => exact .inr rfl
    | succ n =>
      rw [fillNamed_union hk]
      obtain ⟨id, hi⟩ := compl_stop hc.reads h 0#16 s
      refine PD.after hi ?_
      exact .inl rfl
  | otherVariant k name us j o h ft id s hk hh hid =>
    intro n
    rw [fillTy]
    cases n with
    | zero => exact .inr rfl
    | succ n =>
      rw [fillNamed_union hk]
      obtain ⟨h1, h2, _⟩ := compl_fieldHeader hc.reads hh s
      refine PD.after h1 ?_
      have : us.findIdx? (fun u => u.id == id) = none := List.findIdx?_eq_none_iff.2 fun u hu => by simpa using hid u hu
      simp only [h2, if_false, this]
      exact .inl rfl
  | noStop => intro v; exact .inl rfl
  | notStop b s h =>
    intro v
    refine PD.after (slice_readByte_cons cfg b s) ?_
    rw [if_pos fun h' => h (by rw [h']; rfl)]
    exact .inl rfl
  | fieldAgain t ft v s => intro n b _; rw [fillField]; exact .inl rfl
  | fieldType t ft o s h1 h2 hft =>
    intro n b hb
    rw [fillField_value cfg _ env _ o b h1 h2, if_pos]
    · exact .inl rfl
    · rw [wireType_eq]; rintro rfl; exact hft hb.symm
  | header name fs last met old s e h => exact fun n flags fuel _ => hstruct h last fuel n name fs flags old
  | missing name fs last met old b s i f h hf hr hm hfst =>
    intro n flags fuel hfl
    cases fuel with
    | zero => rw [structLoop]; exact .inr rfl
    | succ fuel =>
      rw [structLoop]
      obtain ⟨id, hi⟩ := compl_stop hc.reads h last s
      refine PD.after hi ?_
      have : firstMissing fs flags = some f := firstMissing_some hfl.1 hf hr (fun h => hm ((hfl.2 i f hf hr).1 h))
        fun j g hj hg hr => (hfl.2 j g hg hr).2 (hfst j g hj hg hr)
      simp only [if_true, this]
      exact .inl rfl

variable (ha : AllocOk cfg)

include hc hd ha in
/-- What a place leads to is reported there. -/
theorem led_reported {pl pl' : Place} {s s' : Bytes} (h : Leads cfg.sse2 env pl s pl' s') (ih : PlaceRuns e cfg env s' pl') : PlaceRuns e cfg env s pl := by
  have succ : ∀ {b : Byte} {ins : Bool} {s : Bytes} {f : Fail}, (∀ m, PD f (skipFieldF cfg (sliceInput cfg) (m + 1) b ins s)) →
      ∀ m, PD f (skipFieldF cfg (sliceInput cfg) m b ins s) := by
    intro b ins s f h m
    cases m with
    | zero => rw [skipFieldF]; exact .inr rfl
    | succ m => exact h m
  have bits : ∀ {b : Byte} {k : Nat}, k < 256 → b.toNat = k → b = BitVec.ofNat 8 k := fun hk h => BitVec.eq_of_toNat_eq (by rw [h, ofNat8_toNat hk])
  have hsim : ∀ n m, n ≤ m → ∀ k v, Sim (uP (.err e)) (fillNamed cfg (sliceInput cfg) env n k v) (fillNamed cfg (sliceInput cfg) env m k v) :=
    fun n m hnm => Sim.fillNamed (fuelSim cfg _) (fuelInput cfg _) env n m hnm
  have hhead : ∀ {β : Type} {last : BitVec 16} {h : Bytes} {ft : Nat} {id : BitVec 16} {k : Byte × BitVec 16 → Rd Bytes β} {s : Bytes} {f : Fail}, FieldHeader last h ft id →
      PD f (k (BitVec.ofNat 8 ft, id) s) → PD f (((sliceInput cfg).readFieldHeader cfg last >>= k) (h ++ s)) := fun hh hf =>
    PD.after (compl_fieldHeader hc.reads hh _).1 hf
  have hne : ∀ {last : BitVec 16} {h : Bytes} {ft : Nat} {id : BitVec 16}, FieldHeader last h ft id → BitVec.ofNat 8 ft ≠ 0#8 ∧ ft < 16 := fun hh =>
    (compl_fieldHeader hc.reads hh []).2
  have h8 : ∀ {last : BitVec 16} {h : Bytes} {ft : Nat} {id : BitVec 16}, FieldHeader last h ft id → (BitVec.ofNat 8 ft).toNat = ft := fun hh =>
    ofNat8_toNat (by have := (hne hh).2; omega)
  cases h with
  | skipList ft ins h et n s hft hh het =>
    intro b hb
    refine succ fun m => ?_
    have key := pe_skipCollection hc (m := m) hh het (ih (BitVec.ofNat 8 et) (ofNat8_toNat (by have := het.2; omega)))
    rcases hft with rfl | rfl
    · cases bits (by omega) hb; rw [skipFieldF]; exact key
    · cases bits (by omega) hb; rw [skipFieldF]; exact key
  | skipMap ins p n b s hp h0 hn =>
    intro c hb
    cases bits (by omega) hb
    refine succ fun m => ?_
    rw [skipFieldF]
    show PD _ (skipMap cfg (sliceInput cfg) m _)
    cases m with
    | zero => rw [skipMap]; exact .inr rfl
    | succ m =>
      have hb := byte_lt b
      have e1 := ofNat8_toNat (n := b.toNat / 16) (by omega)
      have e2 := ofNat8_toNat (n := b.toNat % 16) (by omega)
      rw [skipMap, show p ++ b :: s' = (p ++ [b]) ++ s' by simp]
      exact PD.after (compl_mapHeader hc.reads (n, BitVec.ofNat 8 (b.toNat / 16), BitVec.ofNat 8 (b.toNat % 16)) (p ++ [b])
          (.inr ⟨p, b, rfl, hp, h0, hn, e1, e2⟩) s') (ih _ _ e1 e2 m)
  | skipStruct ins s =>
    intro c hb
    cases bits (by omega) hb
    refine succ fun m => ?_
    rw [skipFieldF]
    exact ih m _
  | skipElem ft n s => exact fun b hb m => (ih b hb m).bind
  | skipElemsRest ft n p s hp => exact fun b hb m => pe_skipped hc hp (ih b hb m) m b hb
  | skipKey k v n s => exact fun b c hb _ m => PD.bind (PD.bind (ih b hb m))
  | skipVal k v n p s hp => exact fun b c hb hc' m => PD.bind (pe_skipped hc hp (k := fun _ => skipFieldF cfg (sliceInput cfg) m c true) (ih c hc' m) m b hb)
  | skipEntriesRest k v n p q s hp hq =>
    intro b c hb hc' m
    obtain ⟨_, _, N, h1⟩ := skip_complete hc.reads hp
    obtain ⟨_, _, M, h2⟩ := skip_complete hc.reads hq
    have hN := (Sim.skipF (fuelSim cfg (.err e)) (fuelInput cfg (.err e)) m (m + N + M) (by omega)).2.2
    have eb : BitVec.ofNat 8 k = b := (bits (by rw [← hb]; exact byte_lt b) hb).symm
    have ec : BitVec.ofNat 8 v = c := (bits (by rw [← hc']; exact byte_lt c) hc').symm
    rw [eb] at h1
    rw [ec] at h2
    refine PD.next (a := ()) (Sim.bind (hN b true) fun _ => hN c true) ?_ (ih b c hb hc' m)
    rw [Rd.bind_ok (h1 _ (by omega) _)]
    exact h2 _ (by omega) s'
  | skipField last h ft id s hh =>
    intro m fuel
    cases fuel with
    | zero => rw [skipStructLoop]; exact .inr rfl
    | succ fuel =>
      rw [skipStructLoop]
      refine hhead hh ?_
      dsimp only
      rw [if_neg (hne hh).1]
      exact (ih _ (h8 hh) m).bind
  | skipFieldsRest last h ft id p s hh hp =>
    intro m fuel
    cases fuel with
    | zero => rw [skipStructLoop]; exact .inr rfl
    | succ fuel =>
      rw [skipStructLoop]
      refine hhead hh ?_
      dsimp only
      rw [if_neg (hne hh).1]
      exact pe_skipped hc hp (ih m fuel) m _ (h8 hh)
  | encodings o h n s hh =>
    intro m
    rw [fillTy]
    refine PD.after (compl_collection hc.reads (n, 5#8) h hh s') ?_
    dsimp only
    rw [if_neg (by simp [fieldType])]
    exact (ih _).bind
  | encoding n x p s hp hx =>
    intro mask
    rw [encodingSetLoop]
    refine PD.after (compl_readI32 hc.reads x p hp s') ?_
    rw [if_neg (by rw [slt31]; omega)]
    exact ih _
  | list t o h et k s hh he =>
    intro n
    have het : et < 256 := by cases hh <;> omega
    have hlen := listHeader_le hh
    rw [fillTy]
    refine PD.after (compl_collection hc.reads (k, BitVec.ofNat 8 et) h (by simpa [Nat.mod_eq_of_lt het] using hh) s') ?_
    dsimp only
    rw [if_neg, if_neg (by simp [ha _ hlen])]
    · exact (ih n).bind
    · rw [wireType_eq]
      rintro ⟨h1, h2⟩
      rcases he with rfl | ⟨h3, rfl⟩
      · exact h1 (by simp)
      · exact h2 ⟨h3, rfl⟩
  | elem t d k s hdf => intro n; rw [fillElems, dflt_of_isDefault hd hdf]; exact (ih n).bind
  | elemsRest t d v k p s hdf hp =>
    intro n
    obtain ⟨N, hN⟩ := dec_complete hc.reads hd ha hp
    rw [fillElems]
    refine PD.next (Sim.fillTy (fuelSim cfg _) (fuelInput cfg _) env (hsim n (n + N) (by omega)) t _) (a := v) ?_ (ih n).bind
    rw [dflt_of_isDefault hd hdf]; exact hN _ (by omega) s'
  | some t d s hdf => intro n; rw [fillTy, dflt_of_isDefault hd hdf]; exact (ih n).bind
  | box t o s => intro n; rw [fillTy]; exact (ih n).bind
  | rc t o s => intro n; rw [fillTy, if_neg (by simp)]; exact (ih n).bind
  | struct k name fs old s hk =>
    intro n
    rw [fillTy]
    cases n with
    | zero => exact .inr rfl
    | succ n => rw [fillNamed_struct hk]; exact ih n _ _ (.start fs)
  | variant k name us i u j o d h ft s hk hu hfst hh hdf =>
    intro n
    rw [fillTy]
    cases n with
    | zero => exact .inr rfl
    | succ n =>
      rw [fillNamed_union hk]
      refine hhead hh ?_
      simp only [(hne hh).1, if_false, findVariant_of_first hu rfl hfst, hu]
      rw [dflt_of_isDefault hd hdf]
      exact (ih n).bind
  | variantStop k name us i u j o d v h ft p s hk hu hfst hh hdf hp =>
    intro n
    rw [fillTy]
    cases n with
    | zero => exact .inr rfl
    | succ n =>
      obtain ⟨N, hN⟩ := dec_complete hc.reads hd ha hp
      rw [fillNamed_union hk]
      refine hhead hh ?_
      simp only [(hne hh).1, if_false, findVariant_of_first hu rfl hfst, hu]
      rw [dflt_of_isDefault hd hdf]
      exact PD.next (Sim.fillTy (fuelSim cfg _) (fuelInput cfg _) env (hsim n (n + N) (by omega)) u.ty _) (hN _ (by omega) s') (ih _)
  | fieldSome t ft d s hdf =>
    intro n b hb
    rw [fillField, dflt_of_isDefault hd hdf]
    exact (ih n b hb).bind
  | fieldValue t o s h1 h2 =>
    intro n b hb
    rw [fillField_value cfg _ env _ o b h1 h2, if_neg (by rw [wireType_eq]; simp [BitVec.eq_of_toNat_eq hb])]
    exact ih n
  | known name fs last met old h ft i f o s hh hf hfst ho =>
    intro n flags fuel hfl
    cases fuel with
    | zero => rw [structLoop]; exact .inr rfl
    | succ fuel =>
      rw [structLoop]
      refine hhead hh ?_
      simp only [(hne hh).1, if_false, findField_of_first hf rfl hfst, hf, ho]
      exact (ih n _ (h8 hh)).bind
  | knownRest name fs last met old h ft i f o v p s hh hf hfst ho hp =>
    intro n flags fuel hfl
    cases fuel with
    | zero => rw [structLoop]; exact .inr rfl
    | succ fuel =>
      obtain ⟨N, hN⟩ := dec_complete hc.reads hd ha hp
      rw [structLoop]
      refine hhead hh ?_
      simp only [(hne hh).1, if_false, findField_of_first hf rfl hfst, hf, ho]
      exact PD.next (Sim.fillField (fuelSim cfg _) (fuelInput cfg _) env (hsim n (n + N) (by omega)) _ _ _)
        (hN _ (by omega) _ (h8 hh) s') (ih n _ fuel (hfl.next hf))
  | unknown name fs last met old h ft id s hh hid =>
    intro n flags fuel hfl
    cases fuel with
    | zero => rw [structLoop]; exact .inr rfl
    | succ fuel =>
      rw [structLoop]
      refine hhead hh ?_
      simp only [(hne hh).1, if_false, findField_none.2 hid]
      exact PD.bind (ih _ (h8 hh) _)
  | unknownRest name fs last met old h ft id p s hh hid hp =>
    intro n flags fuel hfl
    cases fuel with
    | zero => rw [structLoop]; exact .inr rfl
    | succ fuel =>
      rw [structLoop]
      refine hhead hh ?_
      simp only [(hne hh).1, if_false, findField_none.2 hid]
      have hsk : (sliceInput cfg).skipField cfg (BitVec.ofNat 8 ft) (p ++ s') = .ok ((), s') :=
        (skip_reads hc.reads _ false _ _).2 ⟨p, rfl, by rw [h8 hh]; exact hp⟩
      exact PD.after hsk (ih n flags fuel hfl)

include hc hd ha in
theorem report_occurs {pl : Place} {s : Bytes} (h : Reports cfg.sse2 env pl s e) : PlaceRuns e cfg env s pl := by
  induction h with
  | here pl s e h => exact wrong_reported hc hd h
  | further pl s pl' s' e h _ ih => exact led_reported hc hd ha h ih

end

end CT
