import Verif.Proofs.Overflow
/-! # Inputs on which additions overflow make the build with overflow checks panic -/
namespace CT
open Spec Props

set_option linter.unusedSectionVars false

section Over
variable {α β : Type}

variable {f : Fail}

variable (f) in
/-- Reading has broken off, or the bound on the nesting was reached. -/
def PD (r : Except Fail (α × Bytes)) : Prop := r = .error f ∨ r = .error .diverge

theorem PD.bind {x : Rd Bytes α} {k : α → Rd Bytes β} {s : Bytes} (h : PD f (x s)) : PD f ((x >>= k) s) :=
  h.imp Rd.bind_err Rd.bind_err

/-- After a part that the build without overflow checks reads. -/
theorem PD.next {x y : Rd Bytes α} {k : α → Rd Bytes β} {s s' : Bytes} {a : α} (h : Sim (uP f) x y) (hy : y s = .ok (a, s')) (hk : PD f (k a s')) : PD f ((x >>= k) s) := by
  have := h.run s s rfl
  cases hx : x s with
  | error e =>
    rw [hx] at this
    rcases this with (rfl | ⟨rfl, rfl⟩) | h1 | h1
    · exact .inr (Rd.bind_err hx)
    · exact .inl (Rd.bind_err hx)
    · exact h1.1.elim
    · rw [hy] at h1; cases h1
  | ok r =>
    obtain ⟨b, t⟩ := r
    rw [hx] at this
    obtain ⟨t', h1, h2⟩ := this
    subst h2
    rw [hy] at h1
    cases h1
    rw [Rd.bind_ok hx]
    exact hk

theorem PD.map {x : Rd Bytes α} {s : Bytes} (h : PD f (x s)) (g : α → β) : PD f ((x >>= fun a => pure (g a)) s) := h.bind

variable {cfg : Cfg} [hf : BrokenOff f] {F : Faults} (hF : BreaksAt cfg f F)

include hF in
theorem pd_uleb {s : Bytes} (h : F.varint s) : PD f (decodeUleb cfg List.length Slice.readByte s) := .inl ((hF.varint s).2 h)

include hF in
theorem pd_header {last : BitVec 16} {s : Bytes} (h : HeaderBreaks F last s) : PD f ((sliceInput cfg).readFieldHeader cfg last s) := by
  cases h with
  | sum b s hsum h =>
    have h16 : 16 ≤ b.toNat := by
      have := BitVec.toInt_lt (x := last)
      simp at this
      omega
    rw [readHeader_short cfg last b s h16, if_pos ⟨hF.sum.1 hsum, h⟩, hF.checks (hF.sum.1 hsum)]
    exact .inl rfl
  | id b s h1 h2 h =>
    have hb := byte_lt b
    rw [readHeader_long cfg last b s (by omega) (fun e => h2 (by rw [e]; rfl))]
    have e : (sliceInput cfg).readFullFieldId cfg s = .error f := Rd.bind_err ((hF.varint s).2 h)
    rw [e]
    exact .inl rfl

include hF in
theorem pd_collection {s : Bytes} (h : ListBreaks F s) : PD f ((sliceInput cfg).readCollectionLenAndType cfg s) := by
  cases h with
  | len b s h1 h =>
    have h0 : (b &&& 0xF0#8) >>> 4 = 0x0F#8 := by
      apply BitVec.eq_of_toNat_eq; rw [and_f0_shr4_toNat, h1]; rfl
    unfold Input.readCollectionLenAndType
    rw [Rd.bind_ok (slice_readByte_cons cfg b s)]
    simp only [h0, ne_eq, not_true_eq_false, if_false]
    exact PD.bind (PD.bind (pd_uleb hF h))

include hF in
theorem pd_readBinary {s : Bytes} (h : F.varint s) : PD f ((sliceInput cfg).readBinary s) := by
  show PD f (Slice.readBinary cfg s)
  rw [slice_readBinary_eq]
  exact (pd_uleb hF h).bind

variable {env : List Def} (hd : defaultsDefined env = true)

/-- What the build with overflow checks does on an item, whatever the bounds. -/
def OverRuns (f : Fail) (cfg : Cfg) (env : List Def) (s : Bytes) : OItem → Prop
  | .skip ft => ft ≤ 12 ∧ ∀ m ins, PD f (skipFieldF cfg (sliceInput cfg) m (BitVec.ofNat 8 ft) ins s)
  | .skipElems ft n => ft ≤ 12 ∧ ∀ m, PD f (repeatRd (skipFieldF cfg (sliceInput cfg) m (BitVec.ofNat 8 ft) true) n s)
  | .skipEntries k v n => ∀ m, PD f (repeatRd (skipFieldF cfg (sliceInput cfg) m (BitVec.ofNat 8 k) true >>= fun _ =>
      skipFieldF cfg (sliceInput cfg) m (BitVec.ofNat 8 v) true) n s)
  | .skipFields last => ∀ m fuel, PD f (skipStructLoop cfg (sliceInput cfg) (fun ft => skipFieldF cfg (sliceInput cfg) m ft false) fuel last s)
  | .value t o => AllocOk cfg → ∀ n, PD f (fillTy cfg (sliceInput cfg) env (fillNamed cfg (sliceInput cfg) env n) t o s)
  | .field t ft o => AllocOk cfg → ∀ n (b : Byte), b.toNat = ft → PD f (fillField cfg (sliceInput cfg) env (fillNamed cfg (sliceInput cfg) env n) t o b s)
  | .elems t k => AllocOk cfg → ∀ n, PD f (fillElems (fillTy cfg (sliceInput cfg) env (fillNamed cfg (sliceInput cfg) env n) t (dflt env t)) k s)
  | .fields fs last vs => AllocOk cfg → ∀ n name flags fuel,
      PD f (structLoop cfg (sliceInput cfg) env (fillNamed cfg (sliceInput cfg) env n) name fs fuel last flags vs s)

/-- After a well-formed value that is skipped. -/
theorem pd_skipped (hF : BreaksAt cfg f F) {ft : Nat} {ins : Bool} {p : Bytes} (hp : LWireOf F.int (.value ft ins) p) {k : Unit → Rd Bytes β} {s : Bytes} (hk : PD f (k () s)) (m : Nat) :
    PD f ((skipFieldF cfg (sliceInput cfg) m (BitVec.ofNat 8 ft) ins >>= k) (p ++ s)) := by
  obtain ⟨_, _, N, h⟩ := skip_complete hF.reads hp
  exact PD.next ((Sim.skipF hF.cfgSim hF.inputSim m (m + N) (by omega)).2.2 _ ins) (h (m + N) (by omega) s) hk

/-- `skip_collection` on elements that overflow. -/
theorem pd_skipCollection (hF : BreaksAt cfg f F) {m n et : Nat} {h s : Bytes} (hh : ListHeader h et n) (h12 : et ≤ 12)
    (hr : ∀ m, PD f (repeatRd (skipFieldF cfg (sliceInput cfg) m (BitVec.ofNat 8 et) true) n s)) : PD f (skipCollection cfg (sliceInput cfg) m (h ++ s)) := by
  cases m with
  | zero => rw [skipCollection]; exact .inr rfl
  | succ m =>
    rw [skipCollection]
    have he : (BitVec.ofNat 8 et).toNat = et := ofNat8_toNat (by omega)
    refine PD.next (Sim.readCollectionLenAndType hF.cfgSim hF.inputSim)
      (compl_collection hF.reads (n, BitVec.ofNat 8 et) h (by dsimp only; rw [he]; exact hh) s) ?_
    dsimp only
    have h1 := hr (m + 1)
    have h0 := hr m
    rw [skipFieldF] at h1
    rw [he] at h1 ⊢
    have hz : n = 0 → False := by
      rintro rfl
      rcases h0 with h | h <;> cases h
    split at h1
    all_goals first
      | exact h1
      | (have e : skipFieldF cfg (sliceInput cfg) m 12#8 false = skipFieldF cfg (sliceInput cfg) m 12#8 true := by
           cases m with
           | zero => rw [skipFieldF, skipFieldF]
           | succ m => rw [skipFieldF, skipFieldF]; rfl
         rw [e]; exact h0)
      | skip
    exfalso
    obtain ⟨n, rfl⟩ := Nat.exists_eq_succ_of_ne_zero hz
    rcases h1 with h | h
    · unbroken h
    · cases h

include hF hd in
theorem overflow_panics {item : OItem} {s : Bytes} (h : BreaksOff F env item s) : OverRuns f cfg env s item := by
  have hc := hF.reads
  have hsim : ∀ n m, n ≤ m → ∀ k v, Sim (uP f) (fillNamed cfg (sliceInput cfg) env n k v) (fillNamed (unchecked cfg) (sliceInput (unchecked cfg)) env m k v) :=
    fun n m hnm => Sim.fillNamed hF.cfgSim hF.inputSim env n m hnm
  have hhead : ∀ {β : Type} {last : BitVec 16} {h : Bytes} {ft : Nat} {id : BitVec 16} {k : Byte × BitVec 16 → Rd Bytes β} {s : Bytes}, FieldHeader last h ft id →
      PD f (k (BitVec.ofNat 8 ft, id) s) → PD f (((sliceInput cfg).readFieldHeader cfg last >>= k) (h ++ s)) := fun hh hf =>
    PD.next (Sim.readFieldHeader hF.cfgSim hF.inputSim _) (compl_fieldHeader hc hh _).1 hf
  have hne : ∀ {last : BitVec 16} {h : Bytes} {ft : Nat} {id : BitVec 16}, FieldHeader last h ft id → BitVec.ofNat 8 ft ≠ 0#8 ∧ ft < 16 := fun hh =>
    (compl_fieldHeader hc hh []).2
  have hint : ∀ {s : Bytes}, F.skip s → PD f ((sliceInput cfg).skipInteger s) := fun h => .inl ((hF.skip _).2 h)
  induction h with
  | skipInt ft s hft h =>
    refine ⟨by omega, fun m ins => ?_⟩
    cases m with
    | zero => rw [skipFieldF]; exact .inr rfl
    | succ m =>
      rw [skipFieldF]
      rcases hft with rfl | rfl | rfl <;> exact hint h
  | skipLen ft s hft h =>
    refine ⟨by omega, fun m ins => ?_⟩
    cases m with
    | zero => rw [skipFieldF]; exact .inr rfl
    | succ m =>
      rw [skipFieldF]
      rcases hft with rfl | rfl
      · show PD f (Slice.skipBinary cfg s)
        rw [slice_skipBinary_eq]
        exact (pd_readBinary hF h).bind
      · show PD f (skipMap cfg (sliceInput cfg) m s)
        cases m with
        | zero => rw [skipMap]; exact .inr rfl
        | succ m =>
          rw [skipMap]
          unfold Input.readMapLenAndTypes
          exact PD.bind (PD.bind (PD.bind (pd_uleb hF h)))
  | skipListHeader ft s hft h =>
    refine ⟨by omega, fun m ins => ?_⟩
    cases m with
    | zero => rw [skipFieldF]; exact .inr rfl
    | succ m =>
      have key : PD f (skipCollection cfg (sliceInput cfg) m s) := by
        cases m with
        | zero => rw [skipCollection]; exact .inr rfl
        | succ m => rw [skipCollection]; exact (pd_collection hF h).bind
      rw [skipFieldF]
      rcases hft with rfl | rfl <;> exact key
  | skipList ft h et n s hft hh _ ih =>
    refine ⟨by omega, fun m ins => ?_⟩
    cases m with
    | zero => rw [skipFieldF]; exact .inr rfl
    | succ m =>
      have key := pd_skipCollection hF (m := m) hh ih.1 ih.2
      rw [skipFieldF]
      rcases hft with rfl | rfl <;> exact key
  | skipMap p n b s hp hn _ ih =>
    refine ⟨by omega, fun m ins => ?_⟩
    cases m with
    | zero => rw [skipFieldF]; exact .inr rfl
    | succ m =>
      rw [skipFieldF]
      show PD f (skipMap cfg (sliceInput cfg) m _)
      cases m with
      | zero => rw [skipMap]; exact .inr rfl
      | succ m =>
        have hb := byte_lt b
        have h0 : 0 < n := by
          rcases Nat.eq_zero_or_pos n with rfl | h
          · rcases ih 0 with h | h <;> cases h
          · exact h
        rw [skipMap, show p ++ b :: s = (p ++ [b]) ++ s by simp]
        exact PD.next (Sim.readMapLenAndTypes hF.cfgSim hF.inputSim)
          (compl_mapHeader hc (n, BitVec.ofNat 8 (b.toNat / 16), BitVec.ofNat 8 (b.toNat % 16)) (p ++ [b])
            (.inr ⟨p, b, rfl, hp, h0, hn, ofNat8_toNat (by omega), ofNat8_toNat (by omega)⟩) s) (ih m)
  | skipStruct s _ ih =>
    refine ⟨by omega, fun m ins => ?_⟩
    cases m with
    | zero => rw [skipFieldF]; exact .inr rfl
    | succ m => rw [skipFieldF]; exact ih m _
  | skipElem ft n s _ ih => exact ⟨ih.1, fun m => (ih.2 m true).bind⟩
  | skipElemsRest ft n p s hp _ ih => exact ⟨ih.1, fun m => pd_skipped hF hp (ih.2 m) m⟩
  | skipKey k v n s _ ih => exact fun m => PD.bind (PD.bind (ih.2 m true))
  | skipVal k v n p s hp _ ih => exact fun m => PD.bind (pd_skipped hF hp (k := fun _ => skipFieldF cfg (sliceInput cfg) m (BitVec.ofNat 8 v) true) (ih.2 m true) m)
  | skipEntriesRest k v n p q s hp hq _ ih =>
    intro m
    obtain ⟨_, _, N, h1⟩ := skip_complete hc hp
    obtain ⟨_, _, M, h2⟩ := skip_complete hc hq
    have hN := (Sim.skipF hF.cfgSim hF.inputSim m (m + N + M) (by omega)).2.2
    refine PD.next (a := ()) (Sim.bind (hN (BitVec.ofNat 8 k) true) fun _ => hN (BitVec.ofNat 8 v) true) ?_ (ih m)
    rw [Rd.bind_ok (h1 _ (by omega) _)]
    exact h2 _ (by omega) s
  | skipHeader last s h =>
    intro m fuel
    cases fuel with
    | zero => rw [skipStructLoop]; exact .inr rfl
    | succ fuel => rw [skipStructLoop]; exact (pd_header hF h).bind
  | skipField last h ft id s hh _ ih =>
    intro m fuel
    cases fuel with
    | zero => rw [skipStructLoop]; exact .inr rfl
    | succ fuel =>
      rw [skipStructLoop]
      refine hhead hh ?_
      dsimp only
      rw [if_neg (hne hh).1]
      exact (ih.2 m false).bind
  | skipFieldsRest last h ft id p s hh hp _ ih =>
    intro m fuel
    cases fuel with
    | zero => rw [skipStructLoop]; exact .inr rfl
    | succ fuel =>
      rw [skipStructLoop]
      refine hhead hh ?_
      dsimp only
      rw [if_neg (hne hh).1]
      exact pd_skipped hF hp (ih m fuel) m
  | int t o s ht h =>
    intro ha n
    rcases ht with rfl | rfl | rfl | rfl | rfl <;> rw [fillTy]
    · exact PD.bind (PD.bind (pd_uleb hF h))
    · exact PD.bind (PD.bind (pd_uleb hF h))
    · exact PD.bind (PD.bind (pd_uleb hF h))
    · exact PD.bind (pd_readBinary hF h)
    · exact PD.bind (PD.bind (pd_readBinary hF h))
  | enum k name o s hk h =>
    intro ha n
    rw [fillTy]
    cases n with
    | zero => exact .inr rfl
    | succ n => rw [fillNamed_enum hk]; exact PD.bind (PD.bind (pd_uleb hF h))
  | encodingSetHeader o s h => intro ha n; rw [fillTy]; exact (pd_collection hF h).bind
  | encodingSet o h k p s xs hh hx hp hi hl =>
    intro ha n
    rw [fillTy]
    refine PD.next (Sim.readCollectionLenAndType hF.cfgSim hF.inputSim) (compl_collection hc (k, 5#8) h hh (p ++ s)) ?_
    dsimp only
    rw [if_neg (by simp [fieldType])]
    refine PD.bind ?_
    have : ∀ (xs : List (BitVec 32)) (k : Nat) (p : Bytes) (mask : BitVec 32), xs.length < k → DecOf F.int env (.elems .i32 (xs.map .i32)) p → (∀ x ∈ xs, InRange x) →
        PD f (encodingSetLoop cfg (sliceInput cfg) k mask (p ++ s)) := by
      intro xs
      induction xs with
      | nil =>
        intro k p mask hk hp _
        obtain ⟨k, rfl⟩ : ∃ m, k = m + 1 := ⟨k - 1, by simp at hk; omega⟩
        rw [encodingSetLoop]
        cases hp
        exact PD.bind (PD.bind (pd_uleb hF hl))
      | cons x xs ih =>
        intro k p mask hk hp hi
        obtain ⟨k, rfl⟩ : ∃ m, k = m + 1 := ⟨k - 1, by simp at hk; omega⟩
        rw [encodingSetLoop]
        cases hp with
        | elemsCons _ d v vs p q hd hp hq =>
          cases hp with
          | i32 _ _ m _ hm hz =>
            rw [List.append_assoc]
            refine PD.next (Sim.readI32 hF.cfgSim hF.inputSim) (compl_readI32 hc x p ⟨m, hm, hz⟩ _) ?_
            have hx' := hi x (by simp)
            have hb : (BitVec.slt x 0#32 || BitVec.sle 31#32 x) = false := by
              have e31 : (31#32 : BitVec 32).toInt = 31 := rfl
              rw [BitVec.slt_eq_decide, BitVec.sle_eq_decide, e31, BitVec.toInt_zero]
              unfold InRange at hx'
              simp; omega
            rw [hb, if_neg (by simp)]
            exact ih k q _ (by simpa using hk) hq fun y hy => hi y (by simp [hy])
    exact this xs k p _ hx hp hi
  | listHeader t o s h => intro ha n; rw [fillTy]; exact (pd_collection hF h).bind
  | list t o h et k s hh he _ ih =>
    intro ha n
    have het : et < 256 := by cases hh <;> omega
    have hlen : k ≤ 10000000 := by cases hh <;> omega
    rw [fillTy]
    refine PD.next (Sim.readCollectionLenAndType hF.cfgSim hF.inputSim)
      (compl_collection hc (k, BitVec.ofNat 8 et) h (by simpa [Nat.mod_eq_of_lt het] using hh) s) ?_
    dsimp only
    rw [if_neg, if_neg (by simp [ha _ hlen])]
    · exact (ih ha n).bind
    · rw [wireType_eq]
      rintro ⟨h1, h2⟩
      rcases he with rfl | ⟨h3, rfl⟩
      · exact h1 (by simp)
      · exact h2 ⟨h3, rfl⟩
  | some t d s hdf _ ih => intro ha n; rw [fillTy, dflt_of_isDefault hd hdf]; exact (ih ha n).bind
  | box t o s _ ih => intro ha n; rw [fillTy]; exact (ih ha n).bind
  | rc t o s _ ih => intro ha n; rw [fillTy, if_neg (by simp)]; exact (ih ha n).bind
  | struct k name fs old s hk _ ih =>
    intro ha n
    rw [fillTy]
    cases n with
    | zero => exact .inr rfl
    | succ n => rw [fillNamed_struct hk]; exact ih ha n _ _ _
  | unionHeader k name us j o s hk h =>
    intro ha n
    rw [fillTy]
    cases n with
    | zero => exact .inr rfl
    | succ n => rw [fillNamed_union hk]; exact (pd_header hF h).bind
  | union k name us i u j o d h ft s hk hu hfst hh hdf _ ih =>
    intro ha n
    rw [fillTy]
    cases n with
    | zero => exact .inr rfl
    | succ n =>
      rw [fillNamed_union hk]
      refine hhead hh ?_
      simp only [(hne hh).1, if_false, findVariant_of_first hu rfl hfst, hu]
      rw [dflt_of_isDefault hd hdf]
      exact (ih ha n).bind
  | elem t d k s hdf _ ih =>
    intro ha n
    rw [fillElems, dflt_of_isDefault hd hdf]
    exact (ih ha n).bind
  | elemsRest t d v k p s hdf hp _ ih =>
    intro ha n
    obtain ⟨N, hN⟩ := dec_complete (cfg := unchecked cfg) hc hd ha hp
    rw [fillElems]
    refine PD.next (Sim.fillTy hF.cfgSim hF.inputSim env (hsim n (n + N) (by omega)) t _) (a := v) ?_ (ih ha n).bind
    rw [dflt_of_isDefault hd hdf]; exact hN _ (by omega) s
  | fieldSome t ft d s hdf _ ih =>
    intro ha n b hb
    rw [fillField, dflt_of_isDefault hd hdf]
    exact (ih ha n b hb).bind
  | fieldValue t o s h1 h2 _ ih =>
    intro ha n b hb
    rw [fillField_value cfg _ env _ o b h1 h2, if_neg (by rw [wireType_eq]; simp [BitVec.eq_of_toNat_eq hb])]
    exact ih ha n
  | header fs last old s h =>
    intro ha n name flags fuel
    cases fuel with
    | zero => rw [structLoop]; exact .inr rfl
    | succ fuel => rw [structLoop]; exact (pd_header hF h).bind
  | known fs last old h ft i f o s hh hf hfst ho _ ih =>
    intro ha n name flags fuel
    cases fuel with
    | zero => rw [structLoop]; exact .inr rfl
    | succ fuel =>
      rw [structLoop]
      refine hhead hh ?_
      simp only [(hne hh).1, if_false, findField_of_first hf rfl hfst, hf, ho]
      exact (ih ha n _ (ofNat8_toNat (by have := (hne hh).2; omega))).bind
  | knownRest fs last old h ft i f o v p s hh hf hfst ho hp _ ih =>
    intro ha n name flags fuel
    cases fuel with
    | zero => rw [structLoop]; exact .inr rfl
    | succ fuel =>
      obtain ⟨N, hN⟩ := dec_complete (cfg := unchecked cfg) hc hd ha hp
      rw [structLoop]
      refine hhead hh ?_
      simp only [(hne hh).1, if_false, findField_of_first hf rfl hfst, hf, ho]
      exact PD.next (Sim.fillField hF.cfgSim hF.inputSim env (hsim n (n + N) (by omega)) _ _ _)
        (hN _ (by omega) _ (ofNat8_toNat (by have := (hne hh).2; omega)) s) (ih ha n name _ fuel)
  | unknown fs last old h ft id s hh hid _ ih =>
    intro ha n name flags fuel
    cases fuel with
    | zero => rw [structLoop]; exact .inr rfl
    | succ fuel =>
      rw [structLoop]
      refine hhead hh ?_
      simp only [(hne hh).1, if_false, findField_none.2 hid]
      exact PD.bind (ih.2 _ false)
  | unknownRest fs last old h ft id p s hh hid hp _ ih =>
    intro ha n name flags fuel
    cases fuel with
    | zero => rw [structLoop]; exact .inr rfl
    | succ fuel =>
      rw [structLoop]
      refine hhead hh ?_
      simp only [(hne hh).1, if_false, findField_none.2 hid]
      have hsk : (sliceInput (unchecked cfg)).skipField (unchecked cfg) (BitVec.ofNat 8 ft) (p ++ s) = .ok ((), s) :=
        (skip_reads hF.reads _ false _ _).2 ⟨p, rfl, by rw [ofNat8_toNat (by have := (hne hh).2; omega)]; exact hp⟩
      exact PD.next (Sim.skipField hF.cfgSim hF.inputSim _) hsk (ih ha n name flags fuel)

end Over

end CT
