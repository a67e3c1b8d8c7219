import Verif.Proofs.Errors
import Verif.Proofs.Decoding
import Verif.Proofs.Struct
/-! # The errors of reads occur -/
namespace CT
open Spec Props

theorem header_exists (last : BitVec 16) {ft : Nat} (h : 0 < ft) (h' : ft < 16) (id : BitVec 16) : ∃ p, FieldHeader last p ft id := by
  have hb : (BitVec.ofNat 8 ft).toNat = ft := ofNat8_toNat (by omega)
  have hz := zigzag_lt (w := 16) (by omega) id
  have := FieldHeader.long last (BitVec.ofNat 8 ft) (varint (zigzag id.toInt)) (zigzag id.toInt) id (by rw [hb]; omega) (by rw [hb]; omega)
    (varintVal_varint (by omega)) (by rw [Nat.mod_eq_of_lt hz])
  rw [hb] at this
  exact ⟨_, this⟩

theorem fields_first {fs : List Field} (hn : (fs.map (·.id)).Nodup) {i : Nat} {f : Field} (hf : fs[i]? = some f) :
    ∀ (j : Nat) (g : Field), j < i → fs[j]? = some g → g.id ≠ f.id := by
  intro j g hj hg h
  have := field_unique hn hg hf h
  omega

theorem variants_first {us : List Variant} (hn : (us.map (·.id)).Nodup) {i : Nat} {u : Variant} (hu : us[i]? = some u) :
    ∀ (j : Nat) (w : Variant), j < i → us[j]? = some w → w.id ≠ u.id := by
  intro j w hj hw h
  have h1 := findVariant_eq hn hw
  have h2 := findVariant_eq hn hu
  rw [h, h2] at h1
  have := Option.some.inj h1
  omega

section
variable {env : List Def} {int : Bytes → Prop}

theorem ok_get (hs : schemaOk env = true) {k : Nat} {d : Def} (hk : env[k]? = some d) : defOk d = true := by
  unfold schemaOk at hs
  exact List.all_eq_true.1 (Bool.and_eq_true _ _ ▸ hs).1 d (List.mem_of_getElem? hk)

theorem free_get (hf : envOptionFree env = true) {k : Nat} {d : Def} (hk : env[k]? = some d) : defOptionFree d = true :=
  List.all_eq_true.1 hf d (List.mem_of_getElem? hk)

theorem struct_nodup (hs : schemaOk env = true) {k : Nat} {name : String} {fs : List Field} (hk : env[k]? = some (.struct name fs)) : (fs.map (·.id)).Nodup := by
  have := ok_get hs hk
  simp only [defOk, structOk, Bool.and_eq_true, decide_eq_true_eq] at this
  exact this.1

theorem union_nodup (hs : schemaOk env = true) {k : Nat} {name : String} {us : List Variant} (hk : env[k]? = some (.union name us)) : (us.map (·.id)).Nodup := by
  have := ok_get hs hk
  simp only [defOk, unionOk, Bool.and_eq_true, decide_eq_true_eq] at this
  exact this.1

theorem optionFree_ne {t : Ty} (h : optionFree t = true) : ∀ t', t ≠ .option t' := by
  rintro t' rfl; cases h

theorem once_free : ∀ {t : Ty}, optionFree t = true → ¬ Once t
  | .option _, h => by cases h
  | .box t, h => once_free (t := t) h
  | .rc t, h => once_free (t := t) h
  | .bool, _ | .i8, _ | .i16, _ | .i32, _ | .i64, _ | .double, _ | .binary, _ | .string, _ | .encodingSet, _ | .list _, _ | .named _, _ => id

/-- A field of a type without options that is accepted as a value. -/
theorem field_of_value {t : Ty} {d v : Val} {p : Bytes} (hf : optionFree t = true) (h : DecOf int env (.value t d v) p) :
    ∃ ft w q, 0 < ft ∧ ft < 16 ∧ DecOf int env (.field t ft d w) q := by
  by_cases hb : t = .bool
  · subst hb; exact ⟨1, _, _, by omega, by omega, .fieldBool 1 d⟩
  · have := wireType_range env t
    exact ⟨_, v, p, by omega, by omega, .fieldValue t d v p hb (optionFree_ne hf) h⟩

/-- Required fields from position `i` on, each with bytes that are accepted, and a stop. -/
theorem fields_accepted {fs : List Field} (hn : (fs.map (·.id)).Nodup) {old : List Val} (hl : old.length = fs.length)
    (h : ∀ (j : Nat) (f : Field) (o : Val), fs[j]? = some f → old[j]? = some o → f.required = true → ∃ ft v p, 0 < ft ∧ ft < 16 ∧ DecOf int env (.field f.rustTy ft o v) p) :
    ∀ m i, i + m = fs.length → ∀ last vs, vs.length = fs.length → (∀ j, i ≤ j → vs[j]? = old[j]?) →
      ∃ met new p, DecOf int env (.fields fs last met vs new) p ∧ ∀ (j : Nat) (f : Field), i ≤ j → fs[j]? = some f → f.required = true → j ∈ met
  | 0, i, hi, last, vs, _, _ => ⟨[], vs, [0#8], .stop fs last vs 0#8 rfl, fun j f hj hf _ => by
      have := (List.getElem?_eq_some_iff.1 hf).1; omega⟩
  | m + 1, i, hi, last, vs, hv, ho => by
    have hil : i < fs.length := by omega
    have hfi : fs[i]? = some fs[i] := List.getElem?_eq_getElem hil
    have hoi : old[i]? = some old[i] := List.getElem?_eq_getElem (by omega)
    by_cases hr : fs[i].required = true
    · obtain ⟨ft, v, p, h1, h2, hp⟩ := h i _ _ hfi hoi hr
      obtain ⟨hb, hh⟩ := header_exists last h1 h2 fs[i].id
      obtain ⟨met, new, q, hq, hm⟩ := fields_accepted hn hl h m (i + 1) (by omega) fs[i].id (vs.set i v) (by simpa using hv) fun j hj => by
        rw [List.getElem?_set_ne (by omega), ho j (by omega)]
      refine ⟨_, _, _, .known fs last met vs new hb ft i fs[i] old[i] v p q hh hfi (fields_first hn hfi) (by rw [ho i (Nat.le_refl _), hoi]) hp hq, fun j f hj hf hfr => ?_⟩
      by_cases hij : j = i
      · rw [hij]; exact List.mem_cons_self
      · exact List.mem_cons_of_mem _ (hm j f (by omega) hf hfr)
    · obtain ⟨met, new, q, hq, hm⟩ := fields_accepted hn hl h m (i + 1) (by omega) last vs hv fun j hj => ho j (by omega)
      refine ⟨met, new, q, hq, fun j f hj hf hfr => ?_⟩
      by_cases hij : j = i
      · subst hij; rw [hfi] at hf; cases hf; exact absurd hfr hr
      · exact hm j f (by omega) hf hfr

/-- Every type has bytes that are accepted. -/
theorem accepted (hs : schemaOk env = true) (hf : envOptionFree env = true) {t : Ty} {d : Val} (h : IsDefault env t d) :
    optionFree t = true → ∃ v p, DecOf int env (.value t d v) p := by
  have hz : VarintVal [0#8] 0 := by have := varintVal_varint (n := 0) (by omega); rwa [show varint 0 = [0#8] by unfold varint; simp] at this
  induction h with
  | bool => intro _; exact ⟨_, _, .bool _ 0#8⟩
  | i8 => intro _; exact ⟨_, _, .i8 _ 0#8⟩
  | i16 => intro _; exact ⟨_, _, .i16 _ _ 0 0#16 hz rfl⟩
  | i32 => intro _; exact ⟨_, _, .i32 _ _ 0 0#32 hz rfl⟩
  | i64 => intro _; exact ⟨_, _, .i64 _ _ 0 0#64 hz rfl⟩
  | double => intro _; exact ⟨_, _, .double _ 0#64⟩
  | binary => intro _; exact ⟨_, _, .binary _ [0#8] [] hz (by simp)⟩
  | string => intro _; exact ⟨_, _, .string _ [0#8] [] hz (by simp) ((utf8Valid_iff []).1 rfl)⟩
  | encodingSet => intro _; exact ⟨_, _, .encodingSet _ [5#8] [] 0#32 [] (.short 5#8 (by decide)) (.elemsNil _) ⟨by simp, by intro i; simp [members]⟩⟩
  | list t =>
    intro _
    have hr := wireType_range env t
    refine ⟨_, _, .list t _ [wireType env t] (wireType env t).toNat [] [] ?_ (.inl rfl) (.elemsNil _)⟩
    have := ListHeader.short (wireType env t) (by omega)
    rwa [show (wireType env t).toNat % 16 = (wireType env t).toNat by omega, show (wireType env t).toNat / 16 = 0 by omega] at this
  | none t => intro h; cases h
  | box t v h ih => intro hf'; obtain ⟨w, p, hp⟩ := ih hf'; exact ⟨_, _, .box t v w p hp⟩
  | rc t v h ih => intro hf'; obtain ⟨w, p, hp⟩ := ih hf'; exact ⟨_, _, .rc t v w p hp⟩
  | enum k name hk => intro _; exact ⟨_, _, .enum k name _ _ 0 0#32 hk hz rfl⟩
  | struct k name fs vs hk hl h ih =>
    intro _
    have hfr : ∀ f ∈ fs, optionFree f.ty = true := List.all_eq_true.1 (free_get hf hk)
    obtain ⟨met, new, p, hp, hm⟩ := fields_accepted (struct_nodup hs hk) hl (fun j f o hj ho hr => by
      have e : f.rustTy = f.ty := by rw [Field.rustTy, if_pos hr]
      have hof := hfr f (List.mem_of_getElem? hj)
      obtain ⟨w, q, hq⟩ := ih j f o hj ho (by rw [e]; exact hof)
      exact field_of_value (by rw [e]; exact hof) hq) fs.length 0 (by omega) 0#16 vs hl fun j _ => rfl
    exact ⟨_, _, .struct k name fs met vs new p hk hp fun i f hi hr => hm i f (Nat.zero_le _) hi hr⟩
  | union k name u us v hk h ih =>
    intro _
    have hfr : optionFree u.ty = true := List.all_eq_true.1 (free_get hf hk) u List.mem_cons_self
    obtain ⟨w, q, hq⟩ := ih hfr
    obtain ⟨hb, hh⟩ := header_exists 0#16 (ft := 12) (by omega) (by omega) u.id
    exact ⟨_, _, .union k name (u :: us) 0 u 0 v v w hb 12 q hk rfl (by intro j _ hj; omega) hh h hq⟩

end

/-! ## Bytes with an error -/

section
variable {cfg : Cfg} (hc : SliceReads cfg int) (ha : AllocOk cfg) {env : List Def} (hs : schemaOk env = true) (hcl : envClosed env = true)
  (hf : envOptionFree env = true)

/-- Some bytes read as `t` give the error. -/
def Occurs (cfg : Cfg) (env : List Def) (t : Ty) (e : ThriftError) : Prop :=
  ∃ s N, ∀ n, N ≤ n → ∀ d, IsDefault env t d → fillTy cfg (sliceInput cfg) env (fillNamed cfg (sliceInput cfg) env n) t d s = .error (.err e)

/-- Some bytes of a field give the error. -/
def FieldOccurs (cfg : Cfg) (env : List Def) (t : Ty) (e : ThriftError) : Prop :=
  ∃ ft s N, 0 < ft ∧ ft < 16 ∧ ∀ n, N ≤ n → ∀ d, IsDefault env t d →
    fillField cfg (sliceInput cfg) env (fillNamed cfg (sliceInput cfg) env n) t d (BitVec.ofNat 8 ft) s = .error (.err e)

theorem schemaOk_defaults (hs : schemaOk env = true) : defaultsDefined env = true := by
  unfold schemaOk at hs
  exact (Bool.and_eq_true _ _ ▸ hs).2

theorem binary_occurs (hc : SliceReads cfg int) {n : Nat} (h : 16777216 < n) (h64 : n < 2 ^ 64) :
    (sliceInput cfg).readBinary (varint n) = .error (.err (.invalidBinaryLen n)) ∧ (sliceInput cfg).skipBinary (varint n) = .error (.err (.invalidBinaryLen n)) := by
  have e := compl_readLen hc n (varint n) (varintVal_varint h64) []
  rw [List.append_nil] at e
  constructor
  · show Slice.readBinary cfg _ = _
    unfold Slice.readBinary
    rw [Rd.bind_ok e, if_pos (by simpa [MAX_BINARY_LEN] using h)]; rfl
  · show Slice.skipBinary cfg _ = _
    unfold Slice.skipBinary
    rw [Rd.bind_ok e, if_pos (by simpa [MAX_BINARY_LEN] using h)]; rfl

theorem collection_occurs (hc : SliceReads cfg int) : (sliceInput cfg).readCollectionLenAndType cfg (0xF5#8 :: varint 10000001) = .error (.err .invalidCollectionLen) := by
  have e : (sliceInput cfg).readLen cfg (varint 10000001) = .ok (10000001, []) := by
    have := compl_readLen hc 10000001 (varint 10000001) (varintVal_varint (by omega)) []
    rwa [List.append_nil] at this
  unfold Input.readCollectionLenAndType
  rw [Rd.bind_ok (slice_readByte_cons cfg _ _), if_neg (by decide), Rd.bind_ok e]
  rfl

theorem header_type (b : Byte) (h : b.toNat < 240) (suf : Bytes) : (sliceInput cfg).readCollectionLenAndType cfg (b :: suf) = .ok ((((b &&& 0xF0#8) >>> 4).toNat, b &&& 0x0F#8), suf) := by
  have hb : ((b &&& 0xF0#8) >>> 4).toNat < 15 := by
    have : ∀ b : BitVec 8, b.toNat < 240 → ((b &&& 0xF0#8) >>> 4).toNat < 15 := by decide
    exact this b h
  unfold Input.readCollectionLenAndType
  rw [Rd.bind_ok (slice_readByte_cons cfg _ _), if_pos (by intro he; rw [he] at hb; simp at hb)]
  show (if MAX_COLLECTION_LEN < _ then _ else _ : Rd Bytes (Nat × Byte)) suf = _
  rw [if_neg (by unfold MAX_COLLECTION_LEN; omega)]; rfl

include hc in
/-- One step of the field loop at a known field. -/
theorem loop_known {fn : Nat → Val → Rd Bytes Val} {name : String} {fs : List Field} (hn : (fs.map (·.id)).Nodup) {i : Nat} {f : Field} (hfi : fs[i]? = some f)
    {last : BitVec 16} {flags : List Bool} {vs : List Val} {o : Val} (ho : vs[i]? = some o) {h : Bytes} {ft : Nat} (hh : FieldHeader last h ft f.id) (s : Bytes) (fuel : Nat) :
    structLoop cfg (sliceInput cfg) env fn name fs (fuel + 1) last flags vs (h ++ s) =
      (fillField cfg (sliceInput cfg) env fn f.rustTy o (BitVec.ofNat 8 ft) >>= fun v =>
        structLoop cfg (sliceInput cfg) env fn name fs fuel f.id (if f.required then flags.set i true else flags) (vs.set i v)) s := by
  obtain ⟨h3, h4, h5⟩ := compl_fieldHeader hc hh s
  rw [structLoop, Rd.bind_ok h3]
  simp only [h4, if_false, findField_of_first hfi rfl (fields_first hn hfi), hfi, ho]

/-- The default of a struct. -/
theorem default_struct {k : Nat} {name : String} {fs : List Field} (hk : env[k]? = some (.struct name fs)) {d : Val} (hd : IsDefault env (.named k) d) :
    ∃ vs, d = .struct vs ∧ vs.length = fs.length ∧ ∀ (i : Nat) (f : Field) (v : Val), fs[i]? = some f → vs[i]? = some v → IsDefault env f.rustTy v := by
  cases hd with
  | enum _ _ hk' => rw [hk] at hk'; cases hk'
  | struct _ _ _ vs hk' hl h => rw [hk] at hk'; cases hk'; exact ⟨vs, rfl, hl, h⟩
  | union _ _ _ _ _ hk' => rw [hk] at hk'; cases hk'

theorem default_union {k : Nat} {name : String} {us : List Variant} (hk : env[k]? = some (.union name us)) {d : Val} (hd : IsDefault env (.named k) d) :
    ∃ i v, d = .union i v := by
  cases hd with
  | enum _ _ hk' => rw [hk] at hk'; cases hk'
  | struct _ _ _ vs hk' hl h => rw [hk] at hk'; cases hk'
  | union _ _ _ _ _ hk' => exact ⟨_, _, rfl⟩

include hc hs in
theorem struct_field_occurs {k : Nat} {name : String} {fs : List Field} (hk : env[k]? = some (.struct name fs)) {f : Field} (hm : f ∈ fs) {e : ThriftError}
    (h : FieldOccurs cfg env f.rustTy e) : Occurs cfg env (.named k) e := by
  obtain ⟨ft, s, N, h1, h2, h⟩ := h
  obtain ⟨i, hi⟩ := List.getElem?_of_mem hm
  obtain ⟨hb, hh⟩ := header_exists 0#16 h1 h2 f.id
  refine ⟨hb ++ s, N + 1, fun n hn d hd => ?_⟩
  obtain ⟨n, rfl⟩ : ∃ m, n = m + 1 := ⟨n - 1, by omega⟩
  obtain ⟨vs, rfl, hl, hv⟩ := default_struct hk hd
  have hil := (List.getElem?_eq_some_iff.1 hi).1
  have hvi : vs[i]? = some vs[i] := List.getElem?_eq_getElem (by omega)
  rw [fillTy, fillNamed_struct hk, loop_known hc (struct_nodup hs hk) hi hvi hh, Rd.bind_err (h n (by omega) _ (hv i f _ hi hvi))]

/-- As a field, if as a value. -/
theorem field_occurs {t : Ty} (hof : optionFree t = true) {e : ThriftError} (h : Occurs cfg env t e) (hnb : t ≠ .bool) : FieldOccurs cfg env t e := by
  obtain ⟨s, N, h⟩ := h
  have hr := wireType_range env t
  refine ⟨(wireType env t).toNat, s, N, by omega, by omega, fun n hn d hd => ?_⟩
  rw [fillField_value cfg _ env _ d _ hnb (optionFree_ne hof), if_neg (by rw [wireType_eq]; simp)]
  exact h n hn d hd

include hs hcl in
theorem isDefault_field {k : Nat} {name : String} {fs : List Field} (hk : env[k]? = some (.struct name fs)) {f : Field} (hm : f ∈ fs) : IsDefault env f.ty (dflt env f.ty) :=
  isDefault_dflt (schemaOk_defaults hs) (List.all_eq_true.1 (closed_get hcl hk) f hm)


include hc in
/-- Fields with accepted bytes up to position `i`, and a stop. -/
theorem missing_loop (hd : defaultsDefined env = true) (ha : AllocOk cfg) {name : String} {fs : List Field} (hn : (fs.map (·.id)).Nodup) {old : List Val} (hl : old.length = fs.length)
    (h : ∀ (j : Nat) (f : Field) (o : Val), fs[j]? = some f → old[j]? = some o → f.required = true → ∃ ft v p, 0 < ft ∧ ft < 16 ∧ DecOf int env (.field f.rustTy ft o v) p)
    {i : Nat} {f : Field} (hfi : fs[i]? = some f) (hr : f.required = true) :
    ∀ m j, j + m = i → ∀ last, ∃ p N, ∀ n, N ≤ n → ∀ (flags : List Bool) vs fuel, flags.length = fs.length → (∀ l, j ≤ l → vs[l]? = old[l]?) →
      (∀ (l : Nat) (g : Field), l < j → fs[l]? = some g → g.required = true → flags[l]? = some true) → flags[i]? ≠ some true → p.length < fuel →
      structLoop cfg (sliceInput cfg) env (fillNamed cfg (sliceInput cfg) env n) name fs fuel last flags vs p = .error (.err (.missingField (name ++ "::" ++ f.name)))
  | 0, j, hj, last => by
    refine ⟨[0#8], 0, fun n _ flags vs fuel hfl _ hset hun hfu => ?_⟩
    obtain ⟨fuel, rfl⟩ : ∃ m, fuel = m + 1 := ⟨fuel - 1, by omega⟩
    obtain ⟨id, e⟩ := compl_stop hc (b := 0#8) rfl last []
    rw [structLoop, Rd.bind_ok e]
    simp only [if_true]
    rw [firstMissing_some hfl hfi hr hun fun l g hl => hset l g (by omega)]
    rfl
  | m + 1, j, hj, last => by
    have hi := (List.getElem?_eq_some_iff.1 hfi).1
    have hfj : fs[j]? = some fs[j] := List.getElem?_eq_getElem (by omega)
    have hoj : old[j]? = some old[j] := List.getElem?_eq_getElem (by omega)
    by_cases hrj : fs[j].required = true
    · obtain ⟨ft, v, q, h1, h2, hq⟩ := h j _ _ hfj hoj hrj
      obtain ⟨hb, hh⟩ := header_exists last h1 h2 fs[j].id
      obtain ⟨N', hN'⟩ := dec_complete hc hd ha hq
      obtain ⟨p, N, hp⟩ := missing_loop hd ha hn hl h hfi hr m (j + 1) (by omega) fs[j].id
      refine ⟨hb ++ (q ++ p), N + N', fun n hN flags vs fuel hfl hv hset hun hfu => ?_⟩
      obtain ⟨fuel, rfl⟩ : ∃ m, fuel = m + 1 := ⟨fuel - 1, by omega⟩
      rw [loop_known hc hn hfj ((hv j (Nat.le_refl _)).trans hoj) hh, Rd.bind_ok (hN' n (by omega) _ (ofNat8_toNat (by omega)) p), if_pos hrj]
      have := hh.length_pos
      refine hp n (by omega) _ _ _ (by simpa using hfl) (fun l hl => by rw [List.getElem?_set_ne (by omega), hv l (by omega)]) (fun l g hl hg hgr => ?_)
        (by rwa [List.getElem?_set_ne (by omega)]) (by simp at hfu; omega)
      by_cases hlj : l = j
      · subst hlj; rw [List.getElem?_set_self (by omega)]
      · rw [List.getElem?_set_ne (by omega)]; exact hset l g (by omega) hg hgr
    · obtain ⟨p, N, hp⟩ := missing_loop hd ha hn hl h hfi hr m (j + 1) (by omega) last
      refine ⟨p, N, fun n hN flags vs fuel hfl hv hset hun hfu => hp n hN flags vs fuel hfl (fun l hl => hv l (by omega)) (fun l g hl hg hgr => ?_) hun hfu⟩
      by_cases hlj : l = j
      · subst hlj; rw [hfj] at hg; cases hg; exact absurd hgr hrj
      · exact hset l g (by omega) hg hgr

include hs hf in
/-- Every required field has bytes that are accepted. -/
theorem required_accepted {k : Nat} {name : String} {fs : List Field} (hk : env[k]? = some (.struct name fs)) {old : List Val}
    (hv : ∀ (i : Nat) (f : Field) (v : Val), fs[i]? = some f → old[i]? = some v → IsDefault env f.rustTy v) (j : Nat) (f : Field) (o : Val)
    (hj : fs[j]? = some f) (ho : old[j]? = some o) (hr : f.required = true) : ∃ ft v p, 0 < ft ∧ ft < 16 ∧ DecOf int env (.field f.rustTy ft o v) p := by
  have e : f.rustTy = f.ty := by rw [Field.rustTy, if_pos hr]
  have hof : optionFree f.ty = true := List.all_eq_true.1 (free_get hf hk) f (List.mem_of_getElem? hj)
  obtain ⟨w, q, hq⟩ := accepted hs hf (hv j f o hj ho) (by rw [e]; exact hof)
  exact field_of_value (by rw [e]; exact hof) hq

include hc ha hs hf in
theorem missing_occurs {k : Nat} {name : String} {fs : List Field} (hk : env[k]? = some (.struct name fs)) {f : Field} (hm : f ∈ fs) (hr : f.required = true) :
    Occurs cfg env (.named k) (.missingField (name ++ "::" ++ f.name)) := by
  have hd := schemaOk_defaults hs
  have hdf : IsDefault env (.named k) (dflt env (.named k)) := isDefault_dflt hd (by simpa [tyClosed] using (List.getElem?_eq_some_iff.1 hk).1)
  obtain ⟨vs, e, hl, hv⟩ := default_struct hk hdf
  obtain ⟨i, hi⟩ := List.getElem?_of_mem hm
  obtain ⟨p, N, hp⟩ := missing_loop hc hd ha (name := name) (struct_nodup hs hk) hl (required_accepted hs hf hk hv) hi hr i 0 (by omega) 0#16
  refine ⟨p, N + 1, fun n hn d hd' => ?_⟩
  obtain ⟨n, rfl⟩ : ∃ m, n = m + 1 := ⟨n - 1, by omega⟩
  rw [hd'.unique hdf, e, fillTy, fillNamed_struct hk]
  exact hp n (by omega) _ _ _ (by simp) (fun _ _ => rfl) (by intro l g hl; omega) (by simp [hi]) (Nat.lt_succ_self _)

include hc ha hs hcl hf in
/-- An optional field met twice. -/
theorem repeated_occurs {k : Nat} {name : String} {fs : List Field} (hk : env[k]? = some (.struct name fs)) {f : Field} (hm : f ∈ fs) (hr : f.required = false) :
    Occurs cfg env (.named k) .duplicateField := by
  have hd := schemaOk_defaults hs
  have e : f.rustTy = .option f.ty := by rw [Field.rustTy, if_neg (by simp [hr])]
  have hof : optionFree f.ty = true := List.all_eq_true.1 (free_get hf hk) f hm
  have hdf := isDefault_field hs hcl hk hm
  obtain ⟨w, q, hq⟩ := accepted hs hf hdf hof
  obtain ⟨ft, w, q, h1, h2, hq⟩ := field_of_value hof hq
  have hq := DecOf.fieldSome _ _ _ _ _ hdf hq
  obtain ⟨N, hN⟩ := dec_complete hc hd ha hq
  obtain ⟨hb, hh⟩ := header_exists 0#16 h1 h2 f.id
  obtain ⟨hb', hh'⟩ := header_exists f.id h1 h2 f.id
  obtain ⟨i, hi⟩ := List.getElem?_of_mem hm
  have hil := (List.getElem?_eq_some_iff.1 hi).1
  refine ⟨hb ++ (q ++ (hb' ++ [])), N + 1, fun n hn d hd' => ?_⟩
  obtain ⟨n, rfl⟩ : ∃ m, n = m + 1 := ⟨n - 1, by omega⟩
  obtain ⟨vs, rfl, hl, hv⟩ := default_struct hk hd'
  have hvi : vs[i]? = some vs[i] := List.getElem?_eq_getElem (by omega)
  have hnone : vs[i] = .none := by
    have := hv i f _ hi hvi
    rw [e] at this
    generalize vs[i] = x at this
    cases this; rfl
  rw [hnone] at hvi
  have := hh.length_pos
  have hn' := struct_nodup hs hk
  rw [fillTy, fillNamed_struct hk, loop_known hc hn' hi hvi hh, e, Rd.bind_ok (hN n (by omega) _ (ofNat8_toNat (by omega)) _)]
  obtain ⟨fuel, hfu⟩ : ∃ m, (sliceInput cfg).size (hb ++ (q ++ (hb' ++ []))) = m + 1 := ⟨(hb ++ (q ++ (hb' ++ []))).length - 1, by
    show (hb ++ (q ++ (hb' ++ []))).length = _; simp; omega⟩
  rw [hfu, loop_known hc hn' hi (o := .some w) (List.getElem?_set_self (by omega)) hh', e]
  rfl

include hc in
/-- A field that is skipped. -/
theorem skip_occurs {k : Nat} {name : String} {fs : List Field} (hk : env[k]? = some (.struct name fs)) {id : BitVec 16} (hid : ∀ f ∈ fs, f.id ≠ id) {ft : Nat}
    (h1 : 0 < ft) (h2 : ft < 16) {s : Bytes} {e : ThriftError} (h : (sliceInput cfg).skipField cfg (BitVec.ofNat 8 ft) s = .error (.err e)) : Occurs cfg env (.named k) e := by
  obtain ⟨hb, hh⟩ := header_exists 0#16 h1 h2 id
  refine ⟨hb ++ s, 1, fun n hn d hd => ?_⟩
  obtain ⟨n, rfl⟩ : ∃ m, n = m + 1 := ⟨n - 1, by omega⟩
  obtain ⟨vs, rfl, hl, hv⟩ := default_struct hk hd
  obtain ⟨h3, h4, h5⟩ := compl_fieldHeader hc hh s
  have hnone : findField fs id = none := by
    unfold findField
    rw [List.findIdx?_eq_none_iff]
    intro f hf
    simpa using hid f hf
  rw [fillTy, fillNamed_struct hk, structLoop, Rd.bind_ok h3]
  simp only [h4, if_false, hnone]
  rw [Rd.bind_err h]

include hc in
theorem skipError_occurs {e : ThriftError} (h : SkipError e) : ∃ ft s, 0 < ft ∧ ft < 16 ∧ (sliceInput cfg).skipField cfg (BitVec.ofNat 8 ft) s = .error (.err e) := by
  cases h with
  | type => exact ⟨13, [], by omega, by omega, rfl⟩
  | collection =>
    refine ⟨9, 0xF5#8 :: varint 10000001, by omega, by omega, ?_⟩
    unfold Input.skipField Input.skip
    show skipFieldF cfg (sliceInput cfg) (_ + 1 + 1) 9#8 false _ = _
    rw [skipFieldF]
    show skipCollection cfg (sliceInput cfg) (_ + 1) _ = _
    rw [skipCollection, Rd.bind_err (collection_occurs hc)]
  | binary n h h64 =>
    refine ⟨8, varint n, by omega, by omega, ?_⟩
    unfold Input.skipField Input.skip
    rw [skipFieldF]
    exact (binary_occurs hc h h64).2

include hc in
/-- After the header of a variant. -/
theorem union_variant {k : Nat} {name : String} {us : List Variant} (hk : env[k]? = some (.union name us)) (hn : (us.map (·.id)).Nodup) {i : Nat} {u : Variant} (hu : us[i]? = some u)
    {d : Val} (hd : IsDefault env (.named k) d) {h : Bytes} {ft : Nat} (hh : FieldHeader 0#16 h ft u.id) (s : Bytes) (n : Nat) :
    fillTy cfg (sliceInput cfg) env (fillNamed cfg (sliceInput cfg) env (n + 1)) (.named k) d (h ++ s) =
      (fillTy cfg (sliceInput cfg) env (fillNamed cfg (sliceInput cfg) env n) u.ty (dflt env u.ty) >>= fun v => (sliceInput cfg).readByte >>= fun stop =>
        if stop ≠ 0#8 then Rd.throw .missingStop else pure (.union i v)) s := by
  obtain ⟨j, v, rfl⟩ := default_union hk hd
  obtain ⟨h3, h4, h5⟩ := compl_fieldHeader hc hh s
  rw [fillTy, fillNamed_union hk, fillUnion, Rd.bind_ok h3]
  simp only [h4, if_false, findVariant_of_first hu rfl (variants_first hn hu), hu]

include hc ha hs hcl hf in
/-- Every error occurs. -/
theorem canFail_occurs (hsp : ∀ d ∈ env, ∃ id, defSpare id d = true) {t : Ty} {e : ThriftError} (h : CanFail cfg.alloc env t e) : tyClosed env t = true → Occurs cfg env t e := by
  have hd := schemaOk_defaults hs
  induction h with
  | binaryLen n h h64 =>
    intro _
    refine ⟨varint n, 0, fun m _ d _ => ?_⟩
    rw [fillTy, Rd.bind_err (binary_occurs hc h h64).1]
  | stringLen n h h64 =>
    intro _
    refine ⟨varint n, 0, fun m _ d _ => ?_⟩
    have : (sliceInput cfg).readString (varint n) = .error (.err (.invalidBinaryLen n)) := by
      unfold Input.readString
      rw [Rd.bind_err (binary_occurs hc h h64).1]
    rw [fillTy, Rd.bind_err this]
  | utf8 =>
    intro _
    refine ⟨[1#8, 0xFF#8], 0, fun m _ d _ => ?_⟩
    have h1 : VarintVal [1#8] 1 := by have := varintVal_varint (n := 1) (by omega); rwa [show varint 1 = [1#8] by unfold varint; simp] at this
    have : (sliceInput cfg).readString [1#8, 0xFF#8] = .error (.err .invalidString) := by
      unfold Input.readString
      rw [show [1#8, 0xFF#8] = [1#8, 0xFF#8] ++ [] from rfl, Rd.bind_ok (compl_readBinary hc [0xFF#8] [1#8, 0xFF#8] ⟨[1#8], rfl, h1, by simp⟩ [])]
      rfl
    rw [fillTy, Rd.bind_err this]
  | setLen =>
    intro _
    refine ⟨0xF5#8 :: varint 10000001, 0, fun m _ d _ => ?_⟩
    rw [fillTy, Rd.bind_err (collection_occurs hc)]
  | setType =>
    intro _
    refine ⟨[0x0D#8], 0, fun m _ d _ => ?_⟩
    rw [fillTy, Rd.bind_ok (header_type 0x0D#8 (by decide) [])]
    rfl
  | setNumber =>
    intro _
    refine ⟨[0x15#8, 0x3E#8], 0, fun m _ d _ => ?_⟩
    have h1 : VarintVal [0x3E#8] 62 := by have := varintVal_varint (n := 62) (by omega); rwa [show varint 62 = [0x3E#8] by unfold varint; simp] at this
    have e : encodingSetLoop cfg (sliceInput cfg) 1 0#32 [0x3E#8] = .error (.err .invalidNumber) := by
      rw [encodingSetLoop, show [0x3E#8] = [0x3E#8] ++ [] from rfl, Rd.bind_ok (compl_readI32 hc 31#32 _ ⟨62, h1, by decide⟩ [])]
      rfl
    rw [fillTy, Rd.bind_ok (header_type 0x15#8 (by decide) _)]
    show (encodingSetLoop cfg (sliceInput cfg) 1 0#32 >>= _) _ = _
    rw [Rd.bind_err e]
  | listLen t =>
    intro _
    refine ⟨0xF5#8 :: varint 10000001, 0, fun m _ d _ => ?_⟩
    rw [fillTy, Rd.bind_err (collection_occurs hc)]
  | listType t =>
    intro _
    refine ⟨[0x0D#8], 0, fun m _ d _ => ?_⟩
    rw [fillTy, Rd.bind_ok (header_type 0x0D#8 (by decide) [])]
    have hr := wireType_range env t
    show (if _ then _ else _ : Rd Bytes Val) [] = _
    rw [if_pos]
    · rfl
    · rw [wireType_eq]
      refine ⟨fun h => ?_, fun h => absurd h.2 (by decide)⟩
      rw [← h] at hr
      simp at hr
  | listAlloc t n h hal => have := ha n; simp_all
  | elem t e h ih =>
    intro htc
    obtain ⟨s, N, h⟩ := ih htc
    have hr := wireType_range env t
    have hb : (0x10#8 ||| wireType env t).toNat < 240 ∧ (((0x10#8 ||| wireType env t) &&& 0xF0#8) >>> 4).toNat = 1 ∧ (0x10#8 ||| wireType env t) &&& 0x0F#8 = wireType env t := by
      have : ∀ b : BitVec 8, b.toNat < 16 → (0x10#8 ||| b).toNat < 240 ∧ (((0x10#8 ||| b) &&& 0xF0#8) >>> 4).toNat = 1 ∧ (0x10#8 ||| b) &&& 0x0F#8 = b := by decide
      exact this _ (by omega)
    refine ⟨(0x10#8 ||| wireType env t) :: s, N, fun m hm d _ => ?_⟩
    have e1 : fillElems (fillTy cfg (sliceInput cfg) env (fillNamed cfg (sliceInput cfg) env m) t (dflt env t)) 1 s = .error (.err e) := by
      rw [fillElems, Rd.bind_err (h m hm _ (isDefault_dflt hd htc))]
    rw [fillTy, Rd.bind_ok (header_type _ hb.1 s)]
    dsimp only
    rw [hb.2.1, hb.2.2, wireType_eq, if_neg (by simp), if_neg (by simp [ha 1]), Rd.bind_err e1]
  | option t e h ih =>
    intro htc
    obtain ⟨s, N, h⟩ := ih htc
    refine ⟨s, N, fun m hm d hd' => ?_⟩
    cases hd'
    rw [fillTy, Rd.bind_err (h m hm _ (isDefault_dflt hd htc))]
  | box t e h ih =>
    intro htc
    obtain ⟨s, N, h⟩ := ih htc
    refine ⟨s, N, fun m hm d hd' => ?_⟩
    cases hd' with | box _ v hd' =>
    rw [fillTy, Rd.bind_err (h m hm _ hd')]
  | rc t e h ih =>
    intro htc
    obtain ⟨s, N, h⟩ := ih htc
    refine ⟨s, N, fun m hm d hd' => ?_⟩
    cases hd' with | rc _ v hd' =>
    rw [fillTy, if_neg (by simp), Rd.bind_err (h m hm _ hd')]
  | skip k name fs e hk h =>
    intro _
    obtain ⟨id, hid⟩ := hsp _ (List.mem_of_getElem? hk)
    obtain ⟨ft, s, h1, h2, h3⟩ := skipError_occurs hc h
    exact skip_occurs hc hk (fun f hf => by simpa using List.all_eq_true.1 hid f hf) h1 h2 h3
  | missing k name fs f hk hm hr => intro _; exact missing_occurs hc ha hs hf hk hm hr
  | repeated k name fs f hk hm h =>
    intro _
    refine repeated_occurs hc ha hs hcl hf hk hm ?_
    have hof : optionFree f.ty = true := List.all_eq_true.1 (free_get hf hk) f hm
    cases hr : f.required with
    | false => rfl
    | true =>
      rw [Field.rustTy, if_pos hr] at h
      exact absurd h (once_free hof)
  | field k name fs f e hk hm h ih =>
    intro _
    have hof : optionFree f.ty = true := List.all_eq_true.1 (free_get hf hk) f hm
    have hcf : tyClosed env f.ty = true := List.all_eq_true.1 (closed_get hcl hk) f hm
    refine struct_field_occurs hc hs hk hm ?_
    cases hr : f.required with
    | true =>
      have er : f.rustTy = f.ty := by rw [Field.rustTy, if_pos hr]
      rw [er] at ih h ⊢
      exact field_occurs hof (ih hcf) (by rintro hb; rw [hb] at h; cases h)
    | false =>
      have er : f.rustTy = .option f.ty := by rw [Field.rustTy, if_neg (by simp [hr])]
      rw [er] at ih h ⊢
      have hnb : f.ty ≠ .bool := by
        intro hb; rw [hb] at h
        cases h with | option _ _ h => cases h
      obtain ⟨s, N, h⟩ := ih hcf
      have hr := wireType_range env f.ty
      refine ⟨(wireType env f.ty).toNat, s, N, by omega, by omega, fun n hn d hd' => ?_⟩
      have := h n hn .none (.none _)
      cases hd'
      rw [fillTy] at this
      rw [fillField, fillField_value cfg _ env _ _ _ hnb (optionFree_ne hof), if_neg (by rw [wireType_eq]; simp)]
      exact this
  | noVariant k name us hk =>
    intro _
    refine ⟨[0#8], 1, fun n hn d hd' => ?_⟩
    obtain ⟨n, rfl⟩ : ∃ m, n = m + 1 := ⟨n - 1, by omega⟩
    obtain ⟨j, v, rfl⟩ := default_union hk hd'
    obtain ⟨id, e⟩ := compl_stop hc (b := 0#8) rfl 0#16 []
    rw [fillTy, fillNamed_union hk, fillUnion, Rd.bind_ok e]
    rfl
  | otherVariant k name us hk =>
    intro _
    obtain ⟨id, hid⟩ := hsp _ (List.mem_of_getElem? hk)
    obtain ⟨hb, hh⟩ := header_exists 0#16 (ft := 12) (by omega) (by omega) id
    refine ⟨hb ++ [], 1, fun n hn d hd' => ?_⟩
    obtain ⟨n, rfl⟩ : ∃ m, n = m + 1 := ⟨n - 1, by omega⟩
    obtain ⟨j, v, rfl⟩ := default_union hk hd'
    obtain ⟨h3, h4, h5⟩ := compl_fieldHeader hc hh []
    have hnone : us.findIdx? (fun u => u.id == id) = none := by
      rw [List.findIdx?_eq_none_iff]
      intro u hu
      simpa using List.all_eq_true.1 hid u hu
    rw [fillTy, fillNamed_union hk, fillUnion, Rd.bind_ok h3]
    simp only [h4, if_false, hnone]
    rfl
  | noStop k name us u hk hu =>
    intro _
    have hof : optionFree u.ty = true := List.all_eq_true.1 (free_get hf hk) u hu
    have hdf := isDefault_dflt hd (List.all_eq_true.1 (closed_get hcl hk) u hu : tyClosed env u.ty = true)
    obtain ⟨w, q, hq⟩ := accepted hs hf hdf hof
    obtain ⟨N, hN⟩ := dec_complete hc hd ha hq
    obtain ⟨hb, hh⟩ := header_exists 0#16 (ft := 12) (by omega) (by omega) u.id
    obtain ⟨i, hi⟩ := List.getElem?_of_mem hu
    refine ⟨hb ++ (q ++ [1#8]), N + 1, fun n hn d hd' => ?_⟩
    obtain ⟨n, rfl⟩ : ∃ m, n = m + 1 := ⟨n - 1, by omega⟩
    rw [union_variant hc hk (union_nodup hs hk) hi hd' hh, Rd.bind_ok (hN n (by omega) _), Rd.bind_ok (slice_readByte_cons cfg _ _)]
    rfl
  | variant k name us u e hk hu h ih =>
    intro _
    have hcu : tyClosed env u.ty = true := List.all_eq_true.1 (closed_get hcl hk) u hu
    obtain ⟨s, N, h⟩ := ih hcu
    obtain ⟨hb, hh⟩ := header_exists 0#16 (ft := 12) (by omega) (by omega) u.id
    obtain ⟨i, hi⟩ := List.getElem?_of_mem hu
    refine ⟨hb ++ s, N + 1, fun n hn d hd' => ?_⟩
    obtain ⟨n, rfl⟩ : ∃ m, n = m + 1 := ⟨n - 1, by omega⟩
    rw [union_variant hc hk (union_nodup hs hk) hi hd' hh, Rd.bind_err (h n (by omega) _ (isDefault_dflt hd hcu))]

end
end CT
