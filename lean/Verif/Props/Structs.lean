import Verif.Proofs.Struct
import Verif.Props.Reading
/-!
# C26, C27, C28, C30, C31, C32, C34, C57, C58, C59: structs, unions and lists as they are read

The theorems hold for every input that does not run out of fuel (`Measured notDiverge`); the first two examples show that slices and
readers are such inputs.
-/
namespace CT.Props
open CT Spec

variable {σ : Type} {cfg : Cfg} {I : Input σ} (hI : Measured notDiverge I) {env : List Def} {k : Nat} {name : String} {fs : List Field}

example (cfg : Cfg) : Measured notDiverge (sliceInput cfg) := slice_measured_nd cfg
example (cfg : Cfg) : Measured notDiverge (readerInput cfg) := reader_measured_nd cfg

/-- `struct S { 1: required i8 a; 2: optional i8 b; 3: required bool c }` -/
def abcEnv : List Def := [.struct "S" [⟨1#16, true, "a", .i8⟩, ⟨2#16, false, "b", .i8⟩, ⟨3#16, true, "c", .bool⟩]]

/-- On `13 07 13 08` the fields 1 and 2 are met. -/
theorem abc_met (al : Nat → Bool) (r : Bytes) :
    Met ⟨false, false, al⟩ (sliceInput ⟨false, false, al⟩) abcEnv
      [⟨1#16, true, "a", .i8⟩, ⟨2#16, false, "b", .i8⟩, ⟨3#16, true, "c", .bool⟩] 0#16 (0x13#8 :: 0x07#8 :: 0x13#8 :: 0x08#8 :: r)
      [.i8 0#8, .none, .bool false] [⟨3#8, 1#16, 0x07#8 :: 0x13#8 :: 0x08#8 :: r⟩, ⟨3#8, 2#16, 0x08#8 :: r⟩] 2#16 r
      [.i8 7#8, .some (.i8 8#8), .bool false] :=
  .known _ _ _ _ _ _ 0 _ _ _ _ _ _ _ _ rfl (by decide) rfl rfl rfl rfl
    (.known _ _ _ _ _ _ 1 _ _ _ _ _ _ _ _ rfl (by decide) rfl rfl rfl rfl (.nil _ _ _))

/-! ## C26 -/

include hI in
/-- C26: a struct read returns `v` exactly if the fields met fill `v`, a stop follows, and every required field was met. -/
theorem C26_ok_iff (hk : env[k]? = some (.struct name fs)) (hn : (fs.map (·.id)).Nodup) (vs : List Val) (s s' : σ)
    (v : Val) :
    fillThrift cfg I env (.named k) (.struct vs) s = .ok (v, s') ↔
      ∃ occs last s₁ vs' id, Met cfg I env fs 0#16 s vs occs last s₁ vs' ∧ I.readFieldHeader cfg last s₁ = .ok ((0#8, id), s') ∧
        (∀ f ∈ fs, f.required = true → Has occs f.id) ∧ v = .struct vs' := by
  rw [fillThrift_struct hI env name fs hk]
  constructor
  · intro h
    obtain ⟨occs, last, s₁, vs', id, h1, h2, h3⟩ := met_of_loopC hI env name fs (I.size s) _ s vs _ v s' (Nat.le_refl _) h
    refine ⟨occs, last, s₁, vs', id, h1, h2, fun f hf hr => ?_, h3⟩
    obtain ⟨i, hi⟩ := List.getElem?_of_mem hf
    obtain ⟨flags', hm, he⟩ := loopC_met hI env name hn h1 (fs.map fun _ => false) (by simp)
    rw [he, loopC_step hI, h2] at h
    simp only [if_true] at h
    split at h
    · cases h
    · rename_i hmiss
      have := (hm.2 i f hi hr).1 (firstMissing_none_seen hm.1 hmiss i f hi hr)
      simpa [hi] using this
  · rintro ⟨occs, last, s₁, vs', id, h1, h2, h3, rfl⟩
    obtain ⟨flags', hm, he⟩ := loopC_met hI env name hn h1 (fs.map fun _ => false) (by simp)
    rw [he, loopC_step hI, h2]
    simp only [if_true]
    rw [firstMissing_none fs flags' hm.1 fun i f hi hr => (hm.2 i f hi hr).2 (.inr (h3 f (List.mem_of_getElem? hi) hr))]

include hI in
/-- C26: if the fields are readable and a stop follows, but a required field was not met, the error names the first such field in the
order of declaration. -/
theorem C26_missing (hk : env[k]? = some (.struct name fs)) (hn : (fs.map (·.id)).Nodup) {vs vs' : List Val} {s s₁ s' : σ}
    {occs : List (Occ σ)} {last id : BitVec 16} (h : Met cfg I env fs 0#16 s vs occs last s₁ vs')
    (hstop : I.readFieldHeader cfg last s₁ = .ok ((0#8, id), s')) {i : Nat} {f : Field} (hf : fs[i]? = some f) (hr : f.required = true)
    (hmiss : ¬ Has occs f.id)
    (hfirst : ∀ (j : Nat) (g : Field), j < i → fs[j]? = some g → g.required = true → Has occs g.id) :
    fillThrift cfg I env (.named k) (.struct vs) s = .error (.err (.missingField (name ++ "::" ++ f.name))) := by
  rw [fillThrift_struct hI env name fs hk]
  obtain ⟨flags', hm, he⟩ := loopC_met hI env name hn h (fs.map fun _ => false) (by simp)
  rw [he, loopC_step hI, hstop]
  simp only [if_true]
  rw [firstMissing_some hm.1 hf hr (fun hc => ?_) fun j g hj hg hgr => (hm.2 j g hg hgr).2 (.inr (hfirst j g hj hg hgr))]
  have := (hm.2 i f hf hr).1 hc
  simp [hf] at this
  exact hmiss this

/-- `S` without its field 3. -/
example (al : Nat → Bool) : fillThrift ⟨false, false, al⟩ (sliceInput ⟨false, false, al⟩) abcEnv (.named 0)
    (.struct [.i8 0#8, .none, .bool false]) [0x13#8, 0x07#8, 0x13#8, 0x08#8, 0x00#8] = .error (.err (.missingField "S::c")) := by
  refine C26_missing (slice_measured_nd _) (k := 0) (name := "S") (i := 2) rfl (by decide) (abc_met al [0x00#8]) rfl rfl rfl ?_ ?_
  · rintro ⟨o, ho, h⟩
    simp only [List.mem_cons, List.not_mem_nil, or_false] at ho
    rcases ho with rfl | rfl <;> cases h
  · intro j g hj hg hr
    match j, hj with
    | 0, _ => simp at hg; subst hg; exact ⟨_, List.mem_cons_self, rfl⟩
    | 1, _ => simp at hg; subst hg; cases hr

/-! ## What follows the fields met so far -/

include hI in
theorem after_met (hk : env[k]? = some (.struct name fs)) (hn : (fs.map (·.id)).Nodup) {vs vs' : List Val} {s s₁ s₂ : σ}
    {occs : List (Occ σ)} {last : BitVec 16} (h : Met cfg I env fs 0#16 s vs occs last s₁ vs') {ft : Byte} {i : Nat}
    {f : Field} (hf : fs[i]? = some f) (hh : I.readFieldHeader cfg last s₁ = .ok ((ft, f.id), s₂)) (hft : ft ≠ 0#8) {v : Val}
    (hv : vs'[i]? = some v) {e : Fail} (he : fillThriftField cfg I env f.rustTy v ft s₂ = .error e) :
    fillThrift cfg I env (.named k) (.struct vs) s = .error e := by
  rw [fillThrift_struct hI env name fs hk]
  obtain ⟨flags', hm, he'⟩ := loopC_met hI env name hn h (fs.map fun _ => false) (by simp)
  rw [he', loopC_step hI, hh]
  dsimp only
  rw [if_neg hft, findField_some hn hf]
  dsimp only
  rw [hf, hv]
  dsimp only
  rw [he]

theorem fillThriftField_option_some {t : Ty} {v v' : Val} {ft : Byte} {s s' : σ}
    (h : fillThriftField cfg I env (.option t) v ft s = .ok (v', s')) : ∃ w, v' = .some w ∧ v = .none := by
  unfold fillThriftField at h
  cases v <;> first
    | cases h
    | rw [fillField, Rd.bind_eq_ok] at h
      obtain ⟨w, t, -, h⟩ := h
      cases h
      exact ⟨w, rfl, rfl⟩

/-- An optional field that is set stays as it is: it cannot be met again. -/
theorem Met.keeps (hn : (fs.map (·.id)).Nodup) {last last' : BitVec 16} {s s' : σ} {vs vs' : List Val} {occs : List (Occ σ)}
    (h : Met cfg I env fs last s vs occs last' s' vs') {i : Nat} {f : Field} (hf : fs[i]? = some f) (hr : f.required = false) {w : Val}
    (hw : vs[i]? = some (.some w)) : vs'[i]? = some (.some w) ∧ ¬ Has occs f.id := by
  induction h with
  | nil => exact ⟨hw, fun ⟨o, ho, _⟩ => nomatch ho⟩
  | known last s vs ft id s₁ j g v v' s₂ occs last' s' vs' hh hft hg hid hv hfill hr' ih =>
    by_cases hij : j = i
    · subst hij
      rw [hf] at hg; cases hg
      rw [hw] at hv; cases hv
      rw [Field.rustTy, hr] at hfill
      obtain ⟨_, _, h⟩ := fillThriftField_option_some hfill
      cases h
    · obtain ⟨h1, h2⟩ := ih (by rw [List.getElem?_set, if_neg hij]; exact hw)
      refine ⟨h1, fun ⟨o, ho, h⟩ => ?_⟩
      rcases List.mem_cons.1 ho with rfl | ho
      · exact hij (field_unique hn hg hf (hid.trans h))
      · exact h2 ⟨o, ho, h⟩
  | unknown last s vs ft id s₁ s₂ occs last' s' vs' hh hft hid hskip hr' ih =>
    obtain ⟨h1, h2⟩ := ih hw
    refine ⟨h1, fun ⟨o, ho, h⟩ => ?_⟩
    rcases List.mem_cons.1 ho with rfl | ho
    · exact hid f (List.mem_of_getElem? hf) h.symm
    · exact h2 ⟨o, ho, h⟩

/-- An optional field that was met is set. -/
theorem Met.set_of_has (hn : (fs.map (·.id)).Nodup) {last last' : BitVec 16} {s s' : σ} {vs vs' : List Val} {occs : List (Occ σ)}
    (h : Met cfg I env fs last s vs occs last' s' vs') {i : Nat} {f : Field} (hf : fs[i]? = some f) (hr : f.required = false)
    (hh : Has occs f.id) : ∃ w, vs'[i]? = some (.some w) := by
  induction h with
  | nil => obtain ⟨o, ho, _⟩ := hh; cases ho
  | known last s vs ft id s₁ j g v v' s₂ occs last' s' vs' hh' hft hg hid hv hfill hr' ih =>
    by_cases hij : j = i
    · subst hij
      rw [hf] at hg; cases hg
      rw [Field.rustTy, hr] at hfill
      obtain ⟨w, rfl, _⟩ := fillThriftField_option_some hfill
      exact ⟨w, (Met.keeps hn hr' hf hr (w := w) (by
        rw [List.getElem?_set_self (List.getElem?_eq_some_iff.1 hv).1])).1⟩
    · refine ih ?_
      obtain ⟨o, ho, h⟩ := hh
      rcases List.mem_cons.1 ho with rfl | ho
      · exact absurd (field_unique hn hg hf (hid.trans h)) hij
      · exact ⟨o, ho, h⟩
  | unknown last s vs ft id s₁ s₂ occs last' s' vs' hh' hft hid hskip hr' ih =>
    refine ih ?_
    obtain ⟨o, ho, h⟩ := hh
    rcases List.mem_cons.1 ho with rfl | ho
    · exact absurd h.symm (hid f (List.mem_of_getElem? hf))
    · exact ⟨o, ho, h⟩

/-! ## C27 -/

include hI in
/-- C27: once an optional field was met, or was set in the value read into, meeting it again is an error, whatever its wire type and
whatever follows. -/
theorem C27_duplicate (hk : env[k]? = some (.struct name fs)) (hn : (fs.map (·.id)).Nodup) {vs vs' : List Val} {s s₁ s₂ : σ}
    {occs : List (Occ σ)} {last : BitVec 16} (h : Met cfg I env fs 0#16 s vs occs last s₁ vs') {ft : Byte} {i : Nat}
    {f : Field} (hf : fs[i]? = some f) (hr : f.required = false) (hset : Has occs f.id ∨ ∃ w, vs[i]? = some (.some w))
    (hh : I.readFieldHeader cfg last s₁ = .ok ((ft, f.id), s₂)) (hft : ft ≠ 0#8) :
    fillThrift cfg I env (.named k) (.struct vs) s = .error (.err .duplicateField) := by
  obtain ⟨w, hw⟩ : ∃ w, vs'[i]? = some (.some w) := by
    rcases hset with hset | ⟨w, hw⟩
    · exact Met.set_of_has hn h hf hr hset
    · exact ⟨w, (Met.keeps hn h hf hr hw).1⟩
  refine after_met hI hk hn h hf hh hft hw ?_
  rw [Field.rustTy, hr]
  rfl

/-- Field 2 of `S` a second time (long header form), followed by anything. -/
example (al : Nat → Bool) (r : Bytes) : fillThrift ⟨false, false, al⟩ (sliceInput ⟨false, false, al⟩) abcEnv (.named 0)
    (.struct [.i8 0#8, .none, .bool false]) (0x13#8 :: 0x07#8 :: 0x13#8 :: 0x08#8 :: 0x05#8 :: 0x04#8 :: r) =
      .error (.err .duplicateField) :=
  C27_duplicate (slice_measured_nd _) rfl (by decide) (abc_met al _) (i := 1) (ft := 5#8) (s₂ := r) rfl rfl
    (.inl ⟨⟨3#8, 2#16, _⟩, List.mem_cons_of_mem _ List.mem_cons_self, rfl⟩) rfl (by decide)

/-! ## C34 -/

/-- C34: a field that is not met keeps the value it had. -/
theorem C34_absent {last last' : BitVec 16} {s s' : σ} {vs vs' : List Val} {occs : List (Occ σ)}
    (h : Met cfg I env fs last s vs occs last' s' vs') {i : Nat} {f : Field} (hf : fs[i]? = some f) (hh : ¬ Has occs f.id) :
    vs'[i]? = vs[i]? := by
  induction h with
  | nil => rfl
  | known last s vs ft id s₁ j g v v' s₂ occs last' s' vs' hh' hft hg hid hv hfill hr' ih =>
    have hij : j ≠ i := by
      rintro rfl
      rw [hf] at hg; cases hg
      exact hh ⟨_, List.mem_cons_self, hid.symm⟩
    rw [ih fun ⟨o, ho, h⟩ => hh ⟨o, List.mem_cons_of_mem _ ho, h⟩, List.getElem?_set, if_neg hij]
  | unknown last s vs ft id s₁ s₂ occs last' s' vs' hh' hft hid hskip hr' ih =>
    exact ih fun ⟨o, ho, h⟩ => hh ⟨o, List.mem_cons_of_mem _ ho, h⟩

include hI in
/-- C34: so a fresh struct read has `None` exactly in the optional fields that were not met. -/
theorem C34_none_iff (hk : env[k]? = some (.struct name fs)) (hn : (fs.map (·.id)).Nodup) {s s' : σ} {v : Val}
    (h : readThrift cfg I env (.named k) s = .ok (v, s')) :
    ∃ occs vs' last s₁, Met cfg I env fs 0#16 s (fs.map fun f => dfltTy ((defaults env).take k) f.rustTy) occs last s₁ vs' ∧
      v = .struct vs' ∧
      ∀ (i : Nat) (f : Field), fs[i]? = some f → f.required = false → (vs'[i]? = some .none ↔ ¬ Has occs f.id) := by
  have hdf : dflt env (.named k) = .struct (fs.map fun f => dfltTy ((defaults env).take k) f.rustTy) := by
    rw [dflt, dfltTy, defaults_get hk]; rfl
  rw [readThrift, hdf, C26_ok_iff hI hk hn] at h
  obtain ⟨occs, last, s₁, vs', id, h1, h2, h3, rfl⟩ := h
  refine ⟨occs, vs', last, s₁, h1, rfl, fun i f hf hr => ⟨fun hv hh => ?_, fun hh => ?_⟩⟩
  · obtain ⟨w, hw⟩ := Met.set_of_has hn h1 hf hr hh
    rw [hv] at hw; cases hw
  · rw [C34_absent h1 hf hh]
    simp [hf, Field.rustTy, hr, dfltTy]

/-- C34: a `None` field contributes no bytes: the fields encode as if the field were not declared. -/
theorem C34_none_bytes {ok : BitVec 16 → BitVec 16 → Prop} {f : Field} (hr : f.required = false) :
    ∀ {as bs : List Field} {us ws : List Val} {last : BitVec 16} {p : Bytes}, us.length = as.length →
      (Enc env ok (.fields (as ++ f :: bs) (us ++ .none :: ws) last) p ↔ Enc env ok (.fields (as ++ bs) (us ++ ws) last) p) := by
  intro as
  induction as with
  | nil =>
    intro bs us ws last p hl
    obtain rfl : us = [] := by simpa using hl
    simp only [List.nil_append]
    constructor
    · intro h
      cases h with
      | fieldsCons _ _ _ _ _ p q hp hq =>
        rw [Field.rustTy, hr] at hp
        cases hp with
        | fieldNone => exact hq
        | fieldValue _ _ _ _ _ _ h2 => exact absurd rfl (h2 f.ty)
    · intro h
      have : Enc env ok (.field f.rustTy .none f.id last) [] := by
        rw [Field.rustTy, hr]; exact .fieldNone _ _ _
      have h' := Enc.fieldsCons f bs .none ws last [] p this (by simpa [present] using h)
      simpa using h'
  | cons a as ih =>
    intro bs us ws last p hl
    cases us with
    | nil => simp at hl
    | cons u us =>
      constructor
      · intro h
        cases h with
        | fieldsCons _ _ _ _ _ p q hp hq => exact .fieldsCons _ _ _ _ _ _ _ hp ((ih (by simpa using hl)).1 hq)
      · intro h
        cases h with
        | fieldsCons _ _ _ _ _ p q hp hq => exact .fieldsCons _ _ _ _ _ _ _ hp ((ih (by simpa using hl)).2 hq)

/-- C34, on any sink: writing the fields is the same with and without a declared field that is `None`, including the id the next header refers to. -/
theorem C34_none_written {τ : Type} (S : Sink τ) (env : List Def) {f : Field} (hr : f.required = false) :
    ∀ {as bs : List Field} {us ws : List Val}, us.length = as.length → ∀ last : BitVec 16,
      writeFields S env (as ++ f :: bs) (us ++ .none :: ws) last = writeFields S env (as ++ bs) (us ++ ws) last := by
  intro as
  induction as with
  | nil =>
    intro bs us ws hl last
    obtain rfl : us = [] := by simpa using hl
    simp only [List.nil_append]
    rw [writeFields, show f.rustTy = .option f.ty by simp [Field.rustTy, hr], writeField]
    rfl
  | cons a as ih =>
    intro bs us ws hl last
    cases us with
    | nil => simp at hl
    | cons u us =>
      simp only [List.cons_append]
      rw [writeFields, writeFields]
      simp only [ih (by simpa using hl)]

/-- The fields 1 and 3 of a struct with an unset field 2. -/
example : writeFields vecSink [] [⟨1#16, true, "a", .i8⟩, ⟨2#16, false, "b", .i8⟩, ⟨3#16, true, "c", .i8⟩] [.i8 7#8, .none, .i8 9#8] 0#16 [] =
    (.ok 3#16, [0x13#8, 7#8, 0x23#8, 9#8]) :=
  (congrFun (C34_none_written vecSink [] (f := ⟨2#16, false, "b", .i8⟩) rfl (as := [⟨1#16, true, "a", .i8⟩]) (bs := [⟨3#16, true, "c", .i8⟩])
    (us := [.i8 7#8]) (ws := [.i8 9#8]) rfl 0#16) []).trans (by simp [writeFields, writeField, writeTy, Field.rustTy]; rfl)

/-- Field 3 of `S` is not met in `abc_met`. -/
example : (Field.mk 3#16 true "c" .bool).id = 3#16 ∧ ¬ Has (σ := Bytes) [⟨3#8, 1#16, []⟩, ⟨3#8, 2#16, []⟩] 3#16 := by
  refine ⟨rfl, ?_⟩
  rintro ⟨o, ho, h⟩
  simp only [List.mem_cons, List.not_mem_nil, or_false] at ho
  rcases ho with rfl | rfl <;> cases h

/-! ## C28 -/

/-- Types whose read replaces the old value: everything but structs, `Option`, `Rc` and `Arc` (also behind `Box`). -/
def replaced (env : List Def) : Ty → Bool
  | .option _ | .rc _ => false
  | .box t => replaced env t
  | .named k => match env[k]? with
    | some (.struct _ _) => false
    | _ => true
  | _ => true

theorem fillTy_replaced {fn : Nat → Val → Rd σ Val} (hfn : ∀ (k : Nat) v w, replaced env (.named k) = true → Seed env (.named k) v →
      Seed env (.named k) w → fn k v = fn k w) :
    ∀ {t : Ty}, replaced env t = true → ∀ {v w : Val}, Seed env t v → Seed env t w →
      fillTy cfg I env fn t v = fillTy cfg I env fn t w := by
  intro t
  induction t with
  | option t => intro h; simp [replaced] at h
  | rc t => intro h; simp [replaced] at h
  | box t ih =>
    intro h v w hv hw
    cases hv with
    | box _ v hv => cases hw with
      | box _ w hw => rw [fillTy, fillTy, ih (by simpa [replaced] using h) hv hw]
  | named k => intro h v w hv hw; rw [fillTy, fillTy]; exact hfn k v w h hv hw
  | _ => intro _ v w _ _; rw [fillTy, fillTy]

theorem fillNamed_replaced (n : Nat) (k : Nat) (v w : Val) (h : replaced env (.named k) = true) (hv : Seed env (.named k) v)
    (hw : Seed env (.named k) w) : fillNamed cfg I env n k v = fillNamed cfg I env n k w := by
  cases n with
  | zero => rfl
  | succ n =>
    cases hv with
    | struct _ _ _ _ hk _ _ => simp [replaced, hk] at h
    | enum _ _ x hk =>
      cases hw with
      | enum => rw [fillNamed_enum hk, fillNamed_enum hk]
      | struct _ _ _ _ hk' _ _ => rw [hk] at hk'; cases hk'
      | union _ _ _ _ _ hk' => rw [hk] at hk'; cases hk'
    | union _ _ us i v hk =>
      cases hw with
      | enum _ _ x hk' => rw [hk] at hk'; cases hk'
      | struct _ _ _ _ hk' _ _ => rw [hk] at hk'; cases hk'
      | union _ _ _ _ _ hk' => rw [fillNamed_union hk, fillNamed_union hk]

/-- C28, one field: reading a value of such a type does not look at the old value. -/
theorem C28_replaces {t : Ty} (h : replaced env t = true) {v w : Val} (hv : Seed env t v) (hw : Seed env t w) (ft : Byte) (s : σ) :
    fillThriftField cfg I env t v ft s = fillThriftField cfg I env t w ft s := by
  unfold fillThriftField
  by_cases hb : t = .bool
  · subst hb; rfl
  · have ho : ∀ t', t ≠ .option t' := by rintro t' rfl; simp [replaced] at h
    rw [fillField_value cfg I env _ v ft hb ho, fillField_value cfg I env _ w ft hb ho,
      fillTy_replaced (fun k v w => fillNamed_replaced _ k v w) h hv hw]

theorem fillThriftField_clean (hc : Counted (fun _ => True) I) (hs : schemaReads env = true) {t : Ty} (ht : tyClosed env t = true) {v v' : Val}
    (hv : Seed env t v) {ft : Byte} {s s' : σ} (h : fillThriftField cfg I env t v ft s = .ok (v', s')) : Clean env t v' := by
  obtain ⟨hcl, hd⟩ := schemaReads_iff.1 hs
  exact ((fillField_good (allowed_any cfg) hc env hd (N := I.size s)
    (fun m hm => fillNamed_good (allowed_any cfg) hc env hd hcl (I.size s + 1) m (by omega)) t ht (I.size s) (Nat.le_refl _) v ft hv).ok
    (x := fillField cfg I env (fillNamed cfg I env (I.size s + 1)) t v ft) (Nat.le_refl _) h).1

/-- C28: when a required field whose type replaces the old value is met several times, the last one wins: its value is what reading the last
payload gives, from any old value. -/
theorem C28_last_wins (hc : Counted (fun _ => True) I) (hs : schemaReads env = true) (hcf : ∀ f ∈ fs, tyClosed env f.ty = true)
    (hn : (fs.map (·.id)).Nodup) {last last' : BitVec 16} {s s' : σ} {vs vs' : List Val} {a b : List (Occ σ)} {o : Occ σ}
    (h : Met cfg I env fs last s vs (a ++ o :: b) last' s' vs')
    (hvs : ∀ (i : Nat) (f : Field) (v : Val), fs[i]? = some f → vs[i]? = some v → Seed env f.rustTy v)
    {i : Nat} {f : Field} (hf : fs[i]? = some f) (hr : f.required = true) (ht : replaced env f.ty = true) (ho : o.id = f.id)
    (hb : ¬ Has b f.id) :
    ∃ v s₂, vs'[i]? = some v ∧ ∀ w, Seed env f.ty w → fillThriftField cfg I env f.ty w o.ft o.pos = .ok (v, s₂) := by
  have hty : f.rustTy = f.ty := by simp [Field.rustTy, hr]
  generalize hoc : a ++ o :: b = occs at h
  induction h generalizing a with
  | nil => simp at hoc
  | known last s vs ft id s₁ j g v v' s₂ occs last' s' vs' hh' hft hg hid hv hfill hr' ih =>
    have hcg : tyClosed env g.rustTy = true := by
      have := hcf g (List.mem_of_getElem? hg)
      unfold Field.rustTy
      split
      · exact this
      · simpa [tyClosed] using this
    cases a with
    | nil =>
      simp only [List.nil_append, List.cons.injEq] at hoc
      obtain ⟨rfl, rfl⟩ := hoc
      obtain rfl : j = i := field_unique hn hg hf (hid.trans ho)
      rw [hf] at hg; cases hg
      have h1 := C34_absent hr' hf hb
      rw [List.getElem?_set_self (List.getElem?_eq_some_iff.1 hv).1] at h1
      refine ⟨v', s₂, h1, fun w hw => ?_⟩
      rw [hty] at hfill
      rw [C28_replaces ht hw (hty ▸ hvs j f v hf hv)]
      exact hfill
    | cons x a =>
      simp only [List.cons_append, List.cons.injEq] at hoc
      refine ih (fun i' f' w hf' hw => ?_) hoc.2
      rw [List.getElem?_set] at hw
      split at hw
      · rename_i hij; subst hij
        rw [hg] at hf'; cases hf'
        split at hw
        · cases hw
          exact (fillThriftField_clean hc hs hcg (hvs j g v hg hv) hfill).seed
        · cases hw
      · exact hvs i' f' w hf' hw
  | unknown last s vs ft id s₁ s₂ occs last' s' vs' hh' hft hid hskip hr' ih =>
    cases a with
    | nil =>
      simp only [List.nil_append, List.cons.injEq] at hoc
      obtain ⟨rfl, rfl⟩ := hoc
      exact absurd ho.symm (hid f (List.mem_of_getElem? hf))
    | cons x a =>
      simp only [List.cons_append, List.cons.injEq] at hoc
      exact ih hvs hoc.2

/-- Field 1 of `S` twice, 7 then 9. -/
example (al : Nat → Bool) : readThrift ⟨false, false, al⟩ (sliceInput ⟨false, false, al⟩) abcEnv (.named 0)
    [0x13#8, 0x07#8, 0x03#8, 0x02#8, 0x09#8, 0x21#8, 0x00#8] = .ok (.struct [.i8 9#8, .none, .bool true], []) ∧
    replaced abcEnv .i8 = true ∧ schemaReads abcEnv = true := ⟨rfl, by decide, by decide⟩

example (cfg : Cfg) : Counted (fun _ => True) (sliceInput cfg) ∧ Counted (fun _ => True) (readerInput cfg) :=
  ⟨slice_counted (allowed_any cfg) fun _ => ⟨trivial, trivial⟩, reader_counted (allowed_any cfg)⟩

/-! ## C30 -/

/-- Not `bool` and not an `Option`: the wire type of a field is checked. -/
def checked : Ty → Bool
  | .bool | .option _ => false
  | _ => true

theorem fillThriftField_wrong {t : Ty} (ht : checked t = true) (v : Val) {ft : Byte} (hft : ft ≠ wireType env t) (s : σ) :
    fillThriftField cfg I env t v ft s = .error (.err .invalidType) := by
  unfold fillThriftField
  rw [fillField_value cfg I env _ v ft (by rintro rfl; simp [checked] at ht) (by rintro t' rfl; simp [checked] at ht),
    if_pos (by rw [wireType_eq]; exact hft)]
  rfl

include hI in
/-- C30: a declared field, of a type other than `bool`, with another wire type than its own is an error, wherever it is met, whatever follows;
for an optional field as long as it is unset (otherwise C27 applies). -/
theorem C30_wrong_type (hk : env[k]? = some (.struct name fs)) (hn : (fs.map (·.id)).Nodup) {vs vs' : List Val} {s s₁ s₂ : σ}
    {occs : List (Occ σ)} {last : BitVec 16} (h : Met cfg I env fs 0#16 s vs occs last s₁ vs') {ft : Byte} {i : Nat}
    {f : Field} (hf : fs[i]? = some f) (ht : checked f.ty = true) (hw : ft ≠ wireType env f.ty) (hft : ft ≠ 0#8) {v : Val} (hv : vs'[i]? = some v)
    (hset : f.required = false → v = .none) (hh : I.readFieldHeader cfg last s₁ = .ok ((ft, f.id), s₂)) :
    fillThrift cfg I env (.named k) (.struct vs) s = .error (.err .invalidType) := by
  refine after_met hI hk hn h hf hh hft hv ?_
  cases hr : f.required with
  | true =>
    rw [show f.rustTy = f.ty by simp [Field.rustTy, hr]]
    exact fillThriftField_wrong ht v hw s₂
  | false =>
    rw [show f.rustTy = .option f.ty by simp [Field.rustTy, hr], hset hr]
    unfold fillThriftField
    rw [fillField, fillField_value cfg I env _ _ ft (by intro h; rw [h] at ht; simp [checked] at ht)
      (by intro t' h; rw [h] at ht; simp [checked] at ht), if_pos (by rw [wireType_eq]; exact hw)]
    rfl

/-- Field 1 of `S` (an `i8`) as an `i32`, first of all fields. -/
example (al : Nat → Bool) (r : Bytes) : fillThrift ⟨false, false, al⟩ (sliceInput ⟨false, false, al⟩) abcEnv (.named 0)
    (.struct [.i8 0#8, .none, .bool false]) (0x15#8 :: r) = .error (.err .invalidType) :=
  C30_wrong_type (slice_measured_nd _) rfl (by decide) (.nil _ _ _) (i := 0) (ft := 5#8) (s₂ := r) rfl rfl (by decide) (by decide)
    rfl (by simp) rfl

/-- C30 does not hold for `bool` fields: a header of any type is taken as the value, `true` exactly for type 1, and the payload is left to be
taken for the next field. -/
theorem C30_bool_accepts (ft : Byte) (v : Val) (s : σ) :
    fillThriftField cfg I env .bool v ft s = .ok (.bool (ft == 1#8), s) := rfl

/-- Concretely: field 3 of `S` as an `i32` with value -1 (payload `01`): the payload is read as a long header. -/
theorem C30_counterexample_bool (cfg : Cfg) :
    Fails cfg (fun I => readThrift cfg I abcEnv (.named 0)) [0x13#8, 0x07#8, 0x25#8, 0x01#8, 0x00#8] (.err (.io .unexpectedEof)) ∧
    Reads cfg (fun I => readThrift cfg I abcEnv (.named 0)) [0x13#8, 0x07#8, 0x25#8, 0x00#8] [] (.struct [.i8 7#8, .none, .bool false]) := by
  constructor
  · refine Fails.of_slice (generic_readThrift abcEnv (.named 0)) (by simp) (fun cfg => ?_) cfg
    obtain ⟨ov, sse, al⟩ := cfg
    cases ov <;> cases sse <;> rfl
  · refine Reads.of_slice (generic_readThrift abcEnv (.named 0)) (fun cfg => ?_) cfg
    obtain ⟨ov, sse, al⟩ := cfg
    cases ov <;> cases sse <;> rfl

/-! ## C32 -/

include hI in
theorem fillThrift_union {us : List Variant} (hk : env[k]? = some (.union name us)) (j : Nat) (w : Val) (s : σ) :
    fillThrift cfg I env (.named k) (.union j w) s =
      match I.readFieldHeader cfg 0#16 s with
      | .error e => .error e
      | .ok ((ft, id), s₁) =>
        if ft = 0#8 then .error (.err .invalidType)
        else
          match us.findIdx? (fun u => u.id == id) with
          | none => .error (.err (.missingField "$struct_name"))
          | some i =>
            match us[i]? with
            | none => .error .stuck
            | some u =>
              match readThrift cfg I env u.ty s₁ with
              | .error e => .error e
              | .ok (v, s₂) =>
                match I.readByte s₂ with
                | .error e => .error e
                | .ok (b, s₃) => if b = 0#8 then .ok (.union i v, s₃) else .error (.err .missingStop) := by
  unfold fillThrift
  rw [fillTy, fillNamed_union hk]
  unfold fillUnion
  cases hh : I.readFieldHeader cfg 0#16 s with
  | error e => rw [Rd.bind_err hh]
  | ok p =>
    obtain ⟨⟨ft, id⟩, s₁⟩ := p
    have hs₁ := size_header hI hh
    rw [Rd.bind_ok hh]
    dsimp only
    by_cases hft : ft = 0#8
    · simp only [hft, if_true]; rfl
    · simp only [hft, if_false]
      cases us.findIdx? (fun u => u.id == id) with
      | none => rfl
      | some i =>
        dsimp only
        cases us[i]? with
        | none => rfl
        | some u =>
          dsimp only
          rw [readThrift]
          cases hf : fillThrift cfg I env u.ty (dflt env u.ty) s₁ with
          | error e =>
            rw [← fillTy_canon hI env (n := I.size s) (by omega)] at hf
            rw [Rd.bind_err hf]
          | ok q =>
            obtain ⟨v, s₂⟩ := q
            rw [← fillTy_canon hI env (n := I.size s) (by omega)] at hf
            rw [Rd.bind_ok hf]
            dsimp only
            cases hb : I.readByte s₂ with
            | error e => rw [Rd.bind_err hb]
            | ok q =>
              obtain ⟨b, s₃⟩ := q
              rw [Rd.bind_ok hb]
              dsimp only
              by_cases hb0 : b = 0#8
              · simp [hb0]
              · simp [hb0]

include hI in
/-- C32: a union is read exactly from one field with a declared id, its value, and a zero byte; the old value plays no role, nor does the
wire type. -/
theorem C32_ok_iff {us : List Variant} (hk : env[k]? = some (.union name us)) (hn : (us.map (·.id)).Nodup) (j : Nat) (w : Val) (s s' : σ) (v : Val) :
    fillThrift cfg I env (.named k) (.union j w) s = .ok (v, s') ↔
      ∃ (ft : Byte) (i : Nat) (u : Variant) (x : Val) (s₁ s₂ : σ), us[i]? = some u ∧
        I.readFieldHeader cfg 0#16 s = .ok ((ft, u.id), s₁) ∧ ft ≠ 0#8 ∧
        readThrift cfg I env u.ty s₁ = .ok (x, s₂) ∧ I.readByte s₂ = .ok (0#8, s') ∧ v = .union i x := by
  rw [fillThrift_union hI hk]
  constructor
  · intro h
    cases hh : I.readFieldHeader cfg 0#16 s with
    | error e => rw [hh] at h; cases h
    | ok p =>
      obtain ⟨⟨ft, id⟩, s₁⟩ := p
      rw [hh] at h
      dsimp only at h
      split at h
      · cases h
      · rename_i hft
        split at h
        · cases h
        · rename_i i hi
          obtain ⟨hlt, he, _⟩ := List.findIdx?_eq_some_iff_getElem.1 hi
          rw [List.getElem?_eq_getElem hlt] at h
          dsimp only at h
          obtain rfl : us[i].id = id := by simpa using he
          cases hr : readThrift cfg I env us[i].ty s₁ with
          | error e => rw [hr] at h; cases h
          | ok q =>
            obtain ⟨x, s₂⟩ := q
            rw [hr] at h
            dsimp only at h
            cases hb : I.readByte s₂ with
            | error e => rw [hb] at h; cases h
            | ok q =>
              obtain ⟨b, s₃⟩ := q
              rw [hb] at h
              dsimp only at h
              split at h
              · rename_i hb0; subst hb0
                cases h
                exact ⟨ft, i, us[i], x, s₁, s₂, List.getElem?_eq_getElem hlt, rfl, hft, hr, hb, rfl⟩
              · cases h
  · rintro ⟨ft, i, u, x, s₁, s₂, hu, hh, hft, hr, hb, rfl⟩
    rw [hh]
    dsimp only
    rw [if_neg hft, findVariant_eq hn hu]
    dsimp only
    rw [hu]
    dsimp only
    rw [hr]
    dsimp only
    rw [hb]
    simp

include hI in
/-- C32: the errors: no field, an unknown field, a further field. -/
theorem C32_errors {us : List Variant} (hk : env[k]? = some (.union name us)) (hn : (us.map (·.id)).Nodup) (j : Nat) (w : Val) {s s₁ : σ} {ft : Byte}
    {id : BitVec 16} (hh : I.readFieldHeader cfg 0#16 s = .ok ((ft, id), s₁)) :
    (ft = 0#8 → fillThrift cfg I env (.named k) (.union j w) s = .error (.err .invalidType)) ∧
    (ft ≠ 0#8 → (∀ u ∈ us, u.id ≠ id) →
      fillThrift cfg I env (.named k) (.union j w) s = .error (.err (.missingField "$struct_name"))) ∧
    (ft ≠ 0#8 → ∀ (i : Nat) (u : Variant), us[i]? = some u → u.id = id → ∀ x s₂, readThrift cfg I env u.ty s₁ = .ok (x, s₂) →
      ∀ b s₃, I.readByte s₂ = .ok (b, s₃) → b ≠ 0#8 → fillThrift cfg I env (.named k) (.union j w) s = .error (.err .missingStop)) := by
  rw [fillThrift_union hI hk, hh]
  dsimp only
  refine ⟨fun h => by rw [if_pos h], fun h hu => ?_, fun h i u hu hid x s₂ hx b s₃ hb hb0 => ?_⟩
  · rw [if_neg h, List.findIdx?_eq_none_iff.2 (by simpa using hu)]
  · subst hid
    rw [if_neg h, findVariant_eq hn hu]
    dsimp only
    rw [hu]
    dsimp only
    rw [hx]
    dsimp only
    rw [hb]
    dsimp only
    rw [if_neg hb0]

/-- The union of `nodeEnv`, holding an `i16`: read, and the three errors. -/
example (cfg : Cfg) :
    Reads cfg (fun I => readThrift cfg I nodeEnv (.named 1)) [0x04#8, 0xD8#8, 0x04#8, 0x0E#8, 0x00#8] [] (.union 1 (.i16 7#16)) ∧
    Fails cfg (fun I => readThrift cfg I nodeEnv (.named 1)) [0x00#8] (.err .invalidType) ∧
    Fails cfg (fun I => readThrift cfg I nodeEnv (.named 1)) [0x24#8, 0x0E#8, 0x00#8] (.err (.missingField "$struct_name")) ∧
    Fails cfg (fun I => readThrift cfg I nodeEnv (.named 1)) [0x04#8, 0xD8#8, 0x04#8, 0x0E#8, 0x14#8] (.err .missingStop) := by
  refine ⟨Reads.of_slice (generic_readThrift nodeEnv (.named 1)) (fun cfg => ?_) cfg,
    Fails.of_slice (generic_readThrift nodeEnv (.named 1)) (by simp) (fun cfg => ?_) cfg,
    Fails.of_slice (generic_readThrift nodeEnv (.named 1)) (by simp) (fun cfg => ?_) cfg,
    Fails.of_slice (generic_readThrift nodeEnv (.named 1)) (by simp) (fun cfg => ?_) cfg⟩ <;>
  · obtain ⟨ov, sse, al⟩ := cfg
    cases ov <;> cases sse <;> rfl

/-- C30 does not hold for unions: the same variant under any other wire type is read alike. -/
theorem C30_union_unchecked (hI : Measured notDiverge I) {us : List Variant} (hk : env[k]? = some (.union name us)) (j : Nat) (w : Val)
    {s t s₁ : σ} {ft ft' : Byte} {id : BitVec 16} (h0 : ft ≠ 0#8) (h0' : ft' ≠ 0#8) (hh : I.readFieldHeader cfg 0#16 s = .ok ((ft, id), s₁))
    (hh' : I.readFieldHeader cfg 0#16 t = .ok ((ft', id), s₁)) :
    fillThrift cfg I env (.named k) (.union j w) s = fillThrift cfg I env (.named k) (.union j w) t := by
  rw [fillThrift_union hI hk, fillThrift_union hI hk, hh, hh']
  simp only [h0, h0', if_false]

example (cfg : Cfg) (r : Bytes) : (sliceInput cfg).readFieldHeader cfg 0#16 (0x05#8 :: 0xD8#8 :: 0x04#8 :: r) = .ok ((5#8, 300#16), r) ∧
    (sliceInput cfg).readFieldHeader cfg 0#16 (0x04#8 :: 0xD8#8 :: 0x04#8 :: r) = .ok ((4#8, 300#16), r) := by
  obtain ⟨ov, sse, al⟩ := cfg
  cases ov <;> exact ⟨rfl, rfl⟩

/-! ## C31 -/

/-- The element types accepted where elements of type `t` are expected. -/
def elemOk (env : List Def) (t : Ty) (et : Byte) : Prop := et = wireType env t ∨ (wireType env t = 2#8 ∧ et = 1#8)

/-- C31: any other element type is an error, before anything is reserved or read. -/
theorem C31_rejected {t : Ty} {len : Nat} {et : Byte} {s s₁ : σ} (hh : I.readCollectionLenAndType cfg s = .ok ((len, et), s₁))
    (h : ¬ elemOk env t et) (v : Val) : fillThrift cfg I env (.list t) v s = .error (.err .invalidType) := by
  unfold elemOk at h
  simp only [not_or, not_and] at h
  unfold fillThrift
  rw [fillTy, Rd.bind_ok hh]
  dsimp only
  rw [wireType_eq, if_pos ⟨h.1, by simpa [wireType_eq, wireType] using h.2⟩]
  rfl

/-- C31: an accepted list had an accepted element type, and as many elements as announced. -/
theorem C31_accepted {t : Ty} {v v' : Val} {s s' : σ} (h : fillThrift cfg I env (.list t) v s = .ok (v', s')) :
    ∃ len et s₁ vs, I.readCollectionLenAndType cfg s = .ok ((len, et), s₁) ∧ elemOk env t et ∧ v' = .list vs ∧ vs.length = len := by
  unfold fillThrift at h
  rw [fillTy, Rd.bind_eq_ok] at h
  obtain ⟨⟨len, et⟩, s₁, h1, h2⟩ := h
  dsimp only at h2
  split at h2
  · cases h2
  · rename_i hne
    split at h2
    · cases h2
    · rw [Rd.bind_eq_ok] at h2
      obtain ⟨vs, s₂, h3, h4⟩ := h2
      cases h4
      refine ⟨len, et, s₁, vs, h1, ?_, rfl, ?_⟩
      · rw [wireType_eq] at hne
        unfold elemOk
        by_cases he : et = wireType env t
        · exact .inl he
        · exact .inr (by simpa [he, wireType_eq, wireType] using hne)
      · have : ∀ (x : Rd σ Val) (n : Nat) (s s' : σ) (ws : List Val), fillElems x n s = .ok (ws, s') → ws.length = n := by
          intro x n
          induction n with
          | zero => intro s s' ws h; cases h; rfl
          | succ n ih =>
            intro s s' ws h
            rw [fillElems, Rd.bind_eq_ok] at h
            obtain ⟨w, t, _, h⟩ := h
            rw [Rd.bind_eq_ok] at h
            obtain ⟨ws', t', h', h⟩ := h
            cases h
            simp [ih _ _ _ h']
        exact this _ _ _ _ _ h3

/-- C31: the bytes of a list of booleans, with either element type: `true` exactly for byte 1. -/
theorem C31_bool_elements {cfg : Cfg} (ha : AllocOk cfg) (env : List Def) {et : Byte} (he : et = 1#8 ∨ et = 2#8) (bs : Bytes) (hl : bs.length ≤ 10000000)
    (suf : Bytes) :
    Reads cfg (fun I => readThrift cfg I env (.list .bool)) (listHeader et bs.length ++ bs) suf
      (.list (bs.map fun b => .bool (b == 1#8))) := by
  refine Reads.of_slice_cond (generic_readThrift env (.list .bool)) (C := fun _ al => ∀ n, n ≤ 10000000 → al n = true) (fun cfg ha => ?_) cfg ha
  show readThrift cfg (sliceInput cfg) env (.list .bool) _ = _
  rw [readThrift, fillThrift, fillTy, List.append_assoc,
    Rd.bind_ok (readCollection_write cfg et _ _ (by rcases he with rfl | rfl <;> decide) hl)]
  dsimp only
  rw [if_neg (by rcases he with rfl | rfl <;> simp [fieldType]), if_neg (by simp [ha _ hl])]
  have : ∀ (bs suf : Bytes) (fn : Nat → Val → Rd Bytes Val),
      fillElems (fillTy cfg (sliceInput cfg) env fn .bool (dflt env .bool)) bs.length (bs ++ suf) =
      .ok (bs.map fun b => .bool (b == 1#8), suf) := by
    intro bs
    induction bs with
    | nil => intro suf fn; rfl
    | cons b bs ih =>
      intro suf fn
      rw [List.length_cons, fillElems, List.cons_append]
      have h1 : fillTy cfg (sliceInput cfg) env fn .bool (dflt env .bool) (b :: (bs ++ suf)) = .ok (.bool (b == 1#8), bs ++ suf) := by
        rw [fillTy]; rfl
      rw [Rd.bind_ok h1, Rd.bind_ok (ih suf fn)]
      rfl
  rw [Rd.bind_ok (this bs suf _)]
  rfl

/-- A list of two `i32` (type 5) where `i64` (type 6) is expected; a list of booleans of type 1 where booleans are expected. -/
example : ¬ elemOk [] .i64 5#8 ∧ elemOk [] .bool 1#8 ∧ elemOk [] (.option .bool) 1#8 ∧ ¬ elemOk [] .i8 1#8 := by
  refine ⟨?_, ?_, ?_, ?_⟩ <;> simp [elemOk, wireType]

/-! ## C57 -/

/-- C57: a `set<T>` field (a `Vec<T>` in Rust) is written with the list type 9, whatever its elements. -/
theorem C57_written {ok : BitVec 16 → BitVec 16 → Prop} {t : Ty} {vs : List Val} {id last : BitVec 16} {p : Bytes}
    (h : Enc env ok (.field (.list t) (.list vs) id last) p) :
    ∃ q, p = fieldHeader 9#8 id last ++ (listHeader (wireType env t) vs.length ++ q) := by
  cases h with
  | fieldValue _ _ _ _ q _ _ _ hq =>
    cases hq with
    | list _ _ q _ _ => exact ⟨q, rfl⟩

include hI in
/-- C57: a field carrying the protocol's set type 10 is rejected, whatever the element type and the payload. -/
theorem C57_set_rejected (hk : env[k]? = some (.struct name fs)) (hn : (fs.map (·.id)).Nodup) {vs vs' : List Val} {s s₁ s₂ : σ}
    {occs : List (Occ σ)} {last : BitVec 16} (h : Met cfg I env fs 0#16 s vs occs last s₁ vs') {i : Nat}
    {f : Field} (hf : fs[i]? = some f) {t : Ty} (ht : f.ty = .list t) {v : Val} (hv : vs'[i]? = some v) (hset : f.required = false → v = .none)
    (hh : I.readFieldHeader cfg last s₁ = .ok ((10#8, f.id), s₂)) :
    fillThrift cfg I env (.named k) (.struct vs) s = .error (.err .invalidType) :=
  C30_wrong_type hI hk hn h hf (by rw [ht]; rfl) (by rw [ht]; simp [wireType]) (by decide) hv hset hh

/-- `struct S { 1: required set<i8> s }` and the set `{1}` in the protocol's encoding. -/
example (cfg : Cfg) : Fails cfg (fun I => readThrift cfg I [.struct "S" [⟨1#16, true, "s", .list .i8⟩]] (.named 0)) [0x1A#8, 0x13#8, 0x01#8, 0x00#8]
    (.err .invalidType) := by
  refine Fails.of_slice (generic_readThrift _ (.named 0)) (by simp) (fun cfg => ?_) cfg
  obtain ⟨ov, sse, al⟩ := cfg
  cases ov <;> cases sse <;> rfl

/-! ## C58 -/

/-- C58: a boxed `bool` field is written with header type 2 and one byte. -/
theorem C58_written {ok : BitVec 16 → BitVec 16 → Prop} {b : Bool} {id last : BitVec 16} {p : Bytes}
    (h : Enc env ok (.field (.box .bool) (.box (.bool b)) id last) p) : p = fieldHeader 2#8 id last ++ [boolByte b] := by
  cases h with
  | fieldValue _ _ _ _ q _ _ _ hq =>
    cases hq with
    | box _ _ q hq =>
      cases hq
      rfl

/-- C58: it is read back from there (`Box`, and unshared `Rc` and `Arc`). -/
theorem C58_read_back (b c : Bool) (v : Bool) (suf : Bytes) :
    fillThriftField cfg (sliceInput cfg) env (.box .bool) (.box (.bool v)) 2#8 (boolByte b :: suf) = .ok (.box (.bool b), suf) ∧
    fillThriftField cfg (sliceInput cfg) env (.rc .bool) (.rc false (.bool v)) 2#8 (boolByte c :: suf) = .ok (.rc false (.bool c), suf) := by
  constructor
  · unfold fillThriftField
    rw [fillField_value _ _ _ _ _ _ (by simp) (by simp), if_neg (by simp [fieldType]), fillTy, fillTy]
    cases b <;> rfl
  · unfold fillThriftField
    rw [fillField_value _ _ _ _ _ _ (by simp) (by simp), if_neg (by simp [fieldType]), fillTy, if_neg (by simp), fillTy]
    cases c <;> rfl

include hI in
/-- C58: the protocol's header for `true` is rejected. -/
theorem C58_true_rejected (hk : env[k]? = some (.struct name fs)) (hn : (fs.map (·.id)).Nodup) {vs vs' : List Val} {s s₁ s₂ : σ}
    {occs : List (Occ σ)} {last : BitVec 16} (h : Met cfg I env fs 0#16 s vs occs last s₁ vs') {i : Nat}
    {f : Field} (hf : fs[i]? = some f) (ht : f.ty = .box .bool ∨ f.ty = .rc .bool) {v : Val} (hv : vs'[i]? = some v)
    (hset : f.required = false → v = .none) (hh : I.readFieldHeader cfg last s₁ = .ok ((1#8, f.id), s₂)) :
    fillThrift cfg I env (.named k) (.struct vs) s = .error (.err .invalidType) :=
  C30_wrong_type hI hk hn h hf (by rcases ht with ht | ht <;> rw [ht] <;> rfl) (by rcases ht with ht | ht <;> rw [ht] <;> simp [wireType]) (by decide)
    hv hset hh

/-- C58: skipping a field with its header leaves its byte behind: the field takes one byte, skipping its type none. -/
theorem C58_skip_leaves (b : Bool) (suf : Bytes) (evs : List REvent) :
    (sliceInput cfg).skip cfg 2#8 false (boolByte b :: suf) = .ok ((), boolByte b :: suf) ∧
    (readerInput cfg).skip cfg 2#8 false evs = .ok ((), evs) := by
  constructor <;> rfl

/-- `struct S { 1: required Box<bool> b }` -/
def boxBoolEnv : List Def := [.struct "S" [⟨1#16, true, "b", .box .bool⟩]]

/-- C58: what is written for `S { b: true }`, read as a struct without the field, is not understood; nor is what other implementations
write for it. -/
theorem C58_counterexample (cfg : Cfg) :
    encode boxBoolEnv (.named 0) (.struct [.box (.bool true)]) = .ok [0x12#8, 0x01#8, 0x00#8] ∧
    Fails cfg (fun I => readThrift cfg I emptyEnv (.named 0)) [0x12#8, 0x01#8, 0x00#8] (.err (.io .unexpectedEof)) ∧
    Fails cfg (fun I => readThrift cfg I boxBoolEnv (.named 0)) [0x11#8, 0x00#8] (.err .invalidType) := by
  refine ⟨?_, ?_, ?_⟩
  · rw [encode_of_enc (ok := anyStep) (.struct _ _ _ _ _ rfl (.fieldsCons _ _ _ _ _ _ _
      (.fieldValue (.box .bool) _ _ _ _ (by simp) (by simp) trivial (.box _ _ _ (.bool _))) (.fieldsNil _)))]
    rfl
  · refine Fails.of_slice (generic_readThrift _ (.named 0)) (by simp) (fun cfg => ?_) cfg
    obtain ⟨ov, sse, al⟩ := cfg
    cases ov <;> cases sse <;> rfl
  · refine Fails.of_slice (generic_readThrift _ (.named 0)) (by simp) (fun cfg => ?_) cfg
    obtain ⟨ov, sse, al⟩ := cfg
    cases ov <;> cases sse <;> rfl

/-! ## C59 -/

include hI in
/-- C59: filling a struct keeps the fields that are not met and the optional fields that were set; the latter were not met. -/
theorem C59_keeps (hk : env[k]? = some (.struct name fs)) (hn : (fs.map (·.id)).Nodup) {vs : List Val} {s s' : σ} {v : Val}
    (h : fillThrift cfg I env (.named k) (.struct vs) s = .ok (v, s')) :
    ∃ occs last s₁ vs', Met cfg I env fs 0#16 s vs occs last s₁ vs' ∧ v = .struct vs' ∧ vs'.length = vs.length ∧
      (∀ (i : Nat) (f : Field), fs[i]? = some f → ¬ Has occs f.id → vs'[i]? = vs[i]?) ∧
      (∀ (i : Nat) (f : Field) (w : Val), fs[i]? = some f → f.required = false → vs[i]? = some (.some w) →
        vs'[i]? = some (.some w) ∧ ¬ Has occs f.id) := by
  obtain ⟨occs, last, s₁, vs', id, h1, -, -, rfl⟩ := (C26_ok_iff hI hk hn vs s s' v).1 h
  exact ⟨occs, last, s₁, vs', h1, rfl, Met.length env h1, fun i f hf hh => C34_absent h1 hf hh,
    fun i f w hf hr hw => Met.keeps hn h1 hf hr hw⟩

include hI in
/-- C59: a shared `Rc` or `Arc` in the value read into makes meeting its field an error (if the wire type is right). -/
theorem C59_shared (hk : env[k]? = some (.struct name fs)) (hn : (fs.map (·.id)).Nodup) {vs vs' : List Val} {s s₁ s₂ : σ}
    {occs : List (Occ σ)} {last : BitVec 16} (h : Met cfg I env fs 0#16 s vs occs last s₁ vs') {i : Nat}
    {f : Field} (hf : fs[i]? = some f) (hr : f.required = true) {t : Ty} (ht : f.ty = .rc t) (hno : ¬ Has occs f.id) {w : Val}
    (hv : vs[i]? = some (.rc true w)) (hh : I.readFieldHeader cfg last s₁ = .ok ((wireType env t, f.id), s₂)) :
    fillThrift cfg I env (.named k) (.struct vs) s = .error (.err .duplicateField) := by
  refine after_met hI hk hn h hf hh (ne_zero_of_toNat (by have := wireType_range env t; omega)) (v := .rc true w) ?_ ?_
  · rw [C34_absent h hf hno, hv]
  · rw [show f.rustTy = .rc t by simp [Field.rustTy, hr, ht]]
    unfold fillThriftField
    rw [fillField_value _ _ _ _ _ _ (by simp) (by simp), if_neg (by simp [fieldType, wireType_eq]), fillTy]
    rfl

/-- `struct S { 1: required Rc<i8> a; 2: optional i8 b }`, filled from `13 07 00`: an unshared `Rc` is replaced and `b` is kept; a shared one
is an error. -/
example (al : Nat → Bool) :
    fillThrift ⟨false, false, al⟩ (sliceInput ⟨false, false, al⟩) [.struct "S" [⟨1#16, true, "a", .rc .i8⟩, ⟨2#16, false, "b", .i8⟩]] (.named 0)
      (.struct [.rc false (.i8 1#8), .some (.i8 5#8)]) [0x13#8, 0x07#8, 0x00#8] = .ok (.struct [.rc false (.i8 7#8), .some (.i8 5#8)], []) ∧
    fillThrift ⟨false, false, al⟩ (sliceInput ⟨false, false, al⟩) [.struct "S" [⟨1#16, true, "a", .rc .i8⟩, ⟨2#16, false, "b", .i8⟩]] (.named 0)
      (.struct [.rc true (.i8 1#8), .some (.i8 5#8)]) [0x13#8, 0x07#8, 0x00#8] = .error (.err .duplicateField) := ⟨rfl, rfl⟩

end CT.Props
