import Verif.Props.ParquetTypes
/-! # Lemmas about schema conversion -/
namespace CT.Schema
open Spec Parquet Props

/-- Levels of a field and all its descendants, counted from given ones. -/
def LevelsFrom (d r : Nat) (f : SField) : Prop := ∀ p g, Reach f p g → g.common.defLevel.toNat = d + optionals p ∧ g.common.repLevel.toNat = r + repeateds p

/-- 1 for optional -/
def optOf (rep : Repetition) : Nat := if rep = .Optional then 1 else 0
/-- 1 for repeated -/
def repOf (rep : Repetition) : Nat := if rep = .Repeated then 1 else 0

theorem optionals_cons (f : SField) (p : List SField) : optionals (f :: p) = optOf f.common.repetition + optionals p := by
  unfold optionals optOf
  rw [List.countP_cons]
  cases f.common.repetition <;> simp <;> omega

theorem repeateds_cons (f : SField) (p : List SField) : repeateds (f :: p) = repOf f.common.repetition + repeateds p := by
  unfold repeateds repOf
  rw [List.countP_cons]
  cases f.common.repetition <;> simp <;> omega

theorem levelsFrom_primitive {d r : Nat} {c : Common} {p : PhysicalType} {l : Option PrimitiveLogicalType} {i : BitVec 32} :
    LevelsFrom d r (.primitive c p l i) ↔ c.defLevel.toNat = d + optOf c.repetition ∧ c.repLevel.toNat = r + repOf c.repetition := by
  constructor
  · intro h
    have := h _ _ (.here _)
    rw [optionals_cons, repeateds_cons] at this
    exact this
  · intro h q g hr
    cases hr
    rw [optionals_cons, repeateds_cons]
    exact h

theorem levelsFrom_group {d r : Nat} {c : Common} {fs : List SField} {l : Option GroupLogicalType} :
    LevelsFrom d r (.group c fs l) ↔ c.defLevel.toNat = d + optOf c.repetition ∧ c.repLevel.toNat = r + repOf c.repetition ∧
      ∀ f ∈ fs, LevelsFrom (d + optOf c.repetition) (r + repOf c.repetition) f := by
  constructor
  · intro h
    have h0 := h _ _ (.here _)
    rw [optionals_cons, repeateds_cons] at h0
    refine ⟨h0.1, h0.2, fun f hf p g hr => ?_⟩
    have h1 := h _ _ (.child c fs l f p g hf hr)
    rw [optionals_cons, repeateds_cons] at h1
    rw [Nat.add_assoc, Nat.add_assoc]
    exact h1
  · rintro ⟨h1, h2, h3⟩ p g hr
    cases hr with
    | here => rw [optionals_cons, repeateds_cons]; exact ⟨h1, h2⟩
    | child _ _ _ f p g hm h =>
      have := h3 f hm p g h
      rw [optionals_cons, repeateds_cons]
      rw [Nat.add_assoc, Nat.add_assoc] at this
      exact this

/-! ## One element -/

theorem repetition_iff {rt : Option (BitVec 32)} {rep : Repetition} :
    Repetition.ofElement rt = .ok rep ↔ RepetitionOf rt rep := by
  cases rt with
  | none =>
    constructor
    · intro h; cases h; exact .absent
    · intro h; cases h; rfl
  | some x =>
    constructor
    · intro h
      change Repetition.tryFrom x = _ at h
      unfold Repetition.tryFrom at h
      iterate 3
        split at h
        · rename_i hc; subst hc; cases h; constructor
      cases h
    · intro h; cases h <;> rfl

theorem repetition_error {rt : Option (BitVec 32)} {x : PFail}
    (h : Repetition.ofElement rt = .error x) :
    ∃ id, x = .err (.unknownType id) ∧ rt = some id := by
  cases rt with
  | none => cases h
  | some rt =>
    change Repetition.tryFrom rt = _ at h
    unfold Repetition.tryFrom at h
    iterate 3
      split at h
      · cases h
    cases h; exact ⟨_, rfl, rfl⟩

theorem repetitionOf_levels {rt : Option (BitVec 32)} {rep : Repetition} (h : RepetitionOf rt rep) :
    (if rt.getD 0 = 1 then (1 : BitVec 8) else 0).toNat = optOf rep ∧ (if rt.getD 0 = 2 then (1 : BitVec 8) else 0).toNat = repOf rep := by
  cases h <;> exact ⟨rfl, rfl⟩

/-- An ordinary error. -/
def SchemaError (x : PFail) : Prop := (∃ m, x = .err (.schema m)) ∨ ∃ id, x = .err (.unknownType id)

theorem physical_error {t : BitVec 32} {len : Option (BitVec 32)} {x : PFail} (h : PhysicalType.tryFrom t len = .error x) : SchemaError x := by
  unfold PhysicalType.tryFrom at h
  iterate 7
    split at h
    · cases h
  split at h
  · split at h
    · cases h; exact .inl ⟨_, rfl⟩
    · split at h
      · cases h; exact .inl ⟨_, rfl⟩
      · cases h
  · cases h; exact .inr ⟨_, rfl⟩

theorem asUsize32_pos {n : BitVec 32} (h : 0 ≤ n.toInt) : (asUsize32 n : Int) = n.toInt := by
  have h1 := BitVec.toInt_eq_toNat_cond n
  have h2 : (n.signExtend 64).toInt = n.toInt := BitVec.toInt_signExtend_of_le (by omega)
  have h3 := BitVec.toInt_eq_toNat_cond (n.signExtend 64)
  have h4 := n.isLt
  unfold asUsize32
  split at h1 <;> split at h3 <;> omega

/-- What `field_from_schema_element` returns. -/
theorem fieldFromElement_ok {e : Element} {ix : Nat} {d r : BitVec 8} {rem : Nat} {f : SField} {ix' : Nat} :
    fieldFromElement e ix d r rem = .ok (f, ix') ↔ ∃ rep, RepetitionOf e.repetitionType rep ∧
      ((e.numChildren.getD 0 = 0 ∧ ∃ t p, e.type_ = some t ∧ PhysicalOf t e.typeLength p ∧
          f = .primitive ⟨e.name, e.fieldId, rep, d, r⟩ p (leafLogicalType e) (BitVec.ofNat 32 ix) ∧ ix' = ix + 1) ∨
       (∃ n, e.numChildren = some n ∧ 0 < n.toInt ∧ n.toInt ≤ rem ∧
          f = .group ⟨e.name, e.fieldId, rep, d, r⟩ [] (groupLogicalType e) ∧ ix' = ix)) := by
  unfold fieldFromElement
  cases hrep : Repetition.ofElement e.repetitionType with
  | error x =>
    constructor
    · intro h; cases h
    · rintro ⟨rep, hr, _⟩
      rw [repetition_iff.2 hr] at hrep; cases hrep
  | ok rep =>
    have hr := repetition_iff.1 hrep
    have huniq : ∀ rep', RepetitionOf e.repetitionType rep' → rep' = rep := fun rep' h => by
      have := repetition_iff.2 h; rw [hrep] at this; cases this; rfl
    show (if e.numChildren.getD 0 = 0 then _ else if _ then _ else _) = _ ↔ _
    by_cases h0 : e.numChildren.getD 0 = 0
    · rw [if_pos h0]
      have hng : ∀ n, e.numChildren = some n → ¬ 0 < n.toInt := by
        intro n hn; rw [hn] at h0; change n = 0 at h0; subst h0; decide
      cases ht : e.type_ with
      | none =>
        constructor
        · intro h; cases h
        · rintro ⟨_, _, ⟨_, t, _, h, _⟩ | ⟨n, hn, h, _⟩⟩
          · cases h
          · exact absurd h (hng n hn)
      | some t =>
        dsimp only
        cases hp : PhysicalType.tryFrom t e.typeLength with
        | error x =>
          constructor
          · intro h; cases h
          · rintro ⟨_, _, ⟨_, t', p, h, h', _⟩ | ⟨n, hn, h, _⟩⟩
            · cases h; rw [(C52_physical _ _ _).2 h'] at hp; cases hp
            · exact absurd h (hng n hn)
        | ok p =>
          constructor
          · intro h
            cases h
            exact ⟨rep, hr, .inl ⟨h0, t, p, rfl, (C52_physical _ _ _).1 hp, rfl, rfl⟩⟩
          · rintro ⟨rep', hr', ⟨_, t', p', h, h', rfl, rfl⟩ | ⟨n, hn, h, _⟩⟩
            · cases h
              have := (C52_physical _ _ _).2 h'
              rw [hp] at this; cases this
              rw [huniq _ hr']; rfl
            · exact absurd h (hng n hn)
    · rw [if_neg h0]
      obtain ⟨n, hn⟩ : ∃ n, e.numChildren = some n := by
        cases h : e.numChildren with
        | none => rw [h] at h0; exact absurd rfl h0
        | some n => exact ⟨n, rfl⟩
      rw [hn] at h0 ⊢
      change ¬ n = 0 at h0
      have hn0 : n.toInt ≠ 0 := fun h => h0 (BitVec.eq_of_toInt_eq (by rw [h]; rfl))
      have hcond : (BitVec.slt ((some n).getD 0) 0 || decide (rem < asUsize32 ((some n).getD 0))) = true ↔ ¬ (0 < n.toInt ∧ n.toInt ≤ rem) := by
        simp only [Option.getD_some, BitVec.slt, Bool.or_eq_true, decide_eq_true_eq, show (0 : BitVec 32).toInt = 0 from rfl]
        by_cases hs : n.toInt < 0
        · simp [hs]; omega
        · have := asUsize32_pos (n := n) (by omega)
          constructor
          · rintro (h | h) <;> omega
          · intro h; right; omega
      by_cases hc : 0 < n.toInt ∧ n.toInt ≤ rem
      · rw [if_neg (by rw [hcond]; simpa using hc)]
        constructor
        · intro h
          cases h
          exact ⟨rep, hr, .inr ⟨n, rfl, hc.1, hc.2, rfl, rfl⟩⟩
        · rintro ⟨rep', hr', ⟨h, _⟩ | ⟨n, _, _, _, rfl, rfl⟩⟩
          · exact absurd h h0
          · rw [huniq _ hr']; rfl
      · rw [if_pos (by rw [hcond]; exact hc)]
        constructor
        · intro h; cases h
        · rintro ⟨rep', hr', ⟨h, _⟩ | ⟨n', hn', h1, h2, _⟩⟩
          · exact absurd h h0
          · cases hn'; exact absurd ⟨h1, h2⟩ hc

theorem fieldFromElement_error {e : Element} {ix : Nat} {d r : BitVec 8} {rem : Nat} {x : PFail}
    (h : fieldFromElement e ix d r rem = .error x) : SchemaError x := by
  unfold fieldFromElement at h
  cases hrep : Repetition.ofElement e.repetitionType with
  | error y =>
    obtain ⟨id, rfl, _⟩ := repetition_error hrep
    rw [hrep] at h
    cases h; exact .inr ⟨_, rfl⟩
  | ok rep =>
    rw [hrep] at h
    change (if e.numChildren.getD 0 = 0 then _ else if _ then _ else _) = _ at h
    split at h
    · cases ht : e.type_ with
      | none => rw [ht] at h; cases h; exact .inl ⟨_, rfl⟩
      | some t =>
        rw [ht] at h
        dsimp only at h
        cases hp : PhysicalType.tryFrom t e.typeLength with
        | error y => rw [hp] at h; cases h; exact physical_error hp
        | ok p => rw [hp] at h; cases h
    · split at h
      · cases h; exact .inl ⟨_, rfl⟩
      · cases h

/-! ## The recursion -/

theorem addU8_small (cfg : Cfg) {a b : BitVec 8} (h : a.toNat + b.toNat < 256) : addU8 cfg a b = .ok (a + b) ∧ (a + b).toNat = a.toNat + b.toNat := by
  unfold addU8
  rw [decide_eq_false (by omega), Bool.and_false, if_neg (by simp)]
  exact ⟨rfl, by rw [BitVec.toNat_add]; omega⟩

/-- One step, with the levels in bounds. -/
theorem convertInner_step (cfg : Cfg) (n : Nat) (e : Element) (tl : List Element) (ix : Nat) (d r nest : BitVec 8)
    (hd : d.toNat ≤ nest.toNat) (hr : r.toNat ≤ nest.toNat) (hn : nest.toNat ≤ 127) :
    convertInner cfg (n + 1) (e :: tl) ix d r nest =
      match fieldFromElement e ix (d + if e.repetitionType.getD 0 = 1 then 1 else 0) (r + if e.repetitionType.getD 0 = 2 then 1 else 0) tl.length with
      | .error x => .error x
      | .ok (.primitive c p l i, ix') => .ok (.primitive c p l i, tl, ix')
      | .ok (.group c _ l, ix') =>
        if 127 ≤ nest.toNat then schemaErr "Schema is too deeply nested"
        else match childLoop (fun es index => convertInner cfg n es index (d + if e.repetitionType.getD 0 = 1 then 1 else 0)
            (r + if e.repetitionType.getD 0 = 2 then 1 else 0) (nest + 1)) (asUsize32 (e.numChildren.getD 0)) tl ix' with
          | .error x => .error x
          | .ok (fs, rest, ix'') => .ok (.group c fs l, rest, ix'') := by
  rw [convertInner]
  dsimp only
  rw [(addU8_small cfg (a := d) (b := if e.repetitionType.getD 0 = 1 then 1 else 0) (by split <;> simp <;> omega)).1,
    (addU8_small cfg (a := r) (b := if e.repetitionType.getD 0 = 2 then 1 else 0) (by split <;> simp <;> omega)).1]
  show (fieldFromElement e ix (d + if e.repetitionType.getD 0 = 1 then 1 else 0) (r + if e.repetitionType.getD 0 = 2 then 1 else 0) tl.length >>= _) = _
  cases fieldFromElement e ix (d + if e.repetitionType.getD 0 = 1 then 1 else 0) (r + if e.repetitionType.getD 0 = 2 then 1 else 0) tl.length with
  | error x => rfl
  | ok fi =>
    obtain ⟨f, ix'⟩ := fi
    cases f with
    | primitive c p l i => rfl
    | group c fs l =>
      show (addU8 cfg nest 1 >>= _) = _
      have h1 := addU8_small cfg (a := nest) (b := 1) (by simp; omega)
      rw [h1.1]
      show (if 128 ≤ (nest + 1).toNat then _ else _) = _
      rw [h1.2]
      dsimp only
      by_cases h : 127 ≤ nest.toNat
      · rw [if_pos (by simp; omega), if_pos h]
      · rw [if_neg (by simp; omega), if_neg h]
        show (childLoop _ _ _ _ >>= _) = _
        cases childLoop (fun es index => convertInner cfg n es index (d + if e.repetitionType.getD 0 = 1 then 1 else 0)
            (r + if e.repetitionType.getD 0 = 2 then 1 else 0) (nest + 1)) (asUsize32 (e.numChildren.getD 0)) tl ix' with
        | error x => rfl
        | ok t => rfl

/-- What it means that `f` comes from the first part of `es`. -/
def From (d r nest : Nat) (es : List Element) (ix : Nat) (f : SField) (rest : List Element) (ix' : Nat) : Prop :=
  ∃ pre, es = pre ++ rest ∧ Flat f pre ∧ LevelsFrom d r f ∧ indexes f = (List.range' ix (indexes f).length).map (BitVec.ofNat 32) ∧
    ix' = ix + (indexes f).length ∧ nest + height f ≤ 127

/-- The same for several fields. -/
def FromAll (d r nest : Nat) (es : List Element) (ix : Nat) (fs : List SField) (rest : List Element) (ix' : Nat) : Prop :=
  ∃ pre, es = pre ++ rest ∧ Flats fs pre ∧ (∀ f ∈ fs, LevelsFrom d r f) ∧ indexesAll fs = (List.range' ix (indexesAll fs).length).map (BitVec.ofNat 32) ∧
    ix' = ix + (indexesAll fs).length ∧ nest + heightAll fs ≤ 127

theorem fromAll_nil {d r nest : Nat} (hn : nest ≤ 127) {es : List Element} {ix : Nat} {rest : List Element} {ix' : Nat} :
    FromAll d r nest es ix [] rest ix' ↔ rest = es ∧ ix' = ix := by
  constructor
  · rintro ⟨pre, rfl, hf, _, _, rfl, _⟩
    cases hf
    exact ⟨by simp, by simp [indexesAll]⟩
  · rintro ⟨rfl, rfl⟩
    exact ⟨[], by simp, .nil, by simp, by simp [indexesAll], by simp [indexesAll], by simp [heightAll]; omega⟩

theorem fromAll_cons {d r nest : Nat} {es : List Element} {ix : Nat} {f : SField} {fs : List SField} {rest : List Element} {ix' : Nat} :
    FromAll d r nest es ix (f :: fs) rest ix' ↔ ∃ mid ixm, From d r nest es ix f mid ixm ∧ FromAll d r nest mid ixm fs rest ix' := by
  constructor
  · rintro ⟨pre, rfl, hf, hl, hi, rfl, hh⟩
    cases hf with
    | cons _ _ p q hp hq =>
    simp only [indexesAll, List.length_append] at hi
    rw [← List.range'_append, List.map_append] at hi
    have hi := List.append_inj hi (by simp)
    simp only [heightAll] at hh
    refine ⟨q ++ rest, ix + (indexes f).length, ⟨p, by simp, hp, hl f (by simp), hi.1, rfl, by omega⟩,
      q, rfl, hq, fun g hg => hl g (by simp [hg]), by simpa using hi.2, ?_, by omega⟩
    simp only [indexesAll, List.length_append]; omega
  · rintro ⟨mid, ixm, ⟨p, rfl, hp, hl, hi, rfl, hh⟩, q, rfl, hq, hl', hi', rfl, hh'⟩
    refine ⟨p ++ q, by simp, .cons _ _ _ _ hp hq, ?_, ?_, ?_, ?_⟩
    · intro g hg
      rcases List.mem_cons.1 hg with rfl | hg
      · exact hl
      · exact hl' g hg
    · simp only [indexesAll, List.length_append]
      rw [← List.range'_append, List.map_append, Nat.one_mul, ← hi, ← hi']
    · simp only [indexesAll, List.length_append]; omega
    · simp only [heightAll]; omega

theorem childLoop_iff {rec : List Element → Nat → Except PFail (SField × List Element × Nat)} {d r nest : Nat} (hn : nest ≤ 127)
    (hrec : ∀ es ix f rest ix', rec es ix = .ok (f, rest, ix') ↔ From d r nest es ix f rest ix') :
    ∀ (n : Nat) (es : List Element) (ix : Nat) (fs : List SField) (rest : List Element) (ix' : Nat),
      childLoop rec n es ix = .ok (fs, rest, ix') ↔ fs.length = n ∧ FromAll d r nest es ix fs rest ix'
  | 0, es, ix, fs, rest, ix' => by
    rw [childLoop]
    constructor
    · intro h; cases h; exact ⟨rfl, (fromAll_nil hn).2 ⟨rfl, rfl⟩⟩
    · rintro ⟨hl, h⟩
      obtain rfl := List.length_eq_zero_iff.1 hl
      obtain ⟨rfl, rfl⟩ := (fromAll_nil hn).1 h
      rfl
  | n + 1, es, ix, fs, rest, ix' => by
    rw [childLoop]
    have ih := childLoop_iff hn hrec n
    constructor
    · intro h
      cases hr : rec es ix with
      | error x => rw [hr] at h; cases h
      | ok t =>
        obtain ⟨f, mid, ixm⟩ := t
        rw [hr] at h
        change (childLoop rec n mid ixm >>= _) = _ at h
        cases hc : childLoop rec n mid ixm with
        | error x => rw [hc] at h; cases h
        | ok t =>
          obtain ⟨fs', rest', ix''⟩ := t
          rw [hc] at h
          cases h
          obtain ⟨h1, h2⟩ := (ih _ _ _ _ _).1 hc
          exact ⟨by simp [h1], fromAll_cons.2 ⟨mid, ixm, (hrec _ _ _ _ _).1 hr, h2⟩⟩
    · rintro ⟨hl, h⟩
      cases fs with
      | nil => cases hl
      | cons f fs =>
        obtain ⟨mid, ixm, h1, h2⟩ := fromAll_cons.1 h
        rw [(hrec _ _ _ _ _).2 h1]
        show (childLoop rec n mid ixm >>= _) = _
        rw [(ih _ _ _ _ _).2 ⟨by simpa using hl, h2⟩]
        rfl

theorem flat_pos {f : SField} {es : List Element} (h : Flat f es) : 0 < es.length := by
  cases h <;> simp

theorem flats_length : ∀ {fs : List SField} {es : List Element}, Flats fs es → fs.length ≤ es.length
  | _, _, .nil => by simp
  | _, _, .cons _ _ _ _ h hs => by
    have h1 := flat_pos h
    have h2 := flats_length hs
    simp only [List.length_cons, List.length_append]; omega

/-- The conversion of a subtree, exactly. -/
theorem convertInner_iff (cfg : Cfg) : ∀ (n : Nat) (es : List Element) (ix : Nat) (d r nest : BitVec 8) (f : SField) (rest : List Element) (ix' : Nat),
    d.toNat ≤ nest.toNat → r.toNat ≤ nest.toNat → nest.toNat ≤ 127 → 128 ≤ n + nest.toNat →
    (convertInner cfg n es ix d r nest = .ok (f, rest, ix') ↔ From d.toNat r.toNat nest.toNat es ix f rest ix')
  | 0, _, _, _, _, _, _, _, _, _, _, _, _ => by omega
  | n + 1, es, ix, d, r, nest, f, rest, ix', hd, hr, hn, hf => by
    cases es with
    | nil =>
      constructor
      · intro h; rw [convertInner] at h; cases h
      · rintro ⟨pre, h, hfl, _⟩
        have := flat_pos hfl
        have h := congrArg List.length h
        simp at h; omega
    | cons e tl =>
      rw [convertInner_step cfg n e tl ix d r nest hd hr hn]
      have hlev : ∀ rep, RepetitionOf e.repetitionType rep →
          (d + if e.repetitionType.getD 0 = 1 then 1 else 0).toNat = d.toNat + optOf rep ∧
          (r + if e.repetitionType.getD 0 = 2 then 1 else 0).toNat = r.toNat + repOf rep := by
        intro rep hrep
        obtain ⟨h1, h2⟩ := repetitionOf_levels hrep
        have h3 := addU8_small cfg (a := d) (b := if e.repetitionType.getD 0 = 1 then 1 else 0) (by split <;> simp <;> omega)
        have h4 := addU8_small cfg (a := r) (b := if e.repetitionType.getD 0 = 2 then 1 else 0) (by split <;> simp <;> omega)
        exact ⟨by rw [h3.2, h1], by rw [h4.2, h2]⟩
      have hopt : ∀ rep, optOf rep ≤ 1 ∧ repOf rep ≤ 1 := fun rep => by cases rep <;> decide
      have hnest : nest.toNat < 127 → (nest + 1).toNat = nest.toNat + 1 := fun h => (addU8_small cfg (a := nest) (b := 1) (by simp; omega)).2
      generalize hD : (d + if e.repetitionType.getD 0 = 1 then 1 else 0) = D at *
      generalize hR : (r + if e.repetitionType.getD 0 = 2 then 1 else 0) = R at *
      have hloop : ∀ rep, RepetitionOf e.repetitionType rep → nest.toNat < 127 → ∀ k fs rest ix',
          childLoop (fun es index => convertInner cfg n es index D R (nest + 1)) k tl ix = .ok (fs, rest, ix') ↔
            fs.length = k ∧ FromAll D.toNat R.toNat (nest.toNat + 1) tl ix fs rest ix' := by
        intro rep hrep hlt k fs rest ix'
        have h1 := hlev rep hrep; have h2 := hopt rep; have h3 := hnest hlt
        refine childLoop_iff (by omega) (fun es ix f rest ix' => ?_) k tl ix fs rest ix'
        have := convertInner_iff cfg n es ix D R (nest + 1) f rest ix' (by omega) (by omega) (by omega) (by omega)
        rw [h3] at this
        exact this
      constructor
      · intro h
        cases hff : fieldFromElement e ix D R tl.length with
        | error x => rw [hff] at h; cases h
        | ok t =>
          obtain ⟨g, ix1⟩ := t
          rw [hff] at h
          obtain ⟨rep, hrep, ⟨h0, t, p, ht, hp, rfl, rfl⟩ | ⟨k, hk, hk0, hkr, rfl, rfl⟩⟩ := fieldFromElement_ok.1 hff
          · obtain ⟨rfl, rfl, rfl⟩ : _ ∧ _ ∧ _ := by simpa using h
            refine ⟨[e], rfl, .primitive _ _ t _ _ _ h0 ⟨rfl, rfl, hrep⟩ ht hp ((C53_leaf _ _).1 rfl), levelsFrom_primitive.2 (hlev rep hrep),
              by simp [indexes], by simp [indexes], by simp [height]; omega⟩
          · dsimp only at h
            split at h
            · cases h
            · rename_i hlt
              split at h
              · cases h
              · rename_i fs rest' ix'' hc
                cases h
                obtain ⟨hlen, pre, rfl, hfl, hlv, hi, rfl, hh⟩ := (hloop rep hrep (by omega) _ _ _ _).1 hc
                have hku : (asUsize32 (e.numChildren.getD 0) : Int) = k.toInt := by rw [hk, Option.getD_some]; exact asUsize32_pos (by omega)
                obtain ⟨hl1, hl2⟩ := hlev rep hrep
                refine ⟨e :: pre, rfl, .group _ _ k _ _ _ hk (by omega) (fun h => ?_) ⟨rfl, rfl, hrep⟩ ((C53_group _ _).1 rfl) hfl,
                  levelsFrom_group.2 ⟨hl1, hl2, ?_⟩, by simpa [indexes] using hi, by simp [indexes], by simp [height]; omega⟩
                · rw [h, List.length_nil] at hlen; omega
                · intro f hf
                  rw [← hl1, ← hl2]
                  exact hlv f hf
      · rintro ⟨pre, he, hfl, hlv, hi, rfl, hh⟩
        cases hfl with
        | primitive e' c t p l i h0 hc ht hp hl =>
          obtain ⟨rfl, rfl⟩ : e = e' ∧ tl = rest := by simpa using he
          obtain ⟨hc1, hc2, hc3⟩ := hc
          obtain ⟨l1, l2⟩ := levelsFrom_primitive.1 hlv
          obtain ⟨k1, k2⟩ := hlev _ hc3
          have hff : fieldFromElement e ix D R tl.length = .ok (.primitive c p l i, ix + 1) := by
            refine fieldFromElement_ok.2 ⟨c.repetition, hc3, .inl ⟨h0, t, p, ht, hp, ?_, rfl⟩⟩
            obtain ⟨nm, fid, rp, dl, rl⟩ := c
            dsimp only at *
            subst hc1 hc2
            rw [(C53_leaf e l).2 hl, show dl = D from BitVec.eq_of_toNat_eq (by omega), show rl = R from BitVec.eq_of_toNat_eq (by omega)]
            obtain rfl : i = BitVec.ofNat 32 ix := by simpa [indexes] using hi
            rfl
          rw [hff]
          simp [indexes]
        | group e' c k fs l es' hk hlen hne hc hl hs =>
          obtain ⟨rfl, rfl⟩ : e = e' ∧ tl = es' ++ rest := by simpa using he
          obtain ⟨hc1, hc2, hc3⟩ := hc
          obtain ⟨l1, l2, l3⟩ := levelsFrom_group.1 hlv
          obtain ⟨k1, k2⟩ := hlev _ hc3
          have hpos : 0 < fs.length := List.length_pos_iff.2 hne
          have hle := flats_length hs
          have hff : fieldFromElement e ix D R (es' ++ rest).length = .ok (.group c [] l, ix) := by
            refine fieldFromElement_ok.2 ⟨c.repetition, hc3, .inr ⟨k, hk, by omega, by simp; omega, ?_, rfl⟩⟩
            obtain ⟨nm, fid, rp, dl, rl⟩ := c
            dsimp only at *
            subst hc1 hc2
            rw [(C53_group e l).2 hl, show dl = D from BitVec.eq_of_toNat_eq (by omega), show rl = R from BitVec.eq_of_toNat_eq (by omega)]
          rw [hff]
          dsimp only
          simp only [height] at hh
          rw [if_neg (by omega)]
          have hku : (asUsize32 (e.numChildren.getD 0) : Int) = k.toInt := by rw [hk, Option.getD_some]; exact asUsize32_pos (by omega)
          rw [(hloop _ hc3 (by omega) (asUsize32 (e.numChildren.getD 0)) fs rest (ix + (indexesAll fs).length)).2
            ⟨by omega, es', rfl, hs, fun f hf => by rw [k1, k2]; exact l3 f hf, by simpa [indexes] using hi, rfl, by omega⟩]
          simp [indexes]

theorem childLoop_error {rec : List Element → Nat → Except PFail (SField × List Element × Nat)} (hrec : ∀ es ix x, rec es ix = .error x → SchemaError x) :
    ∀ (n : Nat) (es : List Element) (ix : Nat) (x : PFail), childLoop rec n es ix = .error x → SchemaError x
  | 0, _, _, _, h => by cases h
  | n + 1, es, ix, x, h => by
    rw [childLoop] at h
    cases hr : rec es ix with
    | error y => rw [hr] at h; cases h; exact hrec _ _ _ hr
    | ok t =>
      obtain ⟨f, mid, ixm⟩ := t
      rw [hr] at h
      change (childLoop rec n mid ixm >>= _) = _ at h
      cases hc : childLoop rec n mid ixm with
      | error y => rw [hc] at h; cases h; exact childLoop_error hrec n _ _ _ hc
      | ok t => rw [hc] at h; cases h

/-- Whatever goes wrong is an ordinary error. -/
theorem convertInner_error (cfg : Cfg) : ∀ (n : Nat) (es : List Element) (ix : Nat) (d r nest : BitVec 8) (x : PFail),
    d.toNat ≤ nest.toNat → r.toNat ≤ nest.toNat → nest.toNat ≤ 127 → 128 ≤ n + nest.toNat →
    convertInner cfg n es ix d r nest = .error x → SchemaError x
  | 0, _, _, _, _, _, _, _, _, _, _, _ => by omega
  | n + 1, es, ix, d, r, nest, x, hd, hr, hn, hf, h => by
    cases es with
    | nil => rw [convertInner] at h; cases h; exact .inl ⟨_, rfl⟩
    | cons e tl =>
      rw [convertInner_step cfg n e tl ix d r nest hd hr hn] at h
      split at h
      · rename_i y hff; cases h; exact fieldFromElement_error hff
      · cases h
      · rename_i hff
        split at h
        · cases h; exact .inl ⟨_, rfl⟩
        · split at h
          · rename_i y hc
            cases h
            have hnest := (addU8_small cfg (a := nest) (b := 1) (by simp; omega)).2
            have h3 := addU8_small cfg (a := d) (b := if e.repetitionType.getD 0 = 1 then 1 else 0) (by split <;> simp <;> omega)
            have h4 := addU8_small cfg (a := r) (b := if e.repetitionType.getD 0 = 2 then 1 else 0) (by split <;> simp <;> omega)
            have h5 : (if e.repetitionType.getD 0 = 1 then 1 else 0 : BitVec 8).toNat ≤ 1 := by split <;> simp
            have h6 : (if e.repetitionType.getD 0 = 2 then 1 else 0 : BitVec 8).toNat ≤ 1 := by split <;> simp
            have h7 : (1 : BitVec 8).toNat = 1 := rfl
            refine childLoop_error (fun es ix y hy => convertInner_error cfg n es ix _ _ _ y ?_ ?_ ?_ ?_ hy) _ _ _ _ hc <;> omega
          · cases h

end CT.Schema
