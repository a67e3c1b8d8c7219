import Verif.Props.ParquetSchema
import Verif.Props.Reports
import Verif.Spec.SchemaReports
/-!
# C108: which error `convert_schema` reports
-/
namespace CT.Props
open CT Spec CT.Parquet CT.Schema CT.Programs CT.Props.Programs

/-! ## One element -/

theorem repetition_unknown {e : Element} {x : PFail} (h : Repetition.ofElement e.repetitionType = .error x) :
    ∃ r, e.repetitionType = some r ∧ x = .err (.unknownType r) ∧ ¬ KnownRepetition e := by
  obtain ⟨id, h1, h2⟩ := repetition_error h
  refine ⟨id, h2, h1, ?_⟩
  rintro ⟨r, hr⟩
  rw [repetition_iff.2 hr] at h
  cases h

theorem declaredChildren_eq (e : Element) : declaredChildren e = (e.numChildren.getD 0).toInt := by
  unfold declaredChildren
  cases e.numChildren <;> simp

theorem declaredChildren_zero {e : Element} : declaredChildren e = 0 ↔ e.numChildren.getD 0 = 0 := by
  rw [declaredChildren_eq]
  constructor
  · intro h; exact BitVec.eq_of_toInt_eq (by rw [h]; rfl)
  · intro h; rw [h]; rfl

theorem toInt_outside {t : BitVec 32} (h : ∀ k : Nat, k < 8 → t ≠ BitVec.ofNat 32 k) : t.toInt < 0 ∨ 7 < t.toInt := by
  have h1 := BitVec.toInt_eq_toNat_cond t
  have h2 := t.isLt
  have h3 : ¬ t.toNat < 8 := fun hlt => h t.toNat hlt (by simp)
  split at h1 <;> omega

theorem physical_wrong {e : Element} {t : BitVec 32} {x : PFail} {opened left : Nat} (hr : KnownRepetition e) (h0 : declaredChildren e = 0) (ht : e.type_ = some t)
    (h : PhysicalType.tryFrom t e.typeLength = .error x) : ∃ y, x = .err y ∧ ElementWrong e opened left y := by
  unfold PhysicalType.tryFrom at h
  by_cases h7 : t = 7
  · subst h7
    rw [if_neg (by decide), if_neg (by decide), if_neg (by decide), if_neg (by decide), if_neg (by decide), if_neg (by decide), if_neg (by decide), if_pos rfl] at h
    cases hl : e.typeLength with
    | none => rw [hl] at h; cases h; exact ⟨_, rfl, .noLength hr h0 ht hl⟩
    | some l =>
      rw [hl] at h
      dsimp only at h
      split at h
      · rename_i hle
        cases h
        refine ⟨_, rfl, .length l hr h0 ht hl ?_⟩
        rw [BitVec.sle_eq_decide] at hle
        simpa using hle
      · cases h
  · iterate 7
      split at h
      · cases h
    cases h
    refine ⟨_, rfl, .type t hr h0 ht (toInt_outside fun k hk => ?_)⟩
    match k, hk with
    | 0, _ => assumption
    | 1, _ => assumption
    | 2, _ => assumption
    | 3, _ => assumption
    | 4, _ => assumption
    | 5, _ => assumption
    | 6, _ => assumption
    | 7, _ => exact h7

theorem fieldFromElement_wrong {e : Element} {ix : Nat} {d r : BitVec 8} {left opened : Nat} {x : PFail} (h : fieldFromElement e ix d r left = .error x) :
    ∃ y, x = .err y ∧ ElementWrong e opened left y := by
  unfold fieldFromElement at h
  cases hrep : Repetition.ofElement e.repetitionType with
  | error z =>
    rw [hrep] at h
    cases h
    obtain ⟨r, h1, h2, h3⟩ := repetition_unknown hrep
    exact ⟨_, h2, .repetition r h1 h3⟩
  | ok rep =>
    have hr : KnownRepetition e := ⟨rep, repetition_iff.1 hrep⟩
    rw [hrep] at h
    change (if e.numChildren.getD 0 = 0 then _ else if _ then _ else _) = _ at h
    by_cases h0 : e.numChildren.getD 0 = 0
    · rw [if_pos h0] at h
      have h0' := declaredChildren_zero.2 h0
      cases ht : e.type_ with
      | none => rw [ht] at h; cases h; exact ⟨_, rfl, .noType hr h0' ht⟩
      | some t =>
        rw [ht] at h
        dsimp only at h
        cases hp : PhysicalType.tryFrom t e.typeLength with
        | error z => rw [hp] at h; cases h; exact physical_wrong hr h0' ht hp
        | ok p => rw [hp] at h; cases h
    · rw [if_neg h0] at h
      split at h
      · rename_i hc
        cases h
        refine ⟨_, rfl, .children hr ?_⟩
        rw [declaredChildren_eq]
        by_cases hneg : (e.numChildren.getD 0).toInt < 0
        · exact .inl hneg
        · have := asUsize32_pos (n := e.numChildren.getD 0) (by omega)
          right
          rw [Bool.or_eq_true, decide_eq_true_eq] at hc
          rcases hc with hc | hc
          · rw [BitVec.slt_eq_decide, decide_eq_true_eq] at hc
            exact absurd hc (by simpa using hneg)
          · omega
      · cases h

/-! ## The walk through the elements -/

/-- The walk stops with this error. -/
def StopsWith (tot : List Element) (y : ParquetError) : Prop :=
  (∃ e rest n opened, SchemaAt tot (e :: rest) ((n + 1) :: opened) ∧ ElementWrong e opened.length rest.length y) ∨
  ∃ n opened, SchemaAt tot [] ((n + 1) :: opened) ∧ y = .schema "Missing schema elements"

theorem childLoop_walk {tot : List Element} {rec : List Element → Nat → Except PFail (SField × List Element × Nat)} {opened : List Nat}
    (hok : ∀ k es ix f rest ix', SchemaAt tot es ((k + 1) :: opened) → rec es ix = .ok (f, rest, ix') → SchemaAt tot rest (k :: opened))
    (herr : ∀ k es ix x, SchemaAt tot es ((k + 1) :: opened) → rec es ix = .error x → ∃ y, x = .err y ∧ StopsWith tot y) :
    ∀ k es ix, SchemaAt tot es (k :: opened) →
      (∀ fs rest ix', childLoop rec k es ix = .ok (fs, rest, ix') → SchemaAt tot rest (0 :: opened)) ∧
      ∀ x, childLoop rec k es ix = .error x → ∃ y, x = .err y ∧ StopsWith tot y := by
  intro k
  induction k with
  | zero =>
    intro es ix h
    refine ⟨fun fs rest ix' h' => ?_, fun x h' => by cases h'⟩
    cases h'
    exact h
  | succ k ih =>
    intro es ix h
    unfold childLoop
    cases hr : rec es ix with
    | error z =>
      refine ⟨fun fs rest ix' h' => (by cases h'), fun x h' => ?_⟩
      cases h'
      exact herr k es ix _ h hr
    | ok t =>
      obtain ⟨f, mid, ixm⟩ := t
      have hm := hok k es ix f mid ixm h hr
      obtain ⟨i1, i2⟩ := ih mid ixm hm
      change (∀ fs rest ix', (childLoop rec k mid ixm >>= _) = _ → _) ∧ ∀ x, (childLoop rec k mid ixm >>= _) = _ → _
      cases hc : childLoop rec k mid ixm with
      | error z =>
        refine ⟨fun fs rest ix' h' => (by cases h'), fun x h' => ?_⟩
        cases h'
        exact i2 _ hc
      | ok q =>
        obtain ⟨fs', rest', ix''⟩ := q
        refine ⟨fun fs rest ix' h' => ?_, fun x h' => by cases h'⟩
        cases h'
        exact i1 _ _ _ hc

theorem convertInner_walk (cfg : Cfg) (tot : List Element) : ∀ (n : Nat) (es : List Element) (ix : Nat) (d r nest : BitVec 8) (k : Nat) (opened : List Nat),
    d.toNat ≤ nest.toNat → r.toNat ≤ nest.toNat → nest.toNat ≤ 127 → 128 ≤ n + nest.toNat → opened.length = nest.toNat → SchemaAt tot es ((k + 1) :: opened) →
    (∀ f rest ix', convertInner cfg n es ix d r nest = .ok (f, rest, ix') → SchemaAt tot rest (k :: opened) ∧
      ∃ e tl, es = e :: tl ∧ RepetitionOf e.repetitionType f.common.repetition) ∧
    ∀ x, convertInner cfg n es ix d r nest = .error x → ∃ y, x = .err y ∧ StopsWith tot y := by
  intro n
  induction n with
  | zero => intro es ix d r nest k opened hd hr hn hf; omega
  | succ n ih =>
    intro es ix d r nest k opened hd hr hn hf ho hat
    cases es with
    | nil =>
      refine ⟨fun f rest ix' h => (by rw [convertInner] at h; cases h), fun x h => ?_⟩
      rw [convertInner] at h
      cases h
      exact ⟨_, rfl, .inr ⟨k, opened, hat, rfl⟩⟩
    | cons e tl =>
      rw [convertInner_step cfg n e tl ix d r nest hd hr hn]
      have b1 : (if e.repetitionType.getD 0 = 1 then (1 : BitVec 8) else 0).toNat ≤ 1 := by split <;> simp
      have b2 : (if e.repetitionType.getD 0 = 2 then (1 : BitVec 8) else 0).toNat ≤ 1 := by split <;> simp
      have a1 := (addU8_small cfg (a := d) (b := if e.repetitionType.getD 0 = 1 then 1 else 0) (by omega)).2
      have a2 := (addU8_small cfg (a := r) (b := if e.repetitionType.getD 0 = 2 then 1 else 0) (by omega)).2
      generalize (d + if e.repetitionType.getD 0 = 1 then 1 else 0) = D at *
      generalize (r + if e.repetitionType.getD 0 = 2 then 1 else 0) = R at *
      cases hff : fieldFromElement e ix D R tl.length with
      | error x =>
        refine ⟨fun f rest ix' h => (by cases h), fun x' h => ?_⟩
        cases h
        obtain ⟨y, h1, h2⟩ := fieldFromElement_wrong (opened := opened.length) hff
        exact ⟨y, h1, .inl ⟨e, tl, k, opened, hat, h2⟩⟩
      | ok t =>
        obtain ⟨g, ix1⟩ := t
        obtain ⟨rep, hrep, ⟨h0, t, p, ht, hp, rfl, rfl⟩ | ⟨c, hc, hc0, hcr, rfl, rfl⟩⟩ := fieldFromElement_ok.1 hff
        · refine ⟨fun f rest ix' h => ?_, fun x' h => by cases h⟩
          cases h
          exact ⟨.leaf e tl k opened hat ⟨⟨rep, hrep⟩, declaredChildren_zero.2 h0, t, p, ht, hp⟩, e, tl, rfl, hrep⟩
        · dsimp only
          have hcc : declaredChildren e = c.toInt := by unfold declaredChildren; rw [hc]
          have hu : (asUsize32 (e.numChildren.getD 0) : Int) = c.toInt := by rw [hc, Option.getD_some]; exact asUsize32_pos (by omega)
          generalize asUsize32 (e.numChildren.getD 0) = m at *
          split
          · rename_i hlt
            refine ⟨fun f rest ix' h => (by cases h), fun x' h => ?_⟩
            cases h
            exact ⟨_, rfl, .inl ⟨e, tl, k, opened, hat, .deep m ⟨rep, hrep⟩ (by omega) (by omega) (by omega) (by omega)⟩⟩
          · rename_i hlt
            have hnest : (nest + 1).toNat = nest.toNat + 1 := (addU8_small cfg (a := nest) (b := 1) (by simp; omega)).2
            have hat' : SchemaAt tot tl (m :: k :: opened) := .group e tl k m opened hat ⟨⟨rep, hrep⟩, by omega, by omega, by omega, by omega⟩
            obtain ⟨l1, l2⟩ := childLoop_walk (tot := tot) (rec := fun es index => convertInner cfg n es index D R (nest + 1)) (opened := k :: opened)
              (fun j es ix f rest ix' hs h => ((ih es ix D R (nest + 1) j (k :: opened) (by omega) (by omega) (by omega) (by omega) (by simp; omega) hs).1 f rest ix' h).1)
              (fun j es ix x hs h => (ih es ix D R (nest + 1) j (k :: opened) (by omega) (by omega) (by omega) (by omega) (by simp; omega) hs).2 x h)
              m tl _ hat'
            split
            · rename_i z hz
              refine ⟨fun f rest ix' h => (by cases h), fun x' h => ?_⟩
              cases h
              exact l2 _ hz
            · rename_i fs rest' ix'' hz
              refine ⟨fun f rest ix' h => ?_, fun x' h => by cases h⟩
              cases h
              exact ⟨.close _ _ (l1 _ _ _ hz), e, tl, rfl, hrep⟩

/-! ## The walk stops in one place -/

open Classical in
/-- The next place. -/
noncomputable def nextPlace : List Element × List Nat → Option (List Element × List Nat)
  | (rest, 0 :: opened) => some (rest, opened)
  | (e :: rest, (n + 1) :: opened) =>
    if GoodLeaf e then some (rest, n :: opened)
    else if GoodGroup e (declaredChildren e).toNat opened.length rest.length then some (rest, (declaredChildren e).toNat :: n :: opened)
    else none
  | _ => none

theorem nextPlace_leaf {e : Element} {rest : List Element} {n : Nat} {opened : List Nat} (h : GoodLeaf e) : nextPlace (e :: rest, (n + 1) :: opened) = some (rest, n :: opened) := by
  simp [nextPlace, h]

theorem nextPlace_group {e : Element} {rest : List Element} {n k : Nat} {opened : List Nat} (h : GoodGroup e k opened.length rest.length) :
    nextPlace (e :: rest, (n + 1) :: opened) = some (rest, k :: n :: opened) := by
  have h1 : ¬ GoodLeaf e := fun h' => by have := h.2.1; have := h'.2.1; have := h.2.2.1; omega
  have h2 : (declaredChildren e).toNat = k := by have := h.2.1; omega
  simp [nextPlace, h1, h2, h]

/-- After some number of steps. -/
noncomputable def placeAfter (tot : List Element) : Nat → Option (List Element × List Nat)
  | 0 => some (tot, [1])
  | n + 1 => (placeAfter tot n).bind nextPlace

theorem schemaAt_after {tot rest : List Element} {opened : List Nat} (h : SchemaAt tot rest opened) : ∃ n, placeAfter tot n = some (rest, opened) := by
  induction h with
  | start => exact ⟨0, rfl⟩
  | leaf e rest n opened h he ih => obtain ⟨m, hm⟩ := ih; exact ⟨m + 1, by rw [placeAfter, hm]; exact nextPlace_leaf he⟩
  | group e rest n k opened h he ih => obtain ⟨m, hm⟩ := ih; exact ⟨m + 1, by rw [placeAfter, hm]; exact nextPlace_group he⟩
  | close rest opened h ih => obtain ⟨m, hm⟩ := ih; exact ⟨m + 1, by rw [placeAfter, hm]; rfl⟩

theorem placeAfter_stuck {tot : List Element} {n : Nat} {p : List Element × List Nat} (h : placeAfter tot n = some p) (hp : nextPlace p = none) :
    ∀ k, placeAfter tot (n + k + 1) = none := by
  intro k
  induction k with
  | zero => rw [Nat.add_zero, placeAfter, h]; exact hp
  | succ k ih => rw [← Nat.add_assoc, placeAfter, ih]; rfl

theorem stuck_one {tot r r' : List Element} {o o' : List Nat} (h : SchemaAt tot r o) (h' : SchemaAt tot r' o') (hs : nextPlace (r, o) = none) (hs' : nextPlace (r', o') = none) :
    r = r' ∧ o = o' := by
  obtain ⟨n, hn⟩ := schemaAt_after h
  obtain ⟨m, hm⟩ := schemaAt_after h'
  rcases Nat.lt_trichotomy n m with hlt | rfl | hlt
  · have := placeAfter_stuck hn hs (m - n - 1)
    rw [show n + (m - n - 1) + 1 = m by omega, hm] at this
    cases this
  · rw [hn] at hm; cases hm; exact ⟨rfl, rfl⟩
  · have := placeAfter_stuck hm hs' (n - m - 1)
    rw [show m + (n - m - 1) + 1 = n by omega, hn] at this
    cases this

theorem wrong_stuck {e : Element} {rest : List Element} {n : Nat} {opened : List Nat} {y : ParquetError} (h : ElementWrong e opened.length rest.length y) :
    nextPlace (e :: rest, (n + 1) :: opened) = none := by
  have h1 : ¬ GoodLeaf e := by
    rintro ⟨hr, h0, t, p, ht, hp⟩
    cases h with
    | repetition _ _ h => exact h hr
    | noType _ _ h => rw [h] at ht; cases ht
    | noLength _ _ h hl => rw [h] at ht; cases ht; rw [hl] at hp; cases hp
    | length l _ _ h hl hn => rw [h] at ht; cases ht; rw [hl] at hp; cases hp; omega
    | type t' _ _ h hn =>
      rw [h] at ht
      cases ht
      generalize e.typeLength = l at hp
      cases hp <;> (revert hn; decide)
    | children _ h => omega
    | deep => omega
  have h2 : ¬ GoodGroup e (declaredChildren e).toNat opened.length rest.length := by
    rintro ⟨hr, h0, h1, h2, h3⟩
    cases h with
    | repetition _ _ h => exact h hr
    | _ => omega
  simp [nextPlace, h1, h2]

theorem wrong_one {e : Element} {a b : Nat} {y y' : ParquetError} (h : ElementWrong e a b y) (h' : ElementWrong e a b y') : y = y' := by
  cases h <;> cases h' <;> first
    | rfl
    | omega
    | exact absurd ‹KnownRepetition e› ‹¬ KnownRepetition e›
    | (simp_all; done)
    | skip
  · rename_i h1 ht _ _ h2 _
    rw [h1] at h2; cases h2; revert ht; decide
  · rename_i h1 ht _ _ _ h2 _ _
    rw [h1] at h2; cases h2; revert ht; decide

theorem missing_stuck (n : Nat) (opened : List Nat) : nextPlace ([], (n + 1) :: opened) = none := rfl

theorem root_stuck (rest : List Element) : nextPlace (rest, []) = none := by cases rest <;> rfl

/-- C108: at most one error is called for. -/
theorem C108_one {es : List Element} {x y : ParquetError} (hx : SchemaReports es x) (hy : SchemaReports es y) : x = y := by
  have hnil : ∀ {rest opened}, SchemaAt [] rest opened → nextPlace (rest, opened) = none → rest = [] ∧ opened = [1] := by
    intro rest opened h hs
    have := stuck_one h .start hs (missing_stuck 0 [])
    exact this
  cases hx with
  | empty h =>
    subst h
    cases hy with
    | empty => rfl
    | element e rest n opened _ h hw => cases (hnil h (wrong_stuck hw)).1
    | missing n opened h0 => exact absurd rfl h0
    | trailing e rest h => cases (hnil h (root_stuck _)).1
    | root e rest he => cases he
  | element e rest n opened _ h hw =>
    have hs := wrong_stuck (n := n) hw
    cases hy with
    | empty h' => subst h'; cases (hnil h hs).1
    | element e' rest' n' opened' _ h' hw' =>
      obtain ⟨h1, h2⟩ := stuck_one h h' hs (wrong_stuck hw')
      cases h1; cases h2
      exact wrong_one hw hw'
    | missing n' opened' _ h' => cases (stuck_one h h' hs (missing_stuck _ _)).1
    | trailing e' rest' h' => cases (stuck_one h h' hs (root_stuck _)).2
    | root e' rest' he h' => cases (stuck_one h h' hs (root_stuck _)).1
  | missing n opened h0 h =>
    have hs := missing_stuck n opened
    cases hy with
    | empty h' => exact absurd h' h0
    | element e' rest' n' opened' _ h' hw' => cases (stuck_one h h' hs (wrong_stuck hw')).1
    | missing => rfl
    | trailing e' rest' h' => cases (stuck_one h h' hs (root_stuck _)).1
    | root e' rest' he h' => cases (stuck_one h h' hs (root_stuck _)).2
  | trailing e rest h =>
    have hs := root_stuck (e :: rest)
    cases hy with
    | empty h' => subst h'; cases (hnil h hs).1
    | element e' rest' n' opened' _ h' hw' => cases (stuck_one h h' hs (wrong_stuck hw')).2
    | missing n' opened' _ h' => cases (stuck_one h h' hs (missing_stuck _ _)).1
    | trailing => rfl
    | root e' rest' he h' => cases (stuck_one h h' hs (root_stuck _)).1
  | root e rest he h hr =>
    have hs := root_stuck []
    cases hy with
    | empty h' => subst h'; cases he
    | element e' rest' n' opened' _ h' hw' => cases (stuck_one h h' hs (wrong_stuck hw')).1
    | missing n' opened' _ h' => cases (stuck_one h h' hs (missing_stuck _ _)).2
    | trailing e' rest' h' => cases (stuck_one h h' hs (root_stuck _)).1
    | root => rfl

/-- A list that is accepted calls for no error, and one that is not calls for the error that is reported. -/
theorem convertSchema_walk (cfg : Cfg) (es : List Element) :
    (∀ root, convertSchema cfg es = .ok root → SchemaAt es [] [] ∧ ∃ e rest, es = e :: rest ∧ RepetitionOf e.repetitionType .Required) ∧
    ∀ x, convertSchema cfg es = .error x → ∃ y, x = .err y ∧ SchemaReports es y := by
  cases es with
  | nil =>
    refine ⟨fun root h => (by cases h), fun x h => ?_⟩
    cases h
    exact ⟨_, rfl, .empty rfl⟩
  | cons e es =>
    rw [convertSchema_eq]
    obtain ⟨h1, h2⟩ := convertInner_walk cfg (e :: es) maxDepth (e :: es) 0 0 0 0 0 [] (by simp) (by simp) (by simp) (by simp [maxDepth]) rfl .start
    cases hc : convertInner cfg maxDepth (e :: es) 0 0 0 0 with
    | error x =>
      refine ⟨fun root h => (by cases h), fun x' h => ?_⟩
      cases h
      obtain ⟨y, rfl, ⟨e', rest, n, opened, ha, hw⟩ | ⟨n, opened, ha, rfl⟩⟩ := h2 _ hc
      · exact ⟨_, rfl, .element _ _ _ _ _ ha hw⟩
      · exact ⟨_, rfl, .missing _ _ (by nofun) ha⟩
    | ok t =>
      obtain ⟨root, rest, ix⟩ := t
      obtain ⟨ha, e', tl, he, hr⟩ := h1 _ _ _ hc
      cases he
      have ha : SchemaAt (e :: es) rest [] := .close _ _ ha
      dsimp only
      split
      · rename_i hne
        refine ⟨fun root h => (by cases h), fun x' h => ?_⟩
        cases h
        cases rest with
        | nil => exact absurd rfl hne
        | cons e' rest => exact ⟨_, rfl, .trailing _ _ ha⟩
      · rename_i hne
        have hne : rest = [] := Classical.not_not.1 hne
        subst hne
        split
        · rename_i hrq
          refine ⟨fun root h => (by cases h), fun x' h => ?_⟩
          cases h
          refine ⟨_, rfl, .root e es rfl ha fun hq => hrq ?_⟩
          have h1 := repetition_iff.2 hr
          rw [repetition_iff.2 hq] at h1
          exact (Except.ok.inj h1).symm
        · rename_i hrq
          refine ⟨fun r h => ?_, fun x' h => by cases h⟩
          rw [Classical.not_not.1 hrq] at hr
          exact ⟨ha, e, es, rfl, hr⟩

/-- C108: `convert_schema` reports exactly the error that the list of elements calls for. -/
theorem C108_schema (cfg : Cfg) (es : List Element) (x : ParquetError) : convertSchema cfg es = .error (.err x) ↔ SchemaReports es x := by
  constructor
  · intro h
    obtain ⟨y, hy, hr⟩ := (convertSchema_walk cfg es).2 _ h
    cases hy
    exact hr
  · intro h
    cases hc : convertSchema cfg es with
    | error z =>
      obtain ⟨y, rfl, hr⟩ := (convertSchema_walk cfg es).2 _ hc
      rw [C108_one h hr]
    | ok root =>
      obtain ⟨ha, e, rest, he, hq⟩ := (convertSchema_walk cfg es).1 _ hc
      have hs := root_stuck []
      cases h with
      | empty h => rw [h] at he; cases he
      | element e' rest' n' opened' _ h' hw' => cases (stuck_one ha h' hs (wrong_stuck hw')).1
      | missing n' opened' _ h' => cases (stuck_one ha h' hs (missing_stuck _ _)).2
      | trailing e' rest' h' => cases (stuck_one ha h' hs (root_stuck _)).1
      | root e' rest' he' h' hr => rw [he] at he'; cases he'; exact absurd hq hr

/-- C108: it is accepted exactly if going through the elements ends with nothing left and nothing open, and the root is required. -/
theorem C108_accepted (cfg : Cfg) (es : List Element) :
    (∃ root, convertSchema cfg es = .ok root) ↔ SchemaAt es [] [] ∧ ∃ e rest, es = e :: rest ∧ RepetitionOf e.repetitionType .Required := by
  constructor
  · rintro ⟨root, h⟩
    exact (convertSchema_walk cfg es).1 _ h
  · rintro ⟨ha, e, rest, he, hq⟩
    cases hc : convertSchema cfg es with
    | ok root => exact ⟨root, rfl⟩
    | error z =>
      have hs := root_stuck []
      obtain ⟨y, rfl, hr⟩ := (convertSchema_walk cfg es).2 _ hc
      cases hr with
      | empty h => rw [h] at he; cases he
      | element e' rest' n' opened' _ h' hw' => cases (stuck_one ha h' hs (wrong_stuck hw')).1
      | missing n' opened' _ h' => cases (stuck_one ha h' hs (missing_stuck _ _)).2
      | trailing e' rest' h' => cases (stuck_one ha h' hs (root_stuck _)).1
      | root e' rest' he' h' hr => rw [he] at he'; cases he'; exact absurd hq hr

/-- C108: what `schema` does with a file whose metadata can be read, in every build: the head is printed, and then the tree, or the program ends with the error
that the elements call for. -/
theorem C108_program {cfg : Cfg} (ha : ∀ n, cfg.alloc n = true) {f : File} (hq : Quiet f) {fmd : Val} {rest : Bytes}
    (hx : FileEnds cfg.sse2 cfg.overflowChecks f.data (.value fmd rest)) :
    ∃ version schema rows created elements head, MetadataFields fmd version schema rows created ∧ schema.mapM elementOfVal = some elements ∧
      HeadLines version rows created head ∧
      ((∃ root body, Flat root elements ∧ LevelsOk root ∧ IndexesOk root ∧ SchemaLines 0 [root] body ∧ schemaMain cfg (.ok f) = ⟨printed 2 (head ++ body), .ok ()⟩) ∨
       ∃ e, SchemaReports elements e ∧ schemaMain cfg (.ok f) = ⟨printed 2 head, .error (.err e)⟩) := by
  obtain ⟨y, hy, hr⟩ := readFile_ends ha hq
  obtain rfl := fileEnds_det hx hy
  have h : readFile cfg (.ok f) = .ok fmd := by
    generalize readFile cfg (.ok f) = r at hr
    cases hr
    rfl
  unfold schemaMain
  rw [h]
  have ht := readFile_typed h
  obtain ⟨v, sch, r, c, hf⟩ := typed_fields ht
  obtain ⟨es, he⟩ := typed_elements ht hf
  obtain ⟨head, hh, eh⟩ := (Text.head_iff v r c _).1 rfl
  refine ⟨v, sch, r, c, es, head, hf, he, hh, ?_⟩
  dsimp only
  rw [(fields_head hf).1, (fields_head hf).2, he]
  dsimp only
  cases hc : convertSchema cfg es with
  | ok root =>
    obtain ⟨h1, h2, h3, h4, h5⟩ := (C46_iff cfg es root).1 hc
    obtain ⟨body, hb, eb⟩ := (Text.print_iff root 0 _).1 rfl
    exact .inl ⟨root, body, h1, h2, h3, hb, by dsimp only; rw [eh, eb, Text.printed_append]⟩
  | error x =>
    obtain ⟨y, rfl, hr⟩ := (convertSchema_walk cfg es).2 _ hc
    exact .inr ⟨y, hr, by rw [← eh]⟩

/-! ## Examples -/

/-- An element: type, repetition, number of children. -/
def plainElement (t r n : Option (BitVec 32)) : Element := ⟨t, none, r, [0x61#8], n, none, none, none, none, none⟩

/-- Of an unknown repetition and a missing type of the same element, the repetition is reported; a group that lacks children; a group with more children than
elements are left, although the element after it has an unknown type; trailing elements, although the root is optional. -/
example : SchemaReports [plainElement none none (some 1#32), plainElement none (some 3#32) none] (.unknownType 3#32) ∧
    SchemaReports [plainElement none none (some 2#32), plainElement none none (some 1#32), plainElement (some 1#32) none none] (.schema "Missing schema elements") ∧
    SchemaReports [plainElement none none (some 2#32), plainElement (some 9#32) none none] (.schema "Invalid number of children") ∧
    SchemaReports [plainElement (some 1#32) (some 1#32) none, plainElement (some 9#32) none none] (.schema "Trailing schema elements after root group") ∧
    SchemaReports [plainElement (some 1#32) (some 1#32) none] (.schema "Root element must have repetition type required") := by
  have k := fun es x => (C108_schema ⟨false, false, fun _ => true⟩ es x).1
  exact ⟨k _ _ rfl, k _ _ rfl, k _ _ rfl, k _ _ rfl, k _ _ rfl⟩

/-- Directly from the specification. -/
example : SchemaReports [plainElement none none (some 1#32), plainElement none (some 3#32) none] (.unknownType 3#32) := by
  have h0 : SchemaAt [plainElement none none (some 1#32), plainElement none (some 3#32) none] [plainElement none (some 3#32) none] [1, 0] :=
    .group _ _ 0 1 [] .start ⟨⟨_, .absent⟩, rfl, by decide, by decide, by decide⟩
  exact .element _ _ 0 [0] _ h0 (.repetition _ rfl (by rintro ⟨r, h⟩; cases h))

end CT.Props
