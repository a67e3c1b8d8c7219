import Verif.Proofs.Typed
import Verif.Props.Inputs
import Verif.Spec.Struct
/-! # The field loop and the fields met -/
namespace CT
open Spec Props

variable {σ : Type} {cfg : Cfg} {I : Input σ} (hI : Measured notDiverge I) (env : List Def)

/-- The field loop with the fuel given by the input. -/
def loopC (cfg : Cfg) (I : Input σ) (env : List Def) (name : String) (fs : List Field) (last : BitVec 16) (flags : List Bool) (vs : List Val) :
    Rd σ Val := fun s =>
  structLoop cfg I env (fillNamed cfg I env (I.size s + 1)) name fs (I.size s + 1) last flags vs s

section
include hI

theorem fillField_canon {n : Nat} {s : σ} (hn : I.size s + 1 ≤ n) (t : Ty) (v : Val) (ft : Byte) :
    fillField cfg I env (fillNamed cfg I env n) t v ft s = fillThriftField cfg I env t v ft s := by
  refine fuel_eq (x := fillField cfg I env (fillNamed cfg I env (I.size s + 1)) t v ft)
    (Sim.fillField (P := SimP.std OnlyDiverge _) (CfgSim.refl _ _) (refl_sim cfg I) env
      (Sim.fillNamed (CfgSim.refl _ _) (refl_sim cfg I) env _ _ hn) t v ft) fun h => ?_
  exact (Tri.fillField (allowed_notDiverge cfg) hI stuck_notDiverge env (I.size s)
    (Tri.fillNamed (allowed_notDiverge cfg) hI stuck_notDiverge env (I.size s + 1) (I.size s) (by omega)) t v ft).error (Nat.le_refl _) h rfl

theorem fillTy_canon {n : Nat} {s : σ} (hn : I.size s + 1 ≤ n) (t : Ty) (v : Val) :
    fillTy cfg I env (fillNamed cfg I env n) t v s = fillThrift cfg I env t v s := by
  refine fuel_eq (x := fillTy cfg I env (fillNamed cfg I env (I.size s + 1)) t v)
    (Sim.fillTy (P := SimP.std OnlyDiverge _) (CfgSim.refl _ _) (refl_sim cfg I) env
      (Sim.fillNamed (CfgSim.refl _ _) (refl_sim cfg I) env _ _ hn) t v) fun h => ?_
  exact (Tri.fillTy (allowed_notDiverge cfg) hI stuck_notDiverge env (I.size s)
    (Tri.fillNamed (allowed_notDiverge cfg) hI stuck_notDiverge env (I.size s + 1) (I.size s) (by omega)) t v).error (Nat.le_refl _) h rfl

theorem structLoop_canon {n m : Nat} {s : σ} (hn : I.size s + 1 ≤ n) (hm : I.size s + 1 ≤ m) (name : String) (fs : List Field)
    (last : BitVec 16) (flags : List Bool) (vs : List Val) :
    structLoop cfg I env (fillNamed cfg I env n) name fs m last flags vs s = loopC cfg I env name fs last flags vs s := by
  refine fuel_eq (x := structLoop cfg I env (fillNamed cfg I env (I.size s + 1)) name fs (I.size s + 1) last flags vs)
    (Sim.structLoop (P := SimP.std OnlyDiverge _) (CfgSim.refl _ _) (refl_sim cfg I) env
      (Sim.fillNamed (CfgSim.refl _ _) (refl_sim cfg I) env _ _ hn) name fs _ _ hm last flags vs) fun h => ?_
  exact (Tri.structLoop (allowed_notDiverge cfg) hI stuck_notDiverge env (n := I.size s)
    (fun m hm => Tri.fillNamed (allowed_notDiverge cfg) hI stuck_notDiverge env (I.size s + 1) m (by omega)) name fs (I.size s + 1) (I.size s)
    (Nat.le_refl _) (by omega) last flags vs).error (Nat.le_refl _) h rfl

theorem size_header {last : BitVec 16} {s s₁ : σ} {p : Byte × BitVec 16} (h : I.readFieldHeader cfg last s = .ok (p, s₁)) :
    I.size s₁ + 1 ≤ I.size s :=
  (Tri.readFieldHeader (allowed_notDiverge cfg) hI (I.size s) last).ok (Nat.le_refl _) h

theorem size_fillThriftField {t : Ty} {v v' : Val} {ft : Byte} {s s₁ : σ} (h : fillThriftField cfg I env t v ft s = .ok (v', s₁)) :
    I.size s₁ ≤ I.size s :=
  (Tri.fillField (allowed_notDiverge cfg) hI stuck_notDiverge env (I.size s)
    (Tri.fillNamed (allowed_notDiverge cfg) hI stuck_notDiverge env (I.size s + 1) (I.size s) (by omega)) t v ft).ok
    (x := fillField cfg I env (fillNamed cfg I env (I.size s + 1)) t v ft) (Nat.le_refl _) h

theorem size_skip {ft : Byte} {ins : Bool} {s s₁ : σ} {u : Unit} (h : I.skip cfg ft ins s = .ok (u, s₁)) : I.size s₁ ≤ I.size s :=
  (Tri.skip (allowed_notDiverge cfg) hI ft ins (I.size s)).ok (Nat.le_refl _) h

variable (name : String) (fs : List Field)

/-- One round of the loop. -/
theorem loopC_step {last : BitVec 16} {flags : List Bool} {vs : List Val} {s : σ} :
    loopC cfg I env name fs last flags vs s =
      match I.readFieldHeader cfg last s with
      | .error e => .error e
      | .ok ((ft, id), s₁) =>
        if ft = 0#8 then
          match firstMissing fs flags with
          | some f => .error (.err (.missingField (name ++ "::" ++ f.name)))
          | none => .ok (.struct vs, s₁)
        else
          match findField fs id with
          | some i =>
            match fs[i]?, vs[i]? with
            | some f, some v =>
              match fillThriftField cfg I env f.rustTy v ft s₁ with
              | .error e => .error e
              | .ok (v', s₂) => loopC cfg I env name fs id (if f.required then flags.set i true else flags) (vs.set i v') s₂
            | _, _ => .error .stuck
          | none =>
            match I.skip cfg ft false s₁ with
            | .error e => .error e
            | .ok (_, s₂) => loopC cfg I env name fs id flags vs s₂ := by
  conv => lhs; unfold loopC structLoop
  cases hh : I.readFieldHeader cfg last s with
  | error e => rw [Rd.bind_err hh]
  | ok p =>
    obtain ⟨⟨ft, id⟩, s₁⟩ := p
    have hs₁ := size_header hI hh
    rw [Rd.bind_ok hh]
    dsimp only
    by_cases hft : ft = 0#8
    · simp only [hft, if_true]
      cases firstMissing fs flags <;> rfl
    · simp only [hft, if_false]
      cases findField fs id with
      | some i =>
        dsimp only
        cases hf : fs[i]? with
        | none => cases vs[i]? <;> rfl
        | some f =>
          cases hv : vs[i]? with
          | none => rfl
          | some v =>
            dsimp only
            cases hfi : fillThriftField cfg I env f.rustTy v ft s₁ with
            | error e =>
              rw [← fillField_canon hI env (n := I.size s + 1) (by omega)] at hfi
              rw [Rd.bind_err hfi]
            | ok q =>
              obtain ⟨v', s₂⟩ := q
              have hs₂ := size_fillThriftField hI env hfi
              rw [← fillField_canon hI env (n := I.size s + 1) (by omega)] at hfi
              rw [Rd.bind_ok hfi]
              exact structLoop_canon hI env (by omega) (by omega) _ _ _ _ _
      | none =>
        dsimp only
        cases hsk : I.skip cfg ft false s₁ with
        | error e =>
          rw [show I.skip cfg ft false = I.skipField cfg ft from rfl] at hsk
          rw [Rd.bind_err hsk]
        | ok q =>
          obtain ⟨u, s₂⟩ := q
          have hs₂ := size_skip hI hsk
          rw [show I.skip cfg ft false = I.skipField cfg ft from rfl] at hsk
          rw [Rd.bind_ok hsk]
          exact structLoop_canon hI env (by omega) (by omega) _ _ _ _ _

/-- Reading a struct is the loop. -/
theorem fillThrift_struct {k : Nat} (hk : env[k]? = some (.struct name fs)) (vs : List Val) (s : σ) :
    fillThrift cfg I env (.named k) (.struct vs) s = loopC cfg I env name fs 0#16 (fs.map fun _ => false) vs s := by
  unfold fillThrift
  rw [fillTy, fillNamed_struct hk]
  -- one level of fuel less for the definitions inside
  rw [loopC]
  conv => lhs; unfold structLoop
  conv => rhs; unfold structLoop
  cases hh : I.readFieldHeader cfg 0#16 s with
  | error e => rw [Rd.bind_err hh, Rd.bind_err hh]
  | ok p =>
    obtain ⟨⟨ft, id⟩, s₁⟩ := p
    have hs₁ := size_header hI hh
    rw [Rd.bind_ok hh, Rd.bind_ok hh]
    dsimp only
    by_cases hft : ft = 0#8
    · simp only [hft, if_true]
    · simp only [hft, if_false]
      cases findField fs id with
      | some i =>
        dsimp only
        cases hf : fs[i]? with
        | none => cases vs[i]? <;> rfl
        | some f =>
          cases hv : vs[i]? with
          | none => rfl
          | some v =>
            dsimp only
            cases hfi : fillThriftField cfg I env f.rustTy v ft s₁ with
            | error e =>
              have h1 := hfi
              rw [← fillField_canon hI env (n := I.size s + 1) (by omega)] at hfi
              rw [← fillField_canon hI env (n := I.size s) (by omega)] at h1
              rw [Rd.bind_err hfi, Rd.bind_err h1]
            | ok q =>
              obtain ⟨v', s₂⟩ := q
              have hs₂ := size_fillThriftField hI env hfi
              have h1 := hfi
              rw [← fillField_canon hI env (n := I.size s + 1) (by omega)] at hfi
              rw [← fillField_canon hI env (n := I.size s) (by omega)] at h1
              rw [Rd.bind_ok hfi, Rd.bind_ok h1, structLoop_canon hI env (by omega) (by omega),
                structLoop_canon hI env (by omega) (by omega)]
      | none =>
        dsimp only
        cases hsk : I.skipField cfg ft s₁ with
        | error e => rw [Rd.bind_err hsk, Rd.bind_err hsk]
        | ok q =>
          obtain ⟨u, s₂⟩ := q
          have hs₂ := size_skip hI hsk
          rw [Rd.bind_ok hsk, Rd.bind_ok hsk, structLoop_canon hI env (by omega) (by omega),
              structLoop_canon hI env (by omega) (by omega)]

end

/-! ## Finding a field -/

theorem findField_some {fs : List Field} (hn : (fs.map (·.id)).Nodup) {i : Nat} {f : Field} (hf : fs[i]? = some f) :
    findField fs f.id = some i := by
  obtain ⟨hi, he⟩ := List.getElem?_eq_some_iff.1 hf
  unfold findField
  rw [List.findIdx?_eq_some_iff_getElem]
  refine ⟨hi, by simp [he], fun j hj => ?_⟩
  simp only [beq_iff_eq]
  intro h
  have := List.pairwise_iff_getElem.1 hn j i (by simpa using Nat.lt_trans hj hi) (by simpa using hi) hj
  simp only [List.getElem_map, he] at this
  exact this h

theorem findField_none {fs : List Field} {id : BitVec 16} : findField fs id = none ↔ ∀ f ∈ fs, f.id ≠ id := by
  unfold findField
  rw [List.findIdx?_eq_none_iff]
  simp

theorem findField_get {fs : List Field} {id : BitVec 16} {i : Nat} (h : findField fs id = some i) :
    ∃ f, fs[i]? = some f ∧ f.id = id := by
  unfold findField at h
  rw [List.findIdx?_eq_some_iff_getElem] at h
  obtain ⟨hi, he, _⟩ := h
  exact ⟨_, List.getElem?_eq_getElem hi, by simpa using he⟩

theorem field_unique {fs : List Field} (hn : (fs.map (·.id)).Nodup) {i j : Nat} {f g : Field} (hf : fs[i]? = some f)
    (hg : fs[j]? = some g) (h : f.id = g.id) : i = j := by
  have h1 := findField_some hn hf
  rw [h, findField_some hn hg] at h1
  exact (Option.some.inj h1).symm

theorem firstMissing_some : ∀ {fs : List Field} {flags : List Bool}, flags.length = fs.length → ∀ {i : Nat} {f : Field}, fs[i]? = some f →
    f.required = true → flags[i]? ≠ some true →
    (∀ (j : Nat) (g : Field), j < i → fs[j]? = some g → g.required = true → flags[j]? = some true) → firstMissing fs flags = some f
  | [], _, _, i, f, h, _, _, _ => by simp at h
  | g :: fs, [], hl, _, _, _, _, _, _ => by simp at hl
  | g :: fs, b :: flags, hl, i, f, hf, hr, hm, hj => by
    unfold firstMissing
    cases i with
    | zero =>
      simp at hf; subst hf
      have : b = false := by simpa using hm
      simp [hr, this]
    | succ i =>
      have hg : ¬ ((g.required && !b) = true) := by
        intro h
        rw [Bool.and_eq_true] at h
        have := hj 0 g (by omega) rfl h.1
        simp at this
        simp [this] at h
      rw [if_neg hg]
      exact firstMissing_some (by simpa using hl) (by simpa using hf) hr (by simpa using hm)
        fun j g' hlt hg' => hj (j + 1) g' (by omega) (by simpa using hg')

/-! ## The loop and the fields met -/

/-- The flags after meeting `occs`. -/
def FlagsAfter {σ : Type} (fs : List Field) (flags : List Bool) (occs : List (Occ σ)) (flags' : List Bool) : Prop :=
  flags'.length = fs.length ∧ ∀ (i : Nat) (f : Field), fs[i]? = some f → f.required = true →
    (flags'[i]? = some true ↔ flags[i]? = some true ∨ Has occs f.id)

theorem Spec.Met.length {fs : List Field} {last last' : BitVec 16} {s s' : σ} {vs vs' : List Val} {occs : List (Occ σ)}
    (h : Met cfg I env fs last s vs occs last' s' vs') : vs'.length = vs.length := by
  induction h with
  | nil => rfl
  | known _ _ _ _ _ _ _ _ _ _ _ _ _ _ _ _ _ _ _ _ _ _ ih => simpa using ih
  | unknown _ _ _ _ _ _ _ _ _ _ _ _ _ _ _ _ ih => exact ih

theorem flagsAfter_nil {fs : List Field} {flags : List Bool} (hl : flags.length = fs.length) : FlagsAfter (σ := σ) fs flags [] flags :=
  ⟨hl, fun _ _ _ _ => ⟨.inl, fun h => h.elim id fun ⟨_, ho, _⟩ => nomatch ho⟩⟩

include hI in
theorem loopC_met (name : String) {fs : List Field} (hn : (fs.map (·.id)).Nodup) {last last' : BitVec 16} {s s' : σ} {vs vs' : List Val}
    {occs : List (Occ σ)} (h : Met cfg I env fs last s vs occs last' s' vs') :
    ∀ flags, flags.length = fs.length → ∃ flags', FlagsAfter fs flags occs flags' ∧
      loopC cfg I env name fs last flags vs s = loopC cfg I env name fs last' flags' vs' s' := by
  induction h with
  | nil last s vs => exact fun flags hl => ⟨flags, flagsAfter_nil hl, rfl⟩
  | known last s vs ft id s₁ i f v v' s₂ occs last' s' vs' hh hft hf hid hv hfill hr ih =>
    intro flags hl
    obtain ⟨flags', hm, he⟩ := ih (if f.required then flags.set i true else flags) (by split <;> simp [hl])
    refine ⟨flags', ⟨hm.1, fun j g hg hr => ?_⟩, ?_⟩
    · rw [hm.2 j g hg hr]
      have hi : i < flags.length := by rw [hl]; exact (List.getElem?_eq_some_iff.1 hf).1
      by_cases hij : i = j
      · subst hij
        rw [hf] at hg; cases hg
        rw [if_pos hr, List.getElem?_set_self hi]
        exact ⟨fun _ => .inr ⟨_, List.mem_cons_self, hid.symm⟩, fun _ => .inl rfl⟩
      · have e : (if f.required then flags.set i true else flags)[j]? = flags[j]? := by
          split
          · rw [List.getElem?_set, if_neg hij]
          · rfl
        rw [e]
        refine ⟨fun h => h.imp_right fun ⟨o, ho, h⟩ => ⟨o, by simp [ho], h⟩, fun h => h.imp_right fun ⟨o, ho, h⟩ => ?_⟩
        rcases List.mem_cons.1 ho with rfl | ho
        · exact absurd (field_unique hn hf hg (hid.trans h)) hij
        · exact ⟨o, ho, h⟩
    · rw [loopC_step hI, hh]
      dsimp only
      rw [if_neg hft, ← hid, findField_some hn hf]
      dsimp only
      rw [hf, hv]
      dsimp only
      rw [hfill]
      dsimp only
      rw [hid]
      exact he
  | unknown last s vs ft id s₁ s₂ occs last' s' vs' hh hft hid hskip hr ih =>
    intro flags hl
    obtain ⟨flags', hm, he⟩ := ih flags hl
    refine ⟨flags', ⟨hm.1, fun j g hg hr => ?_⟩, ?_⟩
    · rw [hm.2 j g hg hr]
      refine ⟨fun h => h.imp_right fun ⟨o, ho, h⟩ => ⟨o, by simp [ho], h⟩, fun h => h.imp_right fun ⟨o, ho, h⟩ => ?_⟩
      rcases List.mem_cons.1 ho with rfl | ho
      · exact absurd h.symm (hid g (List.mem_of_getElem? hg))
      · exact ⟨o, ho, h⟩
    · rw [loopC_step hI, hh]
      dsimp only
      rw [if_neg hft, findField_none.2 hid]
      dsimp only
      rw [hskip]
      exact he

include hI in
/-- Whatever the loop returns comes from a sequence of fields met. -/
theorem met_of_loopC (name : String) (fs : List Field) : ∀ (n : Nat) (last : BitVec 16) (s : σ) (vs : List Val) (flags : List Bool) (v : Val)
    (s' : σ), I.size s ≤ n → loopC cfg I env name fs last flags vs s = .ok (v, s') →
    ∃ occs last₁ s₁ vs' id, Met cfg I env fs last s vs occs last₁ s₁ vs' ∧ I.readFieldHeader cfg last₁ s₁ = .ok ((0#8, id), s') ∧
      v = .struct vs' := by
  intro n
  induction n with
  | zero =>
    intro last s vs flags v s' hs h
    rw [loopC_step hI] at h
    cases hh : I.readFieldHeader cfg last s with
    | error e => rw [hh] at h; cases h
    | ok p => have := size_header hI hh; omega
  | succ n ih =>
    intro last s vs flags v s' hs h
    rw [loopC_step hI] at h
    cases hh : I.readFieldHeader cfg last s with
    | error e => rw [hh] at h; cases h
    | ok p =>
      obtain ⟨⟨ft, id⟩, s₁⟩ := p
      have hs₁ := size_header hI hh
      rw [hh] at h
      dsimp only at h
      split at h
      · rename_i hft; subst hft
        split at h
        · cases h
        · cases h
          exact ⟨[], last, s, vs, id, .nil _ _ _, hh, rfl⟩
      · rename_i hft
        split at h
        · rename_i i hi
          obtain ⟨f, hf, hid⟩ := findField_get hi
          split at h
          · rename_i f' v₁ hf' hv
            rw [hf] at hf'; cases hf'
            cases hfi : fillThriftField cfg I env f.rustTy v₁ ft s₁ with
            | error e => rw [hfi] at h; cases h
            | ok q =>
              obtain ⟨v', s₂⟩ := q
              have hs₂ := size_fillThriftField hI env hfi
              rw [hfi] at h
              obtain ⟨occs, last₁, s₃, vs', id', h1, h2, h3⟩ := ih id s₂ _ _ v s' (by omega) h
              exact ⟨_, _, _, _, _, .known _ _ _ _ _ _ _ _ _ _ _ _ _ _ _ hh hft hf hid hv hfi h1, h2, h3⟩
          · cases h
        · rename_i hi
          cases hsk : I.skip cfg ft false s₁ with
          | error e => rw [hsk] at h; cases h
          | ok q =>
            obtain ⟨u, s₂⟩ := q
            have hs₂ := size_skip hI hsk
            rw [hsk] at h
            obtain ⟨occs, last₁, s₃, vs', id', h1, h2, h3⟩ := ih id s₂ _ _ v s' (by omega) h
            exact ⟨_, _, _, _, _, .unknown _ _ _ _ _ _ _ _ _ _ _ hh hft (findField_none.1 hi) hsk h1, h2, h3⟩

include hI in
/-- Meeting fields does not enlarge the input. -/
theorem Spec.Met.size {fs : List Field} {last last' : BitVec 16} {s s' : σ} {vs vs' : List Val} {occs : List (Occ σ)}
    (h : Met cfg I env fs last s vs occs last' s' vs') : I.size s' + occs.length ≤ I.size s := by
  induction h with
  | nil => simp
  | known last s vs ft id s₁ i f v v' s₂ occs last' s' vs' hh hft hf hid hv hfill hr ih =>
    have h1 := size_header hI hh
    have h2 := size_fillThriftField hI env hfill
    simp only [List.length_cons]; omega
  | unknown last s vs ft id s₁ s₂ occs last' s' vs' hh hft hid hskip hr ih =>
    have h1 := size_header hI hh
    have h2 := size_skip hI hskip
    simp only [List.length_cons]; omega

end CT
