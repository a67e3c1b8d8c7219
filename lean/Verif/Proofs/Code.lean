import Verif.Model.Code
import Verif.Proofs.Partial
/-! # The code of the templates and the model -/
namespace CT.Code
open CT

section
variable {σ α β γ : Type}

theorem pure_bind (a : α) (f : α → Fl σ β) : (pure a >>= f) = f a := rfl

theorem bind_assoc (x : Fl σ α) (f : α → Fl σ β) (g : β → Fl σ γ) : (x >>= f) >>= g = x >>= fun a => f a >>= g := by
  funext s
  show Fl.bind (Fl.bind x f) g s = Fl.bind x (fun a => Fl.bind (f a) g) s
  unfold Fl.bind
  cases x s with
  | error e => rfl
  | ok p => rfl

theorem keep_fail_bind (v : Val) (e : Fail) (f : α → Fl σ β) : (Fl.keep v (Rd.fail e) >>= f) = Fl.keep v (Rd.fail e) := rfl
theorem keep_throw_bind (v : Val) (e : ThriftError) (f : α → Fl σ β) : (Fl.keep v (Rd.throw e) >>= f) = Fl.keep v (Rd.throw e) := rfl
theorem crash_bind (fr : Frame) (e : Fail) (f : α → Fl σ β) : (crash fr e >>= f) = crash fr e := rfl

theorem of_bind (f : σ → Except (Fail × Val) (α × σ)) (g : α → Fl σ β) : (Fl.of f >>= g) = fun s => Fl.bind f g s := rfl

theorem ite_bind {c : Prop} [Decidable c] (x y : Fl σ α) (f : α → Fl σ β) : (if c then x else y) >>= f = if c then x >>= f else y >>= f := by
  split <;> rfl
end

theorem get_put {l : Locals} {x : Ident} {w : Local} (h : l.get x = some w) (v : Local) (z : Ident) :
    (l.put x v).get z = if x = z then some v else l.get z := by
  induction l with
  | nil => simp [Locals.get] at h
  | cons p l ih =>
    obtain ⟨y, u⟩ := p
    simp only [Locals.put, Locals.get] at h ⊢
    by_cases hy : y = x
    · subst hy; simp only [if_pos]; simp only [Locals.get]; split <;> simp_all
    · rw [if_neg hy] at h ⊢
      simp only [Locals.get]
      rw [ih h]
      by_cases hz : y = z
      · subst hz; simp only [if_pos]; rw [if_neg (fun e => hy e.symm)]
      · rw [if_neg hz, if_neg hz]

/-- The names of a style do not clash. -/
structure Clean (y : Style) : Prop where
  own : ∀ {a b}, y.own a = y.own b → a = b
  flag : ∀ {a b}, y.flag a = y.flag b → a = b
  apart : ∀ (f x), x = "input" ∨ x = "last_field_id" ∨ x = "field_type" → y.flag f ≠ y.own x

theorem clean_macro : Clean .macro where
  own h := by injection h
  flag h := by injection h
  apart f x _ h := by injection h with _ h; cases h

theorem clean_generator : Clean .generator where
  own h := by injection h
  flag {a b} h := by
    injection h with h
    have := congrArg String.toList h
    simp only [String.toList_append] at this
    exact String.ext (by simpa using this)
  apart f x hx h := by
    injection h with h
    have := congrArg (fun s => s.toList.getLast?) h
    rcases hx with rfl | rfl | rfl <;> simp at this

section
variable {σ : Type} {cfg : Cfg} {I : Input σ} {env : List Def} {fillN : Nat → Val → Fl σ Val} {y : Style}

/-- The variables at the head of the loop. -/
structure Good (y : Style) (fs : List Field) (fr : Frame) (last : BitVec 16) (flags : List Bool) (vs : List Val) : Prop where
  input : fr.locals.get (y.own "input") = some .input
  last : fr.locals.get (y.own "last_field_id") = some (.i16 last)
  flag : ∀ (i : Nat) (f : Field), fs[i]? = some f → f.required = true → ∃ b, flags[i]? = some b ∧ fr.locals.get (y.flag f.name) = some (.bool b)
  self : fr.self = .struct vs
  len : flags.length = fs.length

theorem exec_checks {d : Def} (name : String) (fr : Frame) : ∀ (gs : List Field) (fl : List Bool),
    (∀ (i : Nat) (f : Field), gs[i]? = some f → f.required = true → ∃ b, fl[i]? = some b ∧ fr.locals.get (y.flag f.name) = some (.bool b)) →
    fl.length = gs.length → exec cfg I env fillN d (y.checks name gs) fr = match firstMissing gs fl with
      | some f => Fl.keep fr.self (Rd.throw (.missingField (name ++ "::" ++ f.name)))
      | none => pure (.next, fr) := by
  intro gs
  induction gs with
  | nil => intro fl _ _; cases fl <;> simp [Style.checks, exec, firstMissing]
  | cons f gs ih =>
    intro fl h hl
    cases fl with
    | nil => simp at hl
    | cons b fl =>
      have ih' := ih fl (fun i g hg hr => by simpa using h (i + 1) g (by simpa using hg) hr) (by simpa using hl)
      simp only [Style.checks, exec, firstMissing]
      by_cases hr : f.required = true
      · obtain ⟨b', hb, hg⟩ := h 0 f rfl hr
        simp at hb; subst hb
        rw [if_pos hr]
        simp only [exec, test, hg, pure_bind, hr, Bool.true_and]
        cases b with
        | false => simp only [Bool.not_false, if_true]; rfl
        | true => simp only [Bool.not_true, Bool.false_eq_true, if_false, pure_bind]; exact ih'
      · rw [if_neg hr]
        simp only [Bool.not_eq_true] at hr
        simp only [exec, pure_bind, hr, Bool.false_and, Bool.false_eq_true, if_false]
        exact ih'

theorem exec_fieldArms {d : Def} (fr : Frame) (n : BitVec 16) : ∀ gs : List Field,
    execArms cfg I env fillN d (y.fieldArms gs) n fr = match findField gs n with
      | some i => match gs[i]? with
        | some f => exec cfg I env fillN d (y.fieldArm f) fr
        | none => crash fr .stuck
      | none => exec cfg I env fillN d (.skip (y.own "input") (y.own "field_type")) fr := by
  intro gs
  induction gs with
  | nil => simp [Style.fieldArms, execArms, findField]
  | cons f gs ih =>
    simp only [Style.fieldArms, execArms]
    by_cases h : n = f.id
    · subst h
      simp [findField, List.findIdx?_cons]
    · rw [if_neg h, ih]
      have : (f.id == n) = false := by simpa using fun e => h e.symm
      simp only [findField, List.findIdx?_cons, this, Bool.false_eq_true, if_false]
      cases List.findIdx? (fun f => f.id == n) gs <;> simp

theorem findIdx_name {fs : List Field} (hn : (fs.map (·.name)).Nodup) : ∀ {i : Nat} {f : Field}, fs[i]? = some f →
    fs.findIdx? (fun g => g.name == f.name) = some i := by
  induction fs with
  | nil => intro i f h; simp at h
  | cons g fs ih =>
    intro i f h
    simp only [List.map_cons, List.nodup_cons] at hn
    cases i with
    | zero => simp at h; subst h; simp [List.findIdx?_cons]
    | succ i =>
      simp at h
      have hne : (g.name == f.name) = false := by
        simp only [beq_eq_false_iff_ne, ne_eq]
        intro e
        exact hn.1 (e ▸ List.mem_map.2 ⟨f, List.mem_of_getElem? h, rfl⟩)
      simp [List.findIdx?_cons, hne, ih hn.2 h]

theorem name_index {fs : List Field} (hn : (fs.map (·.name)).Nodup) {i j : Nat} {f g : Field} (hi : fs[i]? = some f) (hj : fs[j]? = some g) (e : f.name = g.name) :
    i = j := by
  have h1 := findIdx_name hn hi
  have h2 := findIdx_name hn hj
  rw [e, h2] at h1
  exact (Option.some.inj h1).symm

/-- The frame in which an arm is executed. -/
def roundFrame (y : Style) (fr : Frame) (ft : Byte) (last : BitVec 16) : Frame :=
  { fr with locals := (y.own "field_type", .u8 ft) :: fr.locals.put (y.own "last_field_id") (.i16 last) }

theorem roundFrame_get {fs : List Field} {fr : Frame} {last : BitVec 16} {flags : List Bool} {vs : List Val} (h : Good y fs fr last flags vs)
    (ft : Byte) (last' : BitVec 16) (z : Ident) (hz : z ≠ y.own "field_type") (hz' : z ≠ y.own "last_field_id") :
    (roundFrame y fr ft last').locals.get z = fr.locals.get z := by
  simp only [roundFrame, Locals.get]
  rw [if_neg fun e => hz e.symm, get_put h.last, if_neg fun e => hz' e.symm]

theorem own_ne (hy : Clean y) {a b : String} (h : a ≠ b) : y.own a ≠ y.own b := fun e => h (hy.own e)

theorem exec_fieldArm (hy : Clean y) {nm : String} {fs : List Field} (hn : (fs.map (·.name)).Nodup) {fr : Frame} {last last' : BitVec 16} {flags : List Bool} {vs : List Val}
    (h : Good y fs fr last flags vs) (ft : Byte) {i : Nat} {f : Field} (hf : fs[i]? = some f) {β : Type} (K : Flow × Frame → Fl σ β) (K' : List Val → Fl σ β)
    (hK : ∀ vs' fr', Good y fs ⟨fr'.locals.tail, fr'.self⟩ last' (if f.required then flags.set i true else flags) vs' → K (.next, fr') = K' vs') :
    exec cfg I env fillN (.struct nm fs) (y.fieldArm f) (roundFrame y fr ft last') >>= K =
    match vs[i]? with
    | some v => Fl.part (fun w => .struct (vs.set i w)) (fillFieldP cfg I env fillN f.rustTy v ft) >>= fun v' => K' (vs.set i v')
    | none => Fl.keep (.struct vs) (Rd.fail .stuck) := by
  obtain ⟨fr1, hfr1, hin, hft, hfl, hself, htl⟩ : ∃ fr1 : Frame, exec cfg I env fillN (.struct nm fs) (if f.required then .assign (y.flag f.name) (.bool true) else .nop)
      (roundFrame y fr ft last') = pure (.next, fr1) ∧ fr1.locals.get (y.own "input") = some .input ∧ fr1.locals.get (y.own "field_type") = some (.u8 ft) ∧
      (∀ vs', Good y fs { locals := fr1.locals.tail, self := .struct vs' } last' (if f.required then flags.set i true else flags) vs') ∧
      fr1.self = .struct vs ∧ True := by
    have hin0 := roundFrame_get h ft last' (y.own "input") (own_ne hy (by decide)) (own_ne hy (by decide))
    rw [h.input] at hin0
    have hft0 : (roundFrame y fr ft last').locals.get (y.own "field_type") = some (.u8 ft) := by simp [roundFrame, Locals.get]
    have hlast : (fr.locals.put (y.own "last_field_id") (.i16 last')).get (y.own "last_field_id") = some (.i16 last') := by rw [get_put h.last, if_pos rfl]
    have hinp : (fr.locals.put (y.own "last_field_id") (.i16 last')).get (y.own "input") = some .input := by
      rw [get_put h.last, if_neg (own_ne hy (by decide)), h.input]
    have hflag : ∀ g : String, (fr.locals.put (y.own "last_field_id") (.i16 last')).get (y.flag g) = fr.locals.get (y.flag g) := by
      intro g
      rw [get_put h.last, if_neg fun e => hy.apart g "last_field_id" (by simp) e.symm]
    by_cases hr : f.required = true
    · obtain ⟨b, hb, hg⟩ := h.flag i f hf hr
      have hg' := hflag f.name
      rw [hg] at hg'
      have hput : (roundFrame y fr ft last').locals.put (y.flag f.name) (.bool true) =
          (y.own "field_type", .u8 ft) :: (fr.locals.put (y.own "last_field_id") (.i16 last')).put (y.flag f.name) (.bool true) := by
        simp only [roundFrame, Locals.put]
        rw [if_neg fun e => hy.apart f.name "field_type" (by simp) e.symm]
      refine ⟨⟨(y.own "field_type", .u8 ft) :: (fr.locals.put (y.own "last_field_id") (.i16 last')).put (y.flag f.name) (.bool true), .struct vs⟩, ?_, ?_, ?_, ?_, rfl, trivial⟩
      · rw [if_pos hr]
        simp only [exec, eval, pure_bind]
        rw [hput]
        simp only [roundFrame, h.self]
      · simp only [Locals.get]
        rw [if_neg (own_ne hy (by decide)), get_put hg', if_neg (hy.apart _ _ (by simp)), hinp]
      · simp [Locals.get]
      · intro vs'
        simp only [List.tail_cons, hr, if_true]
        refine ⟨?_, ?_, ?_, rfl, ?_⟩
        · show Locals.get _ _ = _
          rw [get_put hg', if_neg (hy.apart _ _ (by simp)), hinp]
        · show Locals.get _ _ = _
          rw [get_put hg', if_neg (hy.apart _ _ (by simp)), hlast]
        · intro j g hj hgr
          obtain ⟨b', hb', hg''⟩ := h.flag j g hj hgr
          show ∃ b, _ ∧ Locals.get _ _ = _
          rw [get_put hg', hflag, List.getElem?_set]
          by_cases hij : i = j
          · subst hij
            rw [hf] at hj; cases hj
            have := (List.getElem?_eq_some_iff.1 hb').1
            exact ⟨true, by simp [this], by simp⟩
          · refine ⟨b', by simp [hij, hb'], ?_⟩
            rw [if_neg (fun e => hij (name_index hn hf hj (hy.flag e))), hg'']
        · simp [h.len]
    · simp only [Bool.not_eq_true] at hr
      refine ⟨roundFrame y fr ft last', ?_, hin0, hft0, ?_, h.self, trivial⟩
      · rw [hr]; simp [exec]
      · intro vs'
        simp only [hr, Bool.false_eq_true, if_false, roundFrame, List.tail_cons]
        refine ⟨hinp, hlast, ?_, rfl, h.len⟩
        intro j g hj hgr
        obtain ⟨b', hb', hg''⟩ := h.flag j g hj hgr
        exact ⟨b', hb', by show Locals.get _ _ = _; rw [hflag, hg'']⟩
  simp only [Style.fieldArm, exec, hfr1, pure_bind, hin, hft, fillFieldOf, hself, findIdx_name hn hf, hf]
  cases hv : vs[i]? with
  | none => simp only [crash, keep_fail_bind, hself]
  | some v =>
    simp only [bind_assoc, pure_bind]
    congr 1
    funext v'
    exact hK _ _ (hfl _)

theorem exec_round (hy : Clean y) {d : Def} {fs : List Field} {fr : Frame} {last : BitVec 16} {flags : List Bool} {vs : List Val} (h : Good y fs fr last flags vs) :
    exec cfg I env fillN d (y.structRound fs) fr = Fl.keep (.struct vs) (I.readFieldHeader cfg last) >>= fun p =>
      if p.1 = 0#8 then pure (.brk, ⟨fr.locals.put (y.own "last_field_id") (.i16 p.2), .struct vs⟩)
      else execArms cfg I env fillN d (y.fieldArms fs) p.2 (roundFrame y fr p.1 p.2) >>= fun q => pure (q.1, { q.2 with locals := q.2.locals.tail }) := by
  simp only [Style.structRound, exec, eval, h.input, h.last, h.self, bind_assoc, pure_bind]
  congr 1
  funext p
  obtain ⟨ft, last'⟩ := p
  have hl0 : (roundFrame y fr ft last').locals.get (y.own "last_field_id") = some (.i16 last') := by
    simp only [roundFrame, Locals.get]
    rw [if_neg (own_ne hy (by decide)), get_put h.last, if_pos rfl]
  simp only [roundFrame, h.self] at hl0
  simp only [test, Locals.get, if_true, pure_bind]
  by_cases h0 : ft = 0#8
  · subst h0
    simp only [beq_self_eq_true, if_true, pure_bind, List.tail_cons]
  · have : (ft == 0#8) = false := by simpa using h0
    simp only [this, Bool.false_eq_true, if_false, pure_bind, h0]
    simp only [roundFrame, h.self]
    rw [hl0]

theorem exec_loop (hy : Clean y) {nm name : String} {fs : List Field} (hn : (fs.map (·.name)).Nodup) : ∀ (n : Nat) (fr : Frame) (last : BitVec 16) (flags : List Bool)
    (vs : List Val), Good y fs fr last flags vs →
    (repeated (exec cfg I env fillN (.struct nm fs) (y.structRound fs)) n fr >>= fun fr => exec cfg I env fillN (.struct nm fs) (y.checks name fs) fr >>= fun p =>
      (pure p.2.self : Fl σ Val)) = structLoopP cfg I env fillN name fs n last flags vs := by
  intro n
  induction n with
  | zero => intro fr last flags vs h; simp only [repeated, structLoopP, crash, keep_fail_bind, h.self]
  | succ n ih =>
    intro fr last flags vs h
    simp only [repeated, structLoopP]
    rw [exec_round hy h]
    simp only [bind_assoc]
    congr 1
    funext p
    obtain ⟨ft, last'⟩ := p
    have hlast : (fr.locals.put (y.own "last_field_id") (.i16 last')).get (y.own "last_field_id") = some (.i16 last') := by rw [get_put h.last, if_pos rfl]
    have hinp : (fr.locals.put (y.own "last_field_id") (.i16 last')).get (y.own "input") = some .input := by
      rw [get_put h.last, if_neg (own_ne hy (by decide)), h.input]
    have hflag : ∀ g : String, (fr.locals.put (y.own "last_field_id") (.i16 last')).get (y.flag g) = fr.locals.get (y.flag g) := by
      intro g
      rw [get_put h.last, if_neg fun e => hy.apart g "last_field_id" (by simp) e.symm]
    have hgood : Good y fs ⟨fr.locals.put (y.own "last_field_id") (.i16 last'), .struct vs⟩ last' flags vs :=
      ⟨hinp, hlast, fun j g hj hgr => by
        obtain ⟨b', hb', hg''⟩ := h.flag j g hj hgr
        exact ⟨b', hb', by show Locals.get _ _ = _; rw [hflag, hg'']⟩, rfl, h.len⟩
    dsimp only
    by_cases h0 : ft = 0#8
    · simp only [if_pos h0, pure_bind]
      rw [exec_checks name _ fs flags hgood.flag h.len]
      cases firstMissing fs flags <;> rfl
    · simp only [if_neg h0, bind_assoc, pure_bind]
      rw [exec_fieldArms]
      cases hf : findField fs last' with
      | none =>
        have h1 : (roundFrame y fr ft last').locals.get (y.own "input") = some .input := by
          rw [roundFrame_get h _ _ _ (own_ne hy (by decide)) (own_ne hy (by decide)), h.input]
        have h2 : (roundFrame y fr ft last').locals.get (y.own "field_type") = some (.u8 ft) := by simp [roundFrame, Locals.get]
        simp only [exec, h1, h2, bind_assoc, pure_bind]
        simp only [roundFrame, h.self, List.tail_cons]
        congr 1
        funext _
        exact ih _ _ _ _ hgood
      | some i =>
        simp only
        cases hi : fs[i]? with
        | none =>
          have := List.findIdx?_eq_some_iff_getElem.1 hf
          obtain ⟨h3, _⟩ := this
          rw [List.getElem?_eq_none_iff] at hi
          omega
        | some f =>
          rw [exec_fieldArm (cfg := cfg) (I := I) (env := env) (fillN := fillN) (nm := nm) hy hn h ft (last' := last') hi _
            (fun vs => structLoopP cfg I env fillN name fs n last' (if f.required = true then flags.set i true else flags) vs)
            (fun vs' fr' hg => ih _ _ _ _ hg)]
          cases vs[i]? <;> rfl

/-- the variables after the declaration of the flags -/
def flagLocals (y : Style) : List Field → Locals → Locals
  | [], l => l
  | f :: fs, l => flagLocals y fs (if f.required then (y.flag f.name, .bool false) :: l else l)

theorem exec_flags {d : Def} (z : Stmt) (v : Val) : ∀ (gs : List Field) (l : Locals),
    (exec cfg I env fillN d (y.flags gs z) ⟨l, v⟩ >>= fun p => (pure p.2.self : Fl σ Val)) =
      exec cfg I env fillN d z ⟨flagLocals y gs l, v⟩ >>= fun p => (pure p.2.self : Fl σ Val) := by
  intro gs
  induction gs with
  | nil => intro l; rfl
  | cons f gs ih =>
    intro l
    simp only [Style.flags, flagLocals]
    by_cases hr : f.required = true
    · simp only [hr, if_true, exec, eval, pure_bind, bind_assoc]
      exact ih _
    · simp only [hr, Bool.false_eq_true, if_false]
      exact ih _

theorem flagLocals_own (x : Ident) : ∀ (gs : List Field) (l : Locals), (∀ f ∈ gs, y.flag f.name ≠ x) → (flagLocals y gs l).get x = l.get x := by
  intro gs
  induction gs with
  | nil => intro l _; rfl
  | cons f gs ih =>
    intro l h
    simp only [flagLocals]
    rw [ih _ fun g hg => h g (List.mem_cons_of_mem _ hg)]
    split
    · simp only [Locals.get]; rw [if_neg (h f List.mem_cons_self)]
    · rfl

theorem flagLocals_flag (x : Ident) : ∀ (gs : List Field) (l : Locals), (l.get x = some (.bool false) ∨ ∃ f ∈ gs, f.required = true ∧ y.flag f.name = x) →
    (flagLocals y gs l).get x = some (.bool false) := by
  intro gs
  induction gs with
  | nil => intro l h; simpa [flagLocals] using h
  | cons f gs ih =>
    intro l h
    simp only [flagLocals]
    apply ih
    rcases h with h | ⟨g, hg, hr, rfl⟩
    · left
      split
      · simp only [Locals.get]; split
        · rfl
        · exact h
      · exact h
    · rcases List.mem_cons.1 hg with rfl | hg
      · left; simp [hr, Locals.get]
      · exact .inr ⟨g, hg, hr, rfl⟩

theorem good_start (fs : List Field) (vs : List Val) {l : Locals} (h1 : l.get (y.own "input") = some .input)
    (h2 : l.get (y.own "last_field_id") = some (.i16 0#16)) (h3 : ∀ f ∈ fs, f.required = true → l.get (y.flag f.name) = some (.bool false)) :
    Good y fs ⟨l, .struct vs⟩ 0#16 (fs.map fun _ => false) vs :=
  ⟨h1, h2, fun i f hf hr => ⟨false, by simp [hf], h3 f (List.mem_of_getElem? hf) hr⟩, rfl, by simp⟩

theorem exec_struct (hy : Clean y) {nm name : String} {fs : List Field} (hn : (fs.map (·.name)).Nodup) {l : Locals} {vs : List Val}
    (h : Good y fs ⟨l, .struct vs⟩ 0#16 (fs.map fun _ => false) vs) :
    (exec cfg I env fillN (.struct nm fs) (.seq (.loop (y.structRound fs)) (y.checks name fs)) ⟨l, .struct vs⟩ >>= fun p => (pure p.2.self : Fl σ Val)) =
      Fl.of fun s => structLoopP cfg I env fillN name fs (I.size s + 1) 0#16 (fs.map fun _ => false) vs s := by
  funext s
  simp only [exec, bind_assoc, pure_bind]
  have := congrFun (exec_loop (cfg := cfg) (I := I) (env := env) (fillN := fillN) (nm := nm) (name := name) hy hn (I.size s + 1) _ _ _ _ h) s
  exact this

theorem run_structMacro (hy : Clean y) {nm : String} {fs : List Field} (hn : (fs.map (·.name)).Nodup) (vs : List Val) :
    run cfg I env fillN (.struct nm fs) (y.own "input") (y.structFillMacro nm fs) (.struct vs) =
      Fl.of fun s => structLoopP cfg I env fillN nm fs (I.size s + 1) 0#16 (fs.map fun _ => false) vs s := by
  simp only [run, fits, if_true, Style.structFillMacro, exec, eval, pure_bind, bind_assoc]
  rw [exec_flags]
  apply exec_struct hy hn
  apply good_start
  · rw [flagLocals_own _ _ _ fun f _ => hy.apart _ _ (by simp)]
    simp only [Locals.get]
    rw [if_neg (own_ne hy (by decide)), if_pos trivial]
  · rw [flagLocals_own _ _ _ fun f _ => hy.apart _ _ (by simp)]
    simp [Locals.get]
  · intro f hf hr
    exact flagLocals_flag _ _ _ (.inr ⟨f, hf, hr, rfl⟩)

theorem run_structGenerator (hy : Clean y) {nm : String} {fs : List Field} (hn : (fs.map (·.name)).Nodup) (vs : List Val) :
    run cfg I env fillN (.struct nm fs) (y.own "input") (y.structFillGenerator nm fs) (.struct vs) =
      Fl.of fun s => structLoopP cfg I env fillN nm fs (I.size s + 1) 0#16 (fs.map fun _ => false) vs s := by
  simp only [run, fits, if_true, Style.structFillGenerator]
  rw [exec_flags]
  simp only [exec, eval, pure_bind, bind_assoc]
  have := exec_struct (cfg := cfg) (I := I) (env := env) (fillN := fillN) (nm := nm) (name := nm) (vs := vs)
    (l := (y.own "last_field_id", .i16 0#16) :: flagLocals y fs [(y.own "input", .input)]) hy hn (good_start fs vs ?_ ?_ ?_)
  · simp only [exec, bind_assoc, pure_bind] at this
    exact this
  · simp only [Locals.get]
    rw [if_neg (own_ne hy (by decide)), flagLocals_own _ _ _ fun f _ => hy.apart _ _ (by simp)]
    simp [Locals.get]
  · simp [Locals.get]
  · intro f hf hr
    simp only [Locals.get]
    rw [if_neg fun e => hy.apart f.name "last_field_id" (by simp) e.symm]
    exact flagLocals_flag _ _ _ (.inr ⟨f, hf, hr, rfl⟩)

theorem findIdx_variant {us : List Variant} (hn : (us.map (·.name)).Nodup) : ∀ {i : Nat} {f : Variant}, us[i]? = some f →
    us.findIdx? (fun g => g.name == f.name) = some i := by
  induction us with
  | nil => intro i f h; simp at h
  | cons g us ih =>
    intro i f h
    simp only [List.map_cons, List.nodup_cons] at hn
    cases i with
    | zero => simp at h; subst h; simp [List.findIdx?_cons]
    | succ i =>
      simp at h
      have hne : (g.name == f.name) = false := by
        simp only [beq_eq_false_iff_ne, ne_eq]
        intro e
        exact hn.1 (e ▸ List.mem_map.2 ⟨f, List.mem_of_getElem? h, rfl⟩)
      simp [List.findIdx?_cons, hne, ih hn.2 h]

theorem exec_variantArms {d : Def} (name : String) (fr : Frame) (n : BitVec 16) : ∀ gs : List Variant,
    execArms cfg I env fillN d (y.variantArms name gs) n fr = match gs.findIdx? (fun u => u.id == n) with
      | some i => match gs[i]? with
        | some u => exec cfg I env fillN d (.seq (.become u.name) (.fillInner u.name (y.own "input"))) fr
        | none => crash fr .stuck
      | none => Fl.keep fr.self (Rd.throw (.missingField (y.unknown name))) := by
  intro gs
  induction gs with
  | nil => simp [Style.variantArms, execArms, exec]
  | cons f gs ih =>
    simp only [Style.variantArms, execArms]
    by_cases h : n = f.id
    · subst h
      simp [List.findIdx?_cons]
    · rw [if_neg h, ih]
      have : (f.id == n) = false := by simpa using fun e => h e.symm
      simp only [List.findIdx?_cons, this, Bool.false_eq_true, if_false]
      cases List.findIdx? (fun f => f.id == n) gs <;> simp

/-- `fillUnionP` with another name in the error for unknown variants. -/
def fillUnionE (cfg : Cfg) (I : Input σ) (env : List Def) (unknown : String) (fillNamedP : Nat → Val → Fl σ Val) (us : List Variant) (v0 : Val) : Fl σ Val := do
  let (ft, id) ← Fl.keep v0 (I.readFieldHeader cfg 0#16)
  if ft = 0#8 then
    Fl.keep v0 (Rd.throw .invalidType)
  else
    match us.findIdx? (fun u => u.id == id) with
    | some i =>
      match us[i]? with
      | some u => do
        let v ← Fl.into (.union i) (fillTyP cfg I env fillNamedP u.ty (dflt env u.ty))
        let stop ← Fl.keep v I.readByte
        if stop ≠ 0#8 then Fl.keep v (Rd.throw .missingStop) else pure v
      | none => Fl.keep v0 (Rd.fail .stuck)
    | none => Fl.keep v0 (Rd.throw (.missingField unknown))

theorem fillUnionE_macro (us : List Variant) (v0 : Val) : fillUnionE cfg I env "$struct_name" fillN us v0 = fillUnionP cfg I env fillN us v0 := rfl

theorem run_union (hy : Clean y) {nm : String} {us : List Variant} (hn : (us.map (·.name)).Nodup) (j : Nat) (w : Val) :
    run cfg I env fillN (.union nm us) (y.own "input") (y.unionFill nm us) (.union j w) = fillUnionE cfg I env (y.unknown nm) fillN us (.union j w) := by
  have h1 : ∀ l : Locals, ∀ a b : Local, Locals.get ((y.own "last_field_id", a) :: (y.own "input", b) :: l) (y.own "input") = some b := by
    intro l a b
    simp only [Locals.get]; rw [if_neg (own_ne hy (by decide))]; simp
  have h2 : ∀ l : Locals, ∀ a b c : Local, Locals.get ((y.own "field_type", c) :: (y.own "last_field_id", a) :: (y.own "input", b) :: l) (y.own "input") = some b := by
    intro l a b c
    simp only [Locals.get]; rw [if_neg (own_ne hy (by decide)), if_neg (own_ne hy (by decide))]; simp
  have h3 : ∀ l : Locals, ∀ a b c : Local, Locals.get ((y.own "field_type", c) :: (y.own "last_field_id", a) :: (y.own "input", b) :: l) (y.own "last_field_id") = some a := by
    intro l a b c
    simp only [Locals.get]; rw [if_neg (own_ne hy (by decide))]; simp
  have h4 : ∀ (l : Locals) (x : Ident) (a : Local), Locals.get ((x, a) :: l) x = some a := by intro l x a; simp [Locals.get]
  have h5 : ∀ (l : Locals) (x : Ident) (a b : Local), Locals.put ((x, a) :: l) x b = (x, b) :: l := by intro l x a b; simp [Locals.put]
  simp only [run, fits, if_true, Style.unionFill, exec, eval, pure_bind, bind_assoc, h1, h4, h5, fillUnionE]
  congr 1
  funext p
  obtain ⟨ft, id⟩ := p
  simp only [test, h4, pure_bind]
  by_cases h0 : ft = 0#8
  · subst h0
    simp only [beq_self_eq_true, if_true]
    rfl
  · have : (ft == 0#8) = false := by simpa using h0
    simp only [this, Bool.false_eq_true, if_false, pure_bind, h0, h3]
    rw [exec_variantArms]
    cases hf : us.findIdx? (fun u => u.id == id) with
    | none => rfl
    | some i =>
      simp only
      cases hi : us[i]? with
      | none => rfl
      | some u =>
        simp only [exec, becomeVariant, findIdx_variant hn hi, hi, pure_bind, h2, fillInnerOf, if_true, bind_assoc]
        congr 1
        funext v
        congr 1
        funext b
        by_cases hb : b = 0#8
        · subst hb; rfl
        · have : (b != 0#8) = true := by simpa using hb
          simp only [this, if_true, hb, ne_eq, not_false_eq_true]
          rfl

theorem run_unfit {d : Def} {input : Ident} {a : Stmt} {v : Val} (h : fits d v = false) : run cfg I env fillN d input a v = Fl.keep v (Rd.fail .stuck) := by
  simp only [run, h, Bool.false_eq_true, if_false]

/-- The names of the fields of every struct and of the variants of every union differ (or the compiler refuses the code). -/
def namesDiffer (env : List Def) : Prop := ∀ d ∈ env, match d with
  | .struct _ fs => (fs.map (·.name)).Nodup
  | .union _ us => (us.map (·.name)).Nodup
  | .enum _ => True

theorem run_enum {nm : String} {input : Ident} (x : BitVec 32) : run cfg I env fillN (.enum nm) input (.readSelf input) (.enum x) =
    Fl.keep (.enum x) (I.readI32 cfg) >>= fun y => (pure (.enum y) : Fl σ Val) := by
  simp [run, fits, exec, Locals.get, bind_assoc, pure_bind]

theorem fillCode_macro (hn : namesDiffer env) : ∀ depth k v,
    fillCode cfg I env macroFill (Style.macro.own "input") depth k v = fillNamedP cfg I env depth k v := by
  intro depth
  induction depth with
  | zero => intro k v; rfl
  | succ depth ih =>
    intro k v
    have ih' : fillCode cfg I env macroFill (Style.macro.own "input") depth = fillNamedP cfg I env depth := by funext k v; exact ih k v
    simp only [fillCode, ih']
    unfold fillNamedP
    cases hk : env[k]? with
    | none => rfl
    | some d =>
      have hd := hn d (List.mem_of_getElem? hk)
      cases d with
      | struct nm fs =>
        cases v <;> first
          | exact run_unfit rfl
          | exact run_structMacro clean_macro hd _
      | union nm us =>
        cases v <;> first
          | exact run_unfit rfl
          | exact run_union clean_macro hd _ _
      | enum nm =>
        cases v <;> first
          | exact run_unfit rfl
          | exact run_enum _
end

/-! ## Writing -/
section
variable {τ : Type} {S : Sink τ} {env : List Def} {y : Style}

theorem wr_pure_bind {α β : Type} (a : α) (f : α → Wr τ β) : (pure a >>= f) = f a := rfl

theorem wr_bind_assoc {α β γ : Type} (x : Wr τ α) (f : α → Wr τ β) (g : β → Wr τ γ) : (x >>= f) >>= g = x >>= fun a => f a >>= g := by
  funext s
  show Wr.bind (Wr.bind x f) g s = Wr.bind x (fun a => Wr.bind (f a) g) s
  unfold Wr.bind
  rcases x s with ⟨e | a, t⟩ <;> rfl

theorem wr_bind_pure {x : Wr τ Unit} : (x >>= fun _ => pure ()) = x := by
  funext s
  show Wr.bind x (fun _ => Wr.pure ()) s = x s
  unfold Wr.bind
  rcases x s with ⟨e | a, t⟩ <;> rfl

/-- The statements for the fields from position `pre.length` on. -/
theorem wexec_fields (hy : Clean y) {nm : String} {fs : List Field} {vs : List Val} (hn : (fs.map (·.name)).Nodup) (hl : vs.length = fs.length) :
    ∀ (gs pre : List Field) (ws : List Val), fs = pre ++ gs → ws = vs.drop pre.length → ∀ (l : Locals) (last : BitVec 16),
    l.get (y.own "output") = some .output → l.get (y.own "last_field_id") = some (.i16 last) →
    (wexec S env (.struct nm fs) (.struct vs) (wseqs (gs.map fun f => .writeField f.name (y.own "output") f.id (y.own "last_field_id")) (.writeByte (y.own "output") 0#8)) l >>=
      fun _ => (pure () : Wr τ Unit)) = writeFields S env gs ws last >>= fun _ => S.writeByte 0#8 := by
  intro gs
  induction gs with
  | nil =>
    intro pre ws hf hw l last h1 h2
    have : ws = [] := by rw [hw]; rw [List.append_nil] at hf; subst hf; exact List.drop_eq_nil_of_le (by omega)
    subst this
    simp only [List.map_nil, wseqs, wexec, h1, wr_bind_assoc, wr_pure_bind, writeFields, wr_bind_pure]
  | cons f gs ih =>
    intro pre ws hf hw l last h1 h2
    have hi : fs[pre.length]? = some f := by rw [hf]; simp
    have hlt : pre.length < vs.length := by rw [hl]; exact (List.getElem?_eq_some_iff.1 hi).1
    have hv : vs[pre.length]? = some vs[pre.length] := List.getElem?_eq_getElem hlt
    rw [List.drop_eq_getElem_cons hlt] at hw
    subst hw
    simp only [List.map_cons, wseqs, wexec, h1, h2, writeFieldOf, findIdx_name hn hi, hi, hv, writeFields, wr_bind_assoc, wr_pure_bind]
    congr 1
    funext n'
    refine ih (pre ++ [f]) _ (by simp [hf]) (by simp) _ n' ?_ ?_
    · rw [get_put h2, if_neg (own_ne hy (by decide)), h1]
    · rw [get_put h2, if_pos rfl]

theorem wrun_struct (hy : Clean y) {nm : String} {fs : List Field} {vs : List Val} (hn : (fs.map (·.name)).Nodup) (hl : vs.length = fs.length) (always : Bool) :
    wrun S env (.struct nm fs) (.struct vs) (y.own "output") (y.structWrite always fs) = writeFields S env fs vs 0#16 >>= fun _ => S.writeByte 0#8 := by
  simp only [wrun, Style.structWrite]
  split
  · simp only [wexec, wr_bind_assoc, wr_pure_bind]
    refine wexec_fields hy hn hl fs [] vs rfl rfl _ 0#16 ?_ ?_
    · simp only [Locals.get]; rw [if_neg (own_ne hy (by decide))]; simp
    · simp [Locals.get]
  · rename_i h
    have : fs = [] := by cases fs <;> simp_all
    subst this
    have : vs = [] := by cases vs <;> simp_all
    subst this
    simp [wseqs, wexec, Locals.get, writeFields, wr_pure_bind, wr_bind_assoc, wr_bind_pure]

theorem wexec_arms {nm : String} {us : List Variant} (hn : (us.map (·.name)).Nodup) {i : Nat} {u : Variant} (hi : us[i]? = some u) (w : Val) {l : Locals} {last : BitVec 16}
    (h1 : l.get (y.own "output") = some .output) (h2 : l.get (y.own "last_field_id") = some (.i16 last)) :
    ∀ (gs pre : List Variant), us = pre ++ gs → pre.length ≤ i →
    execWArms S env (.union nm us) (.union i w) (y.writeArms gs) l = CT.writeField S env u.ty w u.id last >>= fun n' => pure (l.put (y.own "last_field_id") (.i16 n')) := by
  intro gs
  induction gs with
  | nil =>
    intro pre he hp
    rw [List.append_nil] at he; subst he
    have := (List.getElem?_eq_some_iff.1 hi).1
    omega
  | cons g gs ih =>
    intro pre he hp
    have hg : us[pre.length]? = some g := by rw [he]; simp
    simp only [Style.writeArms, execWArms, findIdx_variant hn hg, hg]
    by_cases hij : i = pre.length
    · subst hij
      rw [hg] at hi; cases hi
      simp only [if_true, h1, h2]
    · rw [if_neg hij]
      exact ih (pre ++ [g]) (by simp [he]) (by simp; omega)

theorem wrun_union (hy : Clean y) {nm : String} {us : List Variant} (hn : (us.map (·.name)).Nodup) {i : Nat} {u : Variant} (hi : us[i]? = some u) (w : Val) :
    wrun S env (.union nm us) (.union i w) (y.own "output") (y.unionWrite us) = CT.writeField S env u.ty w u.id 0#16 >>= fun _ => S.writeByte 0#8 := by
  have h1 : Locals.get [(y.own "last_field_id", .i16 0#16), (y.own "output", .output)] (y.own "output") = some .output := by
    simp only [Locals.get]; rw [if_neg (own_ne hy (by decide))]; simp
  have h2 : Locals.get [(y.own "last_field_id", .i16 0#16), (y.own "output", .output)] (y.own "last_field_id") = some (.i16 0#16) := by simp [Locals.get]
  simp only [wrun, Style.unionWrite, wexec, wexec_arms hn hi w h1 h2 us [] rfl (Nat.zero_le _), wr_bind_assoc, wr_pure_bind]
  congr 1
  funext n'
  rw [get_put h2, if_neg (own_ne hy (by decide)), h1]
  simp only [wr_bind_assoc, wr_pure_bind]
  exact wr_bind_pure
end

/-! ## Up to the name in the error for an unknown variant -/

/-- Two results are the same, but for the name in the error for a variant the union does not have. -/
def Same {α σ : Type} (env : List Def) (x y : Except (Fail × Val) (α × σ)) : Prop :=
  x = y ∨ ∃ nm us w, Def.union nm us ∈ env ∧ x = .error (.err (.missingField nm), w) ∧ y = .error (.err (.missingField "$struct_name"), w)

def Upto {α σ : Type} (env : List Def) (x y : Fl σ α) : Prop := ∀ s, Same env (x s) (y s)

section
variable {σ α β : Type} {cfg : Cfg} {I : Input σ} {env : List Def}

theorem Upto.refl (x : Fl σ α) : Upto env x x := fun _ => .inl rfl

theorem Upto.bind {x y : Fl σ α} {f g : α → Fl σ β} (h : Upto env x y) (hf : ∀ a, Upto env (f a) (g a)) : Upto env (x >>= f) (y >>= g) := by
  intro s
  show Same env (Fl.bind x f s) (Fl.bind y g s)
  unfold Fl.bind
  rcases h s with h | ⟨nm, us, w, hm, h1, h2⟩
  · rw [h]
    rcases y s with ⟨e, w⟩ | ⟨a, s'⟩
    · exact .inl rfl
    · exact hf a s'
  · rw [h1, h2]
    exact .inr ⟨nm, us, w, hm, rfl, rfl⟩

theorem Upto.part (g : Val → Val) {x y : Fl σ Val} (h : Upto env x y) : Upto env (Fl.part g x) (Fl.part g y) := by
  intro s
  unfold Fl.part
  rcases h s with h | ⟨nm, us, w, hm, h1, h2⟩
  · rw [h]; exact .inl rfl
  · rw [h1, h2]
    exact .inr ⟨nm, us, g w, hm, rfl, rfl⟩

theorem Upto.into (g : Val → Val) {x y : Fl σ Val} (h : Upto env x y) : Upto env (Fl.into g x) (Fl.into g y) :=
  (h.part g).bind fun _ => .refl _

theorem Upto.elems {x y : Fl σ Val} (h : Upto env x y) : ∀ n done, Upto env (fillElemsP x n done) (fillElemsP y n done)
  | 0, _ => .refl _
  | n + 1, _ => (h.part _).bind fun _ => Upto.elems h n _

theorem Upto.ty {a b : Nat → Val → Fl σ Val} (h : ∀ k v, Upto env (a k v) (b k v)) : ∀ t v, Upto env (fillTyP cfg I env a t v) (fillTyP cfg I env b t v) := by
  intro t
  induction t with
  | list t ih =>
    intro v
    simp only [fillTyP]
    refine .bind (.refl _) fun p => ?_
    obtain ⟨len, et⟩ := p
    dsimp only
    split
    · exact .refl _
    · split
      · exact .refl _
      · exact .elems (ih _) _ _
  | option t ih =>
    intro v
    cases v <;> first
      | exact .refl _
      | exact (ih _).into _
  | box t ih =>
    intro v
    cases v <;> first
      | exact .refl _
      | exact (ih _).into _
  | rc t ih =>
    intro v
    cases v <;> first
      | exact .refl _
      | (simp only [fillTyP]; split
         · exact .refl _
         · exact (ih _).into _)
  | named k => intro v; simp only [fillTyP]; exact h k v
  | _ => intro v; exact .refl _

theorem Upto.field {a b : Nat → Val → Fl σ Val} (h : ∀ k v, Upto env (a k v) (b k v)) : ∀ t v ft,
    Upto env (fillFieldP cfg I env a t v ft) (fillFieldP cfg I env b t v ft) := by
  intro t
  induction t with
  | bool => intro v ft; exact .refl _
  | option t ih =>
    intro v ft
    cases v <;> first
      | exact .refl _
      | exact (ih _ _).into _
  | _ =>
    intro v ft
    simp only [fillFieldP]
    split
    · exact .refl _
    · exact .ty h _ _

theorem Upto.loop {a b : Nat → Val → Fl σ Val} (h : ∀ k v, Upto env (a k v) (b k v)) (name : String) (fs : List Field) : ∀ fuel last flags vs,
    Upto env (structLoopP cfg I env a name fs fuel last flags vs) (structLoopP cfg I env b name fs fuel last flags vs)
  | 0, _, _, _ => .refl _
  | fuel + 1, last, flags, vs => by
    simp only [structLoopP]
    refine .bind (.refl _) fun p => ?_
    obtain ⟨ft, last'⟩ := p
    dsimp only
    split
    · exact .refl _
    · split
      · split
        · exact ((Upto.field h _ _ _).part _).bind fun _ => Upto.loop h name fs fuel _ _ _
        · exact .refl _
      · exact .bind (.refl _) fun _ => Upto.loop h name fs fuel _ _ _

theorem Upto.union {a b : Nat → Val → Fl σ Val} (h : ∀ k v, Upto env (a k v) (b k v)) {nm : String} {us : List Variant} (hm : Def.union nm us ∈ env) (v : Val) :
    Upto env (fillUnionE cfg I env nm a us v) (fillUnionP cfg I env b us v) := by
  simp only [fillUnionE, fillUnionP]
  refine .bind (.refl _) fun p => ?_
  obtain ⟨ft, id⟩ := p
  dsimp only
  split
  · exact .refl _
  · cases us.findIdx? (fun u => u.id == id) with
    | none => exact fun s => .inr ⟨nm, us, v, hm, rfl, rfl⟩
    | some i =>
      dsimp only
      cases us[i]? with
      | none => exact .refl _
      | some u => exact ((Upto.ty h _ _).into _).bind fun _ => .refl _

theorem fillCode_generator (hn : namesDiffer env) : ∀ depth k v,
    Upto env (fillCode cfg I env generatorFill (Style.generator.own "input") depth k v) (fillNamedP cfg I env depth k v) := by
  intro depth
  induction depth with
  | zero => intro k v; exact .refl _
  | succ depth ih =>
    intro k v
    simp only [fillCode]
    unfold fillNamedP
    cases hk : env[k]? with
    | none => exact .refl _
    | some d =>
      have hm := List.mem_of_getElem? hk
      have hd := hn d hm
      cases d with
      | struct nm fs =>
        cases v <;> first
          | (simp only [generatorFill]; rw [run_structGenerator clean_generator hd]; exact fun s => Upto.loop ih _ _ _ _ _ _ s)
          | exact fun s => .inl (congrFun (run_unfit rfl) s)
      | union nm us =>
        cases v <;> first
          | (simp only [generatorFill]; rw [run_union clean_generator hd]; exact Upto.union ih hm _)
          | exact fun s => .inl (congrFun (run_unfit rfl) s)
      | enum nm =>
        cases v <;> first
          | (simp only [generatorFill]; rw [run_enum]; exact .refl _)
          | exact fun s => .inl (congrFun (run_unfit rfl) s)
end

end CT.Code
