import Verif.Proofs.RustRun
import Verif.Spec.RustRun
/-!
# Simulation of the model by the functions of protocol.rs and uleb.rs
-/
namespace CT.Spec
theorem Tends.shift {O : Type} {run : Nat → O} {o : O} (k : Nat) (h : Tends (fun n => run (n + k)) o) : Tends run o := by
  obtain ⟨N, h⟩ := h
  refine ⟨N + k, fun n hn => ?_⟩
  have := h (n - k) (by omega)
  simp only at this
  rwa [Nat.sub_add_cancel (by omega)] at this

theorem Tends.later {O : Type} {run : Nat → O} {o : O} (k : Nat) (h : Tends run o) : Tends (fun n => run (n + k)) o := by
  obtain ⟨N, h⟩ := h
  exact ⟨N, fun n hn => h _ (by omega)⟩

theorem Tends.const {O : Type} (o : O) : Tends (fun _ => o) o := ⟨0, fun _ _ => rfl⟩

theorem Tends.map {O Q : Type} {run : Nat → O} {o : O} (f : O → Q) (h : Tends run o) : Tends (fun n => f (run n)) (f o) := by
  obtain ⟨N, h⟩ := h
  exact ⟨N, fun n hn => by simp only [h n hn]⟩

/-- A computation continued after its limit. -/
theorem Tends.then {O Q : Type} {run : Nat → O} {o : O} {q : Q} (f : Nat → O → Q) (h : Tends run o) (h' : Tends (fun n => f n o) q) : Tends (fun n => f n (run n)) q := by
  obtain ⟨N, h⟩ := h
  obtain ⟨M, h'⟩ := h'
  exact ⟨N + M, fun n hn => by simp only [h n (by omega)]; exact h' n (by omega)⟩
end CT.Spec

namespace CT.Rs
open CT CT.Spec

/-- What an expression tends to, given what the model does. Nothing is said of what diverges in the model. -/
def Goes {σ α : Type} (Inv : σ → Prop) (run : Nat → Out σ) (r : Except Fail (α × σ)) (good : α → σ → Out σ → Prop) : Prop :=
  match r with
  | .ok (a, s') => Inv s' ∧ ∃ o, good a s' o ∧ Tends run o
  | .error (.err e) => ∃ fr s', Tends run (.ret (.err (.thrift e)) fr s')
  | .error .diverge => True
  | .error f => ∃ s', Tends run (.fail f s')

/-- What a function tends to. -/
def Gives {σ α : Type} (Inv : σ → Prop) (run : Nat → FnOut σ) (r : Except Fail (α × σ)) (ok : α → V × List V) : Prop :=
  match r with
  | .ok (a, s') => Inv s' ∧ Tends run (.ret (.ok (ok a).1) (ok a).2 s')
  | .error (.err e) => ∃ args s', Tends run (.ret (.err (.thrift e)) args s')
  | .error .diverge => True
  | .error f => ∃ s', Tends run (.fail f s')

section
variable {σ α β : Type} {Inv : σ → Prop}

theorem Goes.shift {run : Nat → Out σ} {r : Except Fail (α × σ)} {good : α → σ → Out σ → Prop} (k : Nat)
    (h : Goes Inv (fun n => run (n + k)) r good) : Goes Inv run r good := by
  unfold Goes at h ⊢
  split
  · exact ⟨h.1, let ⟨o, g, t⟩ := h.2; ⟨o, g, t.shift k⟩⟩
  · exact let ⟨fr, s', t⟩ := h; ⟨fr, s', t.shift k⟩
  · trivial
  · rename_i f _ hd
    cases f <;> simp_all <;> exact let ⟨s', t⟩ := h; ⟨s', t.shift k⟩

theorem Goes.later {run : Nat → Out σ} {r : Except Fail (α × σ)} {good : α → σ → Out σ → Prop} (k : Nat)
    (h : Goes Inv run r good) : Goes Inv (fun n => run (n + k)) r good := by
  unfold Goes at h ⊢
  split
  · exact ⟨h.1, let ⟨o, g, t⟩ := h.2; ⟨o, g, t.later k⟩⟩
  · exact let ⟨fr, s', t⟩ := h; ⟨fr, s', t.later k⟩
  · trivial
  · rename_i f _ hd
    cases f <;> simp_all <;> exact let ⟨s', t⟩ := h; ⟨s', t.later k⟩

theorem Goes.later2 {run : Nat → Out σ} {r : Except Fail (α × σ)} {good : α → σ → Out σ → Prop} (j k : Nat)
    (h : Goes Inv run r good) : Goes Inv (fun n => run (n + j + k)) r good := by
  simpa only [Nat.add_assoc] using h.later (j + k)

theorem Gives.later {run : Nat → FnOut σ} {r : Except Fail (α × σ)} {ok : α → V × List V} (k : Nat)
    (h : Gives Inv run r ok) : Gives Inv (fun n => run (n + k)) r ok := by
  unfold Gives at h ⊢
  split
  · exact ⟨h.1, h.2.later k⟩
  · exact let ⟨fr, s', t⟩ := h; ⟨fr, s', t.later k⟩
  · trivial
  · rename_i f _ hd
    cases f <;> simp_all <;> exact let ⟨s', t⟩ := h; ⟨s', t.later k⟩

theorem Gives.shift {run : Nat → FnOut σ} {r : Except Fail (α × σ)} {ok : α → V × List V} (k : Nat)
    (h : Gives Inv (fun n => run (n + k)) r ok) : Gives Inv run r ok := by
  unfold Gives at h ⊢
  split
  · exact ⟨h.1, h.2.shift k⟩
  · exact let ⟨fr, s', t⟩ := h; ⟨fr, s', t.shift k⟩
  · trivial
  · rename_i f _ hd
    cases f <;> simp_all <;> exact let ⟨s', t⟩ := h; ⟨s', t.shift k⟩

/-- An expression that is there already. -/
theorem Goes.val {good : α → σ → Out σ → Prop} {a : α} {s' : σ} {o : Out σ} (hi : Inv s') (h : good a s' o) : Goes Inv (fun _ => o) (.ok (a, s')) good :=
  ⟨hi, o, h, .const o⟩

theorem Goes.err {good : α → σ → Out σ → Prop} {e : ThriftError} {fr : Frame} {s' : σ} :
    Goes Inv (fun _ => .ret (.err (.thrift e)) fr s') (.error (.err e)) good := ⟨fr, s', .const _⟩

theorem Goes.panic {good : α → σ → Out σ → Prop} {s' : σ} : Goes Inv (fun _ => .fail .panic s') (.error .panic) good := ⟨s', .const _⟩

/-- One expression after the other. -/
theorem Goes.bind {run : Nat → Out σ} {m : Rd σ α} {f : α → Rd σ β} {s : σ} {good : α → σ → Out σ → Prop} {good' : β → σ → Out σ → Prop}
    (k : Nat → V → Frame → σ → Out σ) (h : Goes Inv run (m s) good)
    (h' : ∀ a s' o, Inv s' → good a s' o → Goes Inv (fun n => o.bind (k n)) (f a s') good') :
    Goes Inv (fun n => (run n).bind (k n)) ((m >>= f) s) good' := by
  show Goes Inv _ (Rd.bind m f s) good'
  unfold Rd.bind
  cases hm : m s with
  | ok p =>
    obtain ⟨a, s'⟩ := p
    rw [hm] at h
    obtain ⟨hi, o, g, t⟩ := h
    have := h' a s' o hi g
    simp only
    unfold Goes at this ⊢
    split <;> rename_i heq <;> rw [heq] at this
    · exact ⟨this.1, let ⟨q, g, t'⟩ := this.2; ⟨q, g, t.then (fun n o => o.bind (k n)) t'⟩⟩
    · exact let ⟨fr, s', t'⟩ := this; ⟨fr, s', t.then (fun n o => o.bind (k n)) t'⟩
    · trivial
    · rename_i f' _ hd
      cases f' <;> simp_all <;> exact let ⟨s', t'⟩ := this; ⟨s', t.then (fun n o => o.bind (k n)) t'⟩
  | error e =>
    rw [hm] at h
    simp only
    cases e with
    | err e => exact let ⟨fr, s', t⟩ := h; ⟨fr, s', t.then (fun n o => o.bind (k n)) (.const _)⟩
    | diverge => trivial
    | panic => exact let ⟨s', t⟩ := h; ⟨s', t.then (fun n o => o.bind (k n)) (.const _)⟩
    | ub => exact let ⟨s', t⟩ := h; ⟨s', t.then (fun n o => o.bind (k n)) (.const _)⟩
    | stuck => exact let ⟨s', t⟩ := h; ⟨s', t.then (fun n o => o.bind (k n)) (.const _)⟩

/-- A map on outcomes that keeps errors and failures. -/
theorem Goes.map {run : Nat → Out σ} {r : Except Fail (α × σ)} {good good' : α → σ → Out σ → Prop} (f : Out σ → Out σ)
    (he : ∀ v fr s, ∃ fr' s', f (.ret v fr s) = .ret v fr' s') (hf : ∀ e s, f (.fail e s) = .fail e s)
    (h : Goes Inv run r good) (h' : ∀ a s' o, Inv s' → good a s' o → good' a s' (f o)) : Goes Inv (fun n => f (run n)) r good' := by
  unfold Goes at h ⊢
  split
  · exact ⟨h.1, let ⟨o, g, t⟩ := h.2; ⟨f o, h' _ _ _ h.1 g, t.map f⟩⟩
  · obtain ⟨fr, s', t⟩ := h
    obtain ⟨fr', s'', e⟩ := he (.err (.thrift _)) fr s'
    exact ⟨fr', s'', e ▸ t.map f⟩
  · trivial
  · rename_i e _ hd
    cases e <;> simp_all <;> exact let ⟨s', t⟩ := h; ⟨s', by have := t.map f; rwa [hf] at this⟩

/-- The end of a scope. -/
theorem Goes.leave {run : Nat → Out σ} {r : Except Fail (α × σ)} {good good' : α → σ → Out σ → Prop}
    (h : Goes Inv run r good) (h' : ∀ a s' o, Inv s' → good a s' o → good' a s' o.leave) : Goes Inv (fun n => (run n).leave) r good' :=
  h.map Out.leave (fun _ fr s => ⟨fr.tail, s, rfl⟩) (fun _ _ => rfl) h'

/-- A round of a loop. -/
theorem Goes.again {run : Nat → Out σ} {m : Rd σ α} {f : α → Rd σ β} {s : σ} {good : α → σ → Out σ → Prop} {good' : β → σ → Out σ → Prop}
    (k : Nat → Frame → σ → Out σ) (h : Goes Inv run (m s) good)
    (h' : ∀ a s' o, Inv s' → good a s' o → Goes Inv (fun n => o.again (k n)) (f a s') good') :
    Goes Inv (fun n => (run n).again (k n)) ((m >>= f) s) good' := by
  show Goes Inv _ (Rd.bind m f s) good'
  unfold Rd.bind
  cases hm : m s with
  | ok p =>
    obtain ⟨a, s'⟩ := p
    rw [hm] at h
    obtain ⟨hi, o, g, t⟩ := h
    have := h' a s' o hi g
    simp only
    unfold Goes at this ⊢
    split <;> rename_i heq <;> rw [heq] at this
    · exact ⟨this.1, let ⟨q, g, t'⟩ := this.2; ⟨q, g, t.then (fun n o => o.again (k n)) t'⟩⟩
    · exact let ⟨fr, s', t'⟩ := this; ⟨fr, s', t.then (fun n o => o.again (k n)) t'⟩
    · trivial
    · rename_i f' _ hd
      cases f' <;> simp_all <;> exact let ⟨s', t'⟩ := this; ⟨s', t.then (fun n o => o.again (k n)) t'⟩
  | error e =>
    rw [hm] at h
    simp only
    cases e with
    | err e => exact let ⟨fr, s', t⟩ := h; ⟨fr, s', t.then (fun n o => o.again (k n)) (.const _)⟩
    | diverge => trivial
    | panic => exact let ⟨s', t⟩ := h; ⟨s', t.then (fun n o => o.again (k n)) (.const _)⟩
    | ub => exact let ⟨s', t⟩ := h; ⟨s', t.then (fun n o => o.again (k n)) (.const _)⟩
    | stuck => exact let ⟨s', t⟩ := h; ⟨s', t.then (fun n o => o.again (k n)) (.const _)⟩

/-- An expression that makes a call first. -/
theorem Gives.use {run : Nat → FnOut σ} {m : Rd σ α} {f : α → Rd σ β} {s : σ} {ok : α → V × List V} {good : β → σ → Out σ → Prop} (h : Gives Inv run (m s) ok)
    (out : Nat → Out σ)
    (h1 : ∀ a s' N, m s = .ok (a, s') → Inv s' → (∀ n, N ≤ n → run n = .ret (.ok (ok a).1) (ok a).2 s') → Goes Inv (fun n => out (n + N + 40)) (f a s') good)
    (h2 : ∀ e args s' N, (∀ n, N ≤ n → run n = .ret (.err (.thrift e)) args s') → ∃ fr s'', ∀ n, out (n + N + 40) = .ret (.err (.thrift e)) fr s'')
    (h3 : ∀ e s' N, (∀ n, N ≤ n → run n = .fail e s') → ∀ n, out (n + N + 40) = .fail e s') : Goes Inv out ((m >>= f) s) good := by
  show Goes Inv _ (Rd.bind m f s) good
  unfold Rd.bind
  have hfail : ∀ e s', Tends run (.fail e s') → ∃ s', Tends out (.fail e s') := by
    intro e s' ⟨N, t⟩
    exact ⟨s', .shift (N + 40) ⟨0, fun n _ => h3 e s' N t n⟩⟩
  cases hm : m s with
  | ok p =>
    obtain ⟨a, s'⟩ := p
    rw [hm] at h
    obtain ⟨hi, N, t⟩ := h
    exact .shift (N + 40) (h1 a s' N hm hi t)
  | error e =>
    rw [hm] at h
    cases e with
    | err e =>
      obtain ⟨args, s', N, t⟩ := h
      obtain ⟨fr, s'', q⟩ := h2 e args s' N t
      exact ⟨fr, s'', .shift (N + 40) ⟨0, fun n _ => q n⟩⟩
    | diverge => trivial
    | panic => exact let ⟨s', t⟩ := h; hfail _ s' t
    | ub => exact let ⟨s', t⟩ := h; hfail _ s' t
    | stuck => exact let ⟨s', t⟩ := h; hfail _ s' t

/-- An expression that begins with another one. -/
theorem Goes.use {run : Nat → Out σ} {r : Except Fail (α × σ)} {good good' : α → σ → Out σ → Prop} (h : Goes Inv run r good) (out : Nat → Out σ)
    (h1 : ∀ a s' o N, r = .ok (a, s') → Inv s' → good a s' o → (∀ n, N ≤ n → run n = o) → ∃ o', good' a s' o' ∧ ∀ n, out (n + N + 40) = o')
    (h2 : ∀ e fr s' N, (∀ n, N ≤ n → run n = .ret (.err (.thrift e)) fr s') → ∃ fr s'', ∀ n, out (n + N + 40) = .ret (.err (.thrift e)) fr s'')
    (h3 : ∀ e s' N, (∀ n, N ≤ n → run n = .fail e s') → ∀ n, out (n + N + 40) = .fail e s') : Goes Inv out r good' := by
  have hfail : ∀ e s', Tends run (.fail e s') → ∃ s', Tends out (.fail e s') := by
    intro e s' ⟨N, t⟩
    exact ⟨s', .shift (N + 40) ⟨0, fun n _ => h3 e s' N t n⟩⟩
  cases hm : r with
  | ok p =>
    obtain ⟨a, s'⟩ := p
    rw [hm] at h
    obtain ⟨hi, o, g, N, t⟩ := h
    obtain ⟨o', g', q⟩ := h1 a s' o N hm hi g t
    exact ⟨hi, o', g', .shift (N + 40) ⟨0, fun n _ => q n⟩⟩
  | error e =>
    rw [hm] at h
    cases e with
    | err e =>
      obtain ⟨args, s', N, t⟩ := h
      obtain ⟨fr, s'', q⟩ := h2 e args s' N t
      exact ⟨fr, s'', .shift (N + 40) ⟨0, fun n _ => q n⟩⟩
    | diverge => trivial
    | panic => exact let ⟨s', t⟩ := h; hfail _ s' t
    | ub => exact let ⟨s', t⟩ := h; hfail _ s' t
    | stuck => exact let ⟨s', t⟩ := h; hfail _ s' t

/-- The body of a function. -/
theorem Goes.finish {run : Nat → Out σ} {r : Except Fail (α × σ)} {good : α → σ → Out σ → Prop} {ok : α → V × List V} (f : Fn) (hf : f.result = true)
    (h : Goes Inv run r good) (h' : ∀ a s' o, Inv s' → good a s' o → finished f o = .ret (.ok (ok a).1) (ok a).2 s') :
    Gives Inv (fun n => finished f (run n)) r ok := by
  unfold Goes at h
  unfold Gives
  split
  · exact ⟨h.1, let ⟨o, g, t⟩ := h.2; h' _ _ _ h.1 g ▸ t.map (finished f)⟩
  · obtain ⟨fr, s', t⟩ := h
    refine ⟨(fr.headD []).map Prod.snd, s', ?_⟩
    have := t.map (finished f)
    rwa [finished_ret, hf, asReturn_err] at this
  · trivial
  · rename_i e _ hd
    cases e <;> simp_all <;> exact let ⟨s', t⟩ := h; ⟨s', t.map (finished f)⟩

/-- The body of a function ends with this value and these parameters. -/
def Done (result : Bool) (ret : Slot) (v : V) (args : List V) (s' : σ) : Out σ → Prop
  | .val w fr s'' | .ret w fr s'' => asReturn result ret w = .ok v ∧ (fr.headD []).map Prod.snd = args ∧ s'' = s'
  | _ => False

/-- A function, by its body. -/
theorem Goes.fn {ev : Nat → Expr → Frame → σ → Out σ} {r : Except Fail (α × σ)} {ok : α → V × List V} {f : Fn} {vs : List V} {s : σ} (hf : f.result = true)
    (h : Goes Inv (fun n => ev n f.body [bound f.params vs] s) r (fun a s' o => Done f.result f.ret (ok a).1 (ok a).2 s' o)) :
    Gives Inv (fun n => runFn (ev n) f vs s) r ok := by
  refine Goes.finish f hf h ?_
  intro a s' o _ h
  cases o with
  | val w fr s'' => obtain ⟨h1, h2, h3⟩ := h; subst h3; rw [finished_val, h1, h2]
  | ret w fr s'' => obtain ⟨h1, h2, h3⟩ := h; subst h3; rw [finished_ret, h1, h2]
  | brk _ _ => exact h.elim
  | fail _ _ => exact h.elim

theorem Goes.mono {run : Nat → Out σ} {r : Except Fail (α × σ)} {good good' : α → σ → Out σ → Prop} (h : Goes Inv run r good)
    (h' : ∀ a s' o, Inv s' → good a s' o → good' a s' o) : Goes Inv run r good' := by
  unfold Goes at h ⊢
  split
  · exact ⟨h.1, let ⟨o, g, t⟩ := h.2; ⟨o, h' _ _ _ h.1 g, t⟩⟩
  · exact h
  · trivial
  · rename_i e _ hd
    cases e <;> simp_all
end

/-- A function that ends with a call. -/
theorem Gives.tail {σ α : Type} {Inv : σ → Prop} {run : Nat → FnOut σ} {r : Except Fail (α × σ)} {ok ok' : α → V × List V} (h : Gives Inv run r ok) (out : Nat → FnOut σ)
    (h1 : ∀ a s' N, (∀ n, N ≤ n → run n = .ret (.ok (ok a).1) (ok a).2 s') → ∀ n, out (n + N + 40) = .ret (.ok (ok' a).1) (ok' a).2 s')
    (h2 : ∀ e args s' N, (∀ n, N ≤ n → run n = .ret (.err (.thrift e)) args s') → ∃ args s'', ∀ n, out (n + N + 40) = .ret (.err (.thrift e)) args s'')
    (h3 : ∀ e s' N, (∀ n, N ≤ n → run n = .fail e s') → ∀ n, out (n + N + 40) = .fail e s') : Gives Inv out r ok' := by
  have hfail : ∀ e s', Tends run (.fail e s') → ∃ s', Tends out (.fail e s') := by
    intro e s' ⟨N, t⟩
    exact ⟨s', .shift (N + 40) ⟨0, fun n _ => h3 e s' N t n⟩⟩
  cases hm : r with
  | ok p =>
    obtain ⟨a, s'⟩ := p
    rw [hm] at h
    obtain ⟨hi, N, t⟩ := h
    exact ⟨hi, .shift (N + 40) ⟨0, fun n _ => h1 a s' N t n⟩⟩
  | error e =>
    rw [hm] at h
    cases e with
    | err e =>
      obtain ⟨args, s', N, t⟩ := h
      obtain ⟨args, s'', q⟩ := h2 e args s' N t
      exact ⟨args, s'', .shift (N + 40) ⟨0, fun n _ => q n⟩⟩
    | diverge => trivial
    | panic => exact let ⟨s', t⟩ := h; hfail _ s' t
    | ub => exact let ⟨s', t⟩ := h; hfail _ s' t
    | stuck => exact let ⟨s', t⟩ := h; hfail _ s' t

/-- Evaluates as far as possible. -/
macro "rs_simp" "[" ls:Lean.Parser.Tactic.simpLemma,* "]" : tactic => `(tactic| simp (disch := omega) only [rs, reduceIte, Nat.reduceEqDiff, $ls,*])

/-- A call comes first: what is left is the case that it succeeds. -/
macro "rs_call" t:term:max "[" ls:Lean.Parser.Tactic.simpLemma,* "]" : tactic => `(tactic| (
  refine Gives.use $t _ ?_ ?_ ?_
  rotate_left
  · intro e args s' N h
    apply Exists.intro; apply Exists.intro; intro n
    simp (disch := omega) only [rs, reduceIte, Nat.reduceEqDiff, h, $ls,*]
    rfl
  · intro e s' N h n
    simp (disch := omega) only [rs, reduceIte, Nat.reduceEqDiff, h, $ls,*]))

/-- The function ends with a call. -/
macro "rs_tail" t:term:max "[" ls:Lean.Parser.Tactic.simpLemma,* "]" : tactic => `(tactic| (
  unfold runFn
  refine Gives.tail $t _ ?_ ?_ ?_
  · intro a s' N h n
    simp (disch := omega) only [rs, reduceIte, Nat.reduceEqDiff, h, $ls,*]
    try rfl
  · intro e args s' N h
    apply Exists.intro; apply Exists.intro; intro n
    simp (disch := omega) only [rs, reduceIte, Nat.reduceEqDiff, h, $ls,*]
    rfl
  · intro e s' N h n
    simp (disch := omega) only [rs, reduceIte, Nat.reduceEqDiff, h, $ls,*]))

/-- The end of a function. -/
macro "rs_done" : tactic => `(tactic| exact Goes.val (by assumption) (by simp [rs, Done]))

end CT.Rs
