import Verif.Model.Types
/-! Evaluation lemmas for the reading and writing monads. -/
namespace CT

namespace Rd
variable {σ α β : Type}

@[simp] theorem of_apply (f : σ → Except Fail (α × σ)) (s : σ) : Rd.of f s = f s := rfl
@[simp] theorem pure_apply (a : α) (s : σ) : (pure a : Rd σ α) s = .ok (a, s) := rfl
@[simp] theorem throw_apply (e : ThriftError) (s : σ) : (Rd.throw e : Rd σ α) s = .error (.err e) := rfl
@[simp] theorem fail_apply (e : Fail) (s : σ) : (Rd.fail e : Rd σ α) s = .error e := rfl

theorem bind_apply (x : Rd σ α) (f : α → Rd σ β) (s : σ) :
    (x >>= f) s = match x s with
      | .error e => .error e
      | .ok (a, s') => f a s' := rfl

theorem bind_ok {x : Rd σ α} {f : α → Rd σ β} {s s' : σ} {a : α} (h : x s = .ok (a, s')) :
    (x >>= f) s = f a s' := by rw [bind_apply, h]

theorem bind_err {x : Rd σ α} {f : α → Rd σ β} {s : σ} {e : Fail} (h : x s = .error e) :
    (x >>= f) s = .error e := by rw [bind_apply, h]

@[simp] theorem ite_apply' {c : Prop} [Decidable c] (x y : Rd σ α) (s : σ) :
    (if c then x else y) s = if c then x s else y s := by split <;> rfl

theorem bind_eq_ok {x : Rd σ α} {f : α → Rd σ β} {s s' : σ} {b : β} :
    (x >>= f) s = .ok (b, s') ↔ ∃ a t, x s = .ok (a, t) ∧ f a t = .ok (b, s') := by
  rw [bind_apply]
  cases h : x s with
  | error e => simp
  | ok p =>
    obtain ⟨a, t⟩ := p
    simp only [Except.ok.injEq, Prod.mk.injEq]
    exact ⟨fun h => ⟨a, t, ⟨rfl, rfl⟩, h⟩, by rintro ⟨_, _, ⟨rfl, rfl⟩, h⟩; exact h⟩

theorem bind_eq_error {x : Rd σ α} {f : α → Rd σ β} {s : σ} {e : Fail} :
    (x >>= f) s = .error e ↔ x s = .error e ∨ ∃ a t, x s = .ok (a, t) ∧ f a t = .error e := by
  rw [bind_apply]
  cases h : x s with
  | error e => simp
  | ok p =>
    obtain ⟨a, t⟩ := p
    simp only [Except.ok.injEq, Prod.mk.injEq, reduceCtorEq, false_or]
    exact ⟨fun h => ⟨a, t, ⟨rfl, rfl⟩, h⟩, by rintro ⟨_, _, ⟨rfl, rfl⟩, h⟩; exact h⟩

end Rd

namespace Wr
variable {τ α β : Type}

@[simp] theorem pure_apply (a : α) (t : τ) : (pure a : Wr τ α) t = (.ok a, t) := rfl
@[simp] theorem throw_apply (e : ThriftError) (t : τ) : (Wr.throw e : Wr τ α) t = (.error (.err e), t) := rfl
@[simp] theorem fail_apply (e : Fail) (t : τ) : (Wr.fail e : Wr τ α) t = (.error e, t) := rfl

theorem bind_apply (x : Wr τ α) (f : α → Wr τ β) (t : τ) :
    (x >>= f) t = match x t with
      | (.error e, t') => (.error e, t')
      | (.ok a, t') => f a t' := rfl

theorem bind_ok {x : Wr τ α} {f : α → Wr τ β} {t t' : τ} {a : α} (h : x t = (.ok a, t')) :
    (x >>= f) t = f a t' := by rw [bind_apply, h]

theorem bind_err {x : Wr τ α} {f : α → Wr τ β} {t t' : τ} {e : Fail} (h : x t = (.error e, t')) :
    (x >>= f) t = (.error e, t') := by rw [bind_apply, h]

@[simp] theorem ite_apply' {c : Prop} [Decidable c] (x y : Wr τ α) (t : τ) :
    (if c then x else y) t = if c then x t else y t := by split <;> rfl

end Wr
end CT
