import Verif.Spec.Ops
import Verif.Spec.Delivery
import Verif.Model.Partial
/-!
# Specification: outcomes together with the value a failure leaves
-/
namespace CT.Spec
open CT

/-- The same outcome: the same value with related rests, or the same failure leaving the same value. -/
def SameLeft {σ τ α : Type} (R : σ → τ → Prop) : Except (Fail × Val) (α × σ) → Except (Fail × Val) (α × τ) → Prop
  | .ok (a, s), .ok (b, t) => a = b ∧ R s t
  | .error (e, v), .error (f, w) => e = f ∧ v = w
  | _, _ => False

/-- The outcome when the input breaks off with the error `k` instead of ending: only `UnexpectedEof` becomes `k`, and the value left is the same. -/
def BrokenLeft {σ τ α : Type} (R : σ → τ → Prop) (k : ErrorKind) : Except (Fail × Val) (α × σ) → Except (Fail × Val) (α × τ) → Prop
  | .ok (a, s), .ok (b, t) => a = b ∧ R s t
  | .error (e, v), .error (f, w) => f = (if e = .err (.io .unexpectedEof) then .err (.io k) else e) ∧ v = w
  | _, _ => False

end CT.Spec
