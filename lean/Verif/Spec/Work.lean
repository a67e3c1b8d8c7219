import Verif.Model.Protocol
/-!
# Specification: inputs that refuse to be used too often
-/
namespace CT.Spec
open CT

/-- An operation with a budget: it costs one unit, and is refused with the marker `f` when nothing is left. -/
def budgetedOp {σ α : Type} (f : Fail) (x : Rd σ α) : Rd (σ × Nat) α := fun t =>
  match t.2 with
  | 0 => .error f
  | n + 1 =>
    match x t.1 with
    | .ok (a, s) => .ok (a, (s, n))
    | .error e => .error e

/-- An input of which only so many operations can be used as the budget says. -/
def budgeted {σ : Type} (I : Input σ) (f : Fail) : Input (σ × Nat) where
  size t := I.size t.1
  readByte := budgetedOp f I.readByte
  readDouble := budgetedOp f I.readDouble
  readBinary := budgetedOp f I.readBinary
  skipInteger := budgetedOp f I.skipInteger
  skipBinary := budgetedOp f I.skipBinary

end CT.Spec
