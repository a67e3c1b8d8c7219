import Verif.Model.Types
/-!
# Specification: equality of values up to what `==` does not see
-/
namespace CT.Spec
open CT

/-- NaN: without the sign bit, a pattern above that of infinity. -/
def IsNaN (x : BitVec 64) : Prop := 0x7FF0000000000000 < x.toNat % 0x8000000000000000

instance (x : BitVec 64) : Decidable (IsNaN x) := by unfold IsNaN; infer_instance

/-- The bit pattern of `-0.0`. -/
def negZero : BitVec 64 := 0x8000000000000000#64

mutual
/-- The doubles in a value. -/
def doubles : Val → List (BitVec 64)
  | .double x => [x]
  | .list vs => doublesList vs
  | .some v => doubles v
  | .box v => doubles v
  | .rc _ v => doubles v
  | .struct vs => doublesList vs
  | .union _ v => doubles v
  | _ => []
/-- The doubles in a list of values. -/
def doublesList : List Val → List (BitVec 64)
  | [] => []
  | v :: vs => doubles v ++ doublesList vs
end

/-- No double in the value is NaN. -/
def NoNaN (v : Val) : Prop := ∀ x ∈ doubles v, ¬ IsNaN x

mutual
/-- The value with `0.0` for `-0.0`, without reference counts. -/
def normal : Val → Val
  | .double x => .double (if x = negZero then 0#64 else x)
  | .list vs => .list (normalList vs)
  | .some v => .some (normal v)
  | .box v => .box (normal v)
  | .rc _ v => .rc false (normal v)
  | .struct vs => .struct (normalList vs)
  | .union i v => .union i (normal v)
  | v => v
/-- `normal` on lists -/
def normalList : List Val → List Val
  | [] => []
  | v :: vs => normal v :: normalList vs
end

end CT.Spec
