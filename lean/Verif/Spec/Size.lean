import Verif.Spec.Encoding
/-!
# Specification: an upper bound of encoded sizes
-/
namespace CT.Spec
open CT

mutual
/-- The most bytes a value can take. -/
def maxSize : Val → Nat
  | .bool _ => 1
  | .i8 _ => 1
  | .i16 _ => 3
  | .i32 _ => 5
  | .i64 _ => 10
  | .double _ => 8
  | .binary bs => 4 + bs.length
  | .string bs => 4 + bs.length
  | .encodingSet _ => 34
  | .list vs => 5 + maxSizes vs
  | .none | .undef => 0
  | .some v => maxSize v
  | .box v => maxSize v
  | .rc _ v => maxSize v
  | .enum _ => 5
  | .struct vs => maxFields vs + 1
  | .union _ v => 4 + maxSize v + 1
/-- Of elements. -/
def maxSizes : List Val → Nat
  | [] => 0
  | v :: vs => maxSize v + maxSizes vs
/-- Of fields: up to 4 bytes for the header if the field is present. -/
def maxFields : List Val → Nat
  | [] => 0
  | v :: vs => (if present v then 4 + maxSize v else 0) + maxFields vs
end

end CT.Spec
