import Verif.Model.Debug
import Verif.Model.Derived
/-!
# Specification: what the text of a value shows
-/
namespace CT.Spec
open CT

mutual
/-- The value without what no text shows: who shares it, and which NaN a number is. -/
def visible : Val → Val
  | .double x => .double (if f64Num x = none then 0x7FF8000000000000#64 else x)
  | .list vs => .list (visibleAll vs)
  | .some v => .some (visible v)
  | .box v => .box (visible v)
  | .rc _ v => .rc false (visible v)
  | .struct vs => .struct (visibleAll vs)
  | .union i v => .union i (visible v)
  | v => v
/-- `visible` on lists -/
def visibleAll : List Val → List Val
  | [] => []
  | v :: vs => visible v :: visibleAll vs
end

/-- Bytes of identifiers: letters, digits, underscores, and everything outside of ASCII. -/
def IdentByte (b : Byte) : Prop :=
  (48 ≤ b.toNat ∧ b.toNat ≤ 57) ∨ (65 ≤ b.toNat ∧ b.toNat ≤ 90) ∨ b.toNat = 95 ∨ (97 ≤ b.toNat ∧ b.toNat ≤ 122) ∨ 128 ≤ b.toNat

instance (b : Byte) : Decidable (IdentByte b) := by unfold IdentByte; infer_instance

/-- The text of an identifier -/
def IdentBytes (bs : Bytes) : Prop := bs ≠ [] ∧ ∀ b ∈ bs, IdentByte b

/-- What Rust guarantees of the text of an `f64`: digits, letters, `.` and `-`, and that different numbers have different texts. -/
structure StdOk (s : DebugStd) : Prop where
  ne : ∀ x, s.f64 x ≠ []
  bytes : ∀ x, ∀ b ∈ s.f64 x, IdentByte b ∨ b = 46#8 ∨ b = 45#8
  inj : ∀ x y, s.f64 x = s.f64 y → x = y ∨ (f64Num x = none ∧ f64Num y = none)

/-- The names of a definition are identifiers, and the variants of a union have different names. -/
def DefNamesOk : Def → Prop
  | .struct name fs => IdentBytes (identText name) ∧ ∀ f ∈ fs, IdentBytes (identText f.name)
  | .union name us => IdentBytes (identText name) ∧ (∀ u ∈ us, IdentBytes (identText u.name)) ∧ (us.map fun u => identText u.name).Nodup
  | .enum name => IdentBytes (identText name)

end CT.Spec
