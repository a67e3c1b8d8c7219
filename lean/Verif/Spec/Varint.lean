import Verif.Model.Basic
/-!
# Specification: base-128 numbers and zigzag, in plain arithmetic

Independent of the model's bit operations.
-/
namespace CT.Spec
open CT

/-- The base-128 digits of `n`, least significant first, continuation bit (128) on all but the last. -/
def varint (n : Nat) : Bytes :=
  if n < 128 then [BitVec.ofNat 8 n] else BitVec.ofNat 8 (n % 128 + 128) :: varint (n / 128)

/-- A terminated varint: bytes `≥ 128`, then one byte `< 128`. -/
def IsVarint : Bytes → Prop
  | [] => False
  | [b] => b.toNat < 128
  | b :: bs => 128 ≤ b.toNat ∧ IsVarint bs

/-- `IsVarint` is decidable. -/
def decIsVarint : (bs : Bytes) → Decidable (IsVarint bs)
  | [] => isFalse id
  | [b] => inferInstanceAs (Decidable (b.toNat < 128))
  | b :: c :: cs => @instDecidableAnd (128 ≤ b.toNat) (IsVarint (c :: cs)) inferInstance (decIsVarint (c :: cs))

instance : DecidablePred IsVarint := decIsVarint

/-- The number denoted by a digit sequence: `Σ digitᵢ * 128 ^ i`. -/
def leb : Bytes → Nat
  | [] => 0
  | b :: bs => b.toNat % 128 + 128 * leb bs

/-- Zigzag on mathematical integers. -/
def zigzag (n : Int) : Nat := if 0 ≤ n then (2 * n).toNat else (-2 * n - 1).toNat

end CT.Spec
