import Verif.Model.Basic
/-!
# Specification: UTF-8, by code point arithmetic

The encoding of Unicode scalar values in the form of the Unicode standard, table 3-6.
-/
namespace CT.Spec
open CT

/-- Unicode scalar values: code points without surrogates. -/
def IsScalar (n : Nat) : Prop := n < 0xD800 ∨ (0xE000 ≤ n ∧ n < 0x110000)

instance : DecidablePred IsScalar := fun n => inferInstanceAs (Decidable (n < 0xD800 ∨ (0xE000 ≤ n ∧ n < 0x110000)))

/-- The UTF-8 bytes of a scalar value. -/
def utf8 (n : Nat) : Bytes :=
  if n < 0x80 then [BitVec.ofNat 8 n]
  else if n < 0x800 then [BitVec.ofNat 8 (0xC0 + n / 64), BitVec.ofNat 8 (0x80 + n % 64)]
  else if n < 0x10000 then
    [BitVec.ofNat 8 (0xE0 + n / 4096), BitVec.ofNat 8 (0x80 + n / 64 % 64), BitVec.ofNat 8 (0x80 + n % 64)]
  else
    [BitVec.ofNat 8 (0xF0 + n / 262144), BitVec.ofNat 8 (0x80 + n / 4096 % 64), BitVec.ofNat 8 (0x80 + n / 64 % 64),
      BitVec.ofNat 8 (0x80 + n % 64)]

/-- `bs` is the encoding of a sequence of scalar values. -/
def IsUtf8 (bs : Bytes) : Prop := ∃ ns : List Nat, (∀ n ∈ ns, IsScalar n) ∧ bs = ns.flatMap utf8

end CT.Spec
