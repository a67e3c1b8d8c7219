import Verif.Model.Derived
/-!
# Derived `Ord`, `PartialOrd`, `Hash` of enums (macros.rs:205-207)

`thrift_enum!` makes `struct Name(pub i32)` with `#[derive(Default, Debug, Copy, Clone, Eq, Hash, Ord, PartialEq, PartialOrd)]`. Modelled by the expansion the
compiler documents for a tuple struct with one field, and by the implementations of the standard library for `i32`. `Eq` has no code; `PartialEq` is `Val.eqv`
(Model/Derived.lean).
-/
namespace CT

/-- `i32::cmp`: `if *self < *other { Less } else if *self == *other { Equal } else { Greater }`, with the signed `<`. -/
def i32Cmp (a b : BitVec 32) : Ordering := if BitVec.slt a b then .lt else if a = b then .eq else .gt

/-- macros.rs:205, derived `Ord::cmp`: the only field compared. -/
def enumCmp (a b : BitVec 32) : Ordering := i32Cmp a b

/-- macros.rs:205, derived `PartialOrd::partial_cmp`: `partial_cmp` of the only field, which for `i32` is `Some(self.cmp(other))`. -/
def enumPartialCmp (a b : BitVec 32) : Option Ordering := some (i32Cmp a b)

/-- `PartialOrd::lt`, `le`, `gt`, `ge`: not overridden by the derive, so the default ones, by `partial_cmp`. -/
def enumLt (a b : BitVec 32) : Bool := enumPartialCmp a b == some .lt
def enumLe (a b : BitVec 32) : Bool := enumPartialCmp a b == some .lt || enumPartialCmp a b == some .eq
def enumGt (a b : BitVec 32) : Bool := enumPartialCmp a b == some .gt
def enumGe (a b : BitVec 32) : Bool := enumPartialCmp a b == some .gt || enumPartialCmp a b == some .eq

/-- `Ord::max`, the default: `max_by(self, other, Ord::cmp)`, which takes the second of equals; `min` takes the first. -/
def enumMax (a b : BitVec 32) : BitVec 32 := if enumCmp a b = .gt then a else b
def enumMin (a b : BitVec 32) : BitVec 32 := if enumCmp a b = .gt then b else a

/-- A `Hasher` by its only required method that changes it, `write`. -/
structure Hasher (σ : Type) where
  write : Bytes → σ → σ

/-- The bytes of `i32::to_ne_bytes` on a little-endian or big-endian machine. -/
def neBytes (big : Bool) (x : BitVec 32) : Bytes :=
  let le : Bytes := [x.setWidth 8, (x >>> 8).setWidth 8, (x >>> 16).setWidth 8, (x >>> 24).setWidth 8]
  if big then le.reverse else le

/-- macros.rs:205, derived `Hash::hash`: of the only field, `state.write_i32(x)`, by default `write_u32(x as u32)`, by default `write(&x.to_ne_bytes())`. -/
def enumHash {σ : Type} (big : Bool) (H : Hasher σ) (x : BitVec 32) : σ → σ := H.write (neBytes big x)

end CT
