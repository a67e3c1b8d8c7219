import Verif.Model.Types
/-!
# Derived implementations: `Clone` and `PartialEq` (macros.rs:56, 130, 205; encodings.rs:8)

`#[derive(PartialEq)]` compares field by field with the `PartialEq` of the field types, `#[derive(Clone)]` clones field by field.
Modelled by their documented meaning, as are the implementations of the standard library for the field types: `Option`, `Vec`, `Box` and
`Rc`/`Arc` compare contents, strings and byte arrays compare bytes, and `f64` compares numbers (IEEE 754).
-/
namespace CT

/-- The number an `f64` stands for: finite numbers as multiples of 2^-1074, and the two infinities. -/
inductive Num where
  | fin (n : Int)
  | inf (neg : Bool)
deriving DecidableEq, Repr

/-- The exponent field of an `f64`. -/
def f64Exp (x : BitVec 64) : Nat := x.toNat / 2^52 % 2048

/-- The fraction field of an `f64`. -/
def f64Frac (x : BitVec 64) : Nat := x.toNat % 2^52

/-- The sign of an `f64`. -/
def f64Neg (x : BitVec 64) : Bool := x.msb

/-- The magnitude of a finite `f64` in multiples of 2^-1074. -/
def f64Mag (x : BitVec 64) : Nat :=
  if f64Exp x = 0 then f64Frac x else (2^52 + f64Frac x) * 2^(f64Exp x - 1)

/-- The number, `none` for NaN. -/
def f64Num (x : BitVec 64) : Option Num :=
  if f64Exp x = 2047 then (if f64Frac x = 0 then some (.inf (f64Neg x)) else none)
  else some (.fin (if f64Neg x then -(f64Mag x : Int) else f64Mag x))

/-- `==` on `f64`: equality of numbers; NaN is equal to nothing. -/
def f64Eq (x y : BitVec 64) : Bool :=
  match f64Num x, f64Num y with
  | some a, some b => a == b
  | _, _ => false

mutual
/-- `==` of two values of the same type. `undef` is no value a program could compare. -/
def Val.eqv : Val → Val → Bool
  | .bool a, .bool b => a == b
  | .i8 a, .i8 b => a == b
  | .i16 a, .i16 b => a == b
  | .i32 a, .i32 b => a == b
  | .i64 a, .i64 b => a == b
  | .double a, .double b => f64Eq a b
  | .binary a, .binary b => a == b
  | .string a, .string b => a == b
  | .encodingSet a, .encodingSet b => a == b
  | .list as, .list bs => Val.eqvList as bs
  | .none, .none => true
  | .some a, .some b => a.eqv b
  | .box a, .box b => a.eqv b
  | .rc _ a, .rc _ b => a.eqv b
  | .enum a, .enum b => a == b
  | .struct as, .struct bs => Val.eqvList as bs
  | .union i a, .union j b => i == j && a.eqv b
  | .undef, .undef => true
  | _, _ => false
/-- `==` on vectors, and field by field. -/
def Val.eqvList : List Val → List Val → Bool
  | [], [] => true
  | a :: as, b :: bs => a.eqv b && Val.eqvList as bs
  | _, _ => false
end

mutual
/-- `clone()`: an `Rc` is not copied, afterwards the original and the clone both share it. The result is the clone, and is also what the original
has become. -/
def Val.clone : Val → Val
  | .list vs => .list (Val.cloneList vs)
  | .some v => .some v.clone
  | .box v => .box v.clone
  | .rc _ v => .rc true v
  | .struct vs => .struct (Val.cloneList vs)
  | .union i v => .union i v.clone
  | v => v
/-- `clone()` on vectors, and field by field. -/
def Val.cloneList : List Val → List Val
  | [] => []
  | v :: vs => v.clone :: Val.cloneList vs
end

end CT
