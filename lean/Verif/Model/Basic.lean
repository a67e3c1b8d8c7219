/-!
# Outcomes and the reading / writing monads

Bytes and Rust integers are bit vectors. A `&mut input` becomes a threaded state.
-/
namespace CT

/-- `u8` -/
abbrev Byte := BitVec 8
abbrev Bytes := List Byte

/-- `std::io::ErrorKind`, restricted to the kinds the library itself produces or special-cases;
every other kind is `other n`. -/
inductive ErrorKind where
  | unexpectedEof
  | interrupted
  | invalidInput
  | writeZero
  | other (n : Nat)
deriving DecidableEq, Repr

/-- runtime/src/error.rs:10-23 `enum ThriftError`.
Simplification: `FieldName` (a pointer to a nul-terminated static string, error.rs:25-51) is the string it displays. -/
inductive ThriftError where
  | invalidNumber
  | invalidString
  | invalidBinaryLen (len : Nat)
  | invalidCollectionLen
  | missingField (name : String)
  | missingValue
  | missingStop
  | duplicateField
  | invalidType
  | reserveError
  | io (kind : ErrorKind)
deriving DecidableEq, Repr

/-- All ways a modelled call can fail to return `Ok`:
* `err e`   : the Rust function returns `Err(e)`;
* `panic`   : the Rust function panics;
* `ub`      : undefined behaviour (out-of-bounds `get_unchecked`);
* `diverge` : the fuel of the model ran out (proved unreachable for finite inputs);
* `stuck`   : the model was given an ill-typed value (impossible in Rust, proved unreachable). -/
inductive Fail where
  | err (e : ThriftError)
  | panic
  | ub
  | diverge
  | stuck
deriving DecidableEq, Repr

/-- Build and run-time configuration the code depends on.
* `overflowChecks`: rustc `-C overflow-checks` (on in debug builds): integer overflow panics instead of wrapping;
* `sse2`: `cfg(target_feature = "sse2")`, protocol.rs:361;
* `alloc n`: whether `Vec::try_reserve(n)` succeeds (types.rs:200).
Simplification: allocation success depends only on the requested number of elements. -/
structure Cfg where
  overflowChecks : Bool
  sse2 : Bool
  alloc : Nat → Bool

/-- A function taking `&mut input` and returning `Result<α, ThriftError>`.
Simplification: the position of the input after a failure is not modelled. -/
def Rd (σ α : Type) : Type := σ → Except Fail (α × σ)

namespace Rd
variable {σ α β : Type}

/-- A function on the input state, as a reading function. -/
def of (f : σ → Except Fail (α × σ)) : Rd σ α := f

protected def pure (a : α) : Rd σ α := fun s => .ok (a, s)

protected def bind (x : Rd σ α) (f : α → Rd σ β) : Rd σ β := fun s =>
  match x s with
  | .error e => .error e
  | .ok (a, s') => f a s'

instance : Monad (Rd σ) where
  pure := Rd.pure
  bind := Rd.bind

/-- `return Err(e)` -/
def throw (e : ThriftError) : Rd σ α := fun _ => .error (.err e)

def fail (f : Fail) : Rd σ α := fun _ => .error f

end Rd

/-- A function taking `&mut output` and returning `Result<α, ThriftError>`; the sink state survives an error. -/
def Wr (τ α : Type) : Type := τ → Except Fail α × τ

namespace Wr
variable {τ α β : Type}

protected def pure (a : α) : Wr τ α := fun t => (.ok a, t)

protected def bind (x : Wr τ α) (f : α → Wr τ β) : Wr τ β := fun t =>
  match x t with
  | (.error e, t') => (.error e, t')
  | (.ok a, t') => f a t'

instance : Monad (Wr τ) where
  pure := Wr.pure
  bind := Wr.bind

def throw (e : ThriftError) : Wr τ α := fun t => (.error (.err e), t)

def fail (f : Fail) : Wr τ α := fun t => (.error f, t)

end Wr

end CT
