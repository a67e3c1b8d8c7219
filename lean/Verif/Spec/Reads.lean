import Verif.Spec.Delivery
/-!
# Specification: reading and writing as observed by a caller

A reading operation is a function generic in the input, as in the Rust trait; it is observed on a slice and on any
`std::io::Read` delivering the same bytes.
-/
namespace CT.Spec
open CT

/-- Writing into a `Vec<u8>` succeeds, whatever it already holds, and appends exactly `bs`. -/
def Emits {α : Type} (x : Wr Bytes α) (bs : Bytes) : Prop := ∀ out, ∃ a, x out = (.ok a, out ++ bs)

/-- Both kinds of input yield `a` from the bytes `p` and stand at exactly the bytes `suf` that follow. -/
def Reads {α : Type} (cfg : Cfg) (f : ∀ {σ : Type}, Input σ → Rd σ α) (p suf : Bytes) (a : α) : Prop :=
  f (sliceInput cfg) (p ++ suf) = .ok (a, suf) ∧
  ∀ evs, Delivers evs (p ++ suf) → ∃ evs', f (readerInput cfg) evs = .ok (a, evs') ∧ Delivers evs' suf

/-- Both kinds of input fail with `e` on the bytes `s`. -/
def Fails {α : Type} (cfg : Cfg) (f : ∀ {σ : Type}, Input σ → Rd σ α) (s : Bytes) (e : Fail) : Prop :=
  f (sliceInput cfg) s = .error e ∧
  ∀ evs, Delivers evs s → f (readerInput cfg) evs = .error e

end CT.Spec
