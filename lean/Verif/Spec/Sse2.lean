import Verif.Spec.Overflow
/-!
# Specification: reading slices on x86-64

The code for x86-64 skips an integer in two ways: at least 16 bytes before the end of the input it looks at 16 bytes at once (`Sse2Int` is what it skips);
closer to the end it looks for the last byte one by one and slices past it. Neither checks whether there is a last byte.
-/
namespace CT.Spec
open CT

/-- Fewer than 16 bytes are left (perhaps none), none of them ends an integer: slicing past them panics. -/
def CutShort (s : Bytes) : Prop := s.length < 16 ∧ ∀ b ∈ s, 128 ≤ b.toNat

/-- Exactly 16 bytes are left, none of them ends an integer: an unchecked slice one byte past the end. -/
def CutAt16 (s : Bytes) : Prop := s.length = 16 ∧ ∀ b ∈ s, 128 ≤ b.toNat

/-- Panics without overflow checks. -/
def sse2Panics : Faults := ⟨Sse2Int, fun _ => False, CutShort, False⟩

/-- Panics with overflow checks. -/
def sse2CheckedPanics : Faults := ⟨Sse2Int, LongVarint, CutShort, True⟩

/-- Undefined behaviour. -/
def sse2Undefined : Faults := ⟨Sse2Int, fun _ => False, CutAt16, False⟩

end CT.Spec
