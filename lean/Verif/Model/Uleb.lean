import Verif.Model.Basic
/-!
# Varints and zigzag: runtime/src/uleb.rs, runtime/src/protocol.rs:22-50
-/
namespace CT

/-- protocol.rs:22-35 `zigzag_decode16/32/64`: `(i >> 1) as iN ^ -((i & 1) as iN)`. -/
def zigzagDecode {w : Nat} (i : BitVec w) : BitVec w :=
  (i >>> 1) ^^^ (-(i &&& 1#w))

/-- protocol.rs:37-50 `zigzag_encode16/32/64`: `((i << 1) ^ (i >> (N-1))) as uN`, the right shift being arithmetic. -/
def zigzagEncode {w : Nat} (i : BitVec w) : BitVec w :=
  (i <<< 1) ^^^ (i.sshiftRight (w - 1))

/-- uleb.rs:5-19, the loop of `decode_uleb`.
`wrapping_shl` masks the shift amount to 6 bits; `shift += 7` is a `u32` addition that panics with overflow checks. -/
def ulebLoop {σ : Type} (cfg : Cfg) (readByte : Rd σ Byte) : Nat → BitVec 32 → BitVec 64 → Rd σ (BitVec 64)
  | 0, _, _ => Rd.fail .diverge
  | fuel + 1, shift, value => do
    let byte ← readByte
    let value := value ||| ((byte &&& 0x7F#8).setWidth 64 <<< (shift.toNat % 64))
    if cfg.overflowChecks && decide (2 ^ 32 ≤ shift.toNat + 7) then
      Rd.fail .panic
    else if byte &&& 0x80#8 = 0#8 then
      pure value
    else
      ulebLoop cfg readByte fuel (shift + 7#32) value

/-- uleb.rs:5-19 `decode_uleb`. `size` bounds the number of bytes the input can still deliver and provides the fuel. -/
def decodeUleb {σ : Type} (cfg : Cfg) (size : σ → Nat) (readByte : Rd σ Byte) : Rd σ (BitVec 64) :=
  fun s => ulebLoop cfg readByte (size s + 1) 0#32 0#64 s

/-- uleb.rs:42-47 `encode_uleb`, as the sequence of bytes it passes to `write_byte`, one call per byte. -/
def encodeUleb (value : BitVec 64) : Bytes :=
  if 0x7F < value.toNat then
    (value.setWidth 8 ||| 0x80#8) :: encodeUleb (value >>> 7)
  else
    [value.setWidth 8]
termination_by value.toNat
decreasing_by
  simp only [BitVec.toNat_ushiftRight, Nat.shiftRight_eq_div_pow]
  omega

/-- `_mm_movemask_epi8` (used at uleb.rs:28): bit `i` of the result is the top bit of byte `i` of the chunk. -/
def movemask : Bytes → BitVec 32
  | [] => 0#32
  | b :: bs => (movemask bs <<< 1) ||| (if b &&& 0x80#8 = 0#8 then 0#32 else 1#32)

/-- `u32::trailing_zeros` / `i32::trailing_zeros`, by scanning from the low bit (32 for zero). -/
def trailingZerosFrom (x : BitVec 32) : Nat → Nat → Nat
  | 0, i => i
  | fuel + 1, i => if x.getLsbD i then i else trailingZerosFrom x fuel (i + 1)

/-- `i32::trailing_zeros` -/
def trailingZeros (x : BitVec 32) : Nat := trailingZerosFrom x 32 0

/-- uleb.rs:21-31 `skip_uleb_sse2`. `input.get_unchecked(len..)` with `len` beyond the end is undefined behaviour. -/
def skipUlebSse2 (input : Bytes) : Except Fail Bytes :=
  let mask := ~~~ (movemask (input.take 16))
  let len := trailingZeros (mask <<< 1)
  if len ≤ input.length then .ok (input.drop len) else .error .ub

/-- uleb.rs:35-38, the `while` loop of `skip_uleb_fallback`: index of the first byte without continuation bit. -/
def scanContinuation : Bytes → Nat
  | [] => 0
  | b :: bs => if b &&& 0x80#8 = 0#8 then 0 else scanContinuation bs + 1

/-- uleb.rs:33-40 `skip_uleb_fallback`: `&input[i+1..]` panics if `i + 1 > input.len()`. -/
def skipUlebFallback (input : Bytes) : Except Fail Bytes :=
  let i := scanContinuation input
  if i + 1 ≤ input.length then .ok (input.drop (i + 1)) else .error .panic

end CT
