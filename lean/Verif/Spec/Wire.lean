import Verif.Spec.Varint
/-!
# Specification: the grammar of compact-protocol values

One inductive relation over the syntactic categories of the wire format, written in plain arithmetic on byte values:
no reader, no state, no fuel. It describes what this library accepts when skipping; where that is more than the
protocol specification allows, the rule says so.
-/
namespace CT.Spec
open CT

/-- `p` is a varint and the library's number for it is `n`: digit `k` is placed at bit `7k mod 64`, overlapping digits
are combined bit by bit. For at most ten bytes this is the ordinary value modulo 2^64 (`varintVal_leb`). -/
def VarintVal (p : Bytes) (n : Nat) : Prop :=
  IsVarint p ∧ n < 2 ^ 64 ∧
    ∀ i, i < 64 → (n.testBit i = true ↔ ∃ k j b, p[k]? = some b ∧ j < 7 ∧ b.getLsbD j = true ∧ 7 * k % 64 + j = i)

/-- Header of a list or set: element type in the low nibble, the length in the high nibble (0 to 14), or 15 there and
the length as a varint. -/
inductive ListHeader : Bytes → Nat → Nat → Prop where
  | short (b : Byte) (h : b.toNat / 16 < 15) : ListHeader [b] (b.toNat % 16) (b.toNat / 16)
  | long (b : Byte) (p : Bytes) (n : Nat) (h : b.toNat / 16 = 15) (hp : VarintVal p n) (hn : n ≤ 10000000) :
      ListHeader (b :: p) (b.toNat % 16) n

/-- Syntactic categories. Types are protocol type numbers: 1 true, 2 false, 3 byte, 4 i16, 5 i32, 6 i64, 7 double,
8 binary, 9 list, 10 set, 11 map, 12 struct. -/
inductive Item where
  /-- a value of the type; booleans have a byte of their own only inside a collection -/
  | value (ft : Nat) (inside : Bool)
  /-- `n` elements of the type -/
  | elems (ft n : Nat)
  /-- `n` key-value pairs -/
  | entries (k v n : Nat)
  /-- the fields of a struct, up to and including the stop byte -/
  | fields

/-- The byte 0 ends a struct. -/
def strictStop (b : Byte) : Prop := b.toNat = 0

/-- What the library takes as the end of a struct: every byte with type number 0, whatever the high nibble. -/
def lenientStop (b : Byte) : Prop := b.toNat % 16 = 0

/-- `WireOf int stop item p`: the bytes `p` are one `item`, where `int` tells which bytes are an integer and `stop` which bytes end a struct. -/
inductive WireOf (int : Bytes → Prop) (stop : Byte → Prop) : Item → Bytes → Prop where
  /-- a boolean field is in its header -/
  | boolField (ft) (h : ft = 1 ∨ ft = 2) : WireOf int stop (.value ft false) []
  | boolElem (ft) (b : Byte) (h : ft = 1 ∨ ft = 2) : WireOf int stop (.value ft true) [b]
  | byte (ins) (b : Byte) : WireOf int stop (.value 3 ins) [b]
  | int (ft ins p) (h : ft = 4 ∨ ft = 5 ∨ ft = 6) (hp : int p) : WireOf int stop (.value ft ins) p
  | double (ins) (p : Bytes) (h : p.length = 8) : WireOf int stop (.value 7 ins) p
  | binary (ins p) (bs : Bytes) (hp : VarintVal p bs.length) (hb : bs.length ≤ 16777216) : WireOf int stop (.value 8 ins) (p ++ bs)
  | list (ft ins h et n p) (hft : ft = 9 ∨ ft = 10) (hh : ListHeader h et n) (hp : WireOf int stop (.elems et n) p) :
      WireOf int stop (.value ft ins) (h ++ p)
  | mapEmpty (ins p) (hp : VarintVal p 0) : WireOf int stop (.value 11 ins) p
  | map (ins p n q) (b : Byte) (hp : VarintVal p n) (h0 : 0 < n) (hn : n ≤ 10000000)
      (hq : WireOf int stop (.entries (b.toNat / 16) (b.toNat % 16) n) q) : WireOf int stop (.value 11 ins) (p ++ b :: q)
  | struct (ins p) (hp : WireOf int stop .fields p) : WireOf int stop (.value 12 ins) p
  /-- the element type must be one of the twelve even if there are no elements -/
  | elemsNil (ft) (h : 1 ≤ ft ∧ ft ≤ 12) : WireOf int stop (.elems ft 0) []
  | elemsCons (ft n p q) (hp : WireOf int stop (.value ft true) p) (hq : WireOf int stop (.elems ft n) q) : WireOf int stop (.elems ft (n + 1)) (p ++ q)
  | entriesNil (k v) : WireOf int stop (.entries k v 0) []
  | entriesCons (k v n p q r) (hp : WireOf int stop (.value k true) p) (hq : WireOf int stop (.value v true) q)
      (hr : WireOf int stop (.entries k v n) r) : WireOf int stop (.entries k v (n + 1)) (p ++ q ++ r)
  | fieldStop (b : Byte) (h : stop b) : WireOf int stop .fields [b]
  /-- short header: the id difference in the high nibble -/
  | fieldShort (b : Byte) (p q) (h1 : b.toNat / 16 ≠ 0) (h2 : b.toNat % 16 ≠ 0) (hp : WireOf int stop (.value (b.toNat % 16) false) p)
      (hq : WireOf int stop .fields q) : WireOf int stop .fields (b :: (p ++ q))
  /-- long header: the type, then the id as a varint -/
  | fieldLong (b : Byte) (i p q) (h1 : b.toNat / 16 = 0) (h2 : b.toNat ≠ 0) (hi : IsVarint i)
      (hp : WireOf int stop (.value b.toNat false) p) (hq : WireOf int stop .fields q) : WireOf int stop .fields (b :: (i ++ (p ++ q)))

/-- What the code with SSE2 skips for an integer: a varint of at most 16 bytes, or 17 bytes of which 16 have the continuation bit, whatever the last one. -/
def Sse2Int (p : Bytes) : Prop := (IsVarint p ∧ p.length ≤ 16) ∨ (p.length = 17 ∧ ∀ b ∈ p.take 16, 128 ≤ b.toNat)

/-- The grammar proper: integers are varints. -/
abbrev Wire := WireOf IsVarint

end CT.Spec
