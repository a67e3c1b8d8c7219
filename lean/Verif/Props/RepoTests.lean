import Verif.Model.Types
/-!
# The unit tests of the repository, run on the model

These are tests of the model, not proofs about the code: every assertion of the repository's own unit tests that concerns behaviour
modelled here. `size_of` assertions and the SSE2 test (see `C20_sse2_varint`) are not repeated; the test reading a file is in `RepoFile.lean`.
-/
namespace CT.RepoTests
open CT

/-- A build as used by `cargo test`, with the scalar skip. -/
def cfg : Cfg := ⟨true, false, fun _ => true⟩

/-- Read from a slice. -/
def readS (t : Ty) (bs : Bytes) : Except Fail (Val × Bytes) := readThrift cfg (sliceInput cfg) [] t bs

/-! ## runtime/src/lib.rs:14-160 -/

-- test_slice_input_read_byte
example : (sliceInput cfg).readByte [1] = .ok (1, []) := rfl
-- test_read_uleb
example : decodeUleb cfg (sliceInput cfg).size (sliceInput cfg).readByte [1] = .ok (1, []) := rfl
example : decodeUleb cfg (sliceInput cfg).size (sliceInput cfg).readByte [0b01111111] = .ok (0b01111111, []) := rfl
example : decodeUleb cfg (sliceInput cfg).size (sliceInput cfg).readByte [0b10001111, 0b01110101] = .ok (0b0011101010001111, []) := rfl
-- test_read_uleb_overlong
example : (decodeUleb cfg (sliceInput cfg).size (sliceInput cfg).readByte [0x81, 0x81, 0x81, 0x81, 0x81, 0x81, 0x81, 0x81, 0x81, 0x81, 0x81, 0]).isOk := rfl
-- test_slice_input_read_i32
example : readS .i32 [0] = .ok (.i32 0, []) := rfl
example : readS .i32 [1] = .ok (.i32 (-1), []) := rfl
example : readS .i32 [2] = .ok (.i32 1, []) := rfl
example : readS .i32 [0b01111111] = .ok (.i32 (-64), []) := rfl
example : readS .i32 [0b10001111, 0b01110101] = .ok (.i32 (-7496), []) := rfl
example : readS .i32 [0b10001111, 0b01110101, 0, 0] = .ok (.i32 (-7496), [0, 0]) := rfl
example : readS .i32 [0b10001111, 0b01110101, 0, 0, 0] = .ok (.i32 (-7496), [0, 0, 0]) := rfl
-- test_read_vec_bool
example : readS (.list .bool) [0x42, 0, 1, 1, 0] = .ok (.list [.bool false, .bool true, .bool true, .bool false], []) := rfl
example : readS (.list .bool) [0x41, 0, 1, 1, 0] = .ok (.list [.bool false, .bool true, .bool true, .bool false], []) := rfl
-- test_read_box, test_read_option_box
example : readS (.box .i32) [0x2] = .ok (.box (.i32 1), []) := rfl
example : readS (.option (.box .i32)) [0x2] = .ok (.some (.box (.i32 1)), []) := rfl

/-- Write, and read what was written. -/
def roundTrip (t : Ty) (v : Val) : Option (Bytes × Val × Bytes) :=
  match encode [] t v with
  | .error _ => none
  | .ok bs => match readS t bs with
    | .error _ => none
    | .ok (v', rest) => some (bs, v', rest)

/-- The values of a list of booleans. -/
def bools : Val → List Bool
  | .list vs => vs.filterMap fun v => match v with | .bool b => some b | _ => none
  | _ => []

/-- The values of a list of integers. -/
def ints : Val → List Int
  | .list vs => vs.filterMap fun v => match v with | .i64 x => some x.toInt | _ => none
  | .i64 x => [x.toInt]
  | _ => []

-- test_uleb_roundtrip
#guard (roundTrip .i64 (.i64 1234567890)).map (fun r => (ints r.2.1, r.2.2)) = some ([1234567890], [])
-- test_empty_vec_roundtrip
#guard (roundTrip (.list .i64) (.list [])).map (fun r => (ints r.2.1, r.2.2)) = some ([], [])
-- test_vec_bool_roundtrip
#guard (roundTrip (.list .bool) (.list [.bool true, .bool false, .bool false, .bool true])).map (fun r => (bools r.2.1, r.2.2))
  = some ([true, false, false, true], [])
-- test_vec_integer_roundtrip
#guard (roundTrip (.list .i64) (.list [.i64 1, .i64 (BitVec.intMin 64), .i64 (BitVec.intMax 64), .i64 9999999])).map (fun r => (ints r.2.1, r.2.2))
  = some ([1, -9223372036854775808, 9223372036854775807, 9999999], [])

/-- Write a list and skip what was written, as if inside a collection. -/
def skipWritten (t : Ty) (v : Val) : Option Bytes :=
  match encode [] t v with
  | .error _ => none
  | .ok bs => match (sliceInput cfg).skip cfg (fieldType [] t) true bs with
    | .error _ => none
    | .ok (_, rest) => some rest

-- test_skip_vec_bool
#guard skipWritten (.list .bool) (.list [.bool true, .bool false, .bool false, .bool true]) = some []
-- test_skip_vec_integer
#guard skipWritten (.list .i64) (.list [.i64 1, .i64 999999999999, .i64 (-1), .i64 (BitVec.intMax 64)]) = some []

/-! ## runtime/src/types.rs:381-398 -/

-- test_encode_boolean_list
#guard (match encode [] (.list .bool) (.list [.bool false, .bool true, .bool true]) with | .ok bs => some bs | .error _ => none)
  = some [0b00110010, 2, 1, 1]
-- test_decode_boolean_list_tag1, test_decode_boolean_list_tag2
example : readS (.list .bool) [0b00110001, 2, 1, 0] = .ok (.list [.bool false, .bool true, .bool false], []) := rfl
example : readS (.list .bool) [0b00110010, 2, 1, 0] = .ok (.list [.bool false, .bool true, .bool false], []) := rfl

/-! ## parquet/src/encodings.rs:82-127 -/

/-- encodings.rs:82-97 `test_roundtrip`: a list is written, an `EncodingSet` read from it, written, and read as a list. -/
def encodingsRoundTrip (es : List (BitVec 32)) : Option (List (BitVec 32)) :=
  let env : List Def := [.enum "Encoding"]
  match encode env (.list (.named 0)) (.list (es.map .enum)) with
  | .error _ => none
  | .ok bs => match readThrift cfg (sliceInput cfg) env .encodingSet bs with
    | .error _ => none
    | .ok (v, _) => match encode env .encodingSet v with
      | .error _ => none
      | .ok bs => match readThrift cfg (sliceInput cfg) env (.list (.named 0)) bs with
        | .ok (.list vs, _) => some (vs.filterMap fun v => match v with | .enum x => some x | _ => none)
        | _ => none

#guard encodingsRoundTrip [] = some []
#guard encodingsRoundTrip [0] = some [0]
#guard encodingsRoundTrip [3] = some [3]
#guard encodingsRoundTrip [0, 8, 9] = some [0, 8, 9]
#guard encodingsRoundTrip [32] = none

end CT.RepoTests
