import Verif.Model.Parquet
/-! # Vocabulary for the statements about Parquet files -/
namespace CT.Spec
open CT.Parquet

/-- No `seek` fails, and no `read` fails except with `Interrupted`. -/
def Quiet (f : File) : Prop := (∀ k, FEvent.error k ∈ f.reads → k = .interrupted) ∧ ∀ k, some k ∉ f.seeks

/-- A 32-bit number, little endian. -/
def le32 (n : Nat) : Bytes := [BitVec.ofNat 8 n, BitVec.ofNat 8 (n / 256), BitVec.ofNat 8 (n / 65536), BitVec.ofNat 8 (n / 16777216)]

/-- The end of a Parquet file: the metadata, their length, and `PAR1`. -/
def footer (mb : Bytes) : Bytes := mb ++ le32 mb.length ++ [0x50#8, 0x41#8, 0x52#8, 0x31#8]

/-- The file ends in these metadata. -/
def HasFooter (file mb : Bytes) : Prop := mb.length < 2 ^ 32 ∧ ∃ pre, file = pre ++ footer mb

/-- An `Option<i64>` as a value. -/
def ofOptI64 : Option (BitVec 64) → Val
  | none => .none
  | some x => .some (.i64 x)

/-- An `Option<i32>` as a value. -/
def ofOptI32 : Option (BitVec 32) → Val
  | none => .none
  | some x => .some (.i32 x)

/-- A column chunk of a row group of the metadata has these page index fields. -/
def IsColumn (md : Val) (c : IndexFields) : Prop := ∃ rgs rg cols cv,
  getField Format.dFileMetaData "row_groups" md = some (.list rgs) ∧ rg ∈ rgs ∧
  getField Format.dRowGroup "columns" rg = some (.list cols) ∧ cv ∈ cols ∧
  getField Format.dColumnChunk "offset_index_offset" cv = some (ofOptI64 c.offsetOffset) ∧
  getField Format.dColumnChunk "offset_index_length" cv = some (ofOptI32 c.offsetLength) ∧
  getField Format.dColumnChunk "column_index_offset" cv = some (ofOptI64 c.columnOffset) ∧
  getField Format.dColumnChunk "column_index_length" cv = some (ofOptI32 c.columnLength)

/-- A column chunk has both indexes, at these places. -/
def Indexed (md : Val) (oo : BitVec 64) (ol : BitVec 32) (co : BitVec 64) (cl : BitVec 32) : Prop :=
  IsColumn md ⟨some oo, some ol, some co, some cl⟩

/-- `a..b` is where the offset index or the column index of a column chunk with both lies. -/
def IndexRange (md : Val) (a b : Int) : Prop := ∃ oo ol co cl, Indexed md oo ol co cl ∧
  ((a = oo.toInt ∧ b = oo.toInt + ol.toInt) ∨ (a = co.toInt ∧ b = co.toInt + cl.toInt))

/-- A column chunk with both indexes has a negative offset or length. -/
def NegativeIndex (md : Val) : Prop := ∃ oo ol co cl, Indexed md oo ol co cl ∧ (oo.toInt < 0 ∨ ol.toInt < 0 ∨ co.toInt < 0 ∨ cl.toInt < 0)

/-- `file[a..a+n]` -/
def part (file : Bytes) (a n : Nat) : Bytes := (file.drop a).take n

end CT.Spec
