import Verif.Spec.Builds
/-!
# Specification: what `read_page_index` does

The metadata say for each column where its offset index and its column index lie in the file; the chunk is the part of the file from `chunkOffset` on. Columns
are looked at one after the other, the first that fails ends the whole.
-/
namespace CT.Spec
open CT CT.Parquet

/-- What a function ends with. -/
inductive Result (α : Type) where
  | value (a : α)
  | error
  | panic
  | undefined

/-- The same without what is left of the input -/
def Outcome.result : Outcome → Result Val
  | .value v _ => .value v
  | .error => .error
  | .panic => .panic
  | .undefined => .undefined

/-- A result that is not a value, for another type -/
inductive SameFailure {α β : Type} : Result α → Result β → Prop where
  | error : SameFailure .error .error
  | panic : SameFailure .panic .panic
  | undefined : SameFailure .undefined .undefined

/-- Reading an index of type `t` from exactly these bytes, of which some may be left, ends with this. -/
def IndexEnds (sse2 checks : Bool) (t : Ty) (bs : Bytes) (x : Result Val) : Prop :=
  ∃ d y, IsDefault Format.parquetEnv t d ∧ Ends sse2 checks Format.parquetEnv t d bs y ∧ x = y.result

/-- An assertion fails for an index with this place: it lies before the chunk (a negative offset counts as one beyond 2^63), it is empty or has a negative
length, or its end overflows and there are overflow checks. -/
def BadPlace (checks : Bool) (chunkOffset : Nat) (offset : BitVec 64) (length : BitVec 32) : Prop :=
  offset.toNat < chunkOffset ∨ length.toInt ≤ 0 ∨ (checks = true ∧ 2 ^ 64 ≤ offset.toNat - chunkOffset + length.toNat)

/-- The index lies in the chunk, and these are its bytes. -/
def InChunk (chunk : Bytes) (chunkOffset : Nat) (offset : BitVec 64) (length : BitVec 32) (bs : Bytes) : Prop :=
  offset.toNat - chunkOffset + length.toNat ≤ chunk.length ∧ bs = part chunk (offset.toNat - chunkOffset) length.toNat

/-- What a column yields. -/
inductive ColumnEnds (sse2 checks : Bool) (chunk : Bytes) (chunkOffset : Nat) : IndexFields → Result (Option (Val × Val)) → Prop where
  /-- no offset index -/
  | noOffset (c : IndexFields) (h : c.offsetOffset = none ∨ c.offsetLength = none) : ColumnEnds sse2 checks chunk chunkOffset c (.value none)
  | badOffset (oo ol co cl) (h : BadPlace checks chunkOffset oo ol) : ColumnEnds sse2 checks chunk chunkOffset ⟨some oo, some ol, co, cl⟩ .panic
  /-- no column index -/
  | noColumn (oo ol co cl) (h : ¬ BadPlace checks chunkOffset oo ol) (hc : co = none ∨ cl = none) :
      ColumnEnds sse2 checks chunk chunkOffset ⟨some oo, some ol, co, cl⟩ (.value none)
  | badColumn (oo ol co cl) (h : ¬ BadPlace checks chunkOffset oo ol) (hc : BadPlace checks chunkOffset co cl) :
      ColumnEnds sse2 checks chunk chunkOffset ⟨some oo, some ol, some co, some cl⟩ .panic
  | offsetOutside (oo ol co cl) (h : ¬ BadPlace checks chunkOffset oo ol) (hc : ¬ BadPlace checks chunkOffset co cl)
      (ho : ∀ bs, ¬ InChunk chunk chunkOffset oo ol bs) : ColumnEnds sse2 checks chunk chunkOffset ⟨some oo, some ol, some co, some cl⟩ .panic
  | offsetFails (oo ol co cl bs x y) (h : ¬ BadPlace checks chunkOffset oo ol) (hc : ¬ BadPlace checks chunkOffset co cl)
      (ho : InChunk chunk chunkOffset oo ol bs) (hx : IndexEnds sse2 checks Format.tOffsetIndex bs x) (hy : SameFailure x y) :
      ColumnEnds sse2 checks chunk chunkOffset ⟨some oo, some ol, some co, some cl⟩ y
  | columnOutside (oo ol co cl bs v) (h : ¬ BadPlace checks chunkOffset oo ol) (hc : ¬ BadPlace checks chunkOffset co cl)
      (ho : InChunk chunk chunkOffset oo ol bs) (hx : IndexEnds sse2 checks Format.tOffsetIndex bs (.value v)) (hi : ∀ bs, ¬ InChunk chunk chunkOffset co cl bs) :
      ColumnEnds sse2 checks chunk chunkOffset ⟨some oo, some ol, some co, some cl⟩ .panic
  | columnFails (oo ol co cl bs bs' v x y) (h : ¬ BadPlace checks chunkOffset oo ol) (hc : ¬ BadPlace checks chunkOffset co cl)
      (ho : InChunk chunk chunkOffset oo ol bs) (hx : IndexEnds sse2 checks Format.tOffsetIndex bs (.value v))
      (hi : InChunk chunk chunkOffset co cl bs') (hx' : IndexEnds sse2 checks Format.tColumnIndex bs' x) (hy : SameFailure x y) :
      ColumnEnds sse2 checks chunk chunkOffset ⟨some oo, some ol, some co, some cl⟩ y
  | both (oo ol co cl bs bs' v w) (h : ¬ BadPlace checks chunkOffset oo ol) (hc : ¬ BadPlace checks chunkOffset co cl)
      (ho : InChunk chunk chunkOffset oo ol bs) (hx : IndexEnds sse2 checks Format.tOffsetIndex bs (.value v))
      (hi : InChunk chunk chunkOffset co cl bs') (hx' : IndexEnds sse2 checks Format.tColumnIndex bs' (.value w)) :
      ColumnEnds sse2 checks chunk chunkOffset ⟨some oo, some ol, some co, some cl⟩ (.value (some (v, w)))

/-- The values of all, or the failure of the first that fails. -/
inductive AllEnd {α β : Type} (P : α → Result β → Prop) : List α → Result (List β) → Prop where
  | nil : AllEnd P [] (.value [])
  | stop (a as x y) (h : P a x) (hy : SameFailure x y) : AllEnd P (a :: as) y
  | fails (a as b x y) (h : P a (.value b)) (hr : AllEnd P as x) (hy : SameFailure x y) : AllEnd P (a :: as) y
  | cons (a as b bs) (h : P a (.value b)) (hr : AllEnd P as (.value bs)) : AllEnd P (a :: as) (.value (b :: bs))

/-- The page index fields of a column chunk -/
def HasIndexFields (cv : Val) (c : IndexFields) : Prop :=
  getField Format.dColumnChunk "offset_index_offset" cv = some (ofOptI64 c.offsetOffset) ∧
  getField Format.dColumnChunk "offset_index_length" cv = some (ofOptI32 c.offsetLength) ∧
  getField Format.dColumnChunk "column_index_offset" cv = some (ofOptI64 c.columnOffset) ∧
  getField Format.dColumnChunk "column_index_length" cv = some (ofOptI32 c.columnLength)

/-- A list of the same length, related element by element -/
inductive Pairwise₂ {α β : Type} (R : α → β → Prop) : List α → List β → Prop where
  | nil : Pairwise₂ R [] []
  | cons (a b as bs) (h : R a b) (hr : Pairwise₂ R as bs) : Pairwise₂ R (a :: as) (b :: bs)

/-- The metadata have row groups whose columns have these page index fields. -/
def HasColumns (md : Val) (rgs : List (List IndexFields)) : Prop :=
  ∃ groups, getField Format.dFileMetaData "row_groups" md = some (.list groups) ∧
    Pairwise₂ (fun g cs => ∃ cols, getField Format.dRowGroup "columns" g = some (.list cols) ∧ Pairwise₂ HasIndexFields cols cs) groups rgs

/-- What `read_page_index` ends with. -/
def PageIndexEnds (sse2 checks : Bool) (chunk : Bytes) (chunkOffset : Nat) (md : Val) (x : Result (List (List (Option (Val × Val))))) : Prop :=
  ∃ rgs, HasColumns md rgs ∧ AllEnd (AllEnd (ColumnEnds sse2 checks chunk chunkOffset)) rgs x

end CT.Spec
