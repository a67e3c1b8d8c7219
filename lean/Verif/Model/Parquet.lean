import Verif.Model.Format
/-!
# Parquet files: parquet/src/lib.rs

`R: Read + Seek` is a scripted file: fixed contents, and scripts for what the individual `read` and `seek` calls do.
-/
namespace CT.Parquet

/-- lib.rs:13-21 `enum ParquetError` (an `io::Error` is its kind). -/
inductive ParquetError where
  | thrift (e : ThriftError)
  | invalidMagic
  | io (kind : ErrorKind)
  | invalidOffset
  | schema (msg : String)
  | unknownType (id : BitVec 32)
deriving DecidableEq, Repr

/-- Ways not to return `Ok`: as `Fail`, and `abort` for a failed infallible allocation (`Vec::with_capacity`). -/
inductive PFail where
  | err (e : ParquetError)
  | panic
  | ub
  | abort
  | diverge
  | stuck
deriving DecidableEq, Repr

/-- lib.rs:29-33 `From<ThriftError>`, as used by `?`; other failures pass through. -/
def PFail.ofFail : Fail → PFail
  | .err e => .err (.thrift e)
  | .panic => .panic
  | .ub => .ub
  | .diverge => .diverge
  | .stuck => .stuck

/-- What one call of `Read::read` does, besides reaching the end of the file: deliver at most `n + 1` bytes, or fail. -/
inductive FEvent where
  | limit (n : Nat)
  | error (kind : ErrorKind)
deriving DecidableEq, Repr

/-- An `R: Read + Seek`: contents, position, what the next `read` calls do (everything requested once the script is used up),
and what the next `seek` calls do (`some kind`: fail; all succeed once the script is used up). -/
structure File where
  data : Bytes
  pos : Nat
  reads : List FEvent
  seeks : List (Option ErrorKind)
deriving DecidableEq, Repr

/-- A function taking `&mut R` and returning `Result<α, ParquetError>`. -/
def Fd (α : Type) : Type := File → Except PFail (α × File)

namespace Fd
variable {α β : Type}
protected def pure (a : α) : Fd α := fun f => .ok (a, f)
protected def bind (x : Fd α) (g : α → Fd β) : Fd β := fun f =>
  match x f with
  | .error e => .error e
  | .ok (a, f') => g a f'
instance : Monad Fd where
  pure := Fd.pure
  bind := Fd.bind
def fail (e : PFail) : Fd α := fun _ => .error e
/-- A computation that does not touch the file. -/
def lift (x : Except PFail α) : Fd α := fun f =>
  match x with
  | .error e => .error e
  | .ok a => .ok (a, f)
end Fd

/-- The outcome of one `seek` call according to the script; `target` is the new position, `none` if it is negative
(`ErrorKind::InvalidInput`, as `std::fs::File` and `std::io::Cursor` report it). Seeking beyond the end is allowed. -/
def seekTo (target : Option Nat) : Fd Unit := fun f =>
  match f.seeks with
  | some k :: _ => .error (.err (.io k))
  | s =>
    match target with
    | none => .error (.err (.io .invalidInput))
    | some p => .ok ((), { f with pos := p, seeks := s.tail })

/-- `seek(SeekFrom::End(-back))`, for `back ≥ 0`. -/
def seekBack (back : Nat) : Fd Unit := fun f => seekTo (if f.data.length < back then none else some (f.data.length - back)) f

/-- `seek(SeekFrom::Start(p))` -/
def seekStart (p : Nat) : Fd Unit := seekTo (some p)

/-- `std::io::default_read_exact` of `n` bytes where `avail` is the rest of the file: repeats `read`, retries on `Interrupted`,
returns other errors, and `UnexpectedEof` on `Ok(0)`. Returns the bytes and the rest of the script. -/
def readExactLoop : List FEvent → Nat → Bytes → Except PFail (Bytes × List FEvent)
  | evs, 0, _ => .ok ([], evs)
  | [], n + 1, avail => if avail.length < n + 1 then .error (.err (.io .unexpectedEof)) else .ok (avail.take (n + 1), [])
  | .limit m :: evs, n + 1, avail =>
    if avail = [] then .error (.err (.io .unexpectedEof))
    else
      let k := min (m + 1) (n + 1)
      match readExactLoop evs (n + 1 - (avail.take k).length) (avail.drop k) with
      | .error e => .error e
      | .ok (bs, evs') => .ok (avail.take k ++ bs, evs')
  | .error k :: evs, n + 1, avail => if k = .interrupted then readExactLoop evs (n + 1) avail else .error (.err (.io k))

/-- `input.read_exact(&mut buf)?` with a buffer of `n` bytes. -/
def readExactF (n : Nat) : Fd Bytes := fun f =>
  match readExactLoop f.reads n (f.data.drop f.pos) with
  | .error e => .error e
  | .ok (bs, evs) => .ok (bs, { f with pos := f.pos + n, reads := evs })

/-- `isize::MAX` on a 64-bit target. -/
def ISIZE_MAX : Nat := 2 ^ 63 - 1

/-- `Vec::<u8>::with_capacity(n)`: panics above `isize::MAX`, aborts if the allocator fails. The unsafe `set_len` (lib.rs:51, 94) that
follows only exposes uninitialised bytes to `read_exact`, which a well-behaved reader does not look at; not modelled. -/
def withCapacity (cfg : Cfg) (n : Nat) : Except PFail Unit :=
  if ISIZE_MAX < n then .error .panic else if cfg.alloc n then .ok () else .error .abort

/-- lib.rs:35 -/
def PARQUET_MAGIC : Bytes := [0x50#8, 0x41#8, 0x52#8, 0x31#8]

/-- `u32::from_le_bytes(bs)` as a number. -/
def leNat : Bytes → Nat
  | [] => 0
  | b :: bs => b.toNat + 256 * leNat bs

/-- lib.rs:38-57 `get_metadata_chunk` -/
def getMetadataChunk (cfg : Cfg) : Fd Bytes := do
  seekBack 8
  let footer ← readExactF 8
  if footer.drop 4 ≠ PARQUET_MAGIC then
    Fd.fail (.err .invalidMagic)
  else
    let metadataLen := leNat (footer.take 4)
    seekBack (metadataLen + 8)
    Fd.lift (withCapacity cfg metadataLen)
    readExactF metadataLen

/-! ## Page index -/

/-- Position of a struct field by its name. -/
def fieldPos (d : Def) (name : String) : Option Nat :=
  match d with
  | .struct _ fs => fs.findIdx? fun f => f.name == name
  | _ => none

/-- `v.name` for a struct value. -/
def getField (d : Def) (name : String) (v : Val) : Option Val :=
  match fieldPos d name, v with
  | some i, .struct vs => vs[i]?
  | _, _ => none

/-- The elements of a list value. -/
def items : Val → Option (List Val)
  | .list vs => some vs
  | _ => none

/-- An `Option<i64>` -/
def optI64 : Val → Option (Option (BitVec 64))
  | .none => some none
  | .some (.i64 x) => some (some x)
  | _ => none

/-- An `Option<i32>` -/
def optI32 : Val → Option (Option (BitVec 32))
  | .none => some none
  | .some (.i32 x) => some (some x)
  | _ => none

/-- The four page index fields of a `ColumnChunk`. -/
structure IndexFields where
  offsetOffset : Option (BitVec 64)
  offsetLength : Option (BitVec 32)
  columnOffset : Option (BitVec 64)
  columnLength : Option (BitVec 32)
deriving DecidableEq, Repr

/-- `c.offset_index_offset` and so on; `none` only if the value is not a `ColumnChunk`. -/
def indexFields (c : Val) : Option IndexFields := do
  let oo ← (getField Format.dColumnChunk "offset_index_offset" c).bind optI64
  let ol ← (getField Format.dColumnChunk "offset_index_length" c).bind optI32
  let co ← (getField Format.dColumnChunk "column_index_offset" c).bind optI64
  let cl ← (getField Format.dColumnChunk "column_index_length" c).bind optI32
  pure ⟨oo, ol, co, cl⟩

/-- The page index fields of all columns of a row group. -/
def rowGroupFields (rg : Val) : Option (List IndexFields) := do
  let cols ← (getField Format.dRowGroup "columns" rg).bind items
  cols.mapM indexFields

/-- `file_metadata.row_groups`, their columns, and of those the page index fields. -/
def metadataFields (md : Val) : Option (List (List IndexFields)) := do
  let rgs ← (getField Format.dFileMetaData "row_groups" md).bind items
  rgs.mapM rowGroupFields

/-- `usize` addition: panics on overflow with overflow checks, wraps without. -/
def addUsize (cfg : Cfg) (a b : Nat) : Except PFail Nat :=
  if cfg.overflowChecks && decide (2 ^ 64 ≤ a + b) then .error .panic else .ok ((a + b) % 2 ^ 64)

/-- `x as usize` for `i64` -/
def asUsize64 (x : BitVec 64) : Nat := x.toNat
/-- `x as usize` for `i32`: sign extension -/
def asUsize32 (x : BitVec 32) : Nat := (x.signExtend 64).toNat

/-- lib.rs:64-76, the loop over the columns of all row groups; the state is `(min, max)`. -/
def rangeLoop (cfg : Cfg) : List IndexFields → Nat × Nat → Except PFail (Nat × Nat)
  | [], st => .ok st
  | c :: cs, (min, max) =>
    match c with
    | ⟨some oo, some ol, some co, some cl⟩ =>
      if oo.slt 0#64 || ol.slt 0#32 || co.slt 0#64 || cl.slt 0#32 then .error (.err .invalidOffset)
      else do
        let oEnd ← addUsize cfg (asUsize64 oo) (asUsize32 ol)
        let cEnd ← addUsize cfg (asUsize64 co) (asUsize32 cl)
        rangeLoop cfg cs (Nat.min (Nat.min min (asUsize64 oo)) (asUsize64 co), Nat.max (Nat.max max oEnd) cEnd)
    | _ => rangeLoop cfg cs (min, max)

/-- lib.rs:59-84 `get_page_index_range`; a `Range<usize>` is the pair of its bounds. -/
def getPageIndexRange (cfg : Cfg) (md : Val) : Except PFail (Option (Nat × Nat)) :=
  match metadataFields md with
  | none => .error .stuck
  | some rgs => do
    let (min, max) ← rangeLoop cfg rgs.flatten (2 ^ 64 - 1, 0)
    pure (if min < max then some (min, max) else none)

/-- lib.rs:88-104 `get_page_index_chunk` -/
def getPageIndexChunk (cfg : Cfg) (md : Val) : Fd (Option (Bytes × (Nat × Nat))) := do
  match ← Fd.lift (getPageIndexRange cfg md) with
  | some (a, b) =>
    seekStart a
    Fd.lift (withCapacity cfg (b - a))
    let buf ← readExactF (b - a)
    pure (some (buf, (a, b)))
  | none => pure none

/-- `&chunk[a..b]`: panics if `a > b` or `b > chunk.len()`. -/
def sliceRange (chunk : Bytes) (r : Nat × Nat) : Except PFail Bytes :=
  if r.1 ≤ r.2 ∧ r.2 ≤ chunk.length then .ok ((chunk.drop r.1).take (r.2 - r.1)) else .error .panic

/-- lib.rs:109-112 and 117-120: the asserts and the range within the chunk. -/
def relRange (cfg : Cfg) (chunkOffset : Nat) (offset : BitVec 64) (length : BitVec 32) : Except PFail (Nat × Nat) :=
  if asUsize64 offset < chunkOffset then .error .panic
  else if BitVec.sle length 0#32 then .error .panic
  else do
    let start := asUsize64 offset - chunkOffset
    let stop ← addUsize cfg start (asUsize32 length)
    pure (start, stop)

/-- `fill_thrift` of a default value from a slice (lib.rs:129-130); what is left of the slice is dropped. -/
def readSlice (cfg : Cfg) (t : Ty) (bs : Bytes) : Except PFail Val :=
  match readThrift cfg (sliceInput cfg) Format.parquetEnv t bs with
  | .ok (v, _) => .ok v
  | .error e => .error (PFail.ofFail e)

/-- lib.rs:107-136, the closure for one column. -/
def readColumnIndex (cfg : Cfg) (chunk : Bytes) (chunkOffset : Nat) (c : IndexFields) : Except PFail (Option (Val × Val)) :=
  match c.offsetOffset, c.offsetLength with
  | some oo, some ol => do
    let offsetRange ← relRange cfg chunkOffset oo ol
    match c.columnOffset, c.columnLength with
    | some co, some cl => do
      let columnRange ← relRange cfg chunkOffset co cl
      let ob ← sliceRange chunk offsetRange
      let offsetIndex ← readSlice cfg Format.tOffsetIndex ob
      let cb ← sliceRange chunk columnRange
      let columnIndex ← readSlice cfg Format.tColumnIndex cb
      pure (some (offsetIndex, columnIndex))
    | _, _ => pure none
  | _, _ => pure none

/-- lib.rs:140-144 `read_page_index`, with 106-137 for the row groups; `collect` stops at the first error. -/
def readPageIndex (cfg : Cfg) (chunk : Bytes) (chunkOffset : Nat) (md : Val) : Except PFail (List (List (Option (Val × Val)))) :=
  match metadataFields md with
  | none => .error .stuck
  | some rgs => rgs.mapM fun cols => cols.mapM (readColumnIndex cfg chunk chunkOffset)

end CT.Parquet
