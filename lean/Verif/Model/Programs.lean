import Verif.Model.Debug
/-!
# The programs: parquet/src/bin/schema.rs:649-666 and parquet/examples/dump.rs

What a program prints on its standard output, and how it ends. The file name is a constant; what the system makes of it is the argument: an error, or an
open file. Not modelled: errors of the standard output (`println!` panics), and the message of a panic on the standard error.
-/
namespace CT.Programs
open CT.Parquet CT.Schema

/-- What is printed, and how `main` ends: `.error (.err e)` is the panic of an `unwrap` on `Err(e)`. -/
structure Run where
  out : Bytes
  exit : Except PFail Unit

/-- `fmd.version`, `fmd.num_rows` and `fmd.created_by`; `none` only if the value is not a `FileMetaData`. -/
def headOfVal (md : Val) : Option (BitVec 32 × BitVec 64 × Option Bytes) := do
  let version ← match getField Format.dFileMetaData "version" md with | some (.i32 x) => some x | _ => none
  let rows ← match getField Format.dFileMetaData "num_rows" md with | some (.i64 x) => some x | _ => none
  let created ← match getField Format.dFileMetaData "created_by" md with
    | some .none => some none
    | some (.some (.string x)) => some (some x)
    | _ => none
  pure (version, rows, created)

/-- schema.rs:656-661 -/
def printHead (version : BitVec 32) (rows : BitVec 64) (created : Option Bytes) : Bytes :=
  ascii! "version: " ++ decimalInt version.toInt ++ ascii! "\n" ++
  (ascii! "num of rows: " ++ decimalInt rows.toInt ++ ascii! "\n") ++
  match created with
  | some x => ascii! "created by: " ++ x ++ ascii! "\n"
  | none => []

/-- schema.rs:650-654, dump.rs:7-11 -/
def readFile (cfg : Cfg) (file : Except ErrorKind File) : Except PFail Val :=
  match file with
  | .error k => .error (.err (.io k))
  | .ok f =>
    match getMetadataChunk cfg f with
    | .error x => .error x
    | .ok (data, _) =>
      match readThrift cfg (sliceInput cfg) Format.parquetEnv Format.tFileMetaData data with
      | .error x => .error (.ofFail x)
      | .ok (fmd, _) => .ok fmd

/-- schema.rs:649-666 `main` -/
def schemaMain (cfg : Cfg) (file : Except ErrorKind File) : Run :=
  match readFile cfg file with
  | .error x => ⟨[], .error x⟩
  | .ok fmd =>
    match headOfVal fmd, schemaOfVal fmd with
    | some (version, rows, created), some elements =>
      let head := printHead version rows created
      match convertSchema cfg elements with
      | .error x => ⟨head, .error x⟩
      | .ok schema => ⟨head ++ prettyPrint schema 0, .ok ()⟩
    | _, _ => ⟨[], .error .stuck⟩

/-- dump.rs:6-13 `main` -/
def dumpMain (s : DebugStd) (cfg : Cfg) (file : Except ErrorKind File) : Run :=
  match readFile cfg file with
  | .error x => ⟨[], .error x⟩
  | .ok fmd => ⟨debugVal s Format.parquetEnv true Format.tFileMetaData fmd ++ ascii! "\n", .ok ()⟩

end CT.Programs
