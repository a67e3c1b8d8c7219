import Verif.Model.Programs
/-!
# The texts of errors: runtime/src/error.rs:10, 53-69; parquet/src/lib.rs:13

`#[derive(Debug)]` as in Model/Debug.lean. Left open (`ErrorStd`): how the standard library shows a `CStr`, the names of the `ErrorKind`s the code does not
mention, and the text of an `io::Error`.
-/
namespace CT
open CT.Schema CT.Parquet

/-- What is not modelled of the standard library. -/
structure ErrorStd where
  /-- the table for `str` -/
  base : DebugStd
  /-- `{:?}` of a `CStr` with these bytes -/
  cstr : Bytes → Bytes
  /-- names of other kinds -/
  kind : Nat → Bytes
  /-- `{:?}`, or `{:#?}`, of an `io::Error` of this kind -/
  io : Bool → ErrorKind → Bytes

/-- The bytes of a string -/
def stringBytes (s : String) : Bytes := s.toList.flatMap fun c => (String.utf8EncodeChar c).map UInt8.toBitVec

/-- `{:?}` of an `ErrorKind`: the name of the variant -/
def debugKind (s : ErrorStd) : ErrorKind → Bytes
  | .unexpectedEof => ascii! "UnexpectedEof"
  | .interrupted => ascii! "Interrupted"
  | .invalidInput => ascii! "InvalidInput"
  | .writeZero => ascii! "WriteZero"
  | .other n => s.kind n

/-- error.rs:10-23 `#[derive(Debug)]`, 53-57 `Debug for FieldName` -/
def debugError (s : ErrorStd) (alt : Bool) : ThriftError → Bytes
  | .invalidNumber => ascii! "InvalidNumber"
  | .invalidString => ascii! "InvalidString"
  | .invalidBinaryLen n => debugTuple alt (ascii! "InvalidBinaryLen") (decimal n)
  | .invalidCollectionLen => ascii! "InvalidCollectionLen"
  | .missingField name => debugTuple alt (ascii! "MissingField") (s.cstr (stringBytes name))
  | .missingValue => ascii! "MissingValue"
  | .missingStop => ascii! "MissingStop"
  | .duplicateField => ascii! "DuplicateField"
  | .invalidType => ascii! "InvalidType"
  | .reserveError => ascii! "ReserveError"
  | .io k => debugTuple alt (ascii! "IO") (debugKind s k)

/-- error.rs:65-69 `Display for ThriftError`: the same formatter is passed on, so `{}` is `{:?}` and `{:#}` is `{:#?}`. -/
def displayError (s : ErrorStd) (alt : Bool) (e : ThriftError) : Bytes := debugError s alt e

/-- parquet/src/lib.rs:13-21 `#[derive(Debug)]` -/
def debugParquetError (s : ErrorStd) (alt : Bool) : ParquetError → Bytes
  | .thrift e => debugTuple alt (ascii! "Thrift") (debugError s alt e)
  | .invalidMagic => ascii! "InvalidMagic"
  | .io k => debugTuple alt (ascii! "Io") (s.io alt k)
  | .invalidOffset => ascii! "InvalidOffset"
  | .schema msg => debugTuple alt (ascii! "Schema") (debugStr s.base (stringBytes msg))
  | .unknownType id => debugTuple alt (ascii! "UnknownType") (decimalInt id.toInt)

/-- `Result::unwrap` on an error with this text panics with this message. -/
def unwrapMessage (text : Bytes) : Bytes := ascii! "called `Result::unwrap()` on an `Err` value: " ++ text

namespace Programs

/-- The message of the panic in which schema.rs:649-666 or dump.rs:6-13 ends, up to the conversion of the schema. -/
def readMessage (s : ErrorStd) (cfg : Cfg) (file : Except ErrorKind File) : Option Bytes :=
  match file with
  | .error k => some (unwrapMessage (s.io false k))
  | .ok f =>
    match getMetadataChunk cfg f with
    | .error (.err e) => some (unwrapMessage (debugParquetError s false e))
    | .error _ => none
    | .ok (data, _) =>
      match readThrift cfg (sliceInput cfg) Format.parquetEnv Format.tFileMetaData data with
      | .error (.err e) => some (unwrapMessage (debugError s false e))
      | _ => none

/-- schema.rs:664 `convert_schema(..).unwrap()` -/
def convertMessage (s : ErrorStd) (cfg : Cfg) (file : Except ErrorKind File) : Option Bytes :=
  match readFile cfg file with
  | .error _ => none
  | .ok fmd =>
    match schemaOfVal fmd with
    | none => none
    | some elements =>
      match convertSchema cfg elements with
      | .error (.err e) => some (unwrapMessage (debugParquetError s false e))
      | _ => none

/-- The message of the program `schema`, if it ends in `unwrap` -/
def schemaMessage (s : ErrorStd) (cfg : Cfg) (file : Except ErrorKind File) : Option Bytes :=
  match readMessage s cfg file with
  | some m => some m
  | none => convertMessage s cfg file

/-- The message of `dump` -/
def dumpMessage (s : ErrorStd) (cfg : Cfg) (file : Except ErrorKind File) : Option Bytes := readMessage s cfg file

end Programs
end CT
