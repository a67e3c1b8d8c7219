import Verif.Model.PqProgram
import Verif.Model.MacroText
import Verif.Model.Programs
/-!
# The text of parquet/examples/dump.rs, and how it is run

Line by line, produced by a script. What `{:#?}` prints of the metadata is what the derived implementations of `Debug` print, Model/Debug.lean.
-/
namespace CT.Pq
open CT CT.Parquet
open CT.Rs (Name)
open CT.Rust (joinLines)

/-- parquet/examples/dump.rs:1-12 -/
def dumpLines : List (List Char) := [
  text! "use std::fs::File;",
  text! "use compact_thrift_runtime::*;",
  text! "use compact_thrift_parquet::format::FileMetaData;",
  text! "use compact_thrift_parquet::get_metadata_chunk;",
  text! "",
  text! "pub fn main() {",
  text! "    let mut file = File::open(\"data/alltypes_tiny_pages.parquet\").unwrap();",
  text! "    let data = get_metadata_chunk(&mut file).unwrap();",
  text! "    let mut input = CompactThriftInputSlice::new(&data);",
  text! "",
  text! "    let fmd = FileMetaData::read_thrift(&mut input).unwrap();",
  text! "    println!(\"{:#?}\", fmd);"]

/-- parquet/examples/dump.rs -/
def dumpText : List Char := joinLines dumpLines ++ text! "}"

/-- parquet/examples/dump.rs:6-13 `main` -/
def dump_main : Fn :=
  ⟨(n! "main"), [], .block [.bind (.name (n! "file")) (.method (.call [(n! "File"), (n! "open")] [.str (n! "data/alltypes_tiny_pages.parquet")]) (n! "unwrap") []),
    .bind (.name (n! "data")) (.method (.call [(n! "get_metadata_chunk")] [.ref true (.path [(n! "file")])]) (n! "unwrap") []),
    .bind (.name (n! "input")) (.call [(n! "CompactThriftInputSlice"), (n! "new")] [.ref false (.path [(n! "data")])]),
    .bind (.name (n! "fmd")) (.method (.call [(n! "FileMetaData"), (n! "read_thrift")] [.ref true (.path [(n! "input")])]) (n! "unwrap") []),
    .semi (.mac (n! "println") [.str (n! "{:#?}"), .path [(n! "fmd")]])]⟩

def dumpItems : List Item := [.fn dump_main]

/-- `{:#?}` of a generated type: the derived implementation, runtime/src/macros.rs:56, 130, 205 and parquet/src/encodings.rs:34-38, as Model/Debug.lean has them -/
def prettyOf (s : DebugStd) : V → Option Bytes
  | .obj t v => Option.some (debugVal s Format.parquetEnv true t v)
  | _ => Option.none

/-- The text is parsed, and its function `f` is run where `{:#?}` of generated types prints what the derived implementation prints. -/
def runPretty (s : DebugStd) (cfg : Cfg) (capacity : Nat → Except PFail Unit) (text : List Char) (f : Name) (n : Nat) (vs : List V) (w : World) : FnOut :=
  match parseText text with
  | Option.none => .fail .stuck w
  | Option.some items => match assoc (progOf items).fns f with
    | Option.none => .fail .stuck w
    | Option.some fn => runFn (eval cfg capacity { progOf items with pretty := prettyOf s } n) fn vs w

end CT.Pq
