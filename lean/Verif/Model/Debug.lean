import Verif.Model.Print
/-!
# Derived `Debug`: macros.rs:56, 130, 205; encodings.rs:34-38

`#[derive(Debug)]` calls the builders of `core::fmt::builders`, with `{:?}` or, `alt`, with `{:#?}`. Both are modelled by their documented code, as are
the implementations for `Option`, `Vec`, `Box`, `Rc`, the integers and `str`. What is left open (`DebugStd`) is the table of characters that `str` shows
as they are (`char::is_printable` and the grapheme extenders), and the text of an `f64`.
-/
namespace CT
open CT.Schema

/-- What is not modelled of the standard library. -/
structure DebugStd where
  /-- The characters shown as they are; those that are always escaped are not looked up. -/
  plain : Nat → Bool
  /-- `{:?}` of an `f64` -/
  f64 : BitVec 64 → Bytes

/-! ## Strings -/

/-- `core::str::validations::next_code_point`: the next character, its bytes, and what follows. -/
def nextCodePoint : Bytes → Option (Nat × Bytes × Bytes)
  | [] => none
  | a :: rest =>
    if a.toNat < 0x80 then some (a.toNat, [a], rest)
    else match rest with
      | [] => none
      | b :: rest =>
        if a.toNat < 0xE0 then some (a.toNat % 32 * 64 + b.toNat % 64, [a, b], rest)
        else match rest with
          | [] => none
          | c :: rest =>
            if a.toNat < 0xF0 then some (a.toNat % 32 * 4096 + b.toNat % 64 * 64 + c.toNat % 64, [a, b, c], rest)
            else match rest with
              | [] => none
              | d :: rest => some (a.toNat % 8 * 262144 + b.toNat % 64 * 4096 + c.toNat % 64 * 64 + d.toNat % 64, [a, b, c, d], rest)

/-- Hexadecimal digits; the first argument bounds their number. -/
def hexF : Nat → Nat → Bytes
  | 0, _ => []
  | fuel + 1, n => (if n < 16 then [] else hexF fuel (n / 16)) ++ [BitVec.ofNat 8 (if n % 16 < 10 then 48 + n % 16 else 87 + n % 16)]

/-- `{:x}` -/
def hex (n : Nat) : Bytes := hexF (n + 1) n

/-- `char::escape_debug_ext` as used by `str`; `bytes` are the character's own. -/
def escapeDebug (s : DebugStd) (n : Nat) (bytes : Bytes) : Bytes :=
  if n = 0 then ascii! "\\0"
  else if n = 9 then ascii! "\\t"
  else if n = 13 then ascii! "\\r"
  else if n = 10 then ascii! "\\n"
  else if n = 34 then ascii! "\\\""
  else if n = 92 then ascii! "\\\\"
  else if s.plain n then bytes
  else ascii! "\\u{" ++ hex n ++ ascii! "}"

/-- The characters of a string, escaped; the first argument bounds their number. -/
def escapeAll (s : DebugStd) : Nat → Bytes → Bytes
  | 0, _ => []
  | fuel + 1, bs =>
    match nextCodePoint bs with
    | none => []
    | some (n, bytes, rest) => escapeDebug s n bytes ++ escapeAll s fuel rest

/-- `{:?}` of a `str` -/
def debugStr (s : DebugStd) (bs : Bytes) : Bytes := ascii! "\"" ++ escapeAll s bs.length bs ++ ascii! "\""

/-! ## Builders -/

/-- `PadAdapter::write_str`: four spaces at the start of every line; `nl` tells whether a line starts. -/
def pad : Bool → Bytes → Bytes
  | _, [] => []
  | nl, b :: bs => (if nl then ascii! "    " else []) ++ b :: pad (b == 10#8) bs

/-- Texts with something between them -/
def joinTexts (sep : Bytes) : List Bytes → Bytes
  | [] => []
  | [x] => x
  | x :: xs => x ++ sep ++ joinTexts sep xs

/-- `DebugStruct` -/
def debugStruct (alt : Bool) (name : Bytes) (fields : List (Bytes × Bytes)) : Bytes :=
  if fields.isEmpty then name
  else if alt then name ++ ascii! " {\n" ++ (fields.map fun f => pad true (f.1 ++ ascii! ": " ++ f.2 ++ ascii! ",\n")).flatten ++ ascii! "}"
  else name ++ ascii! " { " ++ joinTexts (ascii! ", ") (fields.map fun f => f.1 ++ ascii! ": " ++ f.2) ++ ascii! " }"

/-- `DebugTuple` with one field -/
def debugTuple (alt : Bool) (name : Bytes) (field : Bytes) : Bytes :=
  if alt then name ++ ascii! "(\n" ++ pad true (field ++ ascii! ",\n") ++ ascii! ")" else name ++ ascii! "(" ++ field ++ ascii! ")"

/-- `DebugList` -/
def debugList (alt : Bool) (entries : List Bytes) : Bytes :=
  if alt then ascii! "[" ++ (if entries.isEmpty then [] else ascii! "\n") ++ (entries.map fun e => pad true (e ++ ascii! ",\n")).flatten ++ ascii! "]"
  else ascii! "[" ++ joinTexts (ascii! ", ") entries ++ ascii! "]"

/-! ## Values -/

/-- A name in the text: without the `r#` of a raw identifier. -/
def identText (s : String) : Bytes :=
  let cs := s.toList
  ((if cs.take 2 = ['r', '#'] then cs.drop 2 else cs).flatMap fun c => (String.utf8EncodeChar c).map UInt8.toBitVec)

mutual
/-- `{:?}`, or `{:#?}` if `alt`, of a value of a type -/
def debugVal (s : DebugStd) (env : List Def) (alt : Bool) : Ty → Val → Bytes
  | _, .bool b => debugBool b
  | _, .i8 x => decimalInt x.toInt
  | _, .i16 x => decimalInt x.toInt
  | _, .i32 x => decimalInt x.toInt
  | _, .i64 x => decimalInt x.toInt
  | _, .double x => s.f64 x
  | _, .binary bs => debugList alt (bs.map fun b => decimal b.toNat)
  | _, .string bs => debugStr s bs
  | _, .encodingSet mask => debugList alt ((encodingSetIter mask).map fun x => debugTuple alt (ascii! "Encoding") (decimalInt x.toInt))
  | .list t, .list vs => debugList alt (debugVals s env alt t vs)
  | _, .none => ascii! "None"
  | .option t, .some v => debugTuple alt (ascii! "Some") (debugVal s env alt t v)
  | .box t, .box v => debugVal s env alt t v
  | .rc t, .rc _ v => debugVal s env alt t v
  | .named k, .enum x =>
    match env[k]? with
    | some (.enum name) => debugTuple alt (identText name) (decimalInt x.toInt)
    | _ => []
  | .named k, .struct vs =>
    match env[k]? with
    | some (.struct name fs) => debugStruct alt (identText name) (debugFields s env alt fs vs)
    | _ => []
  | .named k, .union i v =>
    match env[k]? with
    | some (.union _ us) =>
      match us[i]? with
      | some u => debugTuple alt (identText u.name) (debugVal s env alt u.ty v)
      | none => []
    | _ => []
  | _, _ => []
/-- The elements of a vector -/
def debugVals (s : DebugStd) (env : List Def) (alt : Bool) (t : Ty) : List Val → List Bytes
  | [] => []
  | v :: vs => debugVal s env alt t v :: debugVals s env alt t vs
/-- The fields of a struct, with their names -/
def debugFields (s : DebugStd) (env : List Def) (alt : Bool) : List Field → List Val → List (Bytes × Bytes)
  | f :: fs, v :: vs => (identText f.name, debugVal s env alt f.rustTy v) :: debugFields s env alt fs vs
  | _, _ => []
end

end CT
