import Verif.Model.PqSyntax
import Verif.Model.MacroText
import Verif.Model.FieldName
import Verif.Model.ErrorText
import Verif.Model.PqRun
/-!
# The text of runtime/src/error.rs, and how it is run

The text line by line, produced by a script; what it parses to (`C120_text` says that it does); an interpreter for its functions, which knows nothing of them. Simplifications: types
are not checked (`stuck` is code the compiler refuses); a shared reference is what it refers to; a formatter is its `alternate` flag and what has been written, and writing never
fails; `Debug` of an enum is derived if its declaration says so, as in Model/Debug.lean; what std shows of a `CStr` and of an `ErrorKind` is left open as in Model/ErrorText.lean;
`to_string_lossy` of what is not UTF-8 is `stuck`.
-/
namespace CT.Er
open CT CT.Pq
open CT.Rs (Name ITy BinOp)
open CT.Rust (joinLines)

/-- runtime/src/error.rs:1-84 -/
def errorLines : List (List Char) := [
  text! "use std::error::Error;",
  text! "use std::ffi::CStr;",
  text! "use std::ffi::c_char;",
  text! "use std::fmt::Debug;",
  text! "use std::fmt::Display;",
  text! "use std::fmt::Formatter;",
  text! "use std::io::ErrorKind;",
  text! "use std::io::Error as IOError;",
  text! "",
  text! "#[derive(Clone,Debug)]",
  text! "pub enum ThriftError {",
  text! "    InvalidNumber,",
  text! "    InvalidString,",
  text! "    InvalidBinaryLen(usize),",
  text! "    InvalidCollectionLen,",
  text! "    MissingField(FieldName),",
  text! "    MissingValue,",
  text! "    MissingStop,",
  text! "    DuplicateField,",
  text! "    InvalidType,",
  text! "    ReserveError,",
  text! "    IO(ErrorKind)",
  text! "}",
  text! "",
  text! "/// Store static strings used by field names as a single pointer to reduce size of the error enum.",
  text! "#[derive(Clone)]",
  text! "pub struct FieldName {",
  text! "    /// pointer to null-terminated static bytes",
  text! "    name: *const c_char,",
  text! "}",
  text! "",
  text! "// Safety: FieldName can only be constructed from static strings",
  text! "unsafe impl Send for FieldName {}",
  text! "unsafe impl Sync for FieldName {}",
  text! "",
  text! "impl From<&'static CStr> for FieldName {",
  text! "    fn from(value: &'static CStr) -> Self {",
  text! "        Self {",
  text! "            name: value.as_ptr()",
  text! "        }",
  text! "    }",
  text! "}",
  text! "",
  text! "impl From<&'static str> for FieldName {",
  text! "    fn from(value: &'static str) -> Self {",
  text! "        assert!(!value.is_empty() && value.as_bytes()[value.len()-1] == b'\\0');",
  text! "        Self {",
  text! "            name: value.as_ptr().cast::<c_char>()",
  text! "        }",
  text! "    }",
  text! "}",
  text! "",
  text! "impl Debug for FieldName {",
  text! "    fn fmt(&self, f: &mut Formatter<'_>) -> std::fmt::Result {",
  text! "        unsafe { Debug::fmt(CStr::from_ptr(self.name), f) }",
  text! "    }",
  text! "}",
  text! "",
  text! "impl Display for FieldName {",
  text! "    fn fmt(&self, f: &mut Formatter<'_>) -> std::fmt::Result {",
  text! "        unsafe { Display::fmt(&CStr::from_ptr(self.name).to_string_lossy(), f) }",
  text! "    }",
  text! "}",
  text! "",
  text! "impl Display for ThriftError {",
  text! "    fn fmt(&self, f: &mut Formatter<'_>) -> std::fmt::Result {",
  text! "        <Self as Debug>::fmt(self, f)",
  text! "    }",
  text! "}",
  text! "",
  text! "impl Error for ThriftError {",
  text! "",
  text! "}",
  text! "",
  text! "impl From<IOError> for ThriftError {",
  text! "    fn from(e: IOError) -> Self {",
  text! "        Self::IO(e.kind())",
  text! "    }",
  text! "}",
  text! "",
  text! "impl From<ErrorKind> for ThriftError {",
  text! "    fn from(kind: ErrorKind) -> Self {",
  text! "        Self::IO(kind)",
  text! "    }"]

/-- runtime/src/error.rs -/
def errorText : List Char := joinLines errorLines ++ text! "}"

/-! ## What it parses to -/

/-- error.rs:37-41 `From<&'static CStr> for FieldName` -/
def er_from_CStr : Fn :=
  ⟨(n! "from"), [((n! "value"), .other)], .block [.record [(n! "FieldName")] [((n! "name"), .method (.path [(n! "value")]) (n! "as_ptr") [])]]⟩

/-- error.rs:45-50 `From<&'static str> for FieldName` -/
def er_from_str : Fn :=
  ⟨(n! "from"), [((n! "value"), .other)], .block [
    .semi (.mac (n! "assert") [.and (.not (.method (.path [(n! "value")]) (n! "is_empty") []))
      (.bin .eq (.index (.method (.path [(n! "value")]) (n! "as_bytes") []) (.bin .sub (.method (.path [(n! "value")]) (n! "len") []) (.lit 1 none))) (.lit 0 (some .u8)))]),
    .record [(n! "FieldName")] [((n! "name"), .method (.method (.path [(n! "value")]) (n! "as_ptr") []) (n! "cast") [])]]⟩

/-- error.rs:54-56 `Debug for FieldName` -/
def er_FieldName_Debug : Fn :=
  ⟨(n! "fmt"), [((n! "self"), .other), ((n! "f"), .other)], .block [.block [.call [(n! "Debug"), (n! "fmt")]
    [.call [(n! "CStr"), (n! "from_ptr")] [.field (.path [(n! "self")]) (n! "name")], .path [(n! "f")]]]]⟩

/-- error.rs:60-62 `Display for FieldName` -/
def er_FieldName_Display : Fn :=
  ⟨(n! "fmt"), [((n! "self"), .other), ((n! "f"), .other)], .block [.block [.call [(n! "Display"), (n! "fmt")]
    [.ref false (.method (.call [(n! "CStr"), (n! "from_ptr")] [.field (.path [(n! "self")]) (n! "name")]) (n! "to_string_lossy") []), .path [(n! "f")]]]]⟩

/-- error.rs:66-68 `Display for ThriftError` -/
def er_ThriftError_Display : Fn :=
  ⟨(n! "fmt"), [((n! "self"), .other), ((n! "f"), .other)], .block [.call [(n! "ThriftError"), (n! "Debug"), (n! "fmt")] [.path [(n! "self")], .path [(n! "f")]]]⟩

/-- error.rs:76-78 `From<IOError> for ThriftError` -/
def er_from_IOError : Fn :=
  ⟨(n! "from"), [((n! "e"), .other)], .block [.call [(n! "ThriftError"), (n! "IO")] [.method (.path [(n! "e")]) (n! "kind") []]]⟩

/-- error.rs:82-84 `From<ErrorKind> for ThriftError` -/
def er_from_ErrorKind : Fn :=
  ⟨(n! "from"), [((n! "kind"), .other)], .block [.call [(n! "ThriftError"), (n! "IO")] [.path [(n! "kind")]]]⟩

def errorItems : List Item := [
  .struct (n! "FieldName") [((n! "name"), .other)],
  .impl (n! "Send") 0 (n! "FieldName") [],
  .impl (n! "Sync") 0 (n! "FieldName") [],
  .impl (n! "From") (n! "CStr") (n! "FieldName") [er_from_CStr],
  .impl (n! "From") (n! "str") (n! "FieldName") [er_from_str],
  .impl (n! "Debug") 0 (n! "FieldName") [er_FieldName_Debug],
  .impl (n! "Display") 0 (n! "FieldName") [er_FieldName_Display],
  .impl (n! "Display") 0 (n! "ThriftError") [er_ThriftError_Display],
  .impl (n! "Error") 0 (n! "ThriftError") [],
  .impl (n! "From") (n! "IOError") (n! "ThriftError") [er_from_IOError],
  .impl (n! "From") (n! "ErrorKind") (n! "ThriftError") [er_from_ErrorKind]]

/-- The declaration of an enum: the derived traits, and the variants with the number of their fields. -/
structure Enum where
  name : Name
  derives : List Name
  variants : List (Name × Nat)

/-- error.rs:10-23 -/
def errorEnum : Enum :=
  ⟨n! "ThriftError", [n! "Clone", n! "Debug"], [(n! "InvalidNumber", 0), (n! "InvalidString", 0), (n! "InvalidBinaryLen", 1), (n! "InvalidCollectionLen", 0), (n! "MissingField", 1),
    (n! "MissingValue", 0), (n! "MissingStop", 0), (n! "DuplicateField", 0), (n! "InvalidType", 0), (n! "ReserveError", 0), (n! "IO", 1)]⟩

/-- A derived trait -/
def derived : List T → Option Name
  | [.id d] => some d
  | _ => none

/-- A variant -/
def variant : List T → Option (Name × Nat)
  | [.id x] => some (x, 0)
  | [.id x, .group .paren ts] => some (x, (parts ts).length)
  | _ => none

/-- The enums with one attribute, `derive`; others are passed over. -/
def enums : List T → List Enum
  | [] => []
  | t :: ts => match t, ts with
    | .op o, .group .bracket [.id d, .group .paren ds] :: .id p :: .id e :: .id x :: .group .brace vs :: _ =>
      if o == n! "#" && d == n! "derive" && p == n! "pub" && e == n! "enum" then (match (parts ds).mapM derived, (parts vs).mapM variant with
        | some ds, some vs => ⟨x, ds, vs⟩ :: enums ts
        | _, _ => enums ts)
      else enums ts
    | _, _ => enums ts

structure Prog where
  items : List Item
  enums : List Enum

/-- The program of a text. -/
def program (cs : List Char) : Option Prog :=
  (runLex .between (cs ++ ['\n'])).bind fun ls => (trees [] [] ls).bind fun ts => (parseItems 200 ts).map fun is => ⟨is, enums ts⟩

/-! ## Running -/

/-- Values -/
inductive W where
  | unit
  | bool (b : Bool)
  /-- a literal -/
  | num (n : Nat)
  | usize (n : Nat)
  | byte (b : Byte)
  /-- `&str`: address and length -/
  | str (p n : Nat)
  /-- `&[u8]` -/
  | slice (p n : Nat)
  /-- `&CStr`: address, and the bytes before the nul -/
  | cstr (p : Nat) (bs : Bytes)
  | ptr (p : Nat)
  /-- what `to_string_lossy` returns -/
  | text (bs : Bytes)
  /-- `io::Error`, of this kind -/
  | io (k : ErrorKind)
  | kind (k : ErrorKind)
  | formatter
  | con (p : List Name) (vs : List W)
  | record (p : List Name) (fs : List (Name × W))

/-- `Ok(())` -/
def W.done : W := .con [n! "Ok"] [.unit]

/-- The value, and what has been written to the formatter. -/
abbrev Res := Except Fail (W × Bytes)

/-- The type of a value, of those declared in the text. -/
def typeOf : W → Name
  | .con p _ => p.headD 0
  | .record p _ => p.headD 0
  | _ => 0

/-- `impl trait<arg> for type`: the function of the name. -/
def implOf (trait arg type f : Name) : List Item → Option Fn
  | [] => none
  | .impl tr a ty fs :: is => if tr = trait ∧ a = arg ∧ ty = type then fs.find? (fun g => g.name == f) else implOf trait arg type f is
  | _ :: is => implOf trait arg type f is

def lookup {α : Type} : List (Name × α) → Name → Option α
  | [], _ => none
  | (y, v) :: l, x => if x = y then some v else lookup l x

/-- The outcome of something that writes nothing. -/
def pureR (r : Option W) (out : Bytes) : Res :=
  match r with
  | some v => .ok (v, out)
  | none => .error .stuck

section
variable (s : ErrorStd) (cfg : Cfg) (mem : Mem) (fuel : Nat) (alt : Bool) (P : Prog)
variable (ev : Expr → List (Name × W) → Bytes → Res) (fm : Name → W → Bytes → Res)

/-- The values of expressions, from left to right. -/
def evAll : List Expr → List (Name × W) → Bytes → Except Fail (List W × Bytes)
  | [], _, out => .ok ([], out)
  | e :: es, env, out => match ev e env out with
    | .error x => .error x
    | .ok (v, out) => match evAll es env out with
      | .error x => .error x
      | .ok (vs, out) => .ok (v :: vs, out)

/-- `a - b` of `usize`s -/
def subUsize (a b : Nat) : Except Fail Nat :=
  if b ≤ a then .ok (a - b) else if cfg.overflowChecks then .error .panic else .ok (a + 2 ^ 64 - b)

/-- `a op b` -/
def binary (op : BinOp) (a b : W) (out : Bytes) : Res :=
  match op, a, b with
  | .eq, .byte x, .byte y => .ok (.bool (decide (x = y)), out)
  | .sub, .usize x, .num y => match subUsize cfg x y with
    | .ok n => .ok (.usize n, out)
    | .error f => .error f
  | _, _, _ => .error .stuck

/-- `a[i]` -/
def indexed (a i : W) (out : Bytes) : Res :=
  match a, i with
  | .slice p n, .usize i => if i < n then (match mem (p + i) with
      | some b => .ok (.byte b, out)
      | none => .error .ub) else .error .panic
  | _, _ => .error .stuck

/-- Methods of std without arguments -/
def stdMethod (f : Name) : W → Option W
  | .str p n =>
    if f = n! "is_empty" then some (.bool (n == 0)) else if f = n! "len" then some (.usize n) else if f = n! "as_bytes" then some (.slice p n)
    else if f = n! "as_ptr" then some (.ptr p) else none
  | .cstr p bs => if f = n! "as_ptr" then some (.ptr p) else if f = n! "to_string_lossy" then (if utf8Valid bs then some (.text bs) else none) else none
  | .ptr p => if f = n! "cast" then some (.ptr p) else none
  | .io k => if f = n! "kind" then some (.kind k) else none
  | _ => none

/-- `f(vs)`: `CStr::from_ptr`, `Trait::fmt`, `<T as Trait>::fmt`, a constructor -/
def called (f : List Name) (vs : List W) (out : Bytes) : Res :=
  match f, vs with
  | [t, c], [v] => if t = n! "CStr" ∧ c = n! "from_ptr" then (match v with
      | .ptr p => match cstr mem fuel p with
        | .ok bs => .ok (.cstr p bs, out)
        | .error x => .error x
      | _ => .error .stuck) else .ok (.con [t, c] [v], out)
  | [t, c], [v, .formatter] => if c = n! "fmt" then fm t v out else .error .stuck
  | [ty, t, c], [v, .formatter] => if c = n! "fmt" ∧ typeOf v = ty then fm t v out else .error .stuck
  | p, vs => .ok (.con p vs, out)

/-- The statements of a block -/
def evBlock : List Expr → List (Name × W) → Bytes → Res
  | [], _, out => .ok (.unit, out)
  | [e], env, out => ev e env out
  | e :: es, env, out => match ev e env out with
    | .error x => .error x
    | .ok (_, out) => evBlock es env out

def step (e : Expr) (env : List (Name × W)) (out : Bytes) : Res :=
  match e with
  | .lit n none => .ok (.num n, out)
  | .lit n (some .u8) => .ok (.byte (BitVec.ofNat 8 n), out)
  | .path [x] => pureR (lookup env x) out
  | .not e => match ev e env out with
    | .ok (.bool b, out) => .ok (.bool !b, out)
    | .ok _ => .error .stuck
    | .error x => .error x
  | .and a b => match ev a env out with
    | .ok (.bool true, out) => ev b env out
    | .ok (.bool false, out) => .ok (.bool false, out)
    | .ok _ => .error .stuck
    | .error x => .error x
  | .bin op a b => match evAll ev [a, b] env out with
    | .ok ([a, b], out) => binary cfg op a b out
    | .ok _ => .error .stuck
    | .error x => .error x
  | .index a i => match evAll ev [a, i] env out with
    | .ok ([a, i], out) => indexed mem a i out
    | .ok _ => .error .stuck
    | .error x => .error x
  | .ref false e => ev e env out
  | .field e x => match ev e env out with
    | .ok (.record _ fs, out) => pureR (lookup fs x) out
    | .ok _ => .error .stuck
    | .error x => .error x
  | .record p fs => match evAll ev (fs.map Prod.snd) env out with
    | .ok (vs, out) => .ok (.record p ((fs.map Prod.fst).zip vs), out)
    | .error x => .error x
  | .method e f [] => match ev e env out with
    | .ok (v, out) => pureR (stdMethod f v) out
    | .error x => .error x
  | .call f es => match evAll ev es env out with
    | .ok (vs, out) => called mem fuel fm f vs out
    | .error x => .error x
  | .mac f [e] => if f = n! "assert" then (match ev e env out with
      | .ok (.bool true, out) => .ok (.unit, out)
      | .ok (.bool false, _) => .error .panic
      | .ok _ => .error .stuck
      | .error x => .error x) else .error .stuck
  | .semi e => match ev e env out with
    | .ok (_, out) => .ok (.unit, out)
    | .error x => .error x
  | .block es => evBlock ev es env out
  | _ => .error .stuck

/-- The derived `Debug` of an enum -/
def deriveDebug (v : W) (out : Bytes) : Res :=
  match v with
  | .con [t, c] vs => match P.enums.find? (fun e => e.name == t) with
    | some e => if n! "Debug" ∈ e.derives ∧ (c, vs.length) ∈ e.variants then (match vs with
        | [] => .ok (.done, out ++ nameBytes c)
        | [v] => (match fm (n! "Debug") v [] with
          | .ok (_, text) => .ok (.done, out ++ debugTuple alt (nameBytes c) text)
          | .error x => .error x)
        | _ => .error .stuck) else .error .stuck
    | none => .error .stuck
  | _ => .error .stuck

/-- `Trait::fmt(v, f)` -/
def fmtStep (trait : Name) (v : W) (out : Bytes) : Res :=
  match implOf trait 0 (typeOf v) (n! "fmt") P.items with
  | some fn => match fn.params with
    | [(x, _), (f, _)] => ev fn.body [(x, v), (f, .formatter)] out
    | _ => .error .stuck
  | none =>
    if trait = n! "Debug" then match v with
      | .cstr _ bs => .ok (.done, out ++ s.cstr bs)
      | .usize n => .ok (.done, out ++ Schema.decimal n)
      | .kind k => .ok (.done, out ++ debugKind s k)
      | v => deriveDebug alt P fm v out
    else if trait = n! "Display" then match v with
      | .text bs => .ok (.done, out ++ bs)
      | _ => .error .stuck
    else .error .stuck
end

mutual
/-- An expression with at most `n` nested steps -/
def eval (s : ErrorStd) (cfg : Cfg) (mem : Mem) (fuel : Nat) (alt : Bool) (P : Prog) : Nat → Expr → List (Name × W) → Bytes → Res
  | 0, _, _, _ => .error .diverge
  | n + 1, e, env, out => step cfg mem fuel (eval s cfg mem fuel alt P n) (format s cfg mem fuel alt P n) e env out
/-- `trait::fmt(v, f)` -/
def format (s : ErrorStd) (cfg : Cfg) (mem : Mem) (fuel : Nat) (alt : Bool) (P : Prog) : Nat → Name → W → Bytes → Res
  | 0, _, _, _ => .error .diverge
  | n + 1, trait, v, out => fmtStep s alt P (eval s cfg mem fuel alt P n) (format s cfg mem fuel alt P n) trait v out
end

/-- The text is parsed, and its implementation of `trait::fmt` for the value is run with an empty formatter. -/
def runFmt (s : ErrorStd) (cfg : Cfg) (mem : Mem) (fuel : Nat) (alt : Bool) (text : List Char) (n : Nat) (trait : Name) (v : W) : Res :=
  match program text with
  | none => .error .stuck
  | some P => format s cfg mem fuel alt P n trait v []

/-- The text is parsed, and its implementation of `From<source> for type` is run. -/
def runFrom (s : ErrorStd) (cfg : Cfg) (mem : Mem) (fuel : Nat) (text : List Char) (n : Nat) (source type : Name) (v : W) : Except Fail W :=
  match program text with
  | none => .error .stuck
  | some P => match implOf (n! "From") source type (n! "from") P.items with
    | some ⟨_, [(x, _)], body⟩ => (eval s cfg mem fuel false P n body [(x, v)] []).map Prod.fst
    | _ => .error .stuck

end CT.Er
