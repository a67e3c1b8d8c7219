import Verif.Model.MacroRules
import Verif.Model.Code
import Verif.Model.Macros
/-!
# The statements of `Model/Code.lean` as Rust code

What each statement looks like in Rust, so that the functions `exec` and `wexec` give a meaning to can be compared with the code the macros
expand to and with the code the generator emits; and the items around these functions.
-/
namespace CT.Rust.Spec
open CT CT.Rust CT.Code

/-- Code written in a macro (or by the generator). -/
def code (s : List Char) : List Tree := (parse true s).getD [.bad]

/-- How the two dialects differ: whose tokens the names of the schema are, how the runtime is referred to, the names of the methods, the type annotation
of flags, what is between the arms of a `match`, and the text of errors. -/
structure Dialect where
  user : Bool
  crate : List Tree
  fill : List Char
  fillField : List Char
  write : List Char
  writeField : List Char
  flagType : List Tree
  comma : List Tree
  /-- a comma after the last arm of `match self` -/
  trailing : Bool
  message : String → Tok

/-- macros.rs -/
def ofMacro : Dialect :=
  ⟨false, [.tok .crate true, .tok (.op [':', ':']) true], text! "fill_thrift", text! "fill_thrift_field", text! "write_thrift", text! "write_thrift_field",
   [], code [','], false, fun s => .str (s.toList ++ ['\x00'])⟩

/-- Generator.kt -/
def ofGenerator : Dialect :=
  ⟨true, [], text! "fill", text! "fill_field", text! "write", text! "write_field", code (text! ": bool"), [], true, fun s => .cstr s.toList⟩

/-- A word of the template -/
def word (s : List Char) : Tree := .tok (.ident false s) true

def group (d : Delim) (ts : List Tree) : List Tree := [.group d ts]

/-- A variable -/
def localVar (x : Ident) : Tree := .tok (.ident false x.name.toList) x.inner

/-- A field id -/
def literal (own : Bool) (id : Int) : List Tree :=
  if id < 0 then [.tok (.op ['-']) own, .tok (.num id.natAbs []) own] else [.tok (.num id.natAbs []) own]

section
variable (d : Dialect)

/-- A name of the schema -/
def name (s : String) : Tree := .tok (.ident (keywords.contains s.toList) s.toList) d.user

def expr : Expr → List Tree
  | .i16 n => [.tok (.num n.toNat (text! "i16")) true]
  | .bool b => code (if b then text! "true" else text! "false")
  | .header input last => [localVar input] ++ code (text! ".read_field_header") ++ group .paren (code (text! "&mut") ++ [localVar last]) ++ code (text! "?")
  | .byte input => [localVar input] ++ code (text! ".read_byte()?")

def cond : Cond → List Tree
  | .zero x => [localVar x] ++ code (text! "== 0")
  | .nonzero x => [localVar x] ++ code (text! "!= 0")
  | .unset x => code (text! "!") ++ [localVar x]

/-- `let mut` for numbers and flags -/
def binder (x : Ident) : Expr → List Tree
  | .i16 _ => code (text! "let mut") ++ [localVar x]
  | .bool _ => code (text! "let mut") ++ [localVar x] ++ d.flagType
  | _ => code (text! "let") ++ [localVar x]

/-- An error as an expression -/
def error : ThriftError → List Tree
  | .missingField s => d.crate ++ code (text! "ThriftError::MissingField") ++ group .paren ([.tok (d.message s) true] ++ code (text! ".into()"))
  | .invalidType => d.crate ++ code (text! "ThriftError::InvalidType")
  | .missingStop => d.crate ++ code (text! "ThriftError::MissingStop")
  | _ => [.bad]

mutual
def stmt : Stmt → List Tree
  | .nop => []
  | .seq a b => stmt a ++ stmt b
  | .letIn x e rest => binder d x e ++ code (text! "=") ++ expr e ++ code (text! ";") ++ stmt rest
  | .assign x e => [localVar x] ++ code (text! "=") ++ expr e ++ code (text! ";")
  | .when c a => code (text! "if") ++ cond c ++ group .brace (stmt a)
  | .loop a => code (text! "loop") ++ group .brace (stmt a)
  | .brk => code (text! "break;")
  | .select x as => code (text! "match") ++ [localVar x] ++ group .brace (arms as)
  -- the semicolon does not matter after `return`; one of the templates' has it
  | .throw e => code (text! "return Err") ++ group .paren (error d e) ++ (if e = .invalidType then code (text! ";") else [])
  | .fillField field input ft =>
    code (text! "self.") ++ [name d field] ++ code (text! ".") ++ [word d.fillField] ++ group .paren ([localVar input] ++ code (text! ",") ++ [localVar ft]) ++ code (text! "?;")
  | .skip input ft => [localVar input] ++ code (text! ".skip_field") ++ group .paren [localVar ft] ++ code (text! "?;")
  | .become v => code (text! "*self = Self::") ++ [name d v] ++ code (text! "(Default::default());")
  | .fillInner v input =>
    code (text! "#[allow(unreachable_patterns)] match self") ++
      group .brace (code (text! "Self::") ++ [name d v] ++ code (text! "(inner) => inner.") ++ [word d.fill] ++ group .paren [localVar input] ++
        code (text! "?, _ => unsafe { std::hint::unreachable_unchecked() },"))
  | .readSelf input => code (text! "self.0 =") ++ [localVar input] ++ code (text! ".read_i32()?;")
def arms : Arms → List Tree
  | .other a => code (text! "_ =>") ++ group .brace (stmt a)
  | .arm id a (.other b) => literal d.user id.toInt ++ code (text! "=>") ++ group .brace (stmt a) ++ (code (text! "_ =>") ++ group .brace (stmt b))
  | .arm id a rest => literal d.user id.toInt ++ code (text! "=>") ++ group .brace (stmt a) ++ d.comma ++ arms rest
end

/-- The arms of `match self` -/
def warms (trailing : Bool) : WArms → List Tree
  | .nil => []
  | .arm v output id last rest =>
    code (text! "Self::") ++ [name d v] ++ code (text! "(inner) => inner.") ++ [word d.writeField] ++
      group .paren ([localVar output] ++ code (text! ",") ++ literal d.user id.toInt ++ code (text! ", &mut") ++ [localVar last]) ++ code (text! "?") ++
      (match trailing, rest with | false, .nil => [] | _, _ => code (text! ",")) ++ warms trailing rest

/-- Statements of `write_thrift`; `last` says that the last call is the result of the function. -/
def wstmt (last : Bool) : WStmt → List Tree
  | .nop => []
  | .seq a b => wstmt false a ++ wstmt last b
  | .letIn x n rest => code (text! "let mut") ++ [localVar x] ++ code (text! "=") ++ [.tok (.num n.toNat (text! "i16")) true] ++ code (text! ";") ++ wstmt last rest
  | .writeField field output id x =>
    code (text! "self.") ++ [name d field] ++ code (text! ".") ++ [word d.writeField] ++
      group .paren ([localVar output] ++ code (text! ",") ++ literal d.user id.toInt ++ code (text! ", &mut") ++ [localVar x]) ++ code (text! "?;")
  | .select as => code (text! "match self") ++ group .brace (warms d d.trailing as)
  | .writeByte output n => [localVar output] ++ code (text! ".write_byte") ++ group .paren [.tok (.num n.toNat []) true] ++ (if last then [] else code (text! "?;"))
  | .writeSelf output => [localVar output] ++ code (text! ".write_i32(self.0)")
end

/-! ## Items of macros.rs -/

/-- macros.rs:55, 59, 129, 134: doc comments are attributes; `cfg_attr` keeps them from doc tests. -/
def docs (attrs : List (List Tree)) : List Tree :=
  (attrs.map fun a => code (text! "#") ++ group .bracket (code (text! "cfg_attr") ++ group .paren (code (text! "not(doctest),") ++ a))).flatten

/-- A word of the schema -/
def ident (s : String) : Tree := .tok (.ident false s.toList) false

/-- `__thrift_field_type!` of one word: macros.rs:253-257 -/
def typeCode1 (s : String) : List Tree :=
  if s = "binary" then code (text! "Vec<u8>")
  else if s = "string" then code (text! "String")
  else if s = "byte" then code (text! "u8")
  else if s = "double" then code (text! "f64")
  else [ident s]

/-- `__thrift_field_type!`: macros.rs:250-261 -/
def typeCode (s : String) : Option String → List Tree
  | none => typeCode1 s
  | some e =>
    if s = "list" ∨ s = "set" then code (text! "Vec<") ++ typeCode1 e ++ code (text! ">")
    else if s = "Box" then code (text! "std::boxed::Box<") ++ typeCode1 e ++ code (text! ">")
    else if s = "Rc" then code (text! "std::rc::Rc<") ++ typeCode1 e ++ code (text! ">")
    else if s = "Arc" then code (text! "std::sync::Arc<") ++ typeCode1 e ++ code (text! ">")
    else [.bad]

/-- `__thrift_required_or_optional!`: macros.rs:266-269 -/
def fieldTypeCode (f : Macro.FieldSyn) : List Tree :=
  if f.req = "optional" then code (text! "Option<") ++ typeCode f.ty f.elem ++ code (text! ">") else typeCode f.ty f.elem

/-- The two functions; macros.rs:71-110, 142-186, 221-233 -/
def implCode (attr : List Tree) (fieldType : List Char) (inline : List Tree) (winline : List Tree) (name : String) (fill write : List Tree) : List Tree :=
  attr ++ code (text! "impl <'i>") ++ ofMacro.crate ++ code (text! "CompactThriftProtocol<'i> for") ++ [ident name] ++ group .brace (
    code (text! "const FIELD_TYPE: u8 =") ++ code fieldType ++ code (text! ";") ++ inline ++ code (text! "fn fill_thrift<T:") ++ ofMacro.crate ++
    code (text! "CompactThriftInput<'i>>(&mut self, input: &mut T) -> std::result::Result<(),") ++ ofMacro.crate ++ code (text! "ThriftError>") ++
    group .brace fill ++ winline ++ code (text! "fn write_thrift<T:") ++ ofMacro.crate ++
    code (text! "CompactThriftOutput>(&self, output: &mut T) -> std::result::Result<(),") ++ ofMacro.crate ++ code (text! "ThriftError>") ++ group .brace write)

/-- The items of a struct: macros.rs:55-110 -/
def structItems (attrs : List (List Tree)) (name : String) (fs : List (List (List Tree) × Macro.FieldSyn)) (fill write : List Tree) : List Tree :=
  docs attrs ++ code (text! "#[derive(Default, Clone, Debug, PartialEq)] #[allow(non_camel_case_types)] #[allow(non_snake_case)] pub struct") ++ [ident name] ++
  group .brace (joinWith (some (.op [','])) (fs.map fun f => docs f.1 ++ code (text! "pub") ++ [ident f.2.name] ++ code (text! ":") ++ fieldTypeCode f.2)) ++
  code (text! "impl") ++ [ident name] ++ group .brace (
    code (text! "#[allow(clippy::too_many_arguments)] pub fn new") ++
    group .paren (joinWith (some (.op [','])) (fs.map fun f => [ident f.2.name] ++ code (text! ": impl Into<") ++ fieldTypeCode f.2 ++ code (text! ">"))) ++
    code (text! "-> Self") ++ group .brace (code (text! "Self") ++
      group .brace (fs.map fun f => [ident f.2.name] ++ code (text! ":") ++ [ident f.2.name] ++ code (text! ".into(),")).flatten)) ++
  implCode (code (text! "#[allow(non_snake_case)]")) (text! "12") (code (text! "#[inline(never)]")) [] name (fill ++ code (text! "Ok(())"))
    (code (text! "#[allow(unused_variables)] #[allow(unused_mut)]") ++ write ++ code (text! "Ok(())"))

/-- The items of a union: macros.rs:129-186 -/
def unionItems (attrs : List (List Tree)) (name : String) (us : List (List (List Tree) × Macro.VariantSyn)) (fill write : List Tree) : List Tree :=
  docs attrs ++ code (text! "#[derive(Clone, Debug, PartialEq)] #[allow(non_camel_case_types)] #[allow(non_snake_case)] pub enum") ++ [ident name] ++
  group .brace (joinWith (some (.op [','])) (us.map fun u => docs u.1 ++ [ident u.2.name] ++ group .paren (typeCode u.2.ty u.2.elem))) ++
  code (text! "impl Default for") ++ [ident name] ++ group .brace (code (text! "fn default() -> Self") ++
    group .brace (match us with | u :: _ => code (text! "Self::") ++ [ident u.2.name] ++ code (text! "(Default::default())") | [] => code (text! "Self"))) ++
  implCode (code (text! "#[allow(non_snake_case)]")) (text! "12") (code (text! "#[inline(never)]")) [] name (fill ++ code (text! "Ok(())")) (write ++ code (text! "Ok(())"))

/-- The items of an enum: macros.rs:204-233 -/
def enumItems (attrs : List (List Tree)) (name : String) (cs : List (String × List Tree)) (fill write : List Tree) : List Tree :=
  (attrs.map fun a => code (text! "#") ++ group .bracket a).flatten ++
  code (text! "#[derive(Default, Debug, Copy, Clone, Eq, Hash, Ord, PartialEq, PartialOrd)] #[allow(non_camel_case_types)] pub struct") ++ [ident name] ++
  code (text! "(pub i32); impl From<i32> for") ++ [ident name] ++ code (text! "{ #[inline] fn from(value: i32) -> Self { Self(value) } } impl") ++ [ident name] ++
  group .brace (cs.map fun c => code (text! "pub const") ++ [ident c.1] ++ code (text! ": Self = Self") ++ group .paren c.2 ++ code (text! ";")).flatten ++
  implCode [] (text! "5") (code (text! "#[inline]")) (code (text! "#[inline]")) name (fill ++ code (text! "Ok(())")) write

/-! ## The arguments of the macros -/

def ofDelim : Macro.Delim → Delim
  | .paren => .paren
  | .bracket => .bracket
  | .brace => .brace

mutual
/-- The tokens of `Model/Macros.lean`, written by the user of a macro. -/
def ofTT : Macro.TT → Tree
  | .ident s => ident s
  | .lit (.int n) => .tok (.num n []) false
  | .lit .float => .tok .float false
  | .lit .text => .tok (.str []) false
  | .punct c => .tok (.op [c]) false
  | .group d ts => .group (ofDelim d) (ofTTs ts)
def ofTTs : List Macro.TT → List Tree
  | [] => []
  | t :: ts => ofTT t :: ofTTs ts
end

/-- A literal -/
def ofLiteral : Macro.Literal → List Tree
  | .int neg n => (if neg then [.tok (.op ['-']) false] else []) ++ [.tok (.num n []) false]
  | .other => [.bad]

/-- Attributes before something, passed on by a macro or not -/
def ofAttrs (own : Bool) (attrs : List (List Macro.TT)) : List Tree := (attrs.map fun a => [.tok (.op ['#']) own, .group .bracket (ofTTs a)]).flatten

/-- A definition: macros.rs:22, 26, 30 -/
def definition (own : Bool) (attrs : List (List Macro.TT)) (keyword : List Char) (name : String) (body : List Macro.TT) : List Tree :=
  ofAttrs own attrs ++ [.tok (.ident false keyword) own, ident name, .group .brace (ofTTs body)]

/-! ## What a document becomes -/

/-- No id or value is written `-0` (which is `0`, but not the same token). -/
def noMinusZero : Macro.Item → Prop
  | .struct _ body => ∀ fs, Macro.repeated Macro.structField body.length body = some fs → ∀ f ∈ fs, f.id ≠ .int true 0
  | .union _ body => ∀ fs, Macro.repeated Macro.unionField body.length body = some fs → ∀ f ∈ fs, f.id ≠ .int true 0
  | .enum _ _ => True

/-- The code of an item whose definition is `d`: the items above around the statements of `Model/Code.lean`. -/
inductive ItemCode : Macro.Item → Def → List Tree → Prop where
  | struct {attrs : List (List Tree)} {name : String} {body : List Macro.TT} {fs : List Macro.FieldSyn} {ds : List (List (List Tree))} {d : Def} :
      Macro.repeated Macro.structField body.length body = some fs → ds.length = fs.length →
      ItemCode (.struct name body) d (structItems attrs name (ds.zip fs) (stmt ofMacro (macroFill d)) (wstmt ofMacro false (macroWrite d)))
  | union {attrs : List (List Tree)} {name : String} {body : List Macro.TT} {us : List Macro.VariantSyn} {ds : List (List (List Tree))} {d : Def} :
      Macro.repeated Macro.unionField body.length body = some us → ds.length = us.length →
      ItemCode (.union name body) d (unionItems attrs name (ds.zip us) (stmt ofMacro (macroFill d)) (wstmt ofMacro false (macroWrite d)))
  | enum {attrs : List (List Tree)} {name : String} {body : List Macro.TT} {cs : List (String × Macro.Literal)} {d : Def} :
      Macro.repeated Macro.enumField body.length body = some cs →
      ItemCode (.enum name body) d (enumItems attrs name (cs.map fun c => (c.1, ofLiteral c.2)) (stmt ofMacro (macroFill d)) (wstmt ofMacro true (macroWrite d)))

/-- The types of `Model/Macros.lean` as Rust code -/
def rustTy : Macro.RustTy → List Tree
  | .path s => [word s.toList]
  | .vec t => code (text! "Vec<") ++ rustTy t ++ code (text! ">")
  | .box t => code (text! "std::boxed::Box<") ++ rustTy t ++ code (text! ">")
  | .rc t => code (text! "std::rc::Rc<") ++ rustTy t ++ code (text! ">")
  | .arc t => code (text! "std::sync::Arc<") ++ rustTy t ++ code (text! ">")

/-- A token, whoever wrote it -/
def written : Tree → Tree
  | .tok t _ => .tok t true
  | t => t

end CT.Rust.Spec
