import Verif.Model.Types
/-!
# The macros: runtime/src/macros.rs

From the tokens inside `thrift! { … }` to definitions. `none` stands for a compile error.

Simplifications: the content of attributes (doc comments are attributes) is not looked at; the fragment specifiers
`ident`, `literal` and `tt` are modelled on the tokens below (no lifetimes, no multi-character operators, which the
macros do not use); that generated types have finite size, and that no parameter of `new` is named like an enum (a tuple struct), is not checked.
-/
namespace CT.Macro

/-- Literal tokens: integers, floats, and the rest (strings, characters, byte strings). -/
inductive Lit where
  | int (n : Nat)
  | float
  | text
deriving DecidableEq, Repr

inductive Delim where
  | paren | bracket | brace
deriving DecidableEq, Repr

/-- Token trees. Keywords are identifiers, as for `macro_rules`. -/
inductive TT where
  | ident (s : String)
  | lit (l : Lit)
  | punct (c : Char)
  | group (d : Delim) (ts : List TT)
deriving Repr

/-- `$(#[$($attrs:meta)*])*` in macros.rs:22, 26, 30, 34, 54, 128, 203 -/
def skipAttrs : List TT → List TT
  | .punct '#' :: .group .bracket _ :: ts => skipAttrs ts
  | ts => ts

/-- What a `literal` fragment can be. -/
inductive Literal where
  | int (neg : Bool) (n : Nat)
  | other
deriving DecidableEq, Repr

/-- The fragment specifier `literal`: a literal token, with a minus sign before a number, `true` or `false`. -/
def literal : List TT → Option (Literal × List TT)
  | .lit (.int n) :: ts => some (.int false n, ts)
  | .lit .float :: ts => some (.other, ts)
  | .lit .text :: ts => some (.other, ts)
  | .punct '-' :: .lit (.int n) :: ts => some (.int true n, ts)
  | .punct '-' :: .lit .float :: ts => some (.other, ts)
  | .ident s :: ts => if s = "true" ∨ s = "false" then some (.other, ts) else none
  | _ => none

/-! ## `thrift!` -/

/-- What `thrift!` passes to the macro of a definition (without the attributes). -/
inductive Item where
  | struct (name : String) (body : List TT)
  | union (name : String) (body : List TT)
  | enum (name : String) (body : List TT)

def Item.name : Item → String
  | .struct n _ | .union n _ | .enum n _ => n

/-- macros.rs:20-39 `thrift!`; `limit` is how many nested invocations the compiler allows (`recursion_limit`). -/
def thrift : (limit : Nat) → List TT → Option (List Item)
  | 0, _ => none
  | _ + 1, [] => some []
  | limit + 1, t :: ts =>
    match skipAttrs (t :: ts) with
    | .ident kw :: .ident name :: .group .brace body :: remainder =>
      if kw = "struct" then (thrift limit remainder).map (.struct name body :: ·)
      else if kw = "union" then (thrift limit remainder).map (.union name body :: ·)
      else if kw = "enum" then (thrift limit remainder).map (.enum name body :: ·)
      else none
    | .ident kw :: .ident _ :: .ident _ :: remainder =>
      if kw = "namespace" then thrift limit remainder else none
    | _ => none

/-! ## Bodies -/

/-- `$( p )*` up to the end; the first argument bounds the repetitions (`p` takes at least one token). -/
def repeated {α : Type} (p : List TT → Option (α × List TT)) : Nat → List TT → Option (List α)
  | _, [] => some []
  | 0, _ :: _ => none
  | n + 1, t :: ts =>
    match p (t :: ts) with
    | none => none
    | some (a, rest) => (repeated p n rest).map (a :: ·)

/-- A field as matched: macros.rs:54 -/
structure FieldSyn where
  id : Literal
  req : String
  ty : String
  elem : Option String
  name : String
deriving DecidableEq, Repr

/-- `$field_type:ident $(< $element_type:ident >)? $field_name:ident` -/
def typeAndName : List TT → Option (String × Option String × String × List TT)
  | .ident ty :: .ident name :: ts => some (ty, none, name, ts)
  | .ident ty :: .punct '<' :: .ident e :: .punct '>' :: .ident name :: ts => some (ty, some e, name, ts)
  | _ => none

/-- `$(= $default_value:literal)?` -/
def skipDefault : List TT → Option (List TT)
  | .punct '=' :: ts => (literal ts).map (·.2)
  | ts => some ts

/-- `$(;)?` -/
def skipSemi : List TT → List TT
  | .punct ';' :: ts => ts
  | ts => ts

/-- macros.rs:54: one field -/
def structField (ts : List TT) : Option (FieldSyn × List TT) :=
  match literal (skipAttrs ts) with
  | some (id, .punct ':' :: .ident req :: ts) =>
    match typeAndName ts with
    | some (ty, e, name, ts) => (skipDefault ts).map fun ts => (⟨id, req, ty, e, name⟩, skipSemi ts)
    | none => none
  | _ => none

/-- A variant as matched: macros.rs:128 -/
structure VariantSyn where
  id : Literal
  ty : String
  elem : Option String
  name : String
deriving DecidableEq, Repr

/-- macros.rs:128: one variant -/
def unionField (ts : List TT) : Option (VariantSyn × List TT) :=
  match literal (skipAttrs ts) with
  | some (id, .punct ':' :: ts) =>
    match typeAndName ts with
    | some (ty, e, name, ts) => some (⟨id, ty, e, name⟩, skipSemi ts)
    | none => none
  | _ => none

/-- macros.rs:203: one constant -/
def enumField (ts : List TT) : Option ((String × Literal) × List TT) :=
  match skipAttrs ts with
  | .ident name :: .punct '=' :: ts =>
    match literal ts with
    | some (value, .punct ';' :: ts) => some ((name, value), ts)
    | _ => none
  | _ => none

/-! ## Types -/

/-- The types `__thrift_field_type!` produces. -/
inductive RustTy where
  | path (s : String)
  | vec (t : RustTy)
  | box (t : RustTy)
  | rc (t : RustTy)
  | arc (t : RustTy)
deriving DecidableEq, Repr

/-- macros.rs:253-257: `__thrift_field_type!` with one identifier -/
def fieldType1 (s : String) : RustTy :=
  if s = "binary" then .vec (.path "u8")
  else if s = "string" then .path "String"
  else if s = "byte" then .path "u8"
  else if s = "double" then .path "f64"
  else .path s

/-- macros.rs:250-261 `__thrift_field_type!` -/
def fieldTypeMacro : String → Option String → Option RustTy
  | s, none => some (fieldType1 s)
  | s, some e =>
    if s = "list" then some (.vec (fieldType1 e))
    else if s = "set" then some (.vec (fieldType1 e))
    else if s = "Box" then some (.box (fieldType1 e))
    else if s = "Rc" then some (.rc (fieldType1 e))
    else if s = "Arc" then some (.arc (fieldType1 e))
    else none

/-- The built-in types with an implementation of `CompactThriftProtocol`: types.rs:24-125, 142 -/
def builtin (s : String) : Option Ty :=
  if s = "bool" then some .bool
  else if s = "i8" then some .i8
  else if s = "i16" then some .i16
  else if s = "i32" then some .i32
  else if s = "i64" then some .i64
  else if s = "f64" then some .double
  else if s = "String" then some .string
  else none

/-- The type a name refers to: a definition or an import, else a built-in one. -/
def resolve (scope : String → Option Ty) (s : String) : Option Ty := (scope s).or (builtin s)

/-- The name is not (re)defined and denotes the built-in type. -/
def isPrim (scope : String → Option Ty) (s : String) (t : RustTy) : Bool := (scope s).isNone && t == .path s

/-- The implementation of `CompactThriftProtocol` the compiler selects: `Vec<u8>` types.rs:127, `Vec<P>` 188, `Box<P>` 283,
`Rc<P>` 297, `Arc<P>` 311, `Box<str>` 325, `Rc<str>` 340, `Arc<str>` 358; there is none for `u8` and `str`. -/
def interp (scope : String → Option Ty) : RustTy → Option Ty
  | .path s => resolve scope s
  | .vec t => if isPrim scope "u8" t then some .binary else (interp scope t).map .list
  | .box t => if isPrim scope "str" t then some .string else (interp scope t).map .box
  | .rc t => if isPrim scope "str" t then some .string else (interp scope t).map .rc
  | .arc t => if isPrim scope "str" t then some .string else (interp scope t).map .rc

/-! ## Definitions -/

/-- The keywords of Rust 2021 (Cargo.toml:9): `ident` matches them, but nothing can be named so. -/
def rustKeywords : List String :=
  ["as", "break", "const", "continue", "crate", "else", "enum", "extern", "false", "fn", "for", "if", "impl", "in", "let", "loop", "match", "mod", "move", "mut",
   "pub", "ref", "return", "self", "Self", "static", "struct", "super", "trait", "true", "type", "unsafe", "use", "where", "while", "async", "await", "dyn",
   "abstract", "become", "box", "do", "final", "macro", "override", "priv", "try", "typeof", "unsized", "virtual", "yield"]

/-- The name of something -/
def isName (s : String) : Bool := !rustKeywords.contains s

/-- Within the definition of `name`, `Self` is that type. -/
def withSelf (scope : String → Option Ty) (name : String) : String → Option Ty := fun s => if s = "Self" then scope name else scope s

/-- A literal as a signed integer of `w` bits; out of range is an error (`overflowing_literals`). -/
def intOf (w : Nat) : Literal → Option (BitVec w)
  | .int false n => if n < 2 ^ (w - 1) then some (BitVec.ofNat w n) else none
  | .int true n => if n ≤ 2 ^ (w - 1) then some (BitVec.ofInt w (-n)) else none
  | .other => none

/-- macros.rs:266-269 `__thrift_required_or_optional!`; other words match no rule. -/
def requiredOf (s : String) : Option Bool :=
  if s = "required" then some true else if s = "optional" then some false else none

/-- One field of a struct: macros.rs:60, 87-90, 106 -/
def elabField (scope : String → Option Ty) (f : FieldSyn) : Option Field := do
  let id ← intOf 16 f.id
  let required ← requiredOf f.req
  let t ← fieldTypeMacro f.ty f.elem
  let ty ← interp scope t
  pure ⟨id, required, f.name, ty⟩

/-- One variant of a union: macros.rs:134, 158-164, 182 -/
def elabVariant (scope : String → Option Ty) (f : VariantSyn) : Option Variant := do
  let id ← intOf 16 f.id
  let t ← fieldTypeMacro f.ty f.elem
  let ty ← interp scope t
  pure ⟨id, f.name, ty⟩

/-- macros.rs:53-110 `thrift_struct!` -/
def thriftStruct (scope : String → Option Ty) (name : String) (body : List TT) : Option Def := do
  let fs ← repeated structField body.length body
  if isName name ∧ (∀ f ∈ fs, isName f.name) ∧ (fs.map (·.name)).Nodup then
    let fs ← fs.mapM (elabField (withSelf scope name))
    pure (.struct name fs)
  else none

/-- macros.rs:127-189 `thrift_union!`; the default of an empty union does not compile (macros.rs:243-245). -/
def thriftUnion (scope : String → Option Ty) (name : String) (body : List TT) : Option Def := do
  let fs ← repeated unionField body.length body
  if isName name ∧ fs ≠ [] ∧ (∀ f ∈ fs, isName f.name) ∧ (fs.map (·.name)).Nodup then
    let fs ← fs.mapM (elabVariant (withSelf scope name))
    pure (.union name fs)
  else none

/-- macros.rs:216-218: the constants of an enum -/
def enumConstants (body : List TT) : Option (List (String × BitVec 32)) := do
  let fs ← repeated enumField body.length body
  if (∀ f ∈ fs, isName f.1) ∧ (fs.map (·.1)).Nodup then
    fs.mapM fun f => (intOf 32 f.2).map fun v => (f.1, v)
  else none

/-- macros.rs:202-236 `thrift_enum!` -/
def thriftEnum (name : String) (body : List TT) : Option Def :=
  if isName name then (enumConstants body).map fun _ => .enum name else none

def elabItem (scope : String → Option Ty) : Item → Option Def
  | .struct name body => thriftStruct scope name body
  | .union name body => thriftUnion scope name body
  | .enum name body => thriftEnum name body

/-- The definitions as an environment. The order in the environment (which Rust does not have) is given. -/
def expand (imports : String → Option Ty) (order : List String) (limit : Nat) (ts : List TT) : Option (List Def) := do
  let items ← thrift limit ts
  let names := items.map Item.name
  if names.Nodup ∧ order.Nodup ∧ order.length = names.length ∧ ∀ n ∈ order, n ∈ names then
    let scope := fun s => if s ∈ order then some (Ty.named (order.idxOf s)) else imports s
    order.mapM fun n => (items.find? fun i => i.name = n).bind (elabItem scope)
  else none

/-- The constant `$enum::$name`. -/
def constant (limit : Nat) (ts : List TT) (enum name : String) : Option (BitVec 32) := do
  let items ← thrift limit ts
  match items.find? fun i => i.name = enum with
  | some (.enum _ body) => (enumConstants body).bind fun cs => (cs.find? fun c => c.1 = name).map (·.2)
  | _ => none

end CT.Macro
