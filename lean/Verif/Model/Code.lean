import Verif.Model.Partial
/-!
# The code of `fill_thrift` and `write_thrift`: runtime/src/macros.rs:53-236, Generator.kt:226-355

`Types.lean` and `Partial.lean` give the meaning of the implementations of structs, unions and enums directly. Here are the statements the templates are made of, as
syntax, with a semantics that knows local variables, their scopes and shadowing, and (for `macro_rules`) hygiene; and the templates, line by line. Types
are not checked: `stuck` is code the compiler refuses.
-/
namespace CT.Code
open CT

/-- A name of a local variable. `macro_rules` tells names written in the macro (`inner`) from names passed to it; for the generator all names are `inner`. -/
structure Ident where
  name : String
  inner : Bool
deriving DecidableEq, Repr

/-- Values of local variables; `input` and `output` stand for the `&mut T` parameters. -/
inductive Local where
  | i16 (n : BitVec 16)
  | u8 (n : BitVec 8)
  | bool (b : Bool)
  | input
  | output
deriving DecidableEq, Repr

/-- The local variables, the innermost first. -/
abbrev Locals := List (Ident × Local)

def Locals.get : Locals → Ident → Option Local
  | [], _ => none
  | (y, v) :: l, x => if y = x then some v else Locals.get l x

/-- Assignment to the innermost variable of the name. -/
def Locals.put : Locals → Ident → Local → Locals
  | [], _, _ => []
  | (y, v) :: l, x, w => if y = x then (y, w) :: l else (y, v) :: Locals.put l x w

/-! ## Reading -/

inductive Expr where
  /-- `0_i16` -/
  | i16 (n : BitVec 16)
  /-- `false`, `true` -/
  | bool (b : Bool)
  /-- `input.read_field_header(&mut last)?` -/
  | header (input last : Ident)
  /-- `input.read_byte()?` -/
  | byte (input : Ident)
deriving DecidableEq, Repr

inductive Cond where
  /-- `x == 0` -/
  | zero (x : Ident)
  /-- `x != 0` -/
  | nonzero (x : Ident)
  /-- `!x` -/
  | unset (x : Ident)
deriving DecidableEq, Repr

mutual
inductive Stmt where
  | nop
  | seq (a b : Stmt)
  /-- `let mut x = e; rest` to the end of the block -/
  | letIn (x : Ident) (e : Expr) (rest : Stmt)
  /-- `x = e;` -/
  | assign (x : Ident) (e : Expr)
  /-- `if c { a }` -/
  | when (c : Cond) (a : Stmt)
  | loop (a : Stmt)
  | brk
  /-- `match x { … }` -/
  | select (x : Ident) (arms : Arms)
  /-- `return Err(e)` -/
  | throw (e : ThriftError)
  /-- `self.field.fill_thrift_field(input, field_type)?;` -/
  | fillField (field : String) (input fieldType : Ident)
  /-- `input.skip_field(field_type)?;` -/
  | skip (input fieldType : Ident)
  /-- `*self = Self::variant(Default::default());` -/
  | become (variant : String)
  /-- `match self { Self::variant(inner) => inner.fill_thrift(input)?, _ => unsafe { unreachable_unchecked() } }` -/
  | fillInner (variant : String) (input : Ident)
  /-- `self.0 = input.read_i32()?;` -/
  | readSelf (input : Ident)
inductive Arms where
  /-- `_ => a` -/
  | other (a : Stmt)
  /-- `id => a, …` -/
  | arm (id : BitVec 16) (a : Stmt) (rest : Arms)
end

/-- How a statement ends. -/
inductive Flow where
  | next
  | brk
deriving DecidableEq

/-- The local variables and `*self`. -/
structure Frame where
  locals : Locals
  self : Val

section
variable {σ : Type} (cfg : Cfg) (I : Input σ) (env : List Def) (fillNamedP : Nat → Val → Fl σ Val) (d : Def)

/-- Failure with the present value of `*self`. -/
def crash {α : Type} (fr : Frame) (f : Fail) : Fl σ α := Fl.keep fr.self (Rd.fail f)

/-- The value of an expression; reading a header also changes a variable. -/
def eval : Expr → Frame → Fl σ (Local × Frame)
  | .i16 n, fr => pure (.i16 n, fr)
  | .bool b, fr => pure (.bool b, fr)
  | .header input last, fr =>
    match fr.locals.get input, fr.locals.get last with
    | some .input, some (.i16 n) => do
      let (ft, n') ← Fl.keep fr.self (I.readFieldHeader cfg n)
      pure (.u8 ft, { fr with locals := fr.locals.put last (.i16 n') })
    | _, _ => crash fr .stuck
  | .byte input, fr =>
    match fr.locals.get input with
    | some .input => do
      let b ← Fl.keep fr.self I.readByte
      pure (.u8 b, fr)
    | _ => crash fr .stuck

def test : Cond → Frame → Fl σ Bool
  | .zero x, fr => match fr.locals.get x with
    | some (.u8 n) => pure (n == 0#8)
    | _ => crash fr .stuck
  | .nonzero x, fr => match fr.locals.get x with
    | some (.u8 n) => pure (n != 0#8)
    | _ => crash fr .stuck
  | .unset x, fr => match fr.locals.get x with
    | some (.bool b) => pure !b
    | _ => crash fr .stuck

/-- `loop`: at most `n` rounds -/
def repeated (body : Frame → Fl σ (Flow × Frame)) : Nat → Frame → Fl σ Frame
  | 0, fr => crash fr .diverge
  | n + 1, fr => do
    let (flow, fr) ← body fr
    match flow with
    | .next => repeated body n fr
    | .brk => pure fr

/-- `self.field.fill_thrift_field(input, ft)?` -/
def fillFieldOf (field : String) (ft : Byte) (fr : Frame) : Fl σ Frame :=
  match d, fr.self with
  | .struct _ fs, .struct vs =>
    match fs.findIdx? (fun f => f.name == field) with
    | some i =>
      match fs[i]?, vs[i]? with
      | some f, some v => do
        let v' ← Fl.part (fun w => .struct (vs.set i w)) (fillFieldP cfg I env fillNamedP f.rustTy v ft)
        pure { fr with self := .struct (vs.set i v') }
      | _, _ => crash fr .stuck
    | none => crash fr .stuck
  | _, _ => crash fr .stuck

/-- `*self = Self::variant(Default::default())` -/
def becomeVariant (variant : String) (fr : Frame) : Fl σ Frame :=
  match d with
  | .union _ us =>
    match us.findIdx? (fun u => u.name == variant) with
    | some i =>
      match us[i]? with
      | some u => pure { fr with self := .union i (dflt env u.ty) }
      | none => crash fr .stuck
    | none => crash fr .stuck
  | _ => crash fr .stuck

/-- `match self { Self::variant(inner) => inner.fill_thrift(input)?, _ => unsafe { unreachable_unchecked() } }` -/
def fillInnerOf (variant : String) (fr : Frame) : Fl σ Frame :=
  match d, fr.self with
  | .union _ us, .union j w =>
    match us.findIdx? (fun u => u.name == variant) with
    | some i =>
      match us[i]? with
      | some u =>
        if j = i then do
          let v ← Fl.into (.union i) (fillTyP cfg I env fillNamedP u.ty w)
          pure { fr with self := v }
        else crash fr .ub
      | none => crash fr .stuck
    | none => crash fr .stuck
  | _, _ => crash fr .stuck

mutual
/-- Execution of a statement of a `fill_thrift` function for the type `d`. A `loop` may run once more than the input is long. -/
def exec : Stmt → Frame → Fl σ (Flow × Frame)
  | .nop, fr => pure (.next, fr)
  | .seq a b, fr => do
    let (flow, fr) ← exec a fr
    match flow with
    | .next => exec b fr
    | .brk => pure (.brk, fr)
  | .letIn x e rest, fr => do
    let (v, fr) ← eval cfg I e fr
    let (flow, fr) ← exec rest { fr with locals := (x, v) :: fr.locals }
    pure (flow, { fr with locals := fr.locals.tail })
  | .assign x e, fr => do
    let (v, fr) ← eval cfg I e fr
    pure (.next, { fr with locals := fr.locals.put x v })
  | .when c a, fr => do
    let b ← test c fr
    if b then exec a fr else pure (.next, fr)
  | .loop a, fr => do
    let fr ← Fl.of fun s => repeated (exec a) (I.size s + 1) fr s
    pure (.next, fr)
  | .brk, fr => pure (.brk, fr)
  | .select x arms, fr =>
    match fr.locals.get x with
    | some (.i16 n) => execArms arms n fr
    | _ => crash fr .stuck
  | .throw e, fr => Fl.keep fr.self (Rd.throw e)
  | .fillField field input fieldType, fr =>
    match fr.locals.get input, fr.locals.get fieldType with
    | some .input, some (.u8 ft) => do
      let fr ← fillFieldOf cfg I env fillNamedP d field ft fr
      pure (.next, fr)
    | _, _ => crash fr .stuck
  | .skip input fieldType, fr =>
    match fr.locals.get input, fr.locals.get fieldType with
    | some .input, some (.u8 ft) => do
      Fl.keep fr.self (I.skipField cfg ft)
      pure (.next, fr)
    | _, _ => crash fr .stuck
  | .become variant, fr => do
    let fr ← becomeVariant env d variant fr
    pure (.next, fr)
  | .fillInner variant input, fr =>
    match fr.locals.get input with
    | some .input => do
      let fr ← fillInnerOf cfg I env fillNamedP d variant fr
      pure (.next, fr)
    | _ => crash fr .stuck
  | .readSelf input, fr =>
    match fr.locals.get input, fr.self with
    | some .input, .enum _ => do
      let x ← Fl.keep fr.self (I.readI32 cfg)
      pure (.next, { fr with self := .enum x })
    | _, _ => crash fr .stuck
/-- The first arm with the value is executed. -/
def execArms : Arms → BitVec 16 → Frame → Fl σ (Flow × Frame)
  | .other a, _, fr => exec a fr
  | .arm id a rest, n, fr => if n = id then exec a fr else execArms rest n fr
end

/-- `v` is a value of the type `d`. -/
def fits : Def → Val → Bool
  | .struct _ _, .struct _ => true
  | .union _ _, .union _ _ => true
  | .enum _, .enum _ => true
  | _, _ => false

/-- A call of the function with the body `a` and the parameter `input`; afterwards comes `Ok(())`. -/
def run (input : Ident) (a : Stmt) (v : Val) : Fl σ Val :=
  if fits d v then do
    let (_, fr) ← exec cfg I env fillNamedP d a ⟨[(input, .input)], v⟩
    pure fr.self
  else Fl.keep v (Rd.fail .stuck)
end

/-! ## Writing -/

mutual
inductive WStmt where
  | nop
  | seq (a b : WStmt)
  /-- `let mut x = 0_i16; rest` -/
  | letIn (x : Ident) (n : BitVec 16) (rest : WStmt)
  /-- `self.field.write_thrift_field(output, id, &mut last)?;` -/
  | writeField (field : String) (output : Ident) (id : BitVec 16) (last : Ident)
  /-- `match self { … }` -/
  | select (arms : WArms)
  /-- `output.write_byte(n)?;` -/
  | writeByte (output : Ident) (n : Byte)
  /-- `output.write_i32(self.0)` -/
  | writeSelf (output : Ident)
inductive WArms where
  | nil
  /-- `Self::variant(inner) => inner.write_thrift_field(output, id, &mut last)?, …` -/
  | arm (variant : String) (output : Ident) (id : BitVec 16) (last : Ident) (rest : WArms)
end

section
variable {τ : Type} (S : Sink τ) (env : List Def) (d : Def) (self : Val)

/-- `self.field.write_thrift_field(output, id, &mut last)?` -/
def writeFieldOf (field : String) (id n : BitVec 16) : Wr τ (BitVec 16) :=
  match d, self with
  | .struct _ fs, .struct vs =>
    match fs.findIdx? (fun f => f.name == field) with
    | some i =>
      match fs[i]?, vs[i]? with
      | some f, some v => CT.writeField S env f.rustTy v id n
      | _, _ => Wr.fail .stuck
    | none => Wr.fail .stuck
  | _, _ => Wr.fail .stuck

/-- The first arm that matches `self`. -/
def execWArms : WArms → Locals → Wr τ Locals
  | .nil, _ => Wr.fail .stuck
  | .arm variant output id last rest, l =>
    match d, self with
    | .union _ us, .union j w =>
      match us.findIdx? (fun u => u.name == variant) with
      | some i =>
        match us[i]? with
        | some u =>
          if j = i then
            match l.get output, l.get last with
            | some .output, some (.i16 n) => do
              let n' ← CT.writeField S env u.ty w id n
              pure (l.put last (.i16 n'))
            | _, _ => Wr.fail .stuck
          else execWArms rest l
        | none => Wr.fail .stuck
      | none => Wr.fail .stuck
    | _, _ => Wr.fail .stuck

/-- Execution of a statement of a `write_thrift` function for the type `d`. -/
def wexec : WStmt → Locals → Wr τ Locals
  | .nop, l => pure l
  | .seq a b, l => do
    let l ← wexec a l
    wexec b l
  | .letIn x n rest, l => do
    let l ← wexec rest ((x, .i16 n) :: l)
    pure l.tail
  | .writeField field output id last, l =>
    match l.get output, l.get last with
    | some .output, some (.i16 n) => do
      let n' ← writeFieldOf S env d self field id n
      pure (l.put last (.i16 n'))
    | _, _ => Wr.fail .stuck
  | .select arms, l => execWArms S env d self arms l
  | .writeByte output b, l =>
    match l.get output with
    | some .output => do
      S.writeByte b
      pure l
    | _ => Wr.fail .stuck
  | .writeSelf output, l =>
    match l.get output, self with
    | some .output, .enum x => do
      S.writeI32 x
      pure l
    | _, _ => Wr.fail .stuck

/-- A call of the function with the body `a` and the parameter `output`. -/
def wrun (output : Ident) (a : WStmt) : Wr τ Unit := do
  let _ ← wexec S env d self a [(output, .output)]
  pure ()
end

/-! ## The templates -/

/-- Several statements one after the other, and then `z`. -/
def seqs : List Stmt → Stmt → Stmt
  | [], z => z
  | a :: as, z => .seq a (seqs as z)

/-- The same for writing. -/
def wseqs : List WStmt → WStmt → WStmt
  | [], z => z
  | a :: as, z => .seq a (wseqs as z)

/-- How the two templates name things: a name written in the template, the flag of a required field, and the type in the error for an unknown variant. -/
structure Style where
  own : String → Ident
  flag : String → Ident
  unknown : String → String

/-- macros.rs: names of the macro and names passed to it differ; the flag has the name of the field (macros.rs:276-295); `$struct_name` is no variable of
the macro (macros.rs:166) -/
def Style.macro : Style := ⟨fun x => ⟨x, true⟩, fun f => ⟨f, false⟩, fun _ => "$struct_name"⟩

/-- Generator.kt: plain text; the flag has the name of the field with `_set_` appended (Generator.kt:253, 263, 273; `r#type_set_` is the
name `type_set_`); the error has the name of the union (Generator.kt:334) -/
def Style.generator : Style := ⟨fun x => ⟨x, true⟩, fun f => ⟨f ++ "_set_", true⟩, fun u => u⟩

namespace Style
variable (y : Style)

/-- macros.rs:79 with `__thrift_required_flag!` (macros.rs:275-278); Generator.kt:252-253 -/
def flags : List Field → Stmt → Stmt
  | [], z => z
  | f :: fs, z => if f.required then .letIn (y.flag f.name) (.bool false) (flags fs z) else flags fs z

/-- macros.rs:87-90 with `__thrift_required_set!` (macros.rs:283-286); Generator.kt:262-265 -/
def fieldArm (f : Field) : Stmt :=
  .seq (if f.required then .assign (y.flag f.name) (.bool true) else .nop) (.fillField f.name (y.own "input") (y.own "field_type"))

/-- macros.rs:86-94; Generator.kt:261-269 -/
def fieldArms : List Field → Arms
  | [] => .other (.skip (y.own "input") (y.own "field_type"))
  | f :: fs => .arm f.id (y.fieldArm f) (fieldArms fs)

/-- macros.rs:80-95; Generator.kt:255-270 -/
def structRound (fs : List Field) : Stmt :=
  .letIn (y.own "field_type") (.header (y.own "input") (y.own "last_field_id"))
    (.seq (.when (.zero (y.own "field_type")) .brk) (.select (y.own "last_field_id") (y.fieldArms fs)))

/-- macros.rs:97 with `__thrift_required_check!` (macros.rs:292-299); Generator.kt:271-275 -/
def checks (name : String) : List Field → Stmt
  | [] => .nop
  | f :: fs => .seq (if f.required then .when (.unset (y.flag f.name)) (.throw (.missingField (name ++ "::" ++ f.name))) else .nop) (checks name fs)

/-- macros.rs:77-100: first `last_field_id`, then the flags -/
def structFillMacro (name : String) (fs : List Field) : Stmt :=
  .letIn (y.own "last_field_id") (.i16 0#16) (y.flags fs (.seq (.loop (y.structRound fs)) (y.checks name fs)))

/-- Generator.kt:252-278: first the flags, then `last_field_id` -/
def structFillGenerator (name : String) (fs : List Field) : Stmt :=
  y.flags fs (.letIn (y.own "last_field_id") (.i16 0#16) (.seq (.loop (y.structRound fs)) (y.checks name fs)))

/-- macros.rs:157-164; Generator.kt:325-332 -/
def variantArms (name : String) : List Variant → Arms
  -- macros.rs:165-167; Generator.kt:333-335
  | [] => .other (.throw (.missingField (y.unknown name)))
  | u :: us => .arm u.id (.seq (.become u.name) (.fillInner u.name (y.own "input"))) (variantArms name us)

/-- macros.rs:148-175; Generator.kt:316-342 -/
def unionFill (name : String) (us : List Variant) : Stmt :=
  .letIn (y.own "last_field_id") (.i16 0#16)
    (.letIn (y.own "field_type") (.header (y.own "input") (y.own "last_field_id"))
      (.seq (.when (.zero (y.own "field_type")) (.throw .invalidType))
        (.seq (.select (y.own "last_field_id") (y.variantArms name us))
          (.letIn (y.own "stop") (.byte (y.own "input")) (.when (.nonzero (y.own "stop")) (.throw .missingStop))))))

/-- macros.rs:102-109; Generator.kt:280-285, where `last_field_id` is left out if there are no fields -/
def structWrite (always : Bool) (fs : List Field) : WStmt :=
  let body := wseqs (fs.map fun f => .writeField f.name (y.own "output") f.id (y.own "last_field_id")) (.writeByte (y.own "output") 0#8)
  if always || !fs.isEmpty then .letIn (y.own "last_field_id") 0#16 body else body

/-- macros.rs:180; Generator.kt:347-348 -/
def writeArms : List Variant → WArms
  | [] => .nil
  | u :: us => .arm u.name (y.own "output") u.id (y.own "last_field_id") (writeArms us)

/-- macros.rs:177-184; Generator.kt:345-352 -/
def unionWrite (us : List Variant) : WStmt :=
  .letIn (y.own "last_field_id") 0#16 (.seq (.select (y.writeArms us)) (.writeByte (y.own "output") 0#8))
end Style

/-- The body of `fill_thrift` in the expansion of `thrift!`; enums: macros.rs:224-227 -/
def macroFill : Def → Stmt
  | .struct name fs => Style.macro.structFillMacro name fs
  | .union name us => Style.macro.unionFill name us
  | .enum _ => .readSelf (Style.macro.own "input")

/-- The body of `fill` in the code of the generator; enums: Generator.kt:212-215 -/
def generatorFill : Def → Stmt
  | .struct name fs => Style.generator.structFillGenerator name fs
  | .union name us => Style.generator.unionFill name us
  | .enum _ => .readSelf (Style.generator.own "input")

/-- The body of `write_thrift` in the expansion of `thrift!`; enums: macros.rs:230-232 -/
def macroWrite : Def → WStmt
  | .struct _ fs => Style.macro.structWrite true fs
  | .union _ us => Style.macro.unionWrite us
  | .enum _ => .writeSelf (Style.macro.own "output")

/-- The body of `write` in the code of the generator; enums: Generator.kt:218-220 -/
def generatorWrite : Def → WStmt
  | .struct _ fs => Style.generator.structWrite false fs
  | .union _ us => Style.generator.unionWrite us
  | .enum _ => .writeSelf (Style.generator.own "output")

/-- All implementations call each other: `fill_thrift` of the definition `k`, where `code` are the bodies. The first argument bounds the depth of calls. -/
def fillCode {σ : Type} (cfg : Cfg) (I : Input σ) (env : List Def) (code : Def → Stmt) (input : Ident) : Nat → Nat → Val → Fl σ Val
  | 0, _, v => Fl.keep v (Rd.fail .diverge)
  | depth + 1, k, v =>
    match env[k]? with
    | some d => run cfg I env (fillCode cfg I env code input depth) d input (code d) v
    | none => Fl.keep v (Rd.fail .stuck)

/-- `fill_thrift` of any type -/
def fillThriftCode {σ : Type} (cfg : Cfg) (I : Input σ) (env : List Def) (code : Def → Stmt) (input : Ident) (t : Ty) (v : Val) : Fl σ Val := fun s =>
  fillTyP cfg I env (fillCode cfg I env code input (I.size s + 1)) t v s

end CT.Code
