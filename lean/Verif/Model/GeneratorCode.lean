import Verif.Model.Generator
import Verif.Model.Macros
import Verif.Model.ThriftLexer
/-!
# The code the generator emits: Generator.kt:166-355

The templates of structs, unions and enums are those of `thrift!` (macros.rs:53-236) up to the names of the methods of `CompactThriftProtocol` (`fill` for
`fill_thrift`, `fill_field` for `fill_thrift_field`, and so on: the templates are older than the trait), of local variables and of the type in the
error for unknown variants, which are not modelled, so that definitions can stand for the code. The types of fields are written differently. `none`
stands for an exception of the generator or for code that is not accepted by the compiler.
-/
namespace CT.Gen

/-- An identifier of Rust other than keywords -/
def rustIdent (s : String) : Bool :=
  s.toList.all (fun c => isLetter c || isDigit c || c == '_') && !s.toList.isEmpty && !(s.toList.take 1).all isDigit && s.toList != ['_'] && Macro.isName s

/-- What Generator.kt:6-14 `rustIdentifier` returns is an identifier: `type` becomes `r#type`. -/
def escapedOk (s : String) : Bool := s == "type" || rustIdent s

/-- The implementation for the type Generator.kt:54-77 writes: `Cow<'i, str>` types.rs:173, `Cow<'i, [u8]>` types.rs:158, `Vec<u8>` types.rs:127, `Vec<P>`
types.rs:188; there is none for `u8`, `HashSet` and `HashMap`. The other base types are names,
like `NamedType`, which is not escaped. -/
def genType (scope : String → Option Ty) : FieldType → Option Ty
  | .base .BOOL => Macro.resolve scope "bool"
  | .base .BYTE => Macro.resolve scope "u8"
  | .base .I16 => Macro.resolve scope "i16"
  | .base .I32 => Macro.resolve scope "i32"
  | .base .I64 => Macro.resolve scope "i64"
  | .base .DOUBLE => Macro.resolve scope "f64"
  | .base .STRING => some .string
  | .base .BINARY => some .binary
  | .named name => if name = "type" then none else Macro.resolve scope name
  | .list t => if (scope "u8").isNone && (t == .base .BYTE || t == .named "u8") then some .binary else (genType scope t).map .list
  | .set _ => none
  | .map _ _ => none

/-- `${it.id}` as an `i16`: Generator.kt:262, 282, 325, 348; out of range is an error (`overflowing_literals`). -/
def idLiteral (id : BitVec 32) : Option (BitVec 16) := if -32768 ≤ id.toInt ∧ id.toInt ≤ 32767 then some (id.setWidth 16) else none

/-- One field of a struct: Generator.kt:234, 253, 262-265, 272-274, 282 -/
def genField (document : Document) (depth : Nat) (scope : String → Option Ty) (f : Field) : Option CT.Field := do
  let _ ← rustType document depth f.type f.req
  let id ← idLiteral f.id
  let ty ← genType scope f.type
  pure ⟨id, f.req == .REQUIRED, f.identifier, ty⟩

/-- One variant of a union: Generator.kt:301, 325-332, 348; always `REQUIRED` -/
def genVariant (document : Document) (depth : Nat) (scope : String → Option Ty) (f : Field) : Option CT.Variant := do
  let _ ← rustType document depth f.type .REQUIRED
  let id ← idLiteral f.id
  let ty ← genType scope f.type
  pure ⟨id, f.identifier, ty⟩

/-- Generator.kt:166-224 `visitEnum`: the constants are associated to the type as `value` and `__NAMES` are -/
def enumNameOk (s : String) : Bool := escapedOk s && s != "value" && s != "__NAMES"

/-- Generator.kt:166-224 `visitEnum`, 226-288 `visitStruct`, 290-355 `visitUnion`, which does not escape names and whose default `fields.values.first()`
throws for an empty union. Type definitions are not modelled. -/
def visitDefinition (document : Document) (depth : Nat) (scope : String → Option Ty) (d : Definition) : Option Def :=
  match d with
  | .typedef _ _ => none
  | .enum identifier fields => if escapedOk identifier ∧ ∀ f ∈ fields, enumNameOk f.2.identifier then some (.enum identifier) else none
  | .struct identifier fields => do
    let _ ← definitionNeedsLifeTime document depth d
    if escapedOk identifier ∧ ∀ f ∈ fields, escapedOk f.2.identifier then
      let fs ← (fields.map (·.2)).mapM (genField document depth (Macro.withSelf scope identifier))
      pure (.struct identifier fs)
    else none
  | .union identifier fields => do
    let _ ← definitionNeedsLifeTime document depth d
    if rustIdent identifier ∧ fields ≠ [] ∧ ∀ f ∈ fields, rustIdent f.2.identifier then
      let fs ← (fields.map (·.2)).mapM (genVariant document depth (Macro.withSelf scope identifier))
      pure (.union identifier fs)
    else none

/-- Generator.kt:98-101, 136-138 `generate`: the definitions in the order of the document; `depth` is how deep calls can nest. -/
def generate (document : Document) (depth : Nat) : Option (List Def) :=
  let order := document.map (·.1)
  let scope := fun s => if s ∈ order then some (Ty.named (order.idxOf s)) else none
  (document.map (·.2)).mapM (visitDefinition document depth scope)

end CT.Gen
