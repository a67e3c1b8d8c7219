import Verif.Model.ThriftLexer
import Verif.Model.Generator
/-!
# The parser generated from Thrift.g4, and Parser.kt from parse trees to the document

Parse trees hold everything the grammar leaves open, also what Parser.kt does not look at. ANTLR's parser is modelled by recursive descent with one token of
lookahead, which decides every choice of this grammar: `C85_parse` proves that it finds the parse tree whenever there is one, and that there is never more than
one, so that it does not matter how ANTLR chooses. `Parser.kt:16-29` turns every syntax error into an exception: `none`.
-/
namespace CT.Gen

/-! ## Parse trees -/

/-- Thrift.g4:83-86 `listSeparator` -/
inductive Sep where
  | comma | semi
deriving DecidableEq, Repr

/-- Thrift.g4:53-59 `fieldType`; the literal is that of `cppType` -/
inductive PType where
  | builtin (type : BuiltinType)
  | named (type : List Char)
  | map (cpp : Option (List Char)) (keyType valueType : PType)
  | set (cpp : Option (List Char)) (elementType : PType)
  | list (cpp : Option (List Char)) (elementType : PType)
deriving DecidableEq, Repr

mutual
/-- Thrift.g4:65-72 `constValue` -/
inductive PConst where
  | integer (value : IntegerCtx)
  | double (value : List Char)
  | literal (value : List Char)
  | identifier (value : List Char)
  | list (values : PItems)
  | map (values : PEntries)
/-- Thrift.g4:70 -/
inductive PItems where
  | nil
  | cons (value : PConst) (sep : Option Sep) (values : PItems)
/-- Thrift.g4:71, 79-81 `constMapEntry` -/
inductive PEntries where
  | nil
  | cons (key value : PConst) (sep : Option Sep) (values : PEntries)
end

/-- Thrift.g4:31-33 `field`; `requirement` is `true` for `required` -/
structure PField where
  fieldId : Option IntegerCtx
  requirement : Option Bool
  type : PType
  identifier : List Char
  value : Option PConst
  sep : Option Sep

/-- Thrift.g4:27-29 `enumField` -/
structure PEnumField where
  identifier : List Char
  value : IntegerCtx
  sep : Option Sep

/-- Thrift.g4:40-42 `function_`; `type` is `none` for `void` -/
structure PFunction where
  oneway : Bool
  type : Option PType
  identifier : List Char
  parameters : List PField
  throws : Option (List PField)
  sep : Option Sep

/-- Thrift.g4:11-15 `header`; `lang` is `none` for `*` -/
inductive PHeader where
  | include (text : List Char)
  | cppInclude (text : List Char)
  | namespace (lang : Option (List Char)) (name : List Char)

/-- Thrift.g4:17-25 `definition` -/
inductive PDef where
  | const (type : PType) (identifier : List Char) (value : PConst) (sep : Option Sep)
  | typedef (type : PType) (identifier : List Char)
  | enum (identifier : List Char) (fields : List PEnumField)
  | struct (identifier : List Char) (fields : List PField)
  | union (identifier : List Char) (fields : List PField)
  | exception (identifier : List Char) (fields : List PField)
  | service (identifier : List Char) (extends_ : Option (List Char)) (functions : List PFunction)

/-- Thrift.g4:7-9 `document` -/
structure PDoc where
  headers : List PHeader
  definitions : List PDef

/-! ## Parsing -/

/-- A given token -/
def expect (t : Tok) : List Tok → Option (List Tok)
  | [] => none
  | u :: ts => if u = t then some ts else none

/-- An `IDENTIFIER` -/
def pIdent : List Tok → Option (List Char × List Tok)
  | .IDENTIFIER t :: ts => some (t, ts)
  | _ => none

/-- Thrift.g4:74-77 `integer` -/
def pInteger : List Tok → Option (IntegerCtx × List Tok)
  | .INTEGER t :: ts => some (.dec t, ts)
  | .HEX_INTEGER t :: ts => some (.hex t, ts)
  | _ => none

/-- `listSeparator?` -/
def pSep : List Tok → Option Sep × List Tok
  | .COMMA :: ts => (some .comma, ts)
  | .kw .SEMI :: ts => (some .semi, ts)
  | ts => (none, ts)

/-- Thrift.g4:61-63 `cppType?` -/
def pCpp : List Tok → Option (Option (List Char) × List Tok)
  | .kw .CPP_TYPE :: .LITERAL t :: ts => some (some t, ts)
  | .kw .CPP_TYPE :: _ => none
  | ts => some (none, ts)

/-- Thrift.g4:88-97 `baseType` -/
def baseOf : Kw → Option BuiltinType
  | .BOOL => some .BOOL
  | .BYTE => some .BYTE
  | .I16 => some .I16
  | .I32 => some .I32
  | .I64 => some .I64
  | .DOUBLE => some .DOUBLE
  | .STRING => some .STRING
  | .BINARY => some .BINARY
  | _ => none

/-- Thrift.g4:53-59 `fieldType`; the first argument bounds the nesting -/
def pType : Nat → List Tok → Option (PType × List Tok)
  | n + 1, .kw .MAP :: ts => do
    let (cpp, ts) ← pCpp ts
    let ts ← expect (.kw .LT) ts
    let (k, ts) ← pType n ts
    let ts ← expect .COMMA ts
    let (v, ts) ← pType n ts
    let ts ← expect (.kw .GT) ts
    pure (.map cpp k v, ts)
  | n + 1, .kw .SET :: ts => do
    let (cpp, ts) ← pCpp ts
    let ts ← expect (.kw .LT) ts
    let (e, ts) ← pType n ts
    let ts ← expect (.kw .GT) ts
    pure (.set cpp e, ts)
  | n + 1, .kw .LIST :: ts => do
    let (cpp, ts) ← pCpp ts
    let ts ← expect (.kw .LT) ts
    let (e, ts) ← pType n ts
    let ts ← expect (.kw .GT) ts
    pure (.list cpp e, ts)
  | _ + 1, .IDENTIFIER t :: ts => some (.named t, ts)
  | _ + 1, .kw k :: ts => (baseOf k).map fun b => (.builtin b, ts)
  | _, _ => none

mutual
/-- Thrift.g4:65-72 `constValue`; the first argument bounds the nesting -/
def pConst : Nat → List Tok → Option (PConst × List Tok)
  | _ + 1, .INTEGER t :: ts => some (.integer (.dec t), ts)
  | _ + 1, .HEX_INTEGER t :: ts => some (.integer (.hex t), ts)
  | _ + 1, .DOUBLE t :: ts => some (.double t, ts)
  | _ + 1, .LITERAL t :: ts => some (.literal t, ts)
  | _ + 1, .IDENTIFIER t :: ts => some (.identifier t, ts)
  | n + 1, .kw .LBRACK :: ts => (pItems n ts).map fun r => (.list r.1, r.2)
  | n + 1, .kw .LBRACE :: ts => (pEntries n ts).map fun r => (.map r.1, r.2)
  | _, _ => none
/-- Thrift.g4:70, with the closing bracket -/
def pItems : Nat → List Tok → Option (PItems × List Tok)
  | _ + 1, .kw .RBRACK :: ts => some (.nil, ts)
  | n + 1, ts => do
    let (v, ts) ← pConst n ts
    let (s, ts) := pSep ts
    let (vs, ts) ← pItems n ts
    pure (.cons v s vs, ts)
  | 0, _ => none
/-- Thrift.g4:71, 79-81, with the closing brace -/
def pEntries : Nat → List Tok → Option (PEntries × List Tok)
  | _ + 1, .kw .RBRACE :: ts => some (.nil, ts)
  | n + 1, ts => do
    let (k, ts) ← pConst n ts
    let ts ← expect (.kw .COLON) ts
    let (v, ts) ← pConst n ts
    let (s, ts) := pSep ts
    let (es, ts) ← pEntries n ts
    pure (.cons k v s es, ts)
  | 0, _ => none
end

/-- `p*` with the token after it; the number bounds the repetitions -/
def manyUntil {α : Type} (close : Tok) (p : List Tok → Option (α × List Tok)) : Nat → List Tok → Option (List α × List Tok)
  | 0, _ => none
  | _ + 1, [] => none
  | n + 1, t :: ts =>
    if t = close then some ([], ts)
    else do
      let (a, ts) ← p (t :: ts)
      let (as, ts) ← manyUntil close p n ts
      pure (a :: as, ts)

/-- `(fieldId=integer ':')?` -/
def pFieldId (ts : List Tok) : Option (Option IntegerCtx × List Tok) :=
  match pInteger ts with
  | none => some (none, ts)
  | some (i, ts) => (expect (.kw .COLON) ts).map fun ts => (some i, ts)

/-- Thrift.g4:35-38 `fieldRequirement?` -/
def pReq : List Tok → Option Bool × List Tok
  | .kw .REQUIRED :: ts => (some true, ts)
  | .kw .OPTIONAL :: ts => (some false, ts)
  | ts => (none, ts)

/-- `('=' value=constValue)?` -/
def pDefault (n : Nat) : List Tok → Option (Option PConst × List Tok)
  | .kw .EQ :: ts => (pConst n ts).map fun r => (some r.1, r.2)
  | ts => some (none, ts)

/-- Thrift.g4:31-33 `field`; here and below `n` bounds nesting and repetitions -/
def pField (n : Nat) (ts : List Tok) : Option (PField × List Tok) := do
  let (i, ts) ← pFieldId ts
  let (r, ts) := pReq ts
  let (t, ts) ← pType n ts
  let (x, ts) ← pIdent ts
  let (v, ts) ← pDefault n ts
  let (s, ts) := pSep ts
  pure (⟨i, r, t, x, v, s⟩, ts)

/-- Thrift.g4:27-29 `enumField` -/
def pEnumField (ts : List Tok) : Option (PEnumField × List Tok) := do
  let (x, ts) ← pIdent ts
  let ts ← expect (.kw .EQ) ts
  let (v, ts) ← pInteger ts
  let (s, ts) := pSep ts
  pure (⟨x, v, s⟩, ts)

/-- `oneway='oneway'?` -/
def pOneway : List Tok → Bool × List Tok
  | .kw .ONEWAY :: ts => (true, ts)
  | ts => (false, ts)

/-- Thrift.g4:44-47 `functionType` -/
def pFunctionType (n : Nat) : List Tok → Option (Option PType × List Tok)
  | .kw .VOID :: ts => some (none, ts)
  | ts => (pType n ts).map fun r => (some r.1, r.2)

/-- Thrift.g4:49-51 `throwsList?` -/
def pThrows (n : Nat) : List Tok → Option (Option (List PField) × List Tok)
  | .kw .THROWS :: ts => do
    let ts ← expect (.kw .LPAREN) ts
    let (fs, ts) ← manyUntil (.kw .RPAREN) (pField n) n ts
    pure (some fs, ts)
  | ts => some (none, ts)

/-- Thrift.g4:40-42 `function_` -/
def pFunction (n : Nat) (ts : List Tok) : Option (PFunction × List Tok) := do
  let (o, ts) := pOneway ts
  let (t, ts) ← pFunctionType n ts
  let (x, ts) ← pIdent ts
  let ts ← expect (.kw .LPAREN) ts
  let (ps, ts) ← manyUntil (.kw .RPAREN) (pField n) n ts
  let (th, ts) ← pThrows n ts
  let (s, ts) := pSep ts
  pure (⟨o, t, x, ps, th, s⟩, ts)

/-- `IDENTIFIER '{' p* '}'` -/
def pBody {α : Type} (p : List Tok → Option (α × List Tok)) (n : Nat) (ts : List Tok) : Option (List Char × List α × List Tok) := do
  let (x, ts) ← pIdent ts
  let ts ← expect (.kw .LBRACE) ts
  let (as, ts) ← manyUntil (.kw .RBRACE) p n ts
  pure (x, as, ts)

/-- `('extends' extends_=IDENTIFIER)?` -/
def pExtends : List Tok → Option (Option (List Char) × List Tok)
  | .kw .EXTENDS :: ts => (pIdent ts).map fun r => (some r.1, r.2)
  | ts => some (none, ts)

/-- Thrift.g4:17-25 `definition` -/
def pDefinition (n : Nat) : List Tok → Option (PDef × List Tok)
  | .kw .CONST :: ts => do
    let (t, ts) ← pType n ts
    let (x, ts) ← pIdent ts
    let ts ← expect (.kw .EQ) ts
    let (v, ts) ← pConst n ts
    let (s, ts) := pSep ts
    pure (.const t x v s, ts)
  | .kw .TYPEDEF :: ts => do
    let (t, ts) ← pType n ts
    let (x, ts) ← pIdent ts
    pure (.typedef t x, ts)
  | .kw .ENUM :: ts => (pBody pEnumField n ts).map fun r => (.enum r.1 r.2.1, r.2.2)
  | .kw .STRUCT :: ts => (pBody (pField n) n ts).map fun r => (.struct r.1 r.2.1, r.2.2)
  | .kw .UNION :: ts => (pBody (pField n) n ts).map fun r => (.union r.1 r.2.1, r.2.2)
  | .kw .EXCEPTION :: ts => (pBody (pField n) n ts).map fun r => (.exception r.1 r.2.1, r.2.2)
  | .kw .SERVICE :: ts => do
    let (x, ts) ← pIdent ts
    let (e, ts) ← pExtends ts
    let ts ← expect (.kw .LBRACE) ts
    let (fs, ts) ← manyUntil (.kw .RBRACE) (pFunction n) n ts
    pure (.service x e fs, ts)
  | _ => none

/-- Thrift.g4:11-15 `header*` -/
def pHeaders : List Tok → Option (List PHeader × List Tok)
  | .kw .INCLUDE :: .LITERAL t :: ts => (pHeaders ts).map fun r => (.include t :: r.1, r.2)
  | .kw .CPP_INCLUDE :: .LITERAL t :: ts => (pHeaders ts).map fun r => (.cppInclude t :: r.1, r.2)
  | .kw .NAMESPACE :: .kw .STAR :: .IDENTIFIER x :: ts => (pHeaders ts).map fun r => (.namespace none x :: r.1, r.2)
  | .kw .NAMESPACE :: .IDENTIFIER l :: .IDENTIFIER x :: ts => (pHeaders ts).map fun r => (.namespace (some l) x :: r.1, r.2)
  | ts => some ([], ts)

/-- `definition* EOF` -/
def pDefinitions (n : Nat) : Nat → List Tok → Option (List PDef)
  | _, [] => some []
  | 0, _ :: _ => none
  | m + 1, t :: ts => do
    let (d, ts) ← pDefinition n (t :: ts)
    let ds ← pDefinitions n m ts
    pure (d :: ds)

/-- Thrift.g4:7-9 `document` -/
def parse (ts : List Tok) : Option PDoc := do
  let (hs, us) ← pHeaders ts
  let ds ← pDefinitions (us.length + 1) us.length us
  pure ⟨hs, ds⟩

/-! ## Parser.kt -/

/-- Domain.kt:11 -/
structure Header where
  namespaces : List (String × String)
  includes : List String
deriving DecidableEq, Repr

/-- Parser.kt:44-64 `mapHeader`, the loop; the text of a `LITERAL` includes its quotes -/
def mapHeaders : Header → List PHeader → Option Header
  | h, [] => some h
  | h, .namespace lang name :: hs => mapHeaders { h with namespaces := put (String.ofList (lang.getD ['*'])) (String.ofList name) h.namespaces } hs
  | h, .include text :: hs => mapHeaders { h with includes := h.includes ++ [String.ofList text] } hs
  | _, .cppInclude _ :: _ => none

/-- Parser.kt:44-64 `mapHeader` -/
def mapHeader (headers : List PHeader) : Option Header := mapHeaders ⟨[], []⟩ headers

/-- Parser.kt:99-122 `mapFieldType` -/
def mapFieldType : PType → FieldType
  | .builtin b => .base b
  | .named t => .named (String.ofList t)
  | .map _ k v => .map (mapFieldType k) (mapFieldType v)
  | .set _ e => .set (mapFieldType e)
  | .list _ e => .list (mapFieldType e)

/-- Parser.kt:150-156 `mapFieldReq` -/
def mapFieldReq : Bool → FieldReq
  | true => .REQUIRED
  | false => .OPTIONAL

/-- What `mapStructOrUnionFields` reads from a field -/
def PField.toCtx (f : PField) : FieldCtx := ⟨f.fieldId, f.requirement.map mapFieldReq, String.ofList f.identifier, mapFieldType f.type⟩

/-- Parser.kt:66-97 `mapDefinition`; constants (`mapConstantValue`, Parser.kt:124-126), exceptions and services throw `NotImplementedError`. -/
def mapDefinition : PDef → Option Definition
  | .const .. => none
  | .typedef t x => some (.typedef (String.ofList x) (mapFieldType t))
  | .enum x fs => (mapEnumFields (fs.map fun f => (String.ofList f.identifier, f.value))).map fun m => .enum (String.ofList x) m
  | .struct x fs => (mapStructOrUnionFields (fs.map PField.toCtx)).map fun m => .struct (String.ofList x) m
  | .union x fs => (mapStructOrUnionFields (fs.map PField.toCtx)).map fun m => .union (String.ofList x) m
  | .exception .. => none
  | .service .. => none

/-- Parser.kt:181-185 `mapDocument` -/
def mapDoc (d : PDoc) : Option (Header × Document) := do
  let h ← mapHeader d.headers
  let ds ← d.definitions.mapM mapDefinition
  pure (h, mapDocument ds)

/-- Main.kt:17-19: from the text to the document -/
def readDocument (text : List Char) : Option (Header × Document) := do
  let ts ← tokens text
  let tree ← parse ts
  mapDoc tree

end CT.Gen
