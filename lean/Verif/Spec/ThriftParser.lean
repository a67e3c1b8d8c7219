import Verif.Model.ThriftParser
/-!
# The grammar of Thrift.g4

For each parser rule the tokens its parse trees consist of, transcribed from Thrift.g4:7-97.
-/
namespace CT.Gen.Spec
open CT.Gen

/-- `x?` -/
def opt {α : Type} (f : α → List Tok) : Option α → List Tok
  | none => []
  | some a => f a

/-- `x*` -/
def many {α : Type} (f : α → List Tok) (as : List α) : List Tok := (as.map f).flatten

/-- Thrift.g4:83-86 -/
def listSeparator : Sep → List Tok
  | .comma => [.COMMA]
  | .semi => [.kw .SEMI]

/-- Thrift.g4:74-77 -/
def integer : IntegerCtx → List Tok
  | .dec t => [.INTEGER t]
  | .hex t => [.HEX_INTEGER t]

/-- Thrift.g4:88-97 -/
def baseType : BuiltinType → List Tok
  | .BOOL => [.kw .BOOL]
  | .BYTE => [.kw .BYTE]
  | .I16 => [.kw .I16]
  | .I32 => [.kw .I32]
  | .I64 => [.kw .I64]
  | .DOUBLE => [.kw .DOUBLE]
  | .STRING => [.kw .STRING]
  | .BINARY => [.kw .BINARY]

/-- Thrift.g4:61-63 -/
def cppType (t : List Char) : List Tok := [.kw .CPP_TYPE, .LITERAL t]

/-- Thrift.g4:53-59 -/
def fieldType : PType → List Tok
  | .builtin b => baseType b
  | .named t => [.IDENTIFIER t]
  | .map cpp k v => [.kw .MAP] ++ opt cppType cpp ++ [.kw .LT] ++ fieldType k ++ [.COMMA] ++ fieldType v ++ [.kw .GT]
  | .set cpp e => [.kw .SET] ++ opt cppType cpp ++ [.kw .LT] ++ fieldType e ++ [.kw .GT]
  | .list cpp e => [.kw .LIST] ++ opt cppType cpp ++ [.kw .LT] ++ fieldType e ++ [.kw .GT]

mutual
/-- Thrift.g4:65-72 -/
def constValue : PConst → List Tok
  | .integer i => integer i
  | .double t => [.DOUBLE t]
  | .literal t => [.LITERAL t]
  | .identifier t => [.IDENTIFIER t]
  | .list vs => [.kw .LBRACK] ++ constItems vs ++ [.kw .RBRACK]
  | .map es => [.kw .LBRACE] ++ constEntries es ++ [.kw .RBRACE]
/-- Thrift.g4:70 -/
def constItems : PItems → List Tok
  | .nil => []
  | .cons v s vs => constValue v ++ opt listSeparator s ++ constItems vs
/-- Thrift.g4:71, 79-81 -/
def constEntries : PEntries → List Tok
  | .nil => []
  | .cons k v s es => constValue k ++ [.kw .COLON] ++ constValue v ++ opt listSeparator s ++ constEntries es
end

/-- Thrift.g4:35-38 -/
def fieldRequirement : Bool → List Tok
  | true => [.kw .REQUIRED]
  | false => [.kw .OPTIONAL]

/-- Thrift.g4:31-33 -/
def field (f : PField) : List Tok :=
  opt (fun i => integer i ++ [.kw .COLON]) f.fieldId ++ opt fieldRequirement f.requirement ++ fieldType f.type ++ [.IDENTIFIER f.identifier] ++
    opt (fun v => [.kw .EQ] ++ constValue v) f.value ++ opt listSeparator f.sep

/-- Thrift.g4:27-29 -/
def enumField (f : PEnumField) : List Tok := [.IDENTIFIER f.identifier, .kw .EQ] ++ integer f.value ++ opt listSeparator f.sep

/-- Thrift.g4:44-47 -/
def functionType : Option PType → List Tok
  | none => [.kw .VOID]
  | some t => fieldType t

/-- Thrift.g4:49-51 -/
def throwsList (fs : List PField) : List Tok := [.kw .THROWS, .kw .LPAREN] ++ many field fs ++ [.kw .RPAREN]

/-- Thrift.g4:40-42 -/
def function (f : PFunction) : List Tok :=
  (if f.oneway then [.kw .ONEWAY] else []) ++ functionType f.type ++ [.IDENTIFIER f.identifier, .kw .LPAREN] ++ many field f.parameters ++ [.kw .RPAREN] ++
    opt throwsList f.throws ++ opt listSeparator f.sep

/-- Thrift.g4:11-15 -/
def header : PHeader → List Tok
  | .include t => [.kw .INCLUDE, .LITERAL t]
  | .cppInclude t => [.kw .CPP_INCLUDE, .LITERAL t]
  | .namespace none x => [.kw .NAMESPACE, .kw .STAR, .IDENTIFIER x]
  | .namespace (some l) x => [.kw .NAMESPACE, .IDENTIFIER l, .IDENTIFIER x]

/-- Thrift.g4:17-25 -/
def definition : PDef → List Tok
  | .const t x v s => [.kw .CONST] ++ fieldType t ++ [.IDENTIFIER x, .kw .EQ] ++ constValue v ++ opt listSeparator s
  | .typedef t x => [.kw .TYPEDEF] ++ fieldType t ++ [.IDENTIFIER x]
  | .enum x fs => [.kw .ENUM, .IDENTIFIER x, .kw .LBRACE] ++ many enumField fs ++ [.kw .RBRACE]
  | .struct x fs => [.kw .STRUCT, .IDENTIFIER x, .kw .LBRACE] ++ many field fs ++ [.kw .RBRACE]
  | .union x fs => [.kw .UNION, .IDENTIFIER x, .kw .LBRACE] ++ many field fs ++ [.kw .RBRACE]
  | .exception x fs => [.kw .EXCEPTION, .IDENTIFIER x, .kw .LBRACE] ++ many field fs ++ [.kw .RBRACE]
  | .service x e fs => [.kw .SERVICE, .IDENTIFIER x] ++ opt (fun b => [.kw .EXTENDS, .IDENTIFIER b]) e ++ [.kw .LBRACE] ++ many function fs ++ [.kw .RBRACE]

/-- Thrift.g4:7-9 -/
def document (d : PDoc) : List Tok := many header d.headers ++ many definition d.definitions

end CT.Gen.Spec
