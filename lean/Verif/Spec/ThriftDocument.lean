import Verif.Spec.ThriftParser
import Verif.Spec.ThriftLexer
import Verif.Spec.Generator
/-!
# What a thrift document says

Which documents the generator reads at all, what of a parse tree has no influence, and the parse tree a document is printed as.
-/
namespace CT.Gen.Spec
open CT.Gen

/-! ## Integers -/

/-- The digit a character stands for -/
def digitValue (c : Char) : Nat :=
  if '0' ≤ c ∧ c ≤ '9' then c.toNat - '0'.toNat
  else if 'a' ≤ c ∧ c ≤ 'z' then c.toNat - 'a'.toNat + 10
  else c.toNat - 'A'.toNat + 10

/-- The number digits stand for -/
def numeral (radix : Nat) (cs : List Char) : Nat := ofDigits radix (cs.map digitValue)

/-- The number an integer stands for -/
def denotes : IntegerCtx → Int
  | .dec ('-' :: cs) => -(numeral 10 cs : Int)
  | .dec ('+' :: cs) => numeral 10 cs
  | .dec cs => numeral 10 cs
  | .hex ('-' :: cs) => -(numeral 16 (cs.drop 2) : Int)
  | .hex cs => numeral 16 (cs.drop 2)

/-- The integers that are read: `-0x80000000` is not -/
def InRange : IntegerCtx → Prop
  | .dec t => -2147483648 ≤ denotes (.dec t) ∧ denotes (.dec t) ≤ 2147483647
  | .hex t => -2147483647 ≤ denotes (.hex t) ∧ denotes (.hex t) ≤ 2147483647

/-! ## What is supported -/

/-- No constants, exceptions and services; 32 bit integers -/
def SupportedDef : PDef → Prop
  | .const .. => False
  | .typedef .. => True
  | .enum _ fs => ∀ f ∈ fs, InRange f.value
  | .struct _ fs => ∀ f ∈ fs, ∀ i, f.fieldId = some i → InRange i
  | .union _ fs => ∀ f ∈ fs, ∀ i, f.fieldId = some i → InRange i
  | .exception .. => False
  | .service .. => False

/-- Also no `cpp_include` -/
def Supported (d : PDoc) : Prop := (∀ t, PHeader.cppInclude t ∉ d.headers) ∧ ∀ x ∈ d.definitions, SupportedDef x

/-! ## What does not matter -/

/-- Without `cpp_type` -/
def bareType : PType → PType
  | .builtin b => .builtin b
  | .named t => .named t
  | .map _ k v => .map none (bareType k) (bareType v)
  | .set _ e => .set none (bareType e)
  | .list _ e => .list none (bareType e)

/-- Without `cpp_type`, default value and separator -/
def bareField (f : PField) : PField := { f with type := bareType f.type, value := none, sep := none }

/-- Without separator -/
def bareEnumField (f : PEnumField) : PEnumField := { f with sep := none }

/-- The same in a definition -/
def bareDef : PDef → PDef
  | .typedef t x => .typedef (bareType t) x
  | .enum x fs => .enum x (fs.map bareEnumField)
  | .struct x fs => .struct x (fs.map bareField)
  | .union x fs => .union x (fs.map bareField)
  | d => d

/-- The same in a document -/
def bareDoc (d : PDoc) : PDoc := ⟨d.headers, d.definitions.map bareDef⟩

/-! ## Printing -/

/-- A number in decimal -/
def natText (n : Nat) : List Char := if n < 10 then [digitChar n] else natText (n / 10) ++ [digitChar (n % 10)]

/-- An integer in decimal -/
def intText (v : BitVec 32) : List Char := if v.toInt < 0 then '-' :: natText v.toInt.natAbs else natText v.toInt.natAbs

def unparseType : FieldType → PType
  | .base b => .builtin b
  | .named n => .named n.toList
  | .set e => .set none (unparseType e)
  | .list e => .list none (unparseType e)
  | .map k v => .map none (unparseType k) (unparseType v)

def unparseReq : FieldReq → Option Bool
  | .DEFAULT => none
  | .OPTIONAL => some false
  | .REQUIRED => some true

def unparseField (f : Field) : PField := ⟨some (.dec (intText f.id)), unparseReq f.req, unparseType f.type, f.identifier.toList, none, none⟩

def unparseEnumField (f : EnumField) : PEnumField := ⟨f.identifier.toList, .dec (intText f.value), none⟩

def unparseDef : Definition → PDef
  | .typedef x t => .typedef (unparseType t) x.toList
  | .enum x fs => .enum x.toList (fs.map fun f => unparseEnumField f.2)
  | .struct x fs => .struct x.toList (fs.map fun f => unparseField f.2)
  | .union x fs => .union x.toList (fs.map fun f => unparseField f.2)

/-- The language `*` is that of all languages. -/
def unparseHeader (h : Header) : List PHeader :=
  h.namespaces.map (fun n => .namespace (if n.1 = "*" then none else some n.1.toList) n.2.toList) ++ h.includes.map fun t => .include t.toList

def unparse (h : Header) (d : Document) : PDoc := ⟨unparseHeader h, d.map fun p => unparseDef p.2⟩

/-- A `LinkedHashMap` of things by their names -/
def Keyed {α : Type} (key : α → String) (m : List (String × α)) : Prop := (∀ p ∈ m, key p.2 = p.1) ∧ (m.map (·.1)).Nodup

def KeyedDef : Definition → Prop
  | .typedef .. => True
  | .enum _ fs => Keyed EnumField.identifier fs
  | .struct _ fs => Keyed Field.identifier fs
  | .union _ fs => Keyed Field.identifier fs

/-- What every `Header` and `Document` of Domain.kt satisfies: maps have distinct keys and everything is stored under its name. -/
def KeyedDoc (h : Header) (d : Document) : Prop := (h.namespaces.map (·.1)).Nodup ∧ Keyed Definition.identifier d ∧ ∀ p ∈ d, KeyedDef p.2

/-- A name -/
def IsName (s : String) : Prop := TokText (.IDENTIFIER s.toList) s.toList

def NamedType : FieldType → Prop
  | .base _ => True
  | .named n => IsName n
  | .set e => NamedType e
  | .list e => NamedType e
  | .map k v => NamedType k ∧ NamedType v

def NamedDef : Definition → Prop
  | .typedef x t => IsName x ∧ NamedType t
  | .enum x fs => IsName x ∧ ∀ f ∈ fs, IsName f.2.identifier
  | .struct x fs => IsName x ∧ ∀ f ∈ fs, IsName f.2.identifier ∧ NamedType f.2.type
  | .union x fs => IsName x ∧ ∀ f ∈ fs, IsName f.2.identifier ∧ NamedType f.2.type

/-- All names are names of the grammar, and the included files are quoted. -/
def NamedDoc (h : Header) (d : Document) : Prop :=
  (∀ n ∈ h.namespaces, (n.1 = "*" ∨ IsName n.1) ∧ IsName n.2) ∧ (∀ t ∈ h.includes, Matches LITERAL t.toList) ∧ ∀ p ∈ d, NamedDef p.2

end CT.Gen.Spec
