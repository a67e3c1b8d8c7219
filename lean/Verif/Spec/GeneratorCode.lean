import Verif.Spec.ThriftDocument
import Verif.Spec.Macros
/-!
# Documents that are both a text for the generator and the argument of `thrift!`

The tokens of a thrift document as the Rust compiler sees them, without comments (doc comments are attributes, which the macros allow), and what both
front ends understand.
-/
namespace CT.Gen.Spec
open CT.Gen CT.Macro

/-! ## Rust tokens -/

/-- Words are identifiers to macros, symbols are punctuation; brackets are not single tokens. -/
def rustKw (k : Kw) : Option TT :=
  match k with
  | .EQ | .STAR | .COLON | .LT | .GT | .SEMI => k.text.head?.map .punct
  | .LBRACE | .RBRACE | .LPAREN | .RPAREN | .LBRACK | .RBRACK => none
  | _ => some (.ident (String.ofList k.text))

/-- A token other than a bracket; `none` if there are no such tokens in Rust or other ones than the macros know of -/
def rustToken : Tok → Option (List TT)
  | .kw k => (rustKw k).map ([·])
  | .INTEGER ('-' :: ds) => some [.punct '-', .lit (.int (numeral 10 ds))]
  | .INTEGER ('+' :: _) => none
  | .INTEGER ds => some [.lit (.int (numeral 10 ds))]
  | .HEX_INTEGER ('-' :: ds) => some [.punct '-', .lit (.int (numeral 16 (ds.drop 2)))]
  | .HEX_INTEGER ds => some [.lit (.int (numeral 16 (ds.drop 2)))]
  | .DOUBLE _ => none
  | .LITERAL t => if t.head? = some '"' then some [.lit .text] else none
  | .IDENTIFIER t => if '.' ∈ t ∨ t = ['_'] then none else some [.ident (String.ofList t)]
  | .COMMA => some [.punct ',']

/-- With braces: the tokens so far and those before the open braces -/
def rustTrees : List TT → List (List TT) → List Tok → Option (List TT)
  | ts, [], [] => some ts
  | _, _ :: _, [] => none
  | ts, outer, .kw .LBRACE :: us => rustTrees [] (ts :: outer) us
  | ts, before :: outer, .kw .RBRACE :: us => rustTrees (before ++ [.group .brace ts]) outer us
  | ts, outer, u :: us => (rustToken u).bind fun t => rustTrees (ts ++ t) outer us

/-- The tokens of a document as token trees -/
def rustTokens (ts : List Tok) : Option (List TT) := rustTrees [] [] ts

/-! ## Common documents -/

/-- Not qualified; `type` is a keyword, which only the generator escapes. -/
def PlainWord (t : List Char) : Prop := '.' ∉ t ∧ t ≠ ['_'] ∧ t ≠ ['t', 'y', 'p', 'e']

/-- Rust has no `+`. -/
def PlainInt : IntegerCtx → Prop
  | .dec t => t.head? ≠ some '+'
  | .hex _ => True

/-- `thrift!` has no nested lists and no maps; sets it treats differently. -/
def PlainType : PType → Prop
  | .builtin _ => True
  | .named t => PlainWord t
  | .list none (.builtin _) => True
  | .list none (.named t) => PlainWord t
  | _ => False

/-- A literal -/
def PlainDefault : Option PConst → Prop
  | none => True
  | some (.integer i) => PlainInt i
  | some (.literal t) => t.head? = some '"'
  | some (.identifier t) => t = ['t', 'r', 'u', 'e'] ∨ t = ['f', 'a', 'l', 's', 'e']
  | _ => False

/-- With id and requirement -/
def CommonField (f : PField) : Prop :=
  (∃ i, f.fieldId = some i ∧ PlainInt i) ∧ f.requirement ≠ none ∧ PlainType f.type ∧ PlainWord f.identifier ∧ PlainDefault f.value ∧ f.sep ≠ some .comma

/-- With id, without requirement -/
def CommonVariant (f : PField) : Prop :=
  (∃ i, f.fieldId = some i ∧ PlainInt i) ∧ f.requirement = none ∧ PlainType f.type ∧ PlainWord f.identifier ∧ f.value = none ∧ f.sep ≠ some .comma

/-- With semicolon; the generator's enums have more associated items. -/
def CommonConstant (f : PEnumField) : Prop :=
  PlainWord f.identifier ∧ f.identifier ≠ ['v', 'a', 'l', 'u', 'e'] ∧ f.identifier ≠ ['_', '_', 'N', 'A', 'M', 'E', 'S'] ∧ PlainInt f.value ∧ (∀ t, f.value = .hex t → denotes f.value ≠ -2147483648) ∧ f.sep = some .semi

/-- Structs, unions and enums with distinct names in them -/
def CommonDef : PDef → Prop
  | .enum x fs => PlainWord x ∧ (∀ f ∈ fs, CommonConstant f) ∧ (fs.map (·.identifier)).Nodup
  | .struct x fs => PlainWord x ∧ (∀ f ∈ fs, CommonField f) ∧ (fs.map (·.identifier)).Nodup
  | .union x fs => PlainWord x ∧ (∀ f ∈ fs, CommonVariant f) ∧ (fs.map (·.identifier)).Nodup
  | _ => False

/-- The defined name -/
def defName : PDef → List Char
  | .const _ x _ _ | .typedef _ x | .enum x _ | .struct x _ | .union x _ | .exception x _ | .service x _ _ => x

/-- What both front ends understand, without redefinition of `String` and `u8` -/
def Common (d : PDoc) : Prop :=
  (∀ h ∈ d.headers, ∃ l x, h = .namespace (some l) x ∧ PlainWord l ∧ PlainWord x) ∧ (∀ x ∈ d.definitions, CommonDef x) ∧
    (d.definitions.map defName).Nodup ∧ ∀ x ∈ d.definitions, defName x ≠ ['S', 't', 'r', 'i', 'n', 'g'] ∧ defName x ≠ ['u', '8']

end CT.Gen.Spec
