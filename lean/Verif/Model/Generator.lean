/-!
# The code generator: generator/src/main/java/net/jhorstmann/compactthrift

Parse trees are the input: lexing and parsing are done by ANTLR from Thrift.g4. Kotlin `Int` is `BitVec 32`; `Map`s made by
`associateBy(To)` are `LinkedHashMap`s: association lists in insertion order. A thrown exception is `none`.
-/
namespace CT.Gen

/-! ## Domain.kt -/

/-- Domain.kt:86-88 -/
inductive BuiltinType where
  | BOOL | BYTE | I16 | I32 | I64 | DOUBLE | STRING | BINARY
deriving DecidableEq, Repr

/-- Domain.kt:62-84 -/
inductive FieldType where
  | base (type : BuiltinType)
  | named (name : String)
  | set (elementType : FieldType)
  | list (elementType : FieldType)
  | map (keyType valueType : FieldType)
deriving DecidableEq, Repr

/-- Domain.kt:53-55 -/
inductive FieldReq where
  | DEFAULT | OPTIONAL | REQUIRED
deriving DecidableEq, Repr

/-- Domain.kt:57-60 -/
structure Field where
  id : BitVec 32
  req : FieldReq
  identifier : String
  type : FieldType
deriving DecidableEq, Repr

/-- Domain.kt:30 -/
structure EnumField where
  identifier : String
  value : BitVec 32
deriving DecidableEq, Repr

/-- Domain.kt:13-49; constants, exceptions and services cannot be constructed: `mapDefinition` or `mapConstantValue` throws `NotImplementedError`. -/
inductive Definition where
  | typedef (identifier : String) (fieldType : FieldType)
  | enum (identifier : String) (fields : List (String × EnumField))
  | struct (identifier : String) (fields : List (String × Field))
  | union (identifier : String) (fields : List (String × Field))
deriving DecidableEq, Repr

/-- The `identifier` of a definition. -/
def Definition.identifier : Definition → String
  | .typedef i _ | .enum i _ | .struct i _ | .union i _ => i

/-- Domain.kt:3-11; the header has no influence on what is modelled here. -/
abbrev Document := List (String × Definition)

/-! ## LinkedHashMap -/

/-- `put`: the value of an existing key is replaced in place. -/
def put {α : Type} (k : String) (v : α) : List (String × α) → List (String × α)
  | [] => [(k, v)]
  | (k', v') :: m => if k' = k then (k, v) :: m else (k', v') :: put k v m

/-- `associateByTo(LinkedHashMap())`, `associateBy` -/
def associateBy {α : Type} (key : α → String) (xs : List α) : List (String × α) := xs.foldl (fun m x => put (key x) x m) []

/-- `map[k]` -/
def get? {α : Type} (k : String) : List (String × α) → Option α
  | [] => none
  | (k', v) :: m => if k' = k then some v else get? k m

/-! ## Parser.kt -/

/-- `Character.digit(c, radix)`, for ASCII characters (the lexer admits no others here) -/
def digitOf (radix : Nat) (c : Char) : Option Nat :=
  let d := if '0' ≤ c ∧ c ≤ '9' then some (c.toNat - 48)
    else if 'a' ≤ c ∧ c ≤ 'z' then some (c.toNat - 87)
    else if 'A' ≤ c ∧ c ≤ 'Z' then some (c.toNat - 55)
    else none
  d.bind fun d => if d < radix then some d else none

/-- The loop of `Integer.parseInt`, without its range check. -/
def digitsValue (radix : Nat) : Nat → List Char → Option Nat
  | acc, [] => some acc
  | acc, c :: cs => match digitOf radix c with
    | none => none
    | some d => digitsValue radix (acc * radix + d) cs

/-- At least one digit. -/
def magnitude (radix : Nat) (cs : List Char) : Option Nat := if cs = [] then none else digitsValue radix 0 cs

/-- `String.toInt(radix)`, which is `Integer.parseInt(s, radix)` -/
def toInt (radix : Nat) : List Char → Option (BitVec 32)
  | '-' :: cs => (magnitude radix cs).bind fun n => if n ≤ 2147483648 then some (BitVec.ofInt 32 (-n)) else none
  | '+' :: cs => (magnitude radix cs).bind fun n => if n ≤ 2147483647 then some (BitVec.ofNat 32 n) else none
  | cs => (magnitude radix cs).bind fun n => if n ≤ 2147483647 then some (BitVec.ofNat 32 n) else none

/-- Thrift.g4:74-77 `integer`: the text of the token -/
inductive IntegerCtx where
  | dec (text : List Char)
  | hex (text : List Char)

/-- Parser.kt:158-179 `mapInteger` -/
def mapInteger : IntegerCtx → Option (BitVec 32)
  | .dec text => toInt 10 text
  | .hex text =>
    let neg := text.head? = some '-'
    let start := if neg then 3 else 2
    (toInt 16 (text.drop start)).map fun value => if neg then -value else value

/-- Thrift.g4:31-33 `field` -/
structure FieldCtx where
  fieldId : Option IntegerCtx
  requirement : Option FieldReq
  identifier : String
  type : FieldType

/-- Parser.kt:135-147, the lambda of `map` with its state `currentFieldId` -/
def mapField (currentFieldId : BitVec 32) (it : FieldCtx) : Option Field :=
  match it.fieldId with
  | none => some ⟨currentFieldId + 1, it.requirement.getD .DEFAULT, it.identifier, it.type⟩
  | some i => (mapInteger i).map fun fieldId => ⟨fieldId, it.requirement.getD .DEFAULT, it.identifier, it.type⟩

/-- `map` with that lambda -/
def mapFields : BitVec 32 → List FieldCtx → Option (List Field)
  | _, [] => some []
  | cur, c :: cs => (mapField cur c).bind fun f => (mapFields f.id cs).map (f :: ·)

/-- Parser.kt:133-148 `mapStructOrUnionFields` -/
def mapStructOrUnionFields (fields : List FieldCtx) : Option (List (String × Field)) :=
  (mapFields (-1) fields).map (associateBy Field.identifier)

/-- Parser.kt:128-131 `mapEnumFields` -/
def mapEnumFields (fields : List (String × IntegerCtx)) : Option (List (String × EnumField)) :=
  (fields.mapM fun f => (mapInteger f.2).map fun v => EnumField.mk f.1 v).map (associateBy EnumField.identifier)

/-- Parser.kt:181-185 `mapDocument`, the definitions -/
def mapDocument (definitions : List Definition) : Document := associateBy Definition.identifier definitions

/-! ## Generator.kt -/

/-- `fields.any { p(it.type) }` where `p` may fail to return (`none`) -/
def anyField (p : FieldType → Option Bool) : List Field → Option Bool
  | [] => some false
  | f :: fs => match p f.type with
    | none => none
    | some true => some true
    | some false => anyField p fs

/-- Generator.kt:33-37: the fields of structs and unions -/
def Definition.typedFields : Definition → List Field
  | .struct _ fs | .union _ fs => fs.map (·.2)
  | .typedef .. | .enum .. => []

/-- The fields of `document.definitions[name]`, none if there is no such definition. -/
def fieldsOf (document : Document) (name : String) : List Field :=
  match get? name document with
  | none => []
  | some d => d.typedFields

/-- Generator.kt:16-30 `fieldNeedsLifeTime`; `depth` bounds the nested calls of `definitionNeedsLifeTime`, `none` if it is exceeded. -/
def fieldNeedsLifeTime (document : Document) : (depth : Nat) → FieldType → Option Bool
  | _, .base b => some (b == .BINARY || b == .STRING)
  | 0, .named _ => none
  | n + 1, .named name => anyField (fun t => fieldNeedsLifeTime document n t) (fieldsOf document name)
  | n, .list t => fieldNeedsLifeTime document n t
  | n, .set t => fieldNeedsLifeTime document n t
  | n, .map k v => match fieldNeedsLifeTime document n k with
    | none => none
    | some true => some true
    | some false => fieldNeedsLifeTime document n v
termination_by n t => (n, t)

/-- Generator.kt:31-40 `definitionNeedsLifeTime` -/
def definitionNeedsLifeTime (document : Document) (depth : Nat) (d : Definition) : Option Bool :=
  anyField (fieldNeedsLifeTime document depth) d.typedFields

/-- Generator.kt:42-48 `lifetimeAnnotation`, as tokens -/
def lifetimeAnnotation (document : Document) (depth : Nat) : Option Definition → Option (List String)
  | none => some []
  | some d => (definitionNeedsLifeTime document depth d).map fun b => if b then ["<", "'i", ">"] else []

/-- Generator.kt:54-77 `RustFieldTypeVisitor`, as tokens -/
def rustFieldType (document : Document) (depth : Nat) : FieldType → Option (List String)
  | .named name => (lifetimeAnnotation document depth (get? name document)).map (name :: ·)
  | .base .BOOL => some ["bool"]
  | .base .BYTE => some ["u8"]
  | .base .I16 => some ["i16"]
  | .base .I32 => some ["i32"]
  | .base .I64 => some ["i64"]
  | .base .DOUBLE => some ["f64"]
  | .base .STRING => some ["Cow", "<", "'i", ",", "str", ">"]
  | .base .BINARY => some ["Cow", "<", "'i", ",", "[", "u8", "]", ">"]
  | .map k v => (rustFieldType document depth k).bind fun k => (rustFieldType document depth v).map fun v => ["HashMap", "<"] ++ k ++ [","] ++ v ++ [">"]
  | .set t => (rustFieldType document depth t).map fun t => ["HashSet", "<"] ++ t ++ [">"]
  | .list t => (rustFieldType document depth t).map fun t => ["Vec", "<"] ++ t ++ [">"]

/-- Generator.kt:143-151 `rustType` -/
def rustType (document : Document) (depth : Nat) (fieldType : FieldType) (req : FieldReq) : Option (List String) :=
  (rustFieldType document depth fieldType).map fun type => if req = .REQUIRED then type else ["Option", "<"] ++ type ++ [">"]

/-- Generator.kt:160-164 `visitTypeDef`: the declared name with its parameters (none) and the type -/
def typeDefType (document : Document) (depth : Nat) (fieldType : FieldType) : Option (List String) := rustType document depth fieldType .REQUIRED

/-! ## The enums it generates -/

/-- Generator.kt:178-180 `__NAMES`: `sortedBy` is stable -/
def names (fields : List (String × EnumField)) : List (BitVec 32 × String) :=
  ((fields.map (·.2)).mergeSort fun a b => BitVec.sle a.value b.value).map fun f => (f.value, f.identifier)

/-- The loop of `<[T]>::binary_search_by` of std; `cmp i` compares the element at `i` with what is looked for, as an ordering. -/
def searchLoop (cmp : Nat → Ordering) (base size : Nat) : Nat :=
  if _h : 1 < size then
    let half := size / 2
    let mid := base + half
    searchLoop cmp (if cmp mid = .gt then base else mid) (size - half)
  else base
termination_by size

/-- `<[T]>::binary_search_by` of std: `some i` for `Ok(i)`, `none` for `Err(_)` -/
def binarySearch (len : Nat) (cmp : Nat → Ordering) : Option Nat :=
  if len = 0 then none
  else
    let base := searchLoop cmp 0 len
    if cmp base = .eq then some base else none

/-- `Ord` for `i32` -/
def cmpI32 (a b : BitVec 32) : Ordering := if BitVec.slt a b then .lt else if a = b then .eq else .gt

/-- Generator.kt:197-205: the name `Debug` prints -/
def debugName (fields : List (String × EnumField)) (value : BitVec 32) : String :=
  let ns := names fields
  match binarySearch ns.length fun i => cmpI32 ((ns[i]?.getD (0, "")).1) value with
  | some i => (ns[i]?.getD (0, "")).2
  | none => "__UNKNOWN"

end CT.Gen
