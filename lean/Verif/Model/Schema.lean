import Verif.Model.Parquet
/-!
# Parquet schemas: parquet/src/bin/schema.rs

Enums of format.rs are their numbers, as in the code. Strings are their UTF-8 bytes.
-/
namespace CT.Schema
open CT.Parquet

/-! ## The parts of format.rs used here -/

/-- format.rs:351-355 `TimeUnit` -/
inductive TimeUnit where
  | MILLIS
  | MICROS
  | NANOS
deriving DecidableEq, Repr

/-- format.rs:470-496 `LogicalType`; payloads that schema.rs ignores are left out. -/
inductive LogicalType where
  | STRING | MAP | LIST | ENUM
  | DECIMAL (scale precision : BitVec 32)
  | DATE
  | TIME (isAdjustedToUTC : Bool) (unit : TimeUnit)
  | TIMESTAMP (isAdjustedToUTC : Bool) (unit : TimeUnit)
  | INTEGER (bitWidth : BitVec 8) (isSigned : Bool)
  | UNKNOWN | JSON | BSON | UUID | FLOAT16
  | VARIANT (specificationVersion : Option (BitVec 8))
  | GEOMETRY | GEOGRAPHY
deriving DecidableEq, Repr

/-- format.rs:504-558 `SchemaElement` -/
structure Element where
  type_ : Option (BitVec 32)
  typeLength : Option (BitVec 32)
  repetitionType : Option (BitVec 32)
  name : Bytes
  numChildren : Option (BitVec 32)
  convertedType : Option (BitVec 32)
  scale : Option (BitVec 32)
  precision : Option (BitVec 32)
  fieldId : Option (BitVec 32)
  logicalType : Option LogicalType
deriving DecidableEq, Repr

/-! ## The same, of the values of Model/Types.lean -/

/-- An `Option` of an enum -/
def optEnum : Val → Option (Option (BitVec 32))
  | .none => some none
  | .some (.enum x) => some (some x)
  | _ => none

/-- A `TimeUnit` -/
def timeUnitOfVal : Val → Option TimeUnit
  | .union 0 _ => some .MILLIS
  | .union 1 _ => some .MICROS
  | .union 2 _ => some .NANOS
  | _ => none

/-- A `LogicalType`; `none` only if the value is not one. -/
def logicalTypeOfVal : Val → Option LogicalType
  | .union 0 _ => some .STRING
  | .union 1 _ => some .MAP
  | .union 2 _ => some .LIST
  | .union 3 _ => some .ENUM
  | .union 4 (.struct [.i32 scale, .i32 precision]) => some (.DECIMAL scale precision)
  | .union 5 _ => some .DATE
  | .union 6 (.struct [.bool utc, u]) => (timeUnitOfVal u).map (.TIME utc)
  | .union 7 (.struct [.bool utc, u]) => (timeUnitOfVal u).map (.TIMESTAMP utc)
  | .union 8 (.struct [.i8 bitWidth, .bool isSigned]) => some (.INTEGER bitWidth isSigned)
  | .union 9 _ => some .UNKNOWN
  | .union 10 _ => some .JSON
  | .union 11 _ => some .BSON
  | .union 12 _ => some .UUID
  | .union 13 _ => some .FLOAT16
  | .union 14 (.struct [.none]) => some (.VARIANT none)
  | .union 14 (.struct [.some (.i8 v)]) => some (.VARIANT (some v))
  | .union 15 _ => some .GEOMETRY
  | .union 16 _ => some .GEOGRAPHY
  | _ => none

/-- An `Option<LogicalType>` -/
def optLogicalType : Val → Option (Option LogicalType)
  | .none => some none
  | .some v => (logicalTypeOfVal v).map some
  | _ => none

/-- A `String` -/
def stringOfVal : Val → Option Bytes
  | .string bs => some bs
  | _ => none

/-- A `SchemaElement`; `none` only if the value is not one. -/
def elementOfVal (v : Val) : Option Element := do
  let get := fun name => getField Format.dSchemaElement name v
  let type_ ← (get "type_").bind optEnum
  let typeLength ← (get "type_length").bind optI32
  let repetitionType ← (get "repetition_type").bind optEnum
  let name ← (get "name").bind stringOfVal
  let numChildren ← (get "num_children").bind optI32
  let convertedType ← (get "converted_type").bind optEnum
  let scale ← (get "scale").bind optI32
  let precision ← (get "precision").bind optI32
  let fieldId ← (get "field_id").bind optI32
  let logicalType ← (get "logicalType").bind optLogicalType
  pure ⟨type_, typeLength, repetitionType, name, numChildren, convertedType, scale, precision, fieldId, logicalType⟩

/-- `fmd.schema` of a `FileMetaData`. -/
def schemaOfVal (md : Val) : Option (List Element) := do
  let es ← (getField Format.dFileMetaData "schema" md).bind items
  es.mapM elementOfVal

/-! ## Types -/

/-- schema.rs:9-18 -/
inductive PhysicalType where
  | BOOLEAN | INT32 | INT64 | INT96 | FLOAT | DOUBLE | BYTE_ARRAY
  | FIXED_LEN_BYTE_ARRAY (len : BitVec 32)
deriving DecidableEq, Repr

/-- `return Err(ParquetError::Schema(msg))` -/
def schemaErr {α : Type} (msg : String) : Except PFail α := .error (.err (.schema msg))

/-- schema.rs:20-47 `PhysicalType::try_from_schema_element` -/
def PhysicalType.tryFrom (type_ : BitVec 32) (typeLength : Option (BitVec 32)) : Except PFail PhysicalType :=
  if type_ = 0 then .ok .BOOLEAN
  else if type_ = 6 then .ok .BYTE_ARRAY
  else if type_ = 1 then .ok .INT32
  else if type_ = 2 then .ok .INT64
  else if type_ = 3 then .ok .INT96
  else if type_ = 4 then .ok .FLOAT
  else if type_ = 5 then .ok .DOUBLE
  else if type_ = 7 then
    match typeLength with
    | none => schemaErr "Missing length for FIXED_LEN_BYTE_ARRAY type"
    | some len => if BitVec.sle len 0 then schemaErr "Invalid length for FIXED_LEN_BYTE_ARRAY type" else .ok (.FIXED_LEN_BYTE_ARRAY len)
  else .error (.err (.unknownType type_))

/-- schema.rs:100-104 -/
structure DecimalOptions where
  precision : BitVec 8
  scale : BitVec 8
deriving DecidableEq, Repr

/-- schema.rs:106-119 `DecimalOptions::try_new`; `as u8` and `as i8` truncate. -/
def DecimalOptions.tryNew (precision scale : BitVec 32) : Except PFail DecimalOptions :=
  if BitVec.sle precision 0 || BitVec.slt 127 precision then schemaErr "Invalid precision for Decimal type"
  else if BitVec.slt scale (-128) || BitVec.slt precision scale then schemaErr "Invalid scale for Decimal type"
  else .ok ⟨precision.truncate 8, scale.truncate 8⟩

/-- schema.rs:76-80, 82-98; the units of schema.rs:49-74 are those of `TimeUnit`. -/
structure TimeOptions where
  isAdjustedToUtc : Bool
  timeUnit : TimeUnit
deriving DecidableEq, Repr

/-- schema.rs:128-132 -/
structure IntegerOptions where
  bitwidth : BitVec 8
  isSigned : Bool
deriving DecidableEq, Repr

/-- schema.rs:141-155 -/
def IntegerOptions.tryFrom (bitWidth : BitVec 8) (isSigned : Bool) : Except PFail IntegerOptions :=
  if BitVec.sle bitWidth 0 then schemaErr "Invalid bitwidth for Integer type" else .ok ⟨bitWidth, isSigned⟩

/-- schema.rs:156-173 -/
inductive PrimitiveLogicalType where
  | String | Enum
  | Decimal (options : DecimalOptions)
  | Date
  | Time (options : TimeOptions)
  | Timestamp (options : TimeOptions)
  | Interval
  | Integer (options : IntegerOptions)
  | Unknown | Json | Bson | UUID | Float16 | Geometry | Geography
deriving DecidableEq, Repr

/-- schema.rs:176-250 `PrimitiveLogicalType::try_from_converted_type` -/
def PrimitiveLogicalType.ofConverted (ct : BitVec 32) (precision scale : Option (BitVec 32)) : Except PFail PrimitiveLogicalType :=
  if ct = 0 then .ok .String
  else if ct = 4 then .ok .Enum
  else if ct = 6 then .ok .Date
  else if ct = 19 then .ok .Json
  else if ct = 20 then .ok .Bson
  else if ct = 5 then
    match precision with
    | none => schemaErr "Missing precision for decimal type"
    | some precision =>
      match scale with
      | none => schemaErr "Missing scale for decimal type"
      | some scale => do
        let options ← DecimalOptions.tryNew precision scale
        pure (.Decimal options)
  else if ct = 8 then .ok (.Time ⟨true, .MICROS⟩)
  else if ct = 7 then .ok (.Time ⟨true, .MILLIS⟩)
  else if ct = 10 then .ok (.Timestamp ⟨true, .MICROS⟩)
  else if ct = 9 then .ok (.Timestamp ⟨true, .MILLIS⟩)
  else if ct = 21 then .ok .Interval
  else if ct = 15 then .ok (.Integer ⟨8, true⟩)
  else if ct = 16 then .ok (.Integer ⟨16, true⟩)
  else if ct = 17 then .ok (.Integer ⟨32, true⟩)
  else if ct = 18 then .ok (.Integer ⟨64, true⟩)
  else if ct = 11 then .ok (.Integer ⟨8, false⟩)
  else if ct = 12 then .ok (.Integer ⟨16, false⟩)
  else if ct = 13 then .ok (.Integer ⟨32, false⟩)
  else if ct = 14 then .ok (.Integer ⟨64, false⟩)
  else if ct = 1 ∨ ct = 3 then schemaErr "Unsupported map or list converted type for primitive"
  else .error (.err (.unknownType ct))

/-- schema.rs:273-306 -/
def PrimitiveLogicalType.ofLogical : LogicalType → Except PFail PrimitiveLogicalType
  | .STRING => .ok .String
  | .ENUM => .ok .Enum
  | .DECIMAL scale precision => do
    let options ← DecimalOptions.tryNew precision scale
    pure (.Decimal options)
  | .DATE => .ok .Date
  | .TIME utc unit => .ok (.Time ⟨utc, unit⟩)
  | .TIMESTAMP utc unit => .ok (.Timestamp ⟨utc, unit⟩)
  | .INTEGER bitWidth isSigned => do
    let options ← IntegerOptions.tryFrom bitWidth isSigned
    pure (.Integer options)
  | .UNKNOWN => .ok .Unknown
  | .JSON => .ok .Json
  | .BSON => .ok .Bson
  | .UUID => .ok .UUID
  | .FLOAT16 => .ok .Float16
  | .GEOMETRY => .ok .Geometry
  | .GEOGRAPHY => .ok .Geography
  | .MAP => schemaErr "Unsupported map or list logical type for primitive"
  | .LIST => schemaErr "Unsupported map or list logical type for primitive"
  | .VARIANT _ => schemaErr "Unsupported variant logical type for primitive"

/-- schema.rs:309-316 -/
inductive GroupLogicalType where
  | List | Map | MapKeyValue
  | Variant (specificationVersion : Option (BitVec 8))
deriving DecidableEq, Repr

/-- schema.rs:318-329 -/
def GroupLogicalType.ofLogical : LogicalType → Except PFail GroupLogicalType
  | .MAP => .ok .Map
  | .LIST => .ok .List
  | .VARIANT v => .ok (.Variant v)
  | _ => schemaErr "Unsupported logical type for group"

/-- schema.rs:331-342 -/
def GroupLogicalType.ofConverted (ct : BitVec 32) : Except PFail GroupLogicalType :=
  if ct = 1 then .ok .Map
  else if ct = 3 then .ok .List
  else if ct = 2 then .ok .MapKeyValue
  else schemaErr "Unsupported converted type for group"

/-- schema.rs:345-349 -/
inductive Repetition where
  | Required | Optional | Repeated
deriving DecidableEq, Repr

/-- schema.rs:361-372 -/
def Repetition.tryFrom (rt : BitVec 32) : Except PFail Repetition :=
  if rt = 0 then .ok .Required
  else if rt = 1 then .ok .Optional
  else if rt = 2 then .ok .Repeated
  else .error (.err (.unknownType rt))

/-- schema.rs:472-476: absent means required. -/
def Repetition.ofElement : Option (BitVec 32) → Except PFail Repetition
  | none => .ok .Required
  | some rt => Repetition.tryFrom rt

/-! ## Fields -/

/-- schema.rs:390-399; `FieldId` (374-388) is the `i32` it stores. -/
structure Common where
  name : Bytes
  fieldId : Option (BitVec 32)
  repetition : Repetition
  defLevel : BitVec 8
  repLevel : BitVec 8
deriving DecidableEq, Repr

/-- schema.rs:401-420 -/
inductive SField where
  | group (common : Common) (children : List SField) (logicalType : Option GroupLogicalType)
  | primitive (common : Common) (physicalType : PhysicalType) (logicalType : Option PrimitiveLogicalType) (index : BitVec 32)

/-- schema.rs:441-446 -/
def SField.common : SField → Common
  | .group c _ _ => c
  | .primitive c _ _ _ => c

/-- `Result::ok` for results that are values or errors. -/
def okOf {α : Type} : Except PFail α → Option α
  | .ok a => some a
  | .error _ => none

/-- schema.rs:493-507: the logical type of a leaf. -/
def leafLogicalType (e : Element) : Option PrimitiveLogicalType :=
  let lt := e.logicalType.bind fun l => okOf (PrimitiveLogicalType.ofLogical l)
  match lt with
  | some l => some l
  | none => e.convertedType.bind fun ct => okOf (PrimitiveLogicalType.ofConverted ct e.precision e.scale)

/-- schema.rs:521-529: the logical type of a group. -/
def groupLogicalType (e : Element) : Option GroupLogicalType :=
  let lt := e.logicalType.bind fun l => okOf (GroupLogicalType.ofLogical l)
  match lt with
  | some l => some l
  | none => e.convertedType.bind fun ct => okOf (GroupLogicalType.ofConverted ct)

/-- schema.rs:465-539 `field_from_schema_element`: the field (a group without children yet) and the next leaf index. -/
def fieldFromElement (e : Element) (index : Nat) (defLevel repLevel : BitVec 8) (remaining : Nat) : Except PFail (SField × Nat) := do
  let repetition ← Repetition.ofElement e.repetitionType
  let common : Common := ⟨e.name, e.fieldId, repetition, defLevel, repLevel⟩
  let numChildren := e.numChildren.getD 0
  if numChildren = 0 then
    match e.type_ with
    | none => schemaErr "Missing physical type for SchemaElement without children"
    | some t => do
      let physicalType ← PhysicalType.tryFrom t e.typeLength
      pure (.primitive common physicalType (leafLogicalType e) (BitVec.ofNat 32 index), index + 1)
  else if BitVec.slt numChildren 0 || decide (remaining < asUsize32 numChildren) then
    schemaErr "Invalid number of children"
  else
    pure (.group common [] (groupLogicalType e), index)

/-- `u8` addition: panics on overflow with overflow checks, wraps without. -/
def addU8 (cfg : Cfg) (a b : BitVec 8) : Except PFail (BitVec 8) :=
  if cfg.overflowChecks && decide (256 ≤ a.toNat + b.toNat) then .error .panic else .ok (a + b)

/-- schema.rs:579-586: the loop over the children; `rec` is the recursive call, the state is the remaining elements and the leaf index. -/
def childLoop (rec : List Element → Nat → Except PFail (SField × List Element × Nat)) :
    Nat → List Element → Nat → Except PFail (List SField × List Element × Nat)
  | 0, es, index => .ok ([], es, index)
  | n + 1, es, index => do
    let (child, es, index) ← rec es index
    let (children, es, index) ← childLoop rec n es index
    pure (child :: children, es, index)

/-- schema.rs:541-589 `convert_schema_inner`; the first argument bounds the depth of the recursion. -/
def convertInner (cfg : Cfg) : Nat → List Element → Nat → BitVec 8 → BitVec 8 → BitVec 8 → Except PFail (SField × List Element × Nat)
  | 0, _, _, _, _, _ => .error .diverge
  | depth + 1, elements, index, defLevel, repLevel, nesting =>
    match elements with
    | [] => schemaErr "Missing schema elements"
    | root :: remainder => do
      let repetitionType := root.repetitionType.getD 0
      let defLevel ← addU8 cfg defLevel (if repetitionType = 1 then 1 else 0)
      let repLevel ← addU8 cfg repLevel (if repetitionType = 2 then 1 else 0)
      let (current, index) ← fieldFromElement root index defLevel repLevel remainder.length
      match current with
      | .group common _ logicalType => do
        let nesting ← addU8 cfg nesting 1
        if 128 ≤ nesting.toNat then schemaErr "Schema is too deeply nested"
        else
          let numChildren := asUsize32 (root.numChildren.getD 0)
          let (children, remainder, index) ←
            childLoop (fun es index => convertInner cfg depth es index defLevel repLevel nesting) numChildren remainder index
          pure (.group common children logicalType, remainder, index)
      | field => pure (field, remainder, index)

/-- A depth that is never reached. -/
def maxDepth : Nat := 1000

/-- schema.rs:591-611 `convert_schema` -/
def convertSchema (cfg : Cfg) (elements : List Element) : Except PFail SField :=
  match elements with
  | [] => schemaErr "Empty schema"
  | _ => do
    let (root, remainder, _) ← convertInner cfg maxDepth elements 0 0 0 0
    if remainder ≠ [] then schemaErr "Trailing schema elements after root group"
    else if root.common.repetition ≠ .Required then schemaErr "Root element must have repetition type required"
    else pure root

/-- schema.rs:423-439 `find_field_by_path` -/
def findFieldByPath : SField → List Bytes → Option SField
  | self, [] => some self
  | .group _ children _, name :: remainder =>
    match children.find? fun child => child.common.name == name with
    | none => none
    | some child => findFieldByPath child remainder
  | .primitive .., _ :: _ => none

/-- schema.rs:649-669 `main`: what it prints, before printing. The `unwrap`s are left out: the error is returned. -/
def schemaOfFile (cfg : Cfg) (f : File) : Except PFail (Val × SField) :=
  match getMetadataChunk cfg f with
  | .error x => .error x
  | .ok (data, _) =>
    match readThrift cfg (sliceInput cfg) Format.parquetEnv Format.tFileMetaData data with
    | .error x => .error (.ofFail x)
    | .ok (fmd, _) =>
      match schemaOfVal fmd with
      | none => .error .stuck
      | some elements => (convertSchema cfg elements).map fun root => (fmd, root)

end CT.Schema
