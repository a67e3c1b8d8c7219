import Verif.Model.PqProgram
import Verif.Model.SchemaAlloc
/-!
# What the schemas of the model are as values

Reads the fields of the model as values of the interpreter, struct by struct as declared in schema.rs. Used to state C113.
-/
namespace CT.Pq
open CT CT.Parquet CT.Schema

/-- schema.rs:9-18 -/
def physicalV : PhysicalType → V
  | .BOOLEAN => .con [n! "PhysicalType", n! "BOOLEAN"] []
  | .INT32 => .con [n! "PhysicalType", n! "INT32"] []
  | .INT64 => .con [n! "PhysicalType", n! "INT64"] []
  | .INT96 => .con [n! "PhysicalType", n! "INT96"] []
  | .FLOAT => .con [n! "PhysicalType", n! "FLOAT"] []
  | .DOUBLE => .con [n! "PhysicalType", n! "DOUBLE"] []
  | .BYTE_ARRAY => .con [n! "PhysicalType", n! "BYTE_ARRAY"] []
  | .FIXED_LEN_BYTE_ARRAY len => .con [n! "PhysicalType", n! "FIXED_LEN_BYTE_ARRAY"] [.base (.u32 len)]

/-- schema.rs:49-54 -/
def unitV : TimeUnit → V
  | .MILLIS => .con [n! "SchemaTimeUnit", n! "Millis"] []
  | .MICROS => .con [n! "SchemaTimeUnit", n! "Micros"] []
  | .NANOS => .con [n! "SchemaTimeUnit", n! "Nanos"] []

/-- schema.rs:76-80 -/
def timeV (o : TimeOptions) : V := .record [n! "TimeOptions"] [(n! "is_adjusted_to_utc", .base (.bool o.isAdjustedToUtc)), (n! "time_unit", unitV o.timeUnit)]

/-- schema.rs:100-104 -/
def decimalV (o : DecimalOptions) : V := .record [n! "DecimalOptions"] [(n! "precision", .base (.u8 o.precision)), (n! "scale", .base (.i8 o.scale))]

/-- schema.rs:128-132 -/
def integerV (o : IntegerOptions) : V := .record [n! "IntegerOptions"] [(n! "bitwidth", .base (.u8 o.bitwidth)), (n! "is_signed", .base (.bool o.isSigned))]

/-- schema.rs:156-173 -/
def leafTypeV : PrimitiveLogicalType → V
  | .String => .con [n! "PrimitiveLogicalType", n! "String"] []
  | .Enum => .con [n! "PrimitiveLogicalType", n! "Enum"] []
  | .Decimal o => .con [n! "PrimitiveLogicalType", n! "Decimal"] [decimalV o]
  | .Date => .con [n! "PrimitiveLogicalType", n! "Date"] []
  | .Time o => .con [n! "PrimitiveLogicalType", n! "Time"] [timeV o]
  | .Timestamp o => .con [n! "PrimitiveLogicalType", n! "Timestamp"] [timeV o]
  | .Interval => .con [n! "PrimitiveLogicalType", n! "Interval"] []
  | .Integer o => .con [n! "PrimitiveLogicalType", n! "Integer"] [integerV o]
  | .Unknown => .con [n! "PrimitiveLogicalType", n! "Unknown"] []
  | .Json => .con [n! "PrimitiveLogicalType", n! "Json"] []
  | .Bson => .con [n! "PrimitiveLogicalType", n! "Bson"] []
  | .UUID => .con [n! "PrimitiveLogicalType", n! "UUID"] []
  | .Float16 => .con [n! "PrimitiveLogicalType", n! "Float16"] []
  | .Geometry => .con [n! "PrimitiveLogicalType", n! "Geometry"] []
  | .Geography => .con [n! "PrimitiveLogicalType", n! "Geography"] []

/-- An `Option` -/
def optV {α : Type} (f : α → V) : Option α → V
  | none => .none
  | some a => .some (f a)

/-- schema.rs:309-316 -/
def groupTypeV : GroupLogicalType → V
  | .List => .con [n! "GroupLogicalType", n! "List"] []
  | .Map => .con [n! "GroupLogicalType", n! "Map"] []
  | .MapKeyValue => .con [n! "GroupLogicalType", n! "MapKeyValue"] []
  | .Variant v => .record [n! "GroupLogicalType", n! "Variant"] [(n! "specification_version", optV (fun x => .base (.i8 x)) v)]

/-- schema.rs:345-349 -/
def repetitionV : Repetition → V
  | .Required => .con [n! "RepetitionType", n! "Required"] []
  | .Optional => .con [n! "RepetitionType", n! "Optional"] []
  | .Repeated => .con [n! "RepetitionType", n! "Repeated"] []

/-- schema.rs:374-382: the bytes of the number -/
def fieldIdV (x : BitVec 32) : V := .con [n! "FieldId"] [.base (.bytes (toLeBytes 4 (x.setWidth 64)))]

/-- schema.rs:390-399 -/
def commonV (c : Common) : V :=
  .record [n! "CommonField"] [(n! "name", .base (.bytes c.name)), (n! "field_id", optV fieldIdV c.fieldId), (n! "repetition", repetitionV c.repetition),
    (n! "def_level", .base (.u8 c.defLevel)), (n! "rep_level", .base (.u8 c.repLevel))]

mutual
/-- schema.rs:401-420 -/
def fieldV : SField → V
  | .group c children l =>
    .con [n! "SchemaField", n! "Group"] [.record [n! "GroupField"] [(n! "common", commonV c), (n! "children", .vec (fieldVs children)), (n! "logical_type", optV groupTypeV l)]]
  | .primitive c p l i =>
    .con [n! "SchemaField", n! "Primitive"] [.record [n! "PrimitiveField"] [(n! "common", commonV c), (n! "physical_type", physicalV p), (n! "logical_type", optV leafTypeV l),
      (n! "index", .base (.u32 i))]]
def fieldVs : List SField → List V
  | [] => []
  | f :: fs => fieldV f :: fieldVs fs
end

/-- The schema elements given. -/
def elementsV (es : List Val) : V := .vec (es.map (.obj Format.tSchemaElement))

/-- The outcome of a function: the value in `Ok`, or the error or other failure. -/
def asValue (o : FnOut) : Except PFail V :=
  match resultOf o with
  | .ok (v, _, _) => .ok v
  | .error f => .error f

/-- A path given as names. -/
def pathV (p : List Bytes) : V := .vec (p.map fun b => .base (.bytes b))

/-- The text is parsed, and the method `f` of its type `t` is run. -/
def runMethodText (cfg : Cfg) (capacity : Nat → Except PFail Unit) (text : List Char) (t f : Rs.Name) (n : Nat) (vs : List V) (w : World) : FnOut :=
  match parseText text with
  | none => .fail .stuck w
  | some items => match implFn t f 0 (progOf items).impls with
    | none => .fail .stuck w
    | some fn => runFn (eval cfg capacity (progOf items) n) fn vs w

end CT.Pq
