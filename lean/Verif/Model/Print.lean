import Verif.Model.Schema
/-!
# Printing schemas: parquet/src/bin/schema.rs:613-666

`print!` appends to the output, here a list of bytes. `{:?}` is the output of the derived `Debug` implementations (`core::fmt::builders`, the form
without `#`).
-/
namespace CT.Schema
open CT.Parquet

/-- `ascii! "text"`: the bytes of a literal consisting of ASCII characters. -/
syntax "ascii!" str : term
macro_rules
  | `(ascii! $s:str) => do
    let bytes ← s.getString.toList.toArray.mapM fun c => `((BitVec.ofNat 8 $(Lean.quote c.toNat)))
    `(([$bytes,*] : Bytes))

/-- Decimal digits (`core::fmt::num`); the first argument bounds their number. -/
def decimalF : Nat → Nat → Bytes
  | 0, _ => []
  | fuel + 1, n => (if n < 10 then [] else decimalF fuel (n / 10)) ++ [BitVec.ofNat 8 (48 + n % 10)]

/-- `{}` of an unsigned number -/
def decimal (n : Nat) : Bytes := decimalF (n + 1) n

/-- `{}` of a signed number -/
def decimalInt (i : Int) : Bytes := if i < 0 then ascii! "-" ++ decimal i.natAbs else decimal i.natAbs

/-- `{:?}` of a `bool` -/
def debugBool (b : Bool) : Bytes := if b then ascii! "true" else ascii! "false"

/-- schema.rs:8 (derived) -/
def PhysicalType.debug : PhysicalType → Bytes
  | .BOOLEAN => ascii! "BOOLEAN"
  | .INT32 => ascii! "INT32"
  | .INT64 => ascii! "INT64"
  | .INT96 => ascii! "INT96"
  | .FLOAT => ascii! "FLOAT"
  | .DOUBLE => ascii! "DOUBLE"
  | .BYTE_ARRAY => ascii! "BYTE_ARRAY"
  | .FIXED_LEN_BYTE_ARRAY len => ascii! "FIXED_LEN_BYTE_ARRAY(" ++ decimal len.toNat ++ ascii! ")"

/-- schema.rs:49-54 `SchemaTimeUnit` (derived) -/
def TimeUnit.debug : TimeUnit → Bytes
  | .MILLIS => ascii! "Millis"
  | .MICROS => ascii! "Micros"
  | .NANOS => ascii! "Nanos"

/-- schema.rs:76-80 (derived) -/
def TimeOptions.debug (o : TimeOptions) : Bytes :=
  ascii! "TimeOptions { is_adjusted_to_utc: " ++ debugBool o.isAdjustedToUtc ++ ascii! ", time_unit: " ++ o.timeUnit.debug ++ ascii! " }"

/-- schema.rs:100-104 (derived); `precision` is a `u8`, `scale` an `i8`. -/
def DecimalOptions.debug (o : DecimalOptions) : Bytes :=
  ascii! "DecimalOptions { precision: " ++ decimal o.precision.toNat ++ ascii! ", scale: " ++ decimalInt o.scale.toInt ++ ascii! " }"

/-- schema.rs:134-139 -/
def IntegerOptions.debug (o : IntegerOptions) : Bytes := (if o.isSigned then ascii! "i" else ascii! "u") ++ decimal o.bitwidth.toNat

/-- schema.rs:156 (derived) -/
def PrimitiveLogicalType.debug : PrimitiveLogicalType → Bytes
  | .String => ascii! "String"
  | .Enum => ascii! "Enum"
  | .Decimal o => ascii! "Decimal(" ++ o.debug ++ ascii! ")"
  | .Date => ascii! "Date"
  | .Time o => ascii! "Time(" ++ o.debug ++ ascii! ")"
  | .Timestamp o => ascii! "Timestamp(" ++ o.debug ++ ascii! ")"
  | .Interval => ascii! "Interval"
  | .Integer o => ascii! "Integer(" ++ o.debug ++ ascii! ")"
  | .Unknown => ascii! "Unknown"
  | .Json => ascii! "Json"
  | .Bson => ascii! "Bson"
  | .UUID => ascii! "UUID"
  | .Float16 => ascii! "Float16"
  | .Geometry => ascii! "Geometry"
  | .Geography => ascii! "Geography"

/-- schema.rs:308 (derived) -/
def GroupLogicalType.debug : GroupLogicalType → Bytes
  | .List => ascii! "List"
  | .Map => ascii! "Map"
  | .MapKeyValue => ascii! "MapKeyValue"
  | .Variant none => ascii! "Variant { specification_version: None }"
  | .Variant (some v) => ascii! "Variant { specification_version: Some(" ++ decimalInt v.toInt ++ ascii! ") }"

/-- schema.rs:351-359 -/
def Repetition.display : Repetition → Bytes
  | .Required => ascii! "REQUIRED"
  | .Optional => ascii! "OPTIONAL"
  | .Repeated => ascii! "REPEATED"

/-- schema.rs:613-617 `print_indent` -/
def printIndent : Nat → Bytes
  | 0 => []
  | n + 1 => ascii! "  " ++ printIndent n

/-- schema.rs:624-626, 641-643 -/
def printLogical {α : Type} (debug : α → Bytes) : Option α → Bytes
  | none => []
  | some l => ascii! " (" ++ debug l ++ ascii! ")"

mutual
/-- schema.rs:619-647 `pretty_print_schema` -/
def prettyPrint : SField → Nat → Bytes
  | .group c children l, indent =>
    printIndent indent ++ (c.repetition.display ++ ascii! " group " ++ c.name) ++ printLogical GroupLogicalType.debug l ++ ascii! " {\n" ++
      prettyPrintAll children (indent + 1) ++ printIndent indent ++ ascii! "}\n"
  | .primitive c p l _, indent =>
    printIndent indent ++ (c.repetition.display ++ ascii! " " ++ p.debug ++ ascii! " " ++ c.name) ++ printLogical PrimitiveLogicalType.debug l ++ ascii! ";\n"
/-- schema.rs:629-631 -/
def prettyPrintAll : List SField → Nat → Bytes
  | [], _ => []
  | f :: fs, indent => prettyPrint f indent ++ prettyPrintAll fs indent
end

end CT.Schema
