import Verif.Model.Schema
/-! # Vocabulary for the statements about Parquet schemas: tables of types, trees, paths, levels -/
namespace CT.Spec
open CT.Schema

/-! ## Tables -/

/-- The repetition an element declares; absent means required. -/
inductive RepetitionOf : Option (BitVec 32) → Repetition → Prop
  | absent : RepetitionOf none .Required
  | required : RepetitionOf (some 0) .Required
  | optional : RepetitionOf (some 1) .Optional
  | repeated : RepetitionOf (some 2) .Repeated

/-- The physical type an element declares. -/
inductive PhysicalOf : BitVec 32 → Option (BitVec 32) → PhysicalType → Prop
  | boolean (l) : PhysicalOf 0 l .BOOLEAN
  | int32 (l) : PhysicalOf 1 l .INT32
  | int64 (l) : PhysicalOf 2 l .INT64
  | int96 (l) : PhysicalOf 3 l .INT96
  | float (l) : PhysicalOf 4 l .FLOAT
  | double (l) : PhysicalOf 5 l .DOUBLE
  | byteArray (l) : PhysicalOf 6 l .BYTE_ARRAY
  | fixed (len : BitVec 32) (h : 0 < len.toInt) (n : BitVec 32) (hn : (n.toNat : Int) = len.toInt) : PhysicalOf 7 (some len) (.FIXED_LEN_BYTE_ARRAY n)

/-- Decimal options that say the same as the two numbers. -/
def DecimalOf (precision scale : BitVec 32) (o : DecimalOptions) : Prop :=
  1 ≤ precision.toInt ∧ precision.toInt ≤ 127 ∧ -128 ≤ scale.toInt ∧ scale.toInt ≤ precision.toInt ∧
  (o.precision.toNat : Int) = precision.toInt ∧ o.scale.toInt = scale.toInt

/-- What a `LogicalType` means for a leaf; the others mean nothing. -/
inductive LeafLogical : LogicalType → PrimitiveLogicalType → Prop
  | string : LeafLogical .STRING .String
  | enum : LeafLogical .ENUM .Enum
  | decimal (p s o) (h : DecimalOf p s o) : LeafLogical (.DECIMAL s p) (.Decimal o)
  | date : LeafLogical .DATE .Date
  | time (b u) : LeafLogical (.TIME b u) (.Time ⟨b, u⟩)
  | timestamp (b u) : LeafLogical (.TIMESTAMP b u) (.Timestamp ⟨b, u⟩)
  | integer (w : BitVec 8) (s) (h : 1 ≤ w.toInt) (w' : BitVec 8) (hw : (w'.toNat : Int) = w.toInt) : LeafLogical (.INTEGER w s) (.Integer ⟨w', s⟩)
  | unknown : LeafLogical .UNKNOWN .Unknown
  | json : LeafLogical .JSON .Json
  | bson : LeafLogical .BSON .Bson
  | uuid : LeafLogical .UUID .UUID
  | float16 : LeafLogical .FLOAT16 .Float16
  | geometry : LeafLogical .GEOMETRY .Geometry
  | geography : LeafLogical .GEOGRAPHY .Geography

/-- What a converted type (with precision and scale) means for a leaf. -/
inductive LeafConverted : BitVec 32 → Option (BitVec 32) → Option (BitVec 32) → PrimitiveLogicalType → Prop
  | utf8 (p s) : LeafConverted 0 p s .String
  | enum (p s) : LeafConverted 4 p s .Enum
  | decimal (p s o) (h : DecimalOf p s o) : LeafConverted 5 (some p) (some s) (.Decimal o)
  | date (p s) : LeafConverted 6 p s .Date
  | timeMillis (p s) : LeafConverted 7 p s (.Time ⟨true, .MILLIS⟩)
  | timeMicros (p s) : LeafConverted 8 p s (.Time ⟨true, .MICROS⟩)
  | timestampMillis (p s) : LeafConverted 9 p s (.Timestamp ⟨true, .MILLIS⟩)
  | timestampMicros (p s) : LeafConverted 10 p s (.Timestamp ⟨true, .MICROS⟩)
  | uint8 (p s) : LeafConverted 11 p s (.Integer ⟨8, false⟩)
  | uint16 (p s) : LeafConverted 12 p s (.Integer ⟨16, false⟩)
  | uint32 (p s) : LeafConverted 13 p s (.Integer ⟨32, false⟩)
  | uint64 (p s) : LeafConverted 14 p s (.Integer ⟨64, false⟩)
  | int8 (p s) : LeafConverted 15 p s (.Integer ⟨8, true⟩)
  | int16 (p s) : LeafConverted 16 p s (.Integer ⟨16, true⟩)
  | int32 (p s) : LeafConverted 17 p s (.Integer ⟨32, true⟩)
  | int64 (p s) : LeafConverted 18 p s (.Integer ⟨64, true⟩)
  | json (p s) : LeafConverted 19 p s .Json
  | bson (p s) : LeafConverted 20 p s .Bson
  | interval (p s) : LeafConverted 21 p s .Interval

/-- What a `LogicalType` means for a group. -/
inductive GroupLogical : LogicalType → GroupLogicalType → Prop
  | map : GroupLogical .MAP .Map
  | list : GroupLogical .LIST .List
  | variant (v) : GroupLogical (.VARIANT v) (.Variant v)

/-- What a converted type means for a group. -/
inductive GroupConverted : BitVec 32 → GroupLogicalType → Prop
  | map : GroupConverted 1 .Map
  | mapKeyValue : GroupConverted 2 .MapKeyValue
  | list : GroupConverted 3 .List

/-- `first`, if it means anything, otherwise `second`, if that means anything, otherwise nothing. -/
def Prefer {α : Type} (first second : α → Prop) (r : Option α) : Prop :=
  (∃ a, first a ∧ r = some a) ∨ ((¬ ∃ a, first a) ∧ ((∃ a, second a ∧ r = some a) ∨ ((¬ ∃ a, second a) ∧ r = none)))

/-- The logical type of a leaf: `logicalType` has precedence over `converted_type`. -/
def LeafType (e : Element) : Option PrimitiveLogicalType → Prop :=
  Prefer (fun a => ∃ l, e.logicalType = some l ∧ LeafLogical l a) (fun a => ∃ c, e.convertedType = some c ∧ LeafConverted c e.precision e.scale a)

/-- The logical type of a group. -/
def GroupType (e : Element) : Option GroupLogicalType → Prop :=
  Prefer (fun a => ∃ l, e.logicalType = some l ∧ GroupLogical l a) (fun a => ∃ c, e.convertedType = some c ∧ GroupConverted c a)

/-- The common part of a field is that of the element (apart from the levels). -/
def CommonOf (e : Element) (c : Common) : Prop := c.name = e.name ∧ c.fieldId = e.fieldId ∧ RepetitionOf e.repetitionType c.repetition

/-! ## Trees -/

mutual
/-- The elements are the preorder of the tree: each field's own element, which says how many children follow. -/
inductive Flat : SField → List Element → Prop
  | primitive (e c t p l i) (h0 : e.numChildren.getD 0 = 0) (hc : CommonOf e c) (ht : e.type_ = some t) (hp : PhysicalOf t e.typeLength p)
      (hl : LeafType e l) : Flat (.primitive c p l i) [e]
  | group (e c n children l es) (hn : e.numChildren = some n) (h : n.toInt = children.length) (h0 : children ≠ []) (hc : CommonOf e c) (hl : GroupType e l)
      (hs : Flats children es) : Flat (.group c children l) (e :: es)
/-- The elements of some fields, one after the other. -/
inductive Flats : List SField → List Element → Prop
  | nil : Flats [] []
  | cons (f fs es es') (h : Flat f es) (hs : Flats fs es') : Flats (f :: fs) (es ++ es')
end

/-- `g` is found from `f` along this path of fields (both included). -/
inductive Reach : SField → List SField → SField → Prop
  | here (f) : Reach f [f] f
  | child (c children l f path g) (hm : f ∈ children) (h : Reach f path g) : Reach (.group c children l) (.group c children l :: path) g

/-- How many fields of the path are optional. -/
def optionals (path : List SField) : Nat := path.countP fun f => f.common.repetition == .Optional
/-- How many fields of the path are repeated. -/
def repeateds (path : List SField) : Nat := path.countP fun f => f.common.repetition == .Repeated

mutual
/-- The indexes of the leaves, in preorder. -/
def indexes : SField → List (BitVec 32)
  | .primitive _ _ _ i => [i]
  | .group _ children _ => indexesAll children
def indexesAll : List SField → List (BitVec 32)
  | [] => []
  | f :: fs => indexes f ++ indexesAll fs
end

mutual
/-- The greatest number of groups on a path. -/
def height : SField → Nat
  | .primitive .. => 0
  | .group _ children _ => heightAll children + 1
def heightAll : List SField → Nat
  | [] => 0
  | f :: fs => max (height f) (heightAll fs)
end

end CT.Spec
