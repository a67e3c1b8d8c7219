import Verif.Spec.ErrorText
import Verif.Spec.Encoding
import Verif.Spec.Utf8
/-!
# Specification: the texts of values, errors and schemas

What `{:?}` and `{:#?}` show is described in two steps: a tree of names and words, and how such a tree is laid out, on one line or on several.
-/
namespace CT.Spec
open CT CT.Schema CT.Parquet

/-- The characters of a text in ASCII, as bytes -/
def textBytes (cs : List Char) : Bytes := cs.map fun c => BitVec.ofNat 8 c.toNat

/-- A number in decimal notation -/
def number (i : Int) : Bytes := (if i < 0 then [45#8] else []) ++ textBytes (Nat.toDigits 10 i.natAbs)

/-! ## Layout -/

/-- A word, a name with something in parentheses, a name with named parts in braces, or a list in brackets. -/
inductive Doc where
  | word (text : Bytes)
  | call (name : Bytes) (arg : Doc)
  | record (name : Bytes) (names : List Bytes) (parts : List Doc)
  | seq (items : List Doc)

mutual
/-- On one line -/
def Doc.flat : Doc → Bytes
  | .word w => w
  | .call n x => n ++ ascii! "(" ++ x.flat ++ ascii! ")"
  | .record n names xs =>
    if names = [] then n else n ++ ascii! " { " ++ List.intercalate (ascii! ", ") (List.zipWith (fun f x => f ++ ascii! ": " ++ x) names (flatAll xs)) ++ ascii! " }"
  | .seq xs => ascii! "[" ++ List.intercalate (ascii! ", ") (flatAll xs) ++ ascii! "]"
/-- `flat` on lists -/
def flatAll : List Doc → List Bytes
  | [] => []
  | x :: xs => x.flat :: flatAll xs
end

/-- The last of the lines gets a comma. -/
def withComma : List (Nat × Bytes) → List (Nat × Bytes)
  | [] => []
  | [(d, l)] => [(d, l ++ ascii! ",")]
  | l :: ls => l :: withComma ls

/-- The first of the lines gets a name. -/
def withName (name : Bytes) : List (Nat × Bytes) → List (Nat × Bytes)
  | [] => []
  | (d, l) :: ls => (d, name ++ ascii! ": " ++ l) :: ls

mutual
/-- On several lines, each with its depth: every part has lines of its own and ends in a comma. -/
def Doc.lines (d : Nat) : Doc → List (Nat × Bytes)
  | .word w => [(d, w)]
  | .call n x => (d, n ++ ascii! "(") :: (withComma (x.lines (d + 1)) ++ [(d, ascii! ")")])
  | .record n names xs => if names = [] then [(d, n)] else (d, n ++ ascii! " {") :: (partLines (d + 1) names xs ++ [(d, ascii! "}")])
  | .seq xs => if xs.isEmpty then [(d, ascii! "[]")] else (d, ascii! "[") :: (itemLines (d + 1) xs ++ [(d, ascii! "]")])
/-- The lines of the items of a list -/
def itemLines (d : Nat) : List Doc → List (Nat × Bytes)
  | [] => []
  | x :: xs => withComma (x.lines d) ++ itemLines d xs
/-- The lines of named parts -/
def partLines (d : Nat) : List Bytes → List Doc → List (Nat × Bytes)
  | n :: ns, x :: xs => withName n (withComma (x.lines d)) ++ partLines d ns xs
  | _, _ => []
end

/-- Lines, each behind `width` spaces for every step of its depth -/
def layout (width : Nat) (ls : List (Nat × Bytes)) : List Bytes := ls.map fun l => List.replicate (width * l.1) 32#8 ++ l.2

/-- The text of a tree: on one line, or on several -/
def Doc.text (x : Doc) : Bool → Bytes
  | false => x.flat
  | true => List.intercalate [10#8] (layout 4 (x.lines 0))

/-! ## Values -/

/-- A character in a string literal -/
def charText (s : DebugStd) (n : Nat) : Bytes :=
  match List.lookup n [(0, ascii! "\\0"), (9, ascii! "\\t"), (10, ascii! "\\n"), (13, ascii! "\\r"), (34, ascii! "\\\""), (92, ascii! "\\\\")] with
  | some x => x
  | none => if s.plain n then utf8 n else ascii! "\\u{" ++ textBytes (Nat.toDigits 16 n) ++ ascii! "}"

/-- A string literal -/
def literal (s : DebugStd) (ns : List Nat) : Bytes := ascii! "\"" ++ ns.flatMap (charText s) ++ ascii! "\""

/-- A name as it is shown: without the `r#` of a raw identifier -/
def shownName (name : String) : Bytes :=
  (if ['r', '#'].isPrefixOf name.toList then name.toList.drop 2 else name.toList).flatMap fun c => utf8 c.toNat

/-- What is shown of a value of a type -/
inductive ValDoc (s : DebugStd) (env : List Def) : Ty → Val → Doc → Prop where
  | bool (b) : ValDoc s env .bool (.bool b) (.word (if b then ascii! "true" else ascii! "false"))
  | i8 (x) : ValDoc s env .i8 (.i8 x) (.word (number x.toInt))
  | i16 (x) : ValDoc s env .i16 (.i16 x) (.word (number x.toInt))
  | i32 (x) : ValDoc s env .i32 (.i32 x) (.word (number x.toInt))
  | i64 (x) : ValDoc s env .i64 (.i64 x) (.word (number x.toInt))
  | double (x) : ValDoc s env .double (.double x) (.word (s.f64 x))
  | binary (bs) : ValDoc s env .binary (.binary bs) (.seq (bs.map fun b => .word (number b.toNat)))
  | string (ns) (h : ∀ n ∈ ns, IsScalar n) : ValDoc s env .string (.string (ns.flatMap utf8)) (.word (literal s ns))
  | encodingSet (mask) : ValDoc s env .encodingSet (.encodingSet mask) (.seq ((members mask).map fun (i : Nat) => .call (ascii! "Encoding") (.word (number i))))
  | list (t vs xs) (hl : xs.length = vs.length) (h : ∀ (i : Nat) (v : Val) (x : Doc), vs[i]? = some v → xs[i]? = some x → ValDoc s env t v x) :
      ValDoc s env (.list t) (.list vs) (.seq xs)
  | none (t) : ValDoc s env (.option t) .none (.word (ascii! "None"))
  | some (t v x) (h : ValDoc s env t v x) : ValDoc s env (.option t) (.some v) (.call (ascii! "Some") x)
  | box (t v x) (h : ValDoc s env t v x) : ValDoc s env (.box t) (.box v) x
  | rc (t b v x) (h : ValDoc s env t v x) : ValDoc s env (.rc t) (.rc b v) x
  | enum (k name y) (hk : env[k]? = some (.enum name)) : ValDoc s env (.named k) (.enum y) (.call (shownName name) (.word (number y.toInt)))
  | struct (k name fs vs xs) (hk : env[k]? = some (.struct name fs)) (hv : vs.length = fs.length) (hl : xs.length = fs.length)
      (h : ∀ (i : Nat) (f : Field) (v : Val) (x : Doc), fs[i]? = some f → vs[i]? = some v → xs[i]? = some x → ValDoc s env f.rustTy v x) :
      ValDoc s env (.named k) (.struct vs) (.record (shownName name) (fs.map fun f => shownName f.name) xs)
  | union (k name us i u v x) (hk : env[k]? = some (.union name us)) (hu : us[i]? = some u) (h : ValDoc s env u.ty v x) :
      ValDoc s env (.named k) (.union i v) (.call (shownName u.name) x)

/-! ## Errors -/

/-- What is shown of an error kind -/
def kindText (s : ErrorStd) (k : ErrorKind) : Bytes :=
  match k with
  | .unexpectedEof => ascii! "UnexpectedEof"
  | .interrupted => ascii! "Interrupted"
  | .invalidInput => ascii! "InvalidInput"
  | .writeZero => ascii! "WriteZero"
  | .other n => s.kind n

/-- What is shown of an error -/
inductive ErrorDoc (s : ErrorStd) : ThriftError → Doc → Prop where
  | invalidNumber : ErrorDoc s .invalidNumber (.word (ascii! "InvalidNumber"))
  | invalidString : ErrorDoc s .invalidString (.word (ascii! "InvalidString"))
  | invalidBinaryLen (n) : ErrorDoc s (.invalidBinaryLen n) (.call (ascii! "InvalidBinaryLen") (.word (number n)))
  | invalidCollectionLen : ErrorDoc s .invalidCollectionLen (.word (ascii! "InvalidCollectionLen"))
  | missingField (name : String) (h : PlainString name) :
      ErrorDoc s (.missingField name) (.call (ascii! "MissingField") (.word (ascii! "\"" ++ textBytes name.toList ++ ascii! "\"")))
  | missingValue : ErrorDoc s .missingValue (.word (ascii! "MissingValue"))
  | missingStop : ErrorDoc s .missingStop (.word (ascii! "MissingStop"))
  | duplicateField : ErrorDoc s .duplicateField (.word (ascii! "DuplicateField"))
  | invalidType : ErrorDoc s .invalidType (.word (ascii! "InvalidType"))
  | reserveError : ErrorDoc s .reserveError (.word (ascii! "ReserveError"))
  | io (k) : ErrorDoc s (.io k) (.call (ascii! "IO") (.word (kindText s k)))

/-- What is shown of an error of the Parquet functions, other than an `io::Error` -/
inductive ParquetErrorDoc (s : ErrorStd) : ParquetError → Doc → Prop where
  | thrift (e x) (h : ErrorDoc s e x) : ParquetErrorDoc s (.thrift e) (.call (ascii! "Thrift") x)
  | invalidMagic : ParquetErrorDoc s .invalidMagic (.word (ascii! "InvalidMagic"))
  | invalidOffset : ParquetErrorDoc s .invalidOffset (.word (ascii! "InvalidOffset"))
  | schema (msg : String) : ParquetErrorDoc s (.schema msg) (.call (ascii! "Schema") (.word (literal s.base (msg.toList.map Char.toNat))))
  | unknownType (y) : ParquetErrorDoc s (.unknownType y) (.call (ascii! "UnknownType") (.word (number y.toInt)))

/-! ## Schemas -/

/-- What is shown of the type of a column -/
inductive PhysicalDoc : PhysicalType → Doc → Prop where
  | boolean : PhysicalDoc .BOOLEAN (.word (ascii! "BOOLEAN"))
  | int32 : PhysicalDoc .INT32 (.word (ascii! "INT32"))
  | int64 : PhysicalDoc .INT64 (.word (ascii! "INT64"))
  | int96 : PhysicalDoc .INT96 (.word (ascii! "INT96"))
  | float : PhysicalDoc .FLOAT (.word (ascii! "FLOAT"))
  | double : PhysicalDoc .DOUBLE (.word (ascii! "DOUBLE"))
  | byteArray : PhysicalDoc .BYTE_ARRAY (.word (ascii! "BYTE_ARRAY"))
  | fixed (len) : PhysicalDoc (.FIXED_LEN_BYTE_ARRAY len) (.call (ascii! "FIXED_LEN_BYTE_ARRAY") (.word (number len.toNat)))

/-- What is shown of a unit of time -/
inductive UnitText : TimeUnit → Bytes → Prop where
  | millis : UnitText .MILLIS (ascii! "Millis")
  | micros : UnitText .MICROS (ascii! "Micros")
  | nanos : UnitText .NANOS (ascii! "Nanos")

/-- What is shown of the options of times -/
inductive TimeDoc : TimeOptions → Doc → Prop where
  | mk (utc unit u) (h : UnitText unit u) : TimeDoc ⟨utc, unit⟩ (.record (ascii! "TimeOptions") [ascii! "is_adjusted_to_utc", ascii! "time_unit"]
      [.word (if utc then ascii! "true" else ascii! "false"), .word u])

/-- What is shown of the logical type of a column -/
inductive LeafDoc : PrimitiveLogicalType → Doc → Prop where
  | string : LeafDoc .String (.word (ascii! "String"))
  | enum : LeafDoc .Enum (.word (ascii! "Enum"))
  | decimal (precision scale) : LeafDoc (.Decimal ⟨precision, scale⟩) (.call (ascii! "Decimal")
      (.record (ascii! "DecimalOptions") [ascii! "precision", ascii! "scale"] [.word (number precision.toNat), .word (number scale.toInt)]))
  | date : LeafDoc .Date (.word (ascii! "Date"))
  | time (o x) (h : TimeDoc o x) : LeafDoc (.Time o) (.call (ascii! "Time") x)
  | timestamp (o x) (h : TimeDoc o x) : LeafDoc (.Timestamp o) (.call (ascii! "Timestamp") x)
  | interval : LeafDoc .Interval (.word (ascii! "Interval"))
  | signed (w) : LeafDoc (.Integer ⟨w, true⟩) (.call (ascii! "Integer") (.word (ascii! "i" ++ number w.toNat)))
  | unsigned (w) : LeafDoc (.Integer ⟨w, false⟩) (.call (ascii! "Integer") (.word (ascii! "u" ++ number w.toNat)))
  | unknown : LeafDoc .Unknown (.word (ascii! "Unknown"))
  | json : LeafDoc .Json (.word (ascii! "Json"))
  | bson : LeafDoc .Bson (.word (ascii! "Bson"))
  | uuid : LeafDoc .UUID (.word (ascii! "UUID"))
  | float16 : LeafDoc .Float16 (.word (ascii! "Float16"))
  | geometry : LeafDoc .Geometry (.word (ascii! "Geometry"))
  | geography : LeafDoc .Geography (.word (ascii! "Geography"))

/-- What is shown of the logical type of a group -/
inductive GroupDoc : GroupLogicalType → Doc → Prop where
  | list : GroupDoc .List (.word (ascii! "List"))
  | map : GroupDoc .Map (.word (ascii! "Map"))
  | mapKeyValue : GroupDoc .MapKeyValue (.word (ascii! "MapKeyValue"))
  | variant : GroupDoc (.Variant none) (.record (ascii! "Variant") [ascii! "specification_version"] [.word (ascii! "None")])
  | versioned (v) : GroupDoc (.Variant (some v)) (.record (ascii! "Variant") [ascii! "specification_version"] [.call (ascii! "Some") (.word (number v.toInt))])

/-- A logical type in parentheses, if there is one -/
inductive LogicalText {α : Type} (doc : α → Doc → Prop) : Option α → Bytes → Prop where
  | none : LogicalText doc none []
  | some (l x) (h : doc l x) : LogicalText doc (some l) (ascii! " (" ++ x.flat ++ ascii! ")")

/-- How often a field occurs -/
inductive RepetitionText : Repetition → Bytes → Prop where
  | required : RepetitionText .Required (ascii! "REQUIRED")
  | optional : RepetitionText .Optional (ascii! "OPTIONAL")
  | repeated : RepetitionText .Repeated (ascii! "REPEATED")

/-- The lines of fields next to each other, each with its depth: one line for a column; for a group its children between two lines. -/
inductive SchemaLines : Nat → List SField → List (Nat × Bytes) → Prop where
  | nil (d) : SchemaLines d [] []
  | column (d c p l i fs r x y ls) (hr : RepetitionText c.repetition r) (hp : PhysicalDoc p x) (hl : LogicalText LeafDoc l y) (h : SchemaLines d fs ls) :
      SchemaLines d (.primitive c p l i :: fs) ((d, r ++ ascii! " " ++ x.flat ++ ascii! " " ++ c.name ++ y ++ ascii! ";") :: ls)
  | group (d c gs l fs r y inner ls) (hr : RepetitionText c.repetition r) (hl : LogicalText GroupDoc l y) (hg : SchemaLines (d + 1) gs inner)
      (h : SchemaLines d fs ls) :
      SchemaLines d (.group c gs l :: fs) ((d, r ++ ascii! " group " ++ c.name ++ y ++ ascii! " {") :: (inner ++ (d, ascii! "}") :: ls))

/-- The first lines that the program `schema` prints -/
inductive HeadLines (version : BitVec 32) (rows : BitVec 64) : Option Bytes → List (Nat × Bytes) → Prop where
  | unknown : HeadLines version rows none [(0, ascii! "version: " ++ number version.toInt), (0, ascii! "num of rows: " ++ number rows.toInt)]
  | created (x) : HeadLines version rows (some x)
      [(0, ascii! "version: " ++ number version.toInt), (0, ascii! "num of rows: " ++ number rows.toInt), (0, ascii! "created by: " ++ x)]

/-- Lines as they are printed, each with its line feed -/
def printed (width : Nat) (ls : List (Nat × Bytes)) : Bytes := (layout width ls).flatMap (· ++ [10#8])

end CT.Spec
