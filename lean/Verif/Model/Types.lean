import Verif.Model.Protocol
/-!
# Types, values, reading and writing: runtime/src/types.rs, runtime/src/macros.rs, parquet/src/encodings.rs

The Rust types implementing `CompactThriftProtocol` are the deep embedding `Ty`; definitions made with the `thrift!`
macros are `Def`s in an environment `env : List Def` and referred to by position (`Ty.named`).
-/
namespace CT

/-- Rust types implementing `CompactThriftProtocol`.
* `binary`: `Vec<u8>` (types.rs:127) and `Cow<[u8]>` (158), which read and write alike;
* `string`: `String` (142), `Cow<str>` (173), `Box<str>` (325), `Rc<str>` (340), `Arc<str>` (358), all reading with
  `read_string` and replacing the old value, writing with `write_string`;
* `list t`: `Vec<P>` (188), also what the macro produces for `set<t>` (macros.rs:252);
* `option`, `box` (234, 283); `rc`: `Rc<P>` (297) and `Arc<P>` (311), whose code is the same;
* `encodingSet`: `EncodingSet` (parquet/src/encodings.rs:8);
* `named k`: the `k`-th definition of the environment. -/
inductive Ty where
  | bool
  | i8
  | i16
  | i32
  | i64
  | double
  | binary
  | string
  | encodingSet
  | list (elem : Ty)
  | option (t : Ty)
  | box (t : Ty)
  | rc (t : Ty)
  | named (k : Nat)
deriving DecidableEq, Repr

/-- A struct field, macros.rs:54: `id: required|optional type name [= default]`.
The default value is accepted by the macro and ignored (it does not occur in the expansion), so it is not modelled. -/
structure Field where
  id : BitVec 16
  required : Bool
  name : String
  ty : Ty
deriving DecidableEq, Repr

/-- macros.rs:266-269 `__thrift_required_or_optional`: the Rust type of the field. -/
def Field.rustTy (f : Field) : Ty := if f.required then f.ty else .option f.ty

/-- A union variant, macros.rs:128. -/
structure Variant where
  id : BitVec 16
  name : String
  ty : Ty
deriving DecidableEq, Repr

/-- A definition: `thrift_struct!`, `thrift_union!`, `thrift_enum!`.
The named constants of an enum (macros.rs:217) play no role in reading and writing. -/
inductive Def where
  | struct (name : String) (fields : List Field)
  | union (name : String) (variants : List Variant)
  | enum (name : String)
deriving DecidableEq, Repr

/-- Values. `double` holds the bit pattern. `rc shared v`: `shared` tells whether other strong or weak references
exist (`Rc::get_mut` returns `None`). `undef` stands for "no value": the default of a type whose
`Default::default()` does not terminate. -/
inductive Val where
  | bool (b : Bool)
  | i8 (x : BitVec 8)
  | i16 (x : BitVec 16)
  | i32 (x : BitVec 32)
  | i64 (x : BitVec 64)
  | double (x : BitVec 64)
  | binary (bs : Bytes)
  | string (bs : Bytes)
  | encodingSet (mask : BitVec 32)
  | list (vs : List Val)
  | none
  | some (v : Val)
  | box (v : Val)
  | rc (shared : Bool) (v : Val)
  | enum (x : BitVec 32)
  | struct (vs : List Val)
  | union (i : Nat) (v : Val)
  | undef
deriving Repr

/-- `FIELD_TYPE` of a type: types.rs:25,53,68,83,98,113,128,144,189,235,284; macros.rs:74,145,221;
encodings.rs:41. -/
def fieldType (env : List Def) : Ty → Byte
  | .bool => 2#8
  | .i8 => 3#8
  | .i16 => 4#8
  | .i32 => 5#8
  | .i64 => 6#8
  | .double => 7#8
  | .binary => 8#8
  | .string => 8#8
  | .encodingSet => 9#8
  | .list _ => 9#8
  | .option t => fieldType env t
  | .box t => fieldType env t
  | .rc t => fieldType env t
  | .named k =>
    match env[k]? with
    | some (.enum _) => 5#8
    | _ => 12#8

/-! ## Defaults -/

/-- `Default::default()` of a type, given the defaults of the definitions. `Rc::default()` is unshared. -/
def dfltTy (ds : List Val) : Ty → Val
  | .bool => .bool false
  | .i8 => .i8 0#8
  | .i16 => .i16 0#16
  | .i32 => .i32 0#32
  | .i64 => .i64 0#64
  | .double => .double 0#64
  | .binary => .binary []
  | .string => .string []
  | .encodingSet => .encodingSet 0#32
  | .list _ => .list []
  | .option _ => .none
  | .box t => .box (dfltTy ds t)
  | .rc t => .rc false (dfltTy ds t)
  | .named k => (ds[k]?).getD .undef

/-- `Default` of a definition: `#[derive(Default)]` for structs (macros.rs:56) and enums (205);
the first variant for unions (macros.rs:137-141, 239-246). -/
def dfltDef (ds : List Val) : Def → Val
  | .struct _ fs => .struct (fs.map fun f => dfltTy ds f.rustTy)
  | .union _ [] => .undef
  | .union _ (u :: _) => .union 0 (dfltTy ds u.ty)
  | .enum _ => .enum 0#32

/-- Defaults of all definitions, computed in order: a definition may use the defaults of earlier ones.
Simplification: definitions are listed so that a type needed by another's default comes first (possible whenever the
Rust `Default` terminates); other references may point anywhere. -/
def defaultsFrom : List Val → List Def → List Val
  | ds, [] => ds
  | ds, d :: rest => defaultsFrom (ds ++ [dfltDef ds d]) rest

/-- `Default::default()` for every definition of `env`. -/
def defaults (env : List Def) : List Val := defaultsFrom [] env

/-- `P::default()` -/
def dflt (env : List Def) (t : Ty) : Val := dfltTy (defaults env) t

/-! ## UTF-8 validation (std) -/

/-- a continuation byte `10xxxxxx` -/
def isCont (b : Byte) : Bool := decide (0x80 ≤ b.toNat ∧ b.toNat ≤ 0xBF)

def inRange (lo hi : Nat) (b : Byte) : Bool := decide (lo ≤ b.toNat ∧ b.toNat ≤ hi)

/-- `std::str::from_utf8(..).is_ok()` (`core::str::validations::run_utf8_validation`), used at protocol.rs:74. -/
def utf8Valid : Bytes → Bool
  | [] => true
  | [a] => inRange 0x00 0x7F a
  | [a, b] =>
    (inRange 0x00 0x7F a && utf8Valid [b]) || (inRange 0xC2 0xDF a && isCont b)
  | [a, b, c] =>
    if inRange 0x00 0x7F a then utf8Valid [b, c]
    else if inRange 0xC2 0xDF a then isCont b && utf8Valid [c]
    else utf8Three a b c
  | a :: b :: c :: d :: rest =>
    if inRange 0x00 0x7F a then utf8Valid (b :: c :: d :: rest)
    else if inRange 0xC2 0xDF a then isCont b && utf8Valid (c :: d :: rest)
    else if inRange 0xE0 0xEF a then utf8Three a b c && utf8Valid (d :: rest)
    else
      ((inRange 0xF0 0xF0 a && inRange 0x90 0xBF b) ||
       (inRange 0xF1 0xF3 a && isCont b) ||
       (inRange 0xF4 0xF4 a && inRange 0x80 0x8F b)) && isCont c && isCont d && utf8Valid rest
where
  /-- a well-formed three-byte sequence -/
  utf8Three (a b c : Byte) : Bool :=
    ((inRange 0xE0 0xE0 a && inRange 0xA0 0xBF b) ||
     (inRange 0xE1 0xEC a && isCont b) ||
     (inRange 0xED 0xED a && inRange 0x80 0x9F b) ||
     (inRange 0xEE 0xEF a && isCont b)) && isCont c

/-- protocol.rs:72-82 `read_string` -/
def Input.readString {σ : Type} (I : Input σ) : Rd σ Bytes := do
  let binary ← I.readBinary
  if utf8Valid binary then pure binary else Rd.throw .invalidString

/-! ## Reading -/

section Reading
variable {σ : Type} (cfg : Cfg) (I : Input σ) (env : List Def)

/-- encodings.rs:50-57: `len` times `read_i32`, range check `value < 0 || value >= 31`, `mask |= 1 << value`. -/
def encodingSetLoop : Nat → BitVec 32 → Rd σ (BitVec 32)
  | 0, mask => pure mask
  | n + 1, mask => do
    let value ← I.readI32 cfg
    if BitVec.slt value 0#32 || BitVec.sle 31#32 value then
      Rd.throw .invalidNumber
    else
      encodingSetLoop n (mask ||| (1#32 <<< value.toNat))

/-- types.rs:202-210: `len` times push a default element and `fill_thrift` it. -/
def fillElems (fill1 : Rd σ Val) : Nat → Rd σ (List Val)
  | 0 => pure []
  | n + 1 => do
    let v ← fill1
    let vs ← fillElems fill1 n
    pure (v :: vs)

/-- `fill_thrift(&mut self, input)`: takes the old value, returns the new one. `fillNamed` handles definitions. -/
def fillTy (fillNamed : Nat → Val → Rd σ Val) : Ty → Val → Rd σ Val
  -- types.rs:28-32
  | .bool, _ => do let byte ← I.readByte; pure (.bool (byte == 1#8))
  -- types.rs:56-59
  | .i8, _ => do let byte ← I.readByte; pure (.i8 byte)
  -- types.rs:71-74
  | .i16, _ => do let x ← I.readI16 cfg; pure (.i16 x)
  -- types.rs:86-89
  | .i32, _ => do let x ← I.readI32 cfg; pure (.i32 x)
  -- types.rs:101-104
  | .i64, _ => do let x ← I.readI64 cfg; pure (.i64 x)
  -- types.rs:116-119
  | .double, _ => do let x ← I.readDouble; pure (.double x)
  -- types.rs:131-134, 162-165
  | .binary, _ => do let bs ← I.readBinary; pure (.binary bs)
  -- types.rs:147-150, 177-180, 329-332, 344-350, 362-368
  | .string, _ => do let bs ← I.readString; pure (.string bs)
  -- encodings.rs:44-61
  | .encodingSet, _ => do
    let (len, elementType) ← I.readCollectionLenAndType cfg
    if elementType ≠ fieldType env .i32 then
      Rd.throw .invalidType
    else
      let mask ← encodingSetLoop cfg I len 0#32
      pure (.encodingSet mask)
  -- types.rs:191-213
  | .list t, _ => do
    let (len, elementType) ← I.readCollectionLenAndType cfg
    if elementType ≠ fieldType env t ∧ ¬ (fieldType env t = fieldType env .bool ∧ elementType = 1#8) then
      Rd.throw .invalidType
    else if ¬ cfg.alloc len then
      Rd.throw .reserveError
    else
      let vs ← fillElems (fillTy fillNamed t (dflt env t)) len
      pure (.list vs)
  -- types.rs:238-248
  | .option _, .some _ => Rd.throw .duplicateField
  | .option t, .none => do let v ← fillTy fillNamed t (dflt env t); pure (.some v)
  -- types.rs:287-289
  | .box t, .box v => do let v' ← fillTy fillNamed t v; pure (.box v')
  -- types.rs:301-303, 315-317
  | .rc t, .rc shared v =>
    if shared then Rd.throw .duplicateField
    else do let v' ← fillTy fillNamed t v; pure (.rc false v')
  | .named k, v => fillNamed k v
  | _, _ => Rd.fail .stuck

/-- `fill_thrift_field(&mut self, input, field_type)` -/
def fillField (fillNamed : Nat → Val → Rd σ Val) : Ty → Val → Byte → Rd σ Val
  -- types.rs:35-38
  | .bool, _, ft => pure (.bool (ft == 1#8))
  -- types.rs:251-261
  | .option _, .some _, _ => Rd.throw .duplicateField
  | .option t, .none, ft => do let v ← fillField fillNamed t (dflt env t) ft; pure (.some v)
  | .option _, _, _ => Rd.fail .stuck
  -- protocol.rs:448-453, the trait default
  | t, v, ft =>
    if ft ≠ fieldType env t then Rd.throw .invalidType else fillTy cfg I env fillNamed t v

/-- macros.rs:97 and 291-296: the first required field (in declaration order) whose flag is unset. -/
def firstMissing : List Field → List Bool → Option Field
  | f :: fs, flag :: flags => if f.required && !flag then some f else firstMissing fs flags
  | _, _ => none

/-- macros.rs:86-94 `match last_field_id`: position of the first field with this id. -/
def findField (fs : List Field) (id : BitVec 16) : Option Nat := fs.findIdx? (fun f => f.id == id)

/-- macros.rs:80-99: the field loop and the final check of the required fields.
`flags` are the flags of `__thrift_required_flag` (only those of required fields are used). -/
def structLoop (fillNamed : Nat → Val → Rd σ Val) (name : String) (fs : List Field) :
    Nat → BitVec 16 → List Bool → List Val → Rd σ Val
  | 0, _, _, _ => Rd.fail .diverge
  | fuel + 1, last, flags, vs => do
    let (ft, last') ← I.readFieldHeader cfg last
    if ft = 0#8 then
      match firstMissing fs flags with
      | some f => Rd.throw (.missingField (name ++ "::" ++ f.name))
      | none => pure (.struct vs)
    else
      match findField fs last' with
      | some i =>
        match fs[i]?, vs[i]? with
        | some f, some v => do
          let v' ← fillField cfg I env fillNamed f.rustTy v ft
          structLoop fillNamed name fs fuel last' (if f.required then flags.set i true else flags) (vs.set i v')
        | _, _ => Rd.fail .stuck
      | none => do
        I.skipField cfg ft
        structLoop fillNamed name fs fuel last' flags vs

/-- macros.rs:148-175, reading a union. The `MissingField` name is literally `$struct_name`: the macro has no such
variable (macros.rs:166). The wire type is not compared with the variant's type, and `fill_thrift` is called even
for variants of type `bool`. -/
def fillUnion (fillNamed : Nat → Val → Rd σ Val) (us : List Variant) : Rd σ Val := do
  let (ft, id) ← I.readFieldHeader cfg 0#16
  if ft = 0#8 then
    Rd.throw .invalidType
  else
    match us.findIdx? (fun u => u.id == id) with
    | some i =>
      match us[i]? with
      | some u => do
        let v ← fillTy cfg I env fillNamed u.ty (dflt env u.ty)
        let stop ← I.readByte
        if stop ≠ 0#8 then Rd.throw .missingStop else pure (.union i v)
      | none => Rd.fail .stuck
    | none => Rd.throw (.missingField "$struct_name")

/-- `fill_thrift` of a definition. The fuel bounds the nesting of definitions. -/
def fillNamed : Nat → Nat → Val → Rd σ Val
  | 0, _, _ => Rd.fail .diverge
  | fuel + 1, k, v =>
    match env[k]?, v with
    -- macros.rs:77-100
    | some (.struct name fs), .struct vs => Rd.of fun s =>
      structLoop cfg I env (fillNamed fuel) name fs (I.size s + 1) 0#16 (fs.map fun _ => false) vs s
    -- macros.rs:148-175
    | some (.union _ us), .union _ _ => fillUnion cfg I env (fillNamed fuel) us
    -- macros.rs:224-227
    | some (.enum _), .enum _ => do let x ← I.readI32 cfg; pure (.enum x)
    | _, _ => Rd.fail .stuck

/-- `fill_thrift` with the fuel given by the input. -/
def fillThrift (t : Ty) (v : Val) : Rd σ Val := fun s =>
  fillTy cfg I env (fillNamed cfg I env (I.size s + 1)) t v s

/-- `fill_thrift_field` (protocol.rs:448-453, types.rs:35-38, 251-261) with the fuel given by the input. -/
def fillThriftField (t : Ty) (v : Val) (ft : Byte) : Rd σ Val := fun s =>
  fillField cfg I env (fillNamed cfg I env (I.size s + 1)) t v ft s

/-- protocol.rs:441-445 `read_thrift` -/
def readThrift (t : Ty) : Rd σ Val := fillThrift cfg I env t (dflt env t)

end Reading

/-! ## Writing -/

/-- `u32::count_ones`-style enumeration: encodings.rs:20-31 `EncodingSet::iter`, the bit positions of `mask` in the
order the iterator yields them (`trailing_zeros`, then `mask &= mask - 1`). -/
def encodingSetIterLoop : Nat → BitVec 32 → List (BitVec 32)
  | 0, _ => []
  | fuel + 1, mask =>
    if mask = 0#32 then []
    else BitVec.ofNat 32 (trailingZeros mask) :: encodingSetIterLoop fuel (mask &&& (mask - 1#32))

/-- encodings.rs:20-31 `iter`; at most 32 elements are yielded since each step clears a bit. -/
def encodingSetIter (mask : BitVec 32) : List (BitVec 32) := encodingSetIterLoop 32 mask

/-- `u32::count_ones` -/
def countOnes (mask : BitVec 32) : Nat := ((List.range 32).filter fun i => mask.getLsbD i).length

/-- encodings.rs:12-14 `len` -/
def encodingSetLen (mask : BitVec 32) : Nat := countOnes mask

/-- encodings.rs:16-18 `is_empty` -/
def encodingSetIsEmpty (mask : BitVec 32) : Bool := mask == 0#32

section Writing
variable {τ : Type} (S : Sink τ) (env : List Def)

/-- types.rs:221-227, encodings.rs:66-72: header of a list. -/
def Sink.writeListHeader (elemType : Byte) (len : Nat) : Wr τ Unit :=
  if len < 15 then
    S.writeByte (elemType ||| (BitVec.ofNat 8 len <<< 4))
  else do
    S.writeByte (elemType ||| 0xF0#8)
    S.writeLen len

/-- encodings.rs:73-75 -/
def writeI32s : List (BitVec 32) → Wr τ Unit
  | [] => pure ()
  | x :: xs => do S.writeI32 x; writeI32s xs

/-- `1 + (!b) as u8`, types.rs:42 and 47 -/
def boolTag (b : Bool) : Byte := if b then 1#8 else 2#8

mutual

/-- `write_thrift(&self, output)` -/
def writeTy : Ty → Val → Wr τ Unit
  -- types.rs:41-44
  | .bool, .bool b => S.writeByte (boolTag b)
  -- types.rs:62-64
  | .i8, .i8 x => S.writeByte x
  -- types.rs:77-79
  | .i16, .i16 x => S.writeI16 x
  -- types.rs:92-94
  | .i32, .i32 x => S.writeI32 x
  -- types.rs:107-109
  | .i64, .i64 x => S.writeI64 x
  -- types.rs:122-124
  | .double, .double x => S.writeDouble x
  -- types.rs:137-139, 168-170
  | .binary, .binary bs => S.writeBinary bs
  -- types.rs:153-155 and protocol.rs:393-395
  | .string, .string bs => S.writeBinary bs
  -- encodings.rs:64-77
  | .encodingSet, .encodingSet mask => do
    S.writeListHeader (fieldType env .i32) (encodingSetLen mask)
    writeI32s S (encodingSetIter mask)
  -- types.rs:215-231
  | .list t, .list vs => do
    if MAX_COLLECTION_LEN < vs.length then
      Wr.throw .invalidCollectionLen
    else
      S.writeListHeader (fieldType env t) vs.length
      writeElems t vs
  -- types.rs:265-271
  | .option t, .some v => writeTy t v
  | .option _, .none => Wr.throw .missingValue
  -- types.rs:292-294
  | .box t, .box v => writeTy t v
  -- types.rs:306-308, 320-322
  | .rc t, .rc _ v => writeTy t v
  | .named k, .struct vs =>
    match env[k]? with
    -- macros.rs:102-109
    | some (.struct _ fs) => do
      let _ ← writeFields fs vs 0#16
      S.writeByte 0#8
    | _ => Wr.fail .stuck
  | .named k, .union i v =>
    match env[k]? with
    -- macros.rs:177-184
    | some (.union _ us) =>
      match us[i]? with
      | some u => do
        let _ ← writeField u.ty v u.id 0#16
        S.writeByte 0#8
      | none => Wr.fail .stuck
    | _ => Wr.fail .stuck
  | .named k, .enum x =>
    match env[k]? with
    -- macros.rs:230-232
    | some (.enum _) => S.writeI32 x
    | _ => Wr.fail .stuck
  | _, _ => Wr.fail .stuck
termination_by _ v => (sizeOf v, 0)

/-- `write_thrift_field(&self, output, field_id, &mut last_field_id)`; returns the new `last_field_id`. -/
def writeField : Ty → Val → BitVec 16 → BitVec 16 → Wr τ (BitVec 16)
  -- types.rs:46-49
  | .bool, .bool b, id, last => S.writeFieldHeader (boolTag b) id last
  -- types.rs:274-280
  | .option t, .some v, id, last => writeField t v id last
  | .option _, .none, _, last => pure last
  -- protocol.rs:456-460, the trait default
  | t, v, id, last => do
    let last' ← S.writeFieldHeader (fieldType env t) id last
    writeTy t v
    pure last'
termination_by _ v => (sizeOf v, 1)

/-- types.rs:228-230 -/
def writeElems : Ty → List Val → Wr τ Unit
  | _, [] => pure ()
  | t, v :: vs => do writeTy t v; writeElems t vs
termination_by _ vs => (sizeOf vs, 0)

/-- macros.rs:106: the fields in declaration order. -/
def writeFields : List Field → List Val → BitVec 16 → Wr τ (BitVec 16)
  | f :: fs, v :: vs, last => do
    let last' ← writeField f.rustTy v f.id last
    writeFields fs vs last'
  | [], [], last => pure last
  | _, _, _ => Wr.fail .stuck
termination_by _ vs => (sizeOf vs, 0)

end

end Writing

/-- `value.write_thrift(&mut vec)` on an empty `Vec<u8>`: the encoding, or the failure. -/
def encode (env : List Def) (t : Ty) (v : Val) : Except Fail Bytes :=
  match writeTy vecSink env t v [] with
  | (.ok (), out) => .ok out
  | (.error e, _) => .error e

/-! ## Typing -/

mutual
/-- Forget reference counts: Rust's `PartialEq` on `Rc`/`Arc` compares contents. -/
def Val.unshare : Val → Val
  | .list vs => .list (unshareList vs)
  | .some v => .some v.unshare
  | .box v => .box v.unshare
  | .rc _ v => .rc false v.unshare
  | .struct vs => .struct (unshareList vs)
  | .union i v => .union i v.unshare
  | v => v
/-- `unshare` on lists -/
def Val.unshareList : List Val → List Val
  | [] => []
  | v :: vs => v.unshare :: unshareList vs
end

/-- Typing of values: what Rust's type system (and the invariants of `String` and of the private field of
`EncodingSet`) guarantee about a value of a type. -/
inductive HasTy (env : List Def) : Val → Ty → Prop where
  | bool (b) : HasTy env (.bool b) .bool
  | i8 (x) : HasTy env (.i8 x) .i8
  | i16 (x) : HasTy env (.i16 x) .i16
  | i32 (x) : HasTy env (.i32 x) .i32
  | i64 (x) : HasTy env (.i64 x) .i64
  | double (x) : HasTy env (.double x) .double
  | binary (bs) : HasTy env (.binary bs) .binary
  | string (bs) (h : utf8Valid bs = true) : HasTy env (.string bs) .string
  | encodingSet (mask) (h : mask.toNat < 2 ^ 31) : HasTy env (.encodingSet mask) .encodingSet
  | list (t vs) (h : ∀ v ∈ vs, HasTy env v t) : HasTy env (.list vs) (.list t)
  | none (t) : HasTy env .none (.option t)
  | some (t v) (h : HasTy env v t) : HasTy env (.some v) (.option t)
  | box (t v) (h : HasTy env v t) : HasTy env (.box v) (.box t)
  | rc (t shared v) (h : HasTy env v t) : HasTy env (.rc shared v) (.rc t)
  | enum (k name x) (hk : env[k]? = some (.enum name)) : HasTy env (.enum x) (.named k)
  | struct (k name fs vs) (hk : env[k]? = some (.struct name fs)) (hlen : vs.length = fs.length)
      (h : ∀ (i : Nat) (f : Field) (v : Val), fs[i]? = some f → vs[i]? = some v → HasTy env v f.rustTy) :
      HasTy env (.struct vs) (.named k)
  | union (k name us i u v) (hk : env[k]? = some (.union name us)) (hu : us[i]? = some u) (h : HasTy env v u.ty) :
      HasTy env (.union i v) (.named k)

end CT
