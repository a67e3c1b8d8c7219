import Verif.Spec.Builds
/-!
# Specification: which error a read reports

By the types and definitions alone: `Leads` says where reading is next, with the bytes that are left there, when everything before is well-formed;
`WrongAt` says what is wrong at a place, and the error for it. A read reports the first error it comes to. Nothing here runs a reader.

All list lengths up to the limit are assumed to be granted by the allocator.
-/
namespace CT.Spec
open CT CT.Parquet

/-- The error at the end of the input. -/
def ended : ThriftError := .io .unexpectedEof

/-- No byte that ends a varint is left. -/
def Unended (s : Bytes) : Prop := ∀ b ∈ s, 128 ≤ b.toNat

/-- Type numbers of values. -/
def IsType (ft : Nat) : Prop := 1 ≤ ft ∧ ft ≤ 12

/-- Where reading is. -/
inductive Place where
  /-- a value to skip; `inside` a collection, booleans have a byte -/
  | skip (ft : Nat) (inside : Bool)
  | skipElems (ft n : Nat)
  | skipEntries (k v n : Nat)
  | skipFields (last : BitVec 16)
  | value (t : Ty) (old : Val)
  | field (t : Ty) (ft : Nat) (old : Val)
  | elems (t : Ty) (n : Nat)
  /-- `n` elements of an encoding set -/
  | encodings (n : Nat)
  /-- the fields of a struct, after those at the positions `met` -/
  | fields (name : String) (fs : List Field) (last : BitVec 16) (met : List Nat) (old : List Val)
  /-- the stop byte of a union -/
  | stop

/-- What is wrong with a field header. -/
inductive HeaderWrong : Bytes → ThriftError → Prop where
  | none : HeaderWrong [] ended
  | id (b : Byte) (s) (h1 : b.toNat / 16 = 0) (h2 : b.toNat ≠ 0) (h : Unended s) : HeaderWrong (b :: s) ended

/-- What is wrong with the header of a list. -/
inductive ListWrong : Bytes → ThriftError → Prop where
  | none : ListWrong [] ended
  | noLen (b : Byte) (s) (h1 : b.toNat / 16 = 15) (h : Unended s) : ListWrong (b :: s) ended
  | len (b : Byte) (p n s) (h1 : b.toNat / 16 = 15) (hp : VarintVal p n) (h : 10000000 < n) : ListWrong (b :: (p ++ s)) .invalidCollectionLen

/-- What is wrong with the header of a map. The length is compared with the limit after the byte with the types. -/
inductive MapWrong : Bytes → ThriftError → Prop where
  | noLen (s) (h : Unended s) : MapWrong s ended
  | noTypes (p n) (hp : VarintVal p n) (h : 0 < n) : MapWrong p ended
  | len (p n) (b : Byte) (s) (hp : VarintVal p n) (h : 10000000 < n) : MapWrong (p ++ b :: s) .invalidCollectionLen

/-- What is wrong with a binary. -/
inductive BinaryWrong : Bytes → ThriftError → Prop where
  | noLen (s) (h : Unended s) : BinaryWrong s ended
  | len (p n s) (hp : VarintVal p n) (h : 16777216 < n) : BinaryWrong (p ++ s) (.invalidBinaryLen n)
  | short (p n s) (hp : VarintVal p n) (h : n ≤ 16777216) (hs : s.length < n) : BinaryWrong (p ++ s) ended

/-- The bytes are an encoding of the number. -/
def IsI32 (x : BitVec 32) (p : Bytes) : Prop := ∃ n, VarintVal p n ∧ zigzag x.toInt = n % 2 ^ 32

/-- What is wrong at a place. -/
inductive WrongAt (sse2 : Bool) (env : List Def) : Place → Bytes → ThriftError → Prop where
  | skipType (ft ins s) (h : ¬ IsType ft) : WrongAt sse2 env (.skip ft ins) s .invalidType
  | skipBool (ft) (h : ft = 1 ∨ ft = 2) : WrongAt sse2 env (.skip ft true) [] ended
  | skipByte (ins) : WrongAt sse2 env (.skip 3 ins) [] ended
  /-- with SSE2, skipping an integer reports no error: it panics, reads past the end, or goes on -/
  | skipInt (ft ins s) (hft : ft = 4 ∨ ft = 5 ∨ ft = 6) (h2 : sse2 = false) (h : Unended s) : WrongAt sse2 env (.skip ft ins) s ended
  | skipDouble (ins) (s : Bytes) (h : s.length < 8) : WrongAt sse2 env (.skip 7 ins) s ended
  | skipBinary (ins s e) (h : BinaryWrong s e) : WrongAt sse2 env (.skip 8 ins) s e
  | skipListHeader (ft ins s e) (hft : ft = 9 ∨ ft = 10) (h : ListWrong s e) : WrongAt sse2 env (.skip ft ins) s e
  /-- also when there are no elements -/
  | skipListType (ft ins h et n s) (hft : ft = 9 ∨ ft = 10) (hh : ListHeader h et n) (het : ¬ IsType et) : WrongAt sse2 env (.skip ft ins) (h ++ s) .invalidType
  | skipMapHeader (ins s e) (h : MapWrong s e) : WrongAt sse2 env (.skip 11 ins) s e
  | skipHeader (last s e) (h : HeaderWrong s e) : WrongAt sse2 env (.skipFields last) s e
  | byte (t o) (ht : t = .bool ∨ t = .i8) : WrongAt sse2 env (.value t o) [] ended
  | int (t o s) (ht : t = .i16 ∨ t = .i32 ∨ t = .i64) (h : Unended s) : WrongAt sse2 env (.value t o) s ended
  | double (o) (s : Bytes) (h : s.length < 8) : WrongAt sse2 env (.value .double o) s ended
  | binary (t o s e) (ht : t = .binary ∨ t = .string) (h : BinaryWrong s e) : WrongAt sse2 env (.value t o) s e
  | utf8 (o p) (bs s : Bytes) (hp : VarintVal p bs.length) (hb : bs.length ≤ 16777216) (hu : ¬ IsUtf8 bs) :
      WrongAt sse2 env (.value .string o) (p ++ (bs ++ s)) .invalidString
  | listHeader (t o s e) (ht : t = .encodingSet ∨ ∃ t', t = .list t') (h : ListWrong s e) : WrongAt sse2 env (.value t o) s e
  | encodingType (o h et n s) (hh : ListHeader h et n) (het : et ≠ 5) : WrongAt sse2 env (.value .encodingSet o) (h ++ s) .invalidType
  | elemType (t o h et n s) (hh : ListHeader h et n) (het : ¬ ElemType env t et) : WrongAt sse2 env (.value (.list t) o) (h ++ s) .invalidType
  | noEncoding (n s) (h : Unended s) : WrongAt sse2 env (.encodings (n + 1)) s ended
  | encoding (n x p s) (hp : IsI32 x p) (hx : x.toInt < 0 ∨ 30 < x.toInt) : WrongAt sse2 env (.encodings (n + 1)) (p ++ s) .invalidNumber
  /-- the old value of an optional field is set -/
  | again (t v s) : WrongAt sse2 env (.value (.option t) (.some v)) s .duplicateField
  | shared (t v s) : WrongAt sse2 env (.value (.rc t) (.rc true v)) s .duplicateField
  | enum (k name o s) (hk : env[k]? = some (.enum name)) (h : Unended s) : WrongAt sse2 env (.value (.named k) (.enum o)) s ended
  | unionHeader (k name us j o s e) (hk : env[k]? = some (.union name us)) (h : HeaderWrong s e) : WrongAt sse2 env (.value (.named k) (.union j o)) s e
  | noVariant (k name us j o) (b : Byte) (s) (hk : env[k]? = some (.union name us)) (h : lenientStop b) :
      WrongAt sse2 env (.value (.named k) (.union j o)) (b :: s) .invalidType
  | otherVariant (k name us j o h ft id s) (hk : env[k]? = some (.union name us)) (hh : FieldHeader 0#16 h ft id) (hid : ∀ u ∈ us, u.id ≠ id) :
      WrongAt sse2 env (.value (.named k) (.union j o)) (h ++ s) (.missingField "$struct_name")
  | noStop : WrongAt sse2 env .stop [] ended
  | notStop (b : Byte) (s) (h : b.toNat ≠ 0) : WrongAt sse2 env .stop (b :: s) .missingStop
  | fieldAgain (t ft v s) : WrongAt sse2 env (.field (.option t) ft (.some v)) s .duplicateField
  | fieldType (t ft o s) (h1 : t ≠ .bool) (h2 : ∀ t', t ≠ .option t') (hft : ft ≠ (wireType env t).toNat) : WrongAt sse2 env (.field t ft o) s .invalidType
  | header (name fs last met old s e) (h : HeaderWrong s e) : WrongAt sse2 env (.fields name fs last met old) s e
  /-- of the required fields that are missing, the first by declaration -/
  | missing (name fs last met old) (b : Byte) (s) (i : Nat) (f : Field) (h : lenientStop b) (hf : fs[i]? = some f) (hr : f.required = true) (hm : i ∉ met)
      (hfst : ∀ (j : Nat) (g : Field), j < i → fs[j]? = some g → g.required = true → j ∈ met) :
      WrongAt sse2 env (.fields name fs last met old) (b :: s) (.missingField (name ++ "::" ++ f.name))

/-- `Leads sse2 env pl s pl' s'`: reading at the place `pl` with the bytes `s` left comes to the place `pl'` with the bytes `s'` left. -/
inductive Leads (sse2 : Bool) (env : List Def) : Place → Bytes → Place → Bytes → Prop where
  | skipList (ft ins h et n s) (hft : ft = 9 ∨ ft = 10) (hh : ListHeader h et n) (het : IsType et) : Leads sse2 env (.skip ft ins) (h ++ s) (.skipElems et n) s
  | skipMap (ins p n) (b : Byte) (s) (hp : VarintVal p n) (h0 : 0 < n) (hn : n ≤ 10000000) :
      Leads sse2 env (.skip 11 ins) (p ++ b :: s) (.skipEntries (b.toNat / 16) (b.toNat % 16) n) s
  | skipStruct (ins s) : Leads sse2 env (.skip 12 ins) s (.skipFields 0#16) s
  | skipElem (ft n s) : Leads sse2 env (.skipElems ft (n + 1)) s (.skip ft true) s
  | skipElemsRest (ft n p s) (hp : WireOf (skippedInt sse2) lenientStop (.value ft true) p) : Leads sse2 env (.skipElems ft (n + 1)) (p ++ s) (.skipElems ft n) s
  | skipKey (k v n s) : Leads sse2 env (.skipEntries k v (n + 1)) s (.skip k true) s
  | skipVal (k v n p s) (hp : WireOf (skippedInt sse2) lenientStop (.value k true) p) : Leads sse2 env (.skipEntries k v (n + 1)) (p ++ s) (.skip v true) s
  | skipEntriesRest (k v n p q s) (hp : WireOf (skippedInt sse2) lenientStop (.value k true) p) (hq : WireOf (skippedInt sse2) lenientStop (.value v true) q) :
      Leads sse2 env (.skipEntries k v (n + 1)) (p ++ (q ++ s)) (.skipEntries k v n) s
  | skipField (last h ft id s) (hh : FieldHeader last h ft id) : Leads sse2 env (.skipFields last) (h ++ s) (.skip ft false) s
  | skipFieldsRest (last h ft id p s) (hh : FieldHeader last h ft id) (hp : WireOf (skippedInt sse2) lenientStop (.value ft false) p) :
      Leads sse2 env (.skipFields last) (h ++ (p ++ s)) (.skipFields id) s
  | encodings (o h n s) (hh : ListHeader h 5 n) : Leads sse2 env (.value .encodingSet o) (h ++ s) (.encodings n) s
  | encoding (n x p s) (hp : IsI32 x p) (hx : 0 ≤ x.toInt ∧ x.toInt ≤ 30) : Leads sse2 env (.encodings (n + 1)) (p ++ s) (.encodings n) s
  | list (t o h et n s) (hh : ListHeader h et n) (he : ElemType env t et) : Leads sse2 env (.value (.list t) o) (h ++ s) (.elems t n) s
  | elem (t d n s) (hd : IsDefault env t d) : Leads sse2 env (.elems t (n + 1)) s (.value t d) s
  | elemsRest (t d v n p s) (hd : IsDefault env t d) (hp : DecOf (skippedInt sse2) env (.value t d v) p) : Leads sse2 env (.elems t (n + 1)) (p ++ s) (.elems t n) s
  | some (t d s) (hd : IsDefault env t d) : Leads sse2 env (.value (.option t) .none) s (.value t d) s
  | box (t o s) : Leads sse2 env (.value (.box t) (.box o)) s (.value t o) s
  | rc (t o s) : Leads sse2 env (.value (.rc t) (.rc false o)) s (.value t o) s
  | struct (k name fs old s) (hk : env[k]? = some (.struct name fs)) : Leads sse2 env (.value (.named k) (.struct old)) s (.fields name fs 0#16 [] old) s
  | variant (k name us) (i : Nat) (u : Variant) (j o d h ft s) (hk : env[k]? = some (.union name us)) (hu : us[i]? = some u)
      (hfst : ∀ (j : Nat) (w : Variant), j < i → us[j]? = some w → w.id ≠ u.id) (hh : FieldHeader 0#16 h ft u.id) (hd : IsDefault env u.ty d) :
      Leads sse2 env (.value (.named k) (.union j o)) (h ++ s) (.value u.ty d) s
  | variantStop (k name us) (i : Nat) (u : Variant) (j o d v h ft p s) (hk : env[k]? = some (.union name us)) (hu : us[i]? = some u)
      (hfst : ∀ (j : Nat) (w : Variant), j < i → us[j]? = some w → w.id ≠ u.id) (hh : FieldHeader 0#16 h ft u.id) (hd : IsDefault env u.ty d)
      (hp : DecOf (skippedInt sse2) env (.value u.ty d v) p) : Leads sse2 env (.value (.named k) (.union j o)) (h ++ (p ++ s)) .stop s
  | fieldSome (t ft d s) (hd : IsDefault env t d) : Leads sse2 env (.field (.option t) ft .none) s (.field t ft d) s
  | fieldValue (t o s) (h1 : t ≠ .bool) (h2 : ∀ t', t ≠ .option t') : Leads sse2 env (.field t (wireType env t).toNat o) s (.value t o) s
  | known (name fs last met old h ft) (i : Nat) (f : Field) (o s) (hh : FieldHeader last h ft f.id) (hf : fs[i]? = some f)
      (hfst : ∀ (j : Nat) (g : Field), j < i → fs[j]? = some g → g.id ≠ f.id) (ho : old[i]? = some o) :
      Leads sse2 env (.fields name fs last met old) (h ++ s) (.field f.rustTy ft o) s
  | knownRest (name fs last met old h ft) (i : Nat) (f : Field) (o v p s) (hh : FieldHeader last h ft f.id) (hf : fs[i]? = some f)
      (hfst : ∀ (j : Nat) (g : Field), j < i → fs[j]? = some g → g.id ≠ f.id) (ho : old[i]? = some o) (hp : DecOf (skippedInt sse2) env (.field f.rustTy ft o v) p) :
      Leads sse2 env (.fields name fs last met old) (h ++ (p ++ s)) (.fields name fs f.id (i :: met) (old.set i v)) s
  | unknown (name fs last met old h ft id s) (hh : FieldHeader last h ft id) (hid : ∀ f ∈ fs, f.id ≠ id) :
      Leads sse2 env (.fields name fs last met old) (h ++ s) (.skip ft false) s
  | unknownRest (name fs last met old h ft id p s) (hh : FieldHeader last h ft id) (hid : ∀ f ∈ fs, f.id ≠ id) (hp : WireOf (skippedInt sse2) lenientStop (.value ft false) p) :
      Leads sse2 env (.fields name fs last met old) (h ++ (p ++ s)) (.fields name fs id met old) s

/-- Reading at the place reports the error. -/
inductive Reports (sse2 : Bool) (env : List Def) : Place → Bytes → ThriftError → Prop where
  | here (pl s e) (h : WrongAt sse2 env pl s e) : Reports sse2 env pl s e
  | further (pl s pl' s' e) (h : Leads sse2 env pl s pl' s') (hr : Reports sse2 env pl' s' e) : Reports sse2 env pl s e

/-- What reading the metadata of a file reports. -/
inductive FileReports (sse2 checks : Bool) (file : Bytes) : ParquetError → Prop where
  | short (h : file.length < 8) : FileReports sse2 checks file (.io .invalidInput)
  | magic (h : 8 ≤ file.length) (hm : ¬ [0x50#8, 0x41#8, 0x52#8, 0x31#8] <:+ file) : FileReports sse2 checks file .invalidMagic
  /-- `PAR1`, but the file is shorter than the length before it -/
  | length (hm : [0x50#8, 0x41#8, 0x52#8, 0x31#8] <:+ file) (h : ¬ ∃ mb, HasFooter file mb) : FileReports sse2 checks file (.io .invalidInput)
  | thrift (mb d e) (h : HasFooter file mb) (hd : IsDefault Format.parquetEnv Format.tFileMetaData d)
      (hp : ¬ BreaksOff (panicsAt sse2 checks) Format.parquetEnv (.value Format.tFileMetaData d) mb) (hr : Reports sse2 Format.parquetEnv (.value Format.tFileMetaData d) mb e) :
      FileReports sse2 checks file (.thrift e)

end CT.Spec
