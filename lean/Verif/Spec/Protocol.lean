import Verif.Spec.Decoding
import Verif.Spec.Evolution
/-!
# Specification: the compact protocol itself, without a schema

Values of the Thrift compact protocol as trees, their encoding as a function written from the protocol specification (not from this library: field headers hold the id, all
twelve types exist, including sets and maps), and which tree represents a value of a schema. Fields may come in any order and undeclared fields are allowed.
-/
namespace CT.Spec
open CT

/-- A value of the compact protocol. Collections carry their element types; `struct ids xs` has the field `ids[j]` with the value `xs[j]`, in the order of writing; `map`
has the keys `ks` and the values `vs`. -/
inductive PVal where
  | bool (b : Bool)
  | byte (x : BitVec 8)
  | i16 (x : BitVec 16)
  | i32 (x : BitVec 32)
  | i64 (x : BitVec 64)
  | double (x : BitVec 64)
  | binary (bs : Bytes)
  | list (et : Byte) (xs : List PVal)
  | set (et : Byte) (xs : List PVal)
  | map (kt vt : Byte) (ks vs : List PVal)
  | struct (ids : List (BitVec 16)) (xs : List PVal)

/-- Type numbers of the protocol. -/
def PVal.type : PVal → Byte
  | .bool _ => 2#8
  | .byte _ => 3#8
  | .i16 _ => 4#8
  | .i32 _ => 5#8
  | .i64 _ => 6#8
  | .double _ => 7#8
  | .binary _ => 8#8
  | .list _ _ => 9#8
  | .set _ _ => 10#8
  | .map _ _ _ _ => 11#8
  | .struct _ _ => 12#8

/-- The type number in a field header, which for booleans is the value. -/
def PVal.fieldType : PVal → Byte
  | .bool b => boolByte b
  | x => x.type

/-- Element type numbers for an element: booleans may be announced as 1 or 2. -/
def fits (et : Byte) (x : PVal) : Bool := et == x.type || (x.type == 2#8 && et == 1#8)

def isTypeNumber (t : Byte) : Bool := decide (1 ≤ t.toNat ∧ t.toNat ≤ 12)

mutual
/-- Collections are homogeneous, and within the limits of this library: binaries of 16 MiB, collections of 10,000,000 elements. -/
def PVal.wf : PVal → Bool
  | .binary bs => decide (bs.length ≤ 16777216)
  | .list et xs => isTypeNumber et && decide (xs.length ≤ 10000000) && xs.all (fits et) && wfList xs
  | .set et xs => isTypeNumber et && decide (xs.length ≤ 10000000) && xs.all (fits et) && wfList xs
  | .map kt vt ks vs => decide (ks.length = vs.length ∧ ks.length ≤ 10000000) && ks.all (fits kt) && vs.all (fits vt) && wfList ks && wfList vs
  | .struct ids xs => decide (ids.length = xs.length) && wfList xs
  | _ => true
def wfList : List PVal → Bool
  | [] => true
  | x :: xs => x.wf && wfList xs
end

/-- Keys and values alternate. -/
def interleave : List Bytes → List Bytes → Bytes
  | k :: ks, v :: vs => k ++ v ++ interleave ks vs
  | _, _ => []

/-- Fields given by id, type number and content, after the field `last`. -/
def joinFields : BitVec 16 → List (BitVec 16) → List (Byte × Bytes) → Bytes
  | last, id :: ids, (ft, p) :: r => protoHeader ft id last ++ p ++ joinFields id ids r
  | _, _, _ => []

/-- A boolean field has no content. -/
def fieldContent : PVal → Bytes → Bytes
  | .bool _, _ => []
  | _, p => p

mutual
/-- The encoding of a value (of a boolean: as an element). -/
def PVal.enc : PVal → Bytes
  | .bool b => [boolByte b]
  | .byte x => [x]
  | .i16 x => varint (zigzag x.toInt)
  | .i32 x => varint (zigzag x.toInt)
  | .i64 x => varint (zigzag x.toInt)
  | .double x => le64 x
  | .binary bs => varint bs.length ++ bs
  | .list et xs => listHeader et xs.length ++ (encEach xs).flatten
  | .set et xs => listHeader et xs.length ++ (encEach xs).flatten
  | .map kt vt ks vs =>
      if ks.length = 0 then [0#8] else varint ks.length ++ [BitVec.ofNat 8 (16 * kt.toNat + vt.toNat)] ++ interleave (encEach ks) (encEach vs)
  | .struct ids xs => joinFields 0#16 ids (encFields xs) ++ [0#8]
def encEach : List PVal → List Bytes
  | [] => []
  | x :: xs => x.enc :: encEach xs
def encFields : List PVal → List (Byte × Bytes)
  | [] => []
  | x :: xs => (x.fieldType, fieldContent x x.enc) :: encFields xs
end

mutual
/-- The tree represents the value `v` of type `t`. -/
inductive Rep (env : List Def) : Ty → Val → PVal → Prop where
  | bool (b) : Rep env .bool (.bool b) (.bool b)
  | i8 (x) : Rep env .i8 (.i8 x) (.byte x)
  | i16 (x) : Rep env .i16 (.i16 x) (.i16 x)
  | i32 (x) : Rep env .i32 (.i32 x) (.i32 x)
  | i64 (x) : Rep env .i64 (.i64 x) (.i64 x)
  | double (x) : Rep env .double (.double x) (.double x)
  | binary (bs) : Rep env .binary (.binary bs) (.binary bs)
  | string (bs) (h : IsUtf8 bs) : Rep env .string (.string bs) (.binary bs)
  | encodingSet (mask) (xs : List (BitVec 32)) (h : SetOf mask xs) : Rep env .encodingSet (.encodingSet mask) (.list 5#8 (xs.map .i32))
  | list (t et) (vs : List Val) (xs : List PVal) (he : ElemType env t et.toNat) (hl : vs.length = xs.length)
      (h : ∀ (i : Nat) (v : Val) (x : PVal), vs[i]? = some v → xs[i]? = some x → Rep env t v x) : Rep env (.list t) (.list vs) (.list et xs)
  | some (t v x) (h : Rep env t v x) : Rep env (.option t) (.some v) x
  | box (t v x) (h : Rep env t v x) : Rep env (.box t) (.box v) x
  | rc (t b v x) (h : Rep env t v x) : Rep env (.rc t) (.rc b v) x
  | enum (k name x) (hk : env[k]? = some (.enum name)) : Rep env (.named k) (.enum x) (.i32 x)
  | struct (k name fs) (vs : List Val) (ids xs) (hk : env[k]? = some (.struct name fs)) (hl : vs.length = fs.length)
      (h : ∀ (i : Nat) (f : Field) (v : Val), fs[i]? = some f → vs[i]? = some v → RepField env ids xs f v) :
      Rep env (.named k) (.struct vs) (.struct ids xs)
  | union (k name us) (i : Nat) (u : Variant) (v x) (hk : env[k]? = some (.union name us)) (hu : us[i]? = some u) (h : Rep env u.ty v x) :
      Rep env (.named k) (.union i v) (.struct [u.id] [x])
/-- Among the fields `ids` with values `xs` there is at most one for the declared field `f`, and it represents `v`. -/
inductive RepField (env : List Def) : List (BitVec 16) → List PVal → Field → Val → Prop where
  | absent (ids xs) (f : Field) (hr : f.required = false) (hid : ∀ id ∈ ids, id ≠ f.id) : RepField env ids xs f .none
  | present (ids xs) (f : Field) (j : Nat) (v x) (hj : ids[j]? = some f.id) (hu : ∀ j', ids[j']? = some f.id → j' = j) (hx : xs[j]? = some x)
      (h : Rep env f.ty v x) : RepField env ids xs f (if f.required then v else .some v)
end

end CT.Spec
