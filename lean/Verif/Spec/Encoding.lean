import Verif.Model.Types
import Verif.Spec.Varint
/-!
# Specification: the encoding of values

The bytes of a value of each type, in arithmetic on bytes and as an inductive relation: no sink, no monad.
`Enc` describes what this library produces, including its long field headers (which hold the id difference where the
protocol has the id).
-/
namespace CT.Spec
open CT

/-- The little-endian bytes of a 64-bit pattern. -/
def le64 (x : BitVec 64) : Bytes := (List.range 8).map fun i => BitVec.ofNat 8 (x.toNat / 256 ^ i)

/-- The bytes of a list header. -/
def listHeader (ft : Byte) (n : Nat) : Bytes :=
  if n < 15 then [BitVec.ofNat 8 (ft.toNat + 16 * n)] else BitVec.ofNat 8 (ft.toNat + 240) :: varint n

/-- The bytes of the header of field `id` following field `last`: the difference in the high nibble; if it exceeds 15,
the type alone and the difference as a zigzag varint. -/
def fieldHeader (ft : Byte) (id last : BitVec 16) : Bytes :=
  if 15 < (id - last).toInt then ft :: varint (zigzag (id - last).toInt)
  else [BitVec.ofNat 8 (ft.toNat + 16 * ((id - last).toNat % 16))]

/-- Protocol type numbers of the types, as this library assigns them. -/
def wireType (env : List Def) : Ty → Byte
  | .bool => 2#8
  | .i8 => 3#8
  | .i16 => 4#8
  | .i32 => 5#8
  | .i64 => 6#8
  | .double => 7#8
  | .binary | .string => 8#8
  | .encodingSet | .list _ => 9#8
  | .option t | .box t | .rc t => wireType env t
  | .named k => match env[k]? with
    | some (.enum _) => 5#8
    | _ => 12#8

/-- The members of an `EncodingSet`. -/
def members (mask : BitVec 32) : List Nat := (List.range 32).filter fun i => mask.toNat.testBit i

/-- Whether a value occurs on the wire when it is a field: not for `None`. -/
def present : Val → Bool
  | .none => false
  | .some v => present v
  | _ => true

/-- A boolean's type number in a field header and its byte in a list. -/
def boolByte (b : Bool) : Byte := if b then 1#8 else 2#8

/-- What is encoded: a value by itself, a value as field `id` after field `last`, the elements of a list, the fields of
a struct after field `last`. -/
inductive EItem where
  | value (t : Ty) (v : Val)
  | field (t : Ty) (v : Val) (id last : BitVec 16)
  | elems (t : Ty) (vs : List Val)
  | fields (fs : List Field) (vs : List Val) (last : BitVec 16)

/-- The encodings in which every field header, for field `id` after field `last`, satisfies `ok last id`. -/
inductive Enc (env : List Def) (ok : BitVec 16 → BitVec 16 → Prop) : EItem → Bytes → Prop where
  | bool (b) : Enc env ok (.value .bool (.bool b)) [boolByte b]
  | i8 (x) : Enc env ok (.value .i8 (.i8 x)) [x]
  | i16 (x) : Enc env ok (.value .i16 (.i16 x)) (varint (zigzag x.toInt))
  | i32 (x) : Enc env ok (.value .i32 (.i32 x)) (varint (zigzag x.toInt))
  | i64 (x) : Enc env ok (.value .i64 (.i64 x)) (varint (zigzag x.toInt))
  | double (x) : Enc env ok (.value .double (.double x)) (le64 x)
  | binary (bs : Bytes) (h : bs.length ≤ 16777216) : Enc env ok (.value .binary (.binary bs)) (varint bs.length ++ bs)
  | string (bs : Bytes) (h : bs.length ≤ 16777216) : Enc env ok (.value .string (.string bs)) (varint bs.length ++ bs)
  | encodingSet (mask) : Enc env ok (.value .encodingSet (.encodingSet mask))
      (listHeader 5#8 (members mask).length ++ (members mask).flatMap fun (i : Nat) => varint (zigzag i))
  | list (t) (vs : List Val) (p) (h : vs.length ≤ 10000000) (hp : Enc env ok (.elems t vs) p) :
      Enc env ok (.value (.list t) (.list vs)) (listHeader (wireType env t) vs.length ++ p)
  | some (t v p) (hp : Enc env ok (.value t v) p) : Enc env ok (.value (.option t) (.some v)) p
  | box (t v p) (hp : Enc env ok (.value t v) p) : Enc env ok (.value (.box t) (.box v)) p
  | rc (t b v p) (hp : Enc env ok (.value t v) p) : Enc env ok (.value (.rc t) (.rc b v)) p
  | enum (k name x) (hk : env[k]? = some (.enum name)) : Enc env ok (.value (.named k) (.enum x)) (varint (zigzag x.toInt))
  | struct (k name fs vs p) (hk : env[k]? = some (.struct name fs)) (hp : Enc env ok (.fields fs vs 0#16) p) :
      Enc env ok (.value (.named k) (.struct vs)) (p ++ [0#8])
  | union (k name us i u v p) (hk : env[k]? = some (.union name us)) (hu : us[i]? = some u)
      (hp : Enc env ok (.field u.ty v u.id 0#16) p) : Enc env ok (.value (.named k) (.union i v)) (p ++ [0#8])
  | elemsNil (t) : Enc env ok (.elems t []) []
  | elemsCons (t v vs p q) (hp : Enc env ok (.value t v) p) (hq : Enc env ok (.elems t vs) q) : Enc env ok (.elems t (v :: vs)) (p ++ q)
  | fieldBool (b id last) (h : ok last id) : Enc env ok (.field .bool (.bool b) id last) (fieldHeader (boolByte b) id last)
  | fieldNone (t id last) : Enc env ok (.field (.option t) .none id last) []
  | fieldSome (t v id last p) (hp : Enc env ok (.field t v id last) p) : Enc env ok (.field (.option t) (.some v) id last) p
  | fieldValue (t v id last p) (h1 : t ≠ .bool) (h2 : ∀ t', t ≠ .option t') (h : ok last id) (hp : Enc env ok (.value t v) p) :
      Enc env ok (.field t v id last) (fieldHeader (wireType env t) id last ++ p)
  | fieldsNil (last) : Enc env ok (.fields [] [] last) []
  | fieldsCons (f fs v vs last p q) (hp : Enc env ok (.field f.rustTy v f.id last) p)
      (hq : Enc env ok (.fields fs vs (if present v then f.id else last)) q) :
      Enc env ok (.fields (f :: fs) (v :: vs) last) (p ++ q)

/-- No condition on the field headers. -/
def anyStep (_ _ : BitVec 16) : Prop := True

/-- The encoding of a value. -/
def Encodes (env : List Def) (t : Ty) (v : Val) (p : Bytes) : Prop := Enc env anyStep (.value t v) p

/-- The steps from the last field id to the next that a written header conveys to a reader: the difference is 1..15
(also modulo 2^16 without overflow checks), or the last id is 0 and the id above 15. -/
def HeaderOk (ov : Bool) (last id : BitVec 16) : Prop :=
  (1 ≤ id.toInt - last.toInt ∧ id.toInt - last.toInt ≤ 15) ∨
  (ov = false ∧ 1 ≤ id.toInt - last.toInt + 65536 ∧ id.toInt - last.toInt + 65536 ≤ 15) ∨
  (last = 0#16 ∧ 15 < id.toInt)

mutual
/-- The value holds a part the writer must refuse, with this error: a binary above 16 MiB, a list of more than
10,000,000 elements, a `None` in a place that must hold a value. -/
inductive Refused (env : List Def) : Ty → Val → ThriftError → Prop where
  | binary (bs : Bytes) (h : 16777216 < bs.length) : Refused env .binary (.binary bs) (.invalidBinaryLen bs.length)
  | string (bs : Bytes) (h : 16777216 < bs.length) : Refused env .string (.string bs) (.invalidBinaryLen bs.length)
  | length (t) (vs : List Val) (h : 10000000 < vs.length) : Refused env (.list t) (.list vs) .invalidCollectionLen
  | elem (t vs v e) (hv : v ∈ vs) (h : Refused env t v e) : Refused env (.list t) (.list vs) e
  | none (t) : Refused env (.option t) .none .missingValue
  | some (t v e) (h : Refused env t v e) : Refused env (.option t) (.some v) e
  | box (t v e) (h : Refused env t v e) : Refused env (.box t) (.box v) e
  | rc (t b v e) (h : Refused env t v e) : Refused env (.rc t) (.rc b v) e
  | struct (k name fs vs) (i : Nat) (f : Field) (v e) (hk : env[k]? = some (.struct name fs)) (hf : fs[i]? = some f) (hv : vs[i]? = some v)
      (h : RefusedField env f.rustTy v e) : Refused env (.named k) (.struct vs) e
  | union (k name us) (i : Nat) (u : Variant) (v e) (hk : env[k]? = some (.union name us)) (hu : us[i]? = some u)
      (h : RefusedField env u.ty v e) : Refused env (.named k) (.union i v) e
/-- The same for a value in the position of a field, where `None` is allowed. -/
inductive RefusedField (env : List Def) : Ty → Val → ThriftError → Prop where
  | some (t v e) (h : RefusedField env t v e) : RefusedField env (.option t) (.some v) e
  | value (t v e) (h1 : ∀ t', t ≠ .option t') (h : Refused env t v e) : RefusedField env t v e
end

end CT.Spec
