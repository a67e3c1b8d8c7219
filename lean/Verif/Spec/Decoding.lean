import Verif.Spec.Wire
import Verif.Spec.Utf8
import Verif.Spec.Encoding
import Verif.Spec.Migration
/-!
# Specification: which bytes a read accepts, and what they mean

One inductive relation between bytes and values, by the types and definitions alone: no reader, no state, no loop, no fuel. It is the exact language of
this library, which is larger than the protocol; the rules say where.
-/
namespace CT.Spec
open CT

/-- `Default::default()` as a relation: numbers are zero, collections empty, optional fields unset, unions hold the default of their first variant. -/
inductive IsDefault (env : List Def) : Ty → Val → Prop where
  | bool : IsDefault env .bool (.bool false)
  | i8 : IsDefault env .i8 (.i8 0#8)
  | i16 : IsDefault env .i16 (.i16 0#16)
  | i32 : IsDefault env .i32 (.i32 0#32)
  | i64 : IsDefault env .i64 (.i64 0#64)
  | double : IsDefault env .double (.double 0#64)
  | binary : IsDefault env .binary (.binary [])
  | string : IsDefault env .string (.string [])
  | encodingSet : IsDefault env .encodingSet (.encodingSet 0#32)
  | list (t) : IsDefault env (.list t) (.list [])
  | none (t) : IsDefault env (.option t) .none
  | box (t v) (h : IsDefault env t v) : IsDefault env (.box t) (.box v)
  | rc (t v) (h : IsDefault env t v) : IsDefault env (.rc t) (.rc false v)
  | enum (k name) (hk : env[k]? = some (.enum name)) : IsDefault env (.named k) (.enum 0#32)
  | struct (k name fs vs) (hk : env[k]? = some (.struct name fs)) (hl : vs.length = fs.length)
      (h : ∀ (i : Nat) (f : Field) (v : Val), fs[i]? = some f → vs[i]? = some v → IsDefault env f.rustTy v) :
      IsDefault env (.named k) (.struct vs)
  | union (k name u us v) (hk : env[k]? = some (.union name (u :: us))) (h : IsDefault env u.ty v) : IsDefault env (.named k) (.union 0 v)

/-- `FieldHeader last p ft id`: after the field `last`, the bytes `p` announce the field `id` with wire type `ft`. Ids wrap around; the long form
may hold any varint, of which the low 16 bits count. -/
inductive FieldHeader : BitVec 16 → Bytes → Nat → BitVec 16 → Prop where
  | short (last) (b : Byte) (h1 : b.toNat / 16 ≠ 0) (h2 : b.toNat % 16 ≠ 0) :
      FieldHeader last [b] (b.toNat % 16) (BitVec.ofInt 16 (last.toInt + (b.toNat / 16 : Nat)))
  | long (last) (b : Byte) (p n) (id : BitVec 16) (h1 : b.toNat / 16 = 0) (h2 : b.toNat ≠ 0) (hp : VarintVal p n) (hid : zigzag id.toInt = n % 2 ^ 16) :
      FieldHeader last (b :: p) b.toNat id

/-- The element types a list of `t` accepts: the type itself, and for booleans both type numbers. -/
def ElemType (env : List Def) (t : Ty) (et : Nat) : Prop := et = (wireType env t).toNat ∨ (wireType env t = 2#8 ∧ et = 1)

/-- What is read: a value of type `t` into the old value; the same as a field with wire type `ft`; the elements of a list; the fields of a struct up to the
stop byte, into old values, where `met` are the positions of the fields met. -/
inductive DItem where
  | value (t : Ty) (old new : Val)
  | field (t : Ty) (ft : Nat) (old new : Val)
  | elems (t : Ty) (vs : List Val)
  | fields (fs : List Field) (last : BitVec 16) (met : List Nat) (old new : List Val)

/-- `DecOf int env item p`: the bytes `p` are the item, where `int` tells which bytes are taken for an integer when they are skipped. -/
inductive DecOf (int : Bytes → Prop) (env : List Def) : DItem → Bytes → Prop where
  /-- every byte other than 1 is `false` -/
  | bool (o) (b : Byte) : DecOf int env (.value .bool o (.bool (decide (b.toNat = 1)))) [b]
  | i8 (o) (b : Byte) : DecOf int env (.value .i8 o (.i8 b)) [b]
  /-- any varint is accepted, the high bits are dropped -/
  | i16 (o p n) (x : BitVec 16) (hp : VarintVal p n) (hx : zigzag x.toInt = n % 2 ^ 16) : DecOf int env (.value .i16 o (.i16 x)) p
  | i32 (o p n) (x : BitVec 32) (hp : VarintVal p n) (hx : zigzag x.toInt = n % 2 ^ 32) : DecOf int env (.value .i32 o (.i32 x)) p
  | i64 (o p n) (x : BitVec 64) (hp : VarintVal p n) (hx : zigzag x.toInt = n) : DecOf int env (.value .i64 o (.i64 x)) p
  | double (o x) : DecOf int env (.value .double o (.double x)) (le64 x)
  | binary (o p) (bs : Bytes) (hp : VarintVal p bs.length) (hb : bs.length ≤ 16777216) : DecOf int env (.value .binary o (.binary bs)) (p ++ bs)
  | string (o p) (bs : Bytes) (hp : VarintVal p bs.length) (hb : bs.length ≤ 16777216) (hu : IsUtf8 bs) :
      DecOf int env (.value .string o (.string bs)) (p ++ bs)
  /-- the elements may repeat and come in any order -/
  | encodingSet (o h p mask) (xs : List (BitVec 32)) (hh : ListHeader h 5 xs.length) (hp : DecOf int env (.elems .i32 (xs.map .i32)) p) (hm : SetOf mask xs) :
      DecOf int env (.value .encodingSet o (.encodingSet mask)) (h ++ p)
  | list (t o h et) (vs : List Val) (p) (hh : ListHeader h et vs.length) (he : ElemType env t et) (hp : DecOf int env (.elems t vs) p) :
      DecOf int env (.value (.list t) o (.list vs)) (h ++ p)
  | some (t d v p) (hd : IsDefault env t d) (hp : DecOf int env (.value t d v) p) : DecOf int env (.value (.option t) .none (.some v)) p
  | box (t o v p) (hp : DecOf int env (.value t o v) p) : DecOf int env (.value (.box t) (.box o) (.box v)) p
  | rc (t o v p) (hp : DecOf int env (.value t o v) p) : DecOf int env (.value (.rc t) (.rc false o) (.rc false v)) p
  | enum (k name o p n) (x : BitVec 32) (hk : env[k]? = some (.enum name)) (hp : VarintVal p n) (hx : zigzag x.toInt = n % 2 ^ 32) :
      DecOf int env (.value (.named k) (.enum o) (.enum x)) p
  /-- all required fields are met; the order is free, required fields may be repeated (the last occurrence is read into what the earlier ones left) -/
  | struct (k name fs met old new p) (hk : env[k]? = some (.struct name fs)) (hp : DecOf int env (.fields fs 0#16 met old new) p)
      (hr : ∀ (i : Nat) (f : Field), fs[i]? = some f → f.required = true → i ∈ met) : DecOf int env (.value (.named k) (.struct old) (.struct new)) p
  /-- exactly one known variant, then the byte 0; the wire type of the header does not matter -/
  | union (k name us) (i : Nat) (u : Variant) (j o d v h ft p) (hk : env[k]? = some (.union name us)) (hu : us[i]? = some u)
      (hfst : ∀ (j : Nat) (w : Variant), j < i → us[j]? = some w → w.id ≠ u.id) (hh : FieldHeader 0#16 h ft u.id) (hd : IsDefault env u.ty d) (hp : DecOf int env (.value u.ty d v) p) :
      DecOf int env (.value (.named k) (.union j o) (.union i v)) (h ++ p ++ [0#8])
  | elemsNil (t) : DecOf int env (.elems t []) []
  | elemsCons (t d v vs p q) (hd : IsDefault env t d) (hp : DecOf int env (.value t d v) p) (hq : DecOf int env (.elems t vs) q) : DecOf int env (.elems t (v :: vs)) (p ++ q)
  /-- a boolean field is its wire type: 1 is `true`, every other type is `false` -/
  | fieldBool (ft o) : DecOf int env (.field .bool ft o (.bool (decide (ft = 1)))) []
  | fieldSome (t ft d v p) (hd : IsDefault env t d) (hp : DecOf int env (.field t ft d v) p) : DecOf int env (.field (.option t) ft .none (.some v)) p
  | fieldValue (t o v p) (h1 : t ≠ .bool) (h2 : ∀ t', t ≠ .option t') (hp : DecOf int env (.value t o v) p) :
      DecOf int env (.field t (wireType env t).toNat o v) p
  /-- every byte with low nibble 0 ends a struct -/
  | stop (fs last vs) (b : Byte) (h : lenientStop b) : DecOf int env (.fields fs last [] vs vs) [b]
  | known (fs last met vs new h ft) (i : Nat) (f : Field) (o v p q) (hh : FieldHeader last h ft f.id) (hf : fs[i]? = some f)
      (hfst : ∀ (j : Nat) (g : Field), j < i → fs[j]? = some g → g.id ≠ f.id)
      (ho : vs[i]? = some o) (hp : DecOf int env (.field f.rustTy ft o v) p) (hq : DecOf int env (.fields fs f.id met (vs.set i v) new) q) :
      DecOf int env (.fields fs last (i :: met) vs new) (h ++ p ++ q)
  | unknown (fs last met vs new h ft id p q) (hh : FieldHeader last h ft id) (hid : ∀ f ∈ fs, f.id ≠ id) (hp : WireOf int lenientStop (.value ft false) p)
      (hq : DecOf int env (.fields fs id met vs new) q) : DecOf int env (.fields fs last met vs new) (h ++ p ++ q)

/-- Skipped integers are varints. -/
abbrev Dec := DecOf IsVarint

/-- The bytes `p` are accepted as a value of type `t` and mean `v`. -/
def Decodes (env : List Def) (t : Ty) (v : Val) (p : Bytes) : Prop := ∃ d, IsDefault env t d ∧ Dec env (.value t d v) p

end CT.Spec
