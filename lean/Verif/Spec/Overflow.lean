import Verif.Spec.Decoding
/-!
# Specification: inputs on which reading breaks off

The reader adds in two places without a guard: 7 to a 32-bit shift for every byte of a varint, and the difference in a short field header to the 16-bit
id of the previous field. `Overflow env item s` says, by the types and definitions alone, that reading the item from the bytes `s` comes to such an addition
with a result out of range: everything before it is well-formed, what follows it does not matter (the rules put no condition on it).

With SSE2, skipping an integer goes wrong at the end of the input. `BreaksOff F env item s` says the same for any set of such places.
-/
namespace CT.Spec
open CT

/-- More than 613566756 bytes, the first 613566756 of them with the continuation bit: 613566757 · 7 is the first multiple of 7 beyond `u32::MAX`. -/
def LongVarint (s : Bytes) : Prop := 613566756 < s.length ∧ ∀ b ∈ s.take 613566756, 128 ≤ b.toNat

/-- Where reading breaks off: `varint`, the bytes from which reading a varint does; `skip`, the bytes from which skipping an integer does; `sum`, whether an id
beyond 32767 does. `int` are the bytes that are skipped for an integer otherwise. -/
structure Faults where
  int : Bytes → Prop
  varint : Bytes → Prop
  skip : Bytes → Prop
  sum : Prop

/-- The field header after field `last` breaks off: a difference that leads beyond 32767 (whatever the type number, also 0), or the id. -/
inductive HeaderBreaks (F : Faults) (last : BitVec 16) : Bytes → Prop where
  | sum (b : Byte) (s) (hF : F.sum) (h : 32767 < last.toInt + (b.toNat / 16 : Nat)) : HeaderBreaks F last (b :: s)
  | id (b : Byte) (s) (h1 : b.toNat / 16 = 0) (h2 : b.toNat ≠ 0) (h : F.varint s) : HeaderBreaks F last (b :: s)

/-- The length in a list header breaks off. -/
inductive ListBreaks (F : Faults) : Bytes → Prop where
  | len (b : Byte) (s) (h1 : b.toNat / 16 = 15) (h : F.varint s) : ListBreaks F (b :: s)

/-- What is read: a skipped value; `n` skipped elements; `n` skipped key-value pairs; skipped fields; a value into an old value; the same as a field with wire
type `ft`; `n` elements of a list; the fields of a struct into old values. -/
inductive OItem where
  | skip (ft : Nat)
  | skipElems (ft n : Nat)
  | skipEntries (k v n : Nat)
  | skipFields (last : BitVec 16)
  | value (t : Ty) (old : Val)
  | field (t : Ty) (ft : Nat) (old : Val)
  | elems (t : Ty) (n : Nat)
  | fields (fs : List Field) (last : BitVec 16) (old : List Val)

inductive BreaksOff (F : Faults) (env : List Def) : OItem → Bytes → Prop where
  | skipInt (ft s) (hft : ft = 4 ∨ ft = 5 ∨ ft = 6) (h : F.skip s) : BreaksOff F env (.skip ft) s
  /-- the length of a binary or a map -/
  | skipLen (ft s) (hft : ft = 8 ∨ ft = 11) (h : F.varint s) : BreaksOff F env (.skip ft) s
  | skipListHeader (ft s) (hft : ft = 9 ∨ ft = 10) (h : ListBreaks F s) : BreaksOff F env (.skip ft) s
  | skipList (ft h et n s) (hft : ft = 9 ∨ ft = 10) (hh : ListHeader h et n) (hs : BreaksOff F env (.skipElems et n) s) : BreaksOff F env (.skip ft) (h ++ s)
  | skipMap (p n) (b : Byte) (s) (hp : VarintVal p n) (hn : n ≤ 10000000) (hs : BreaksOff F env (.skipEntries (b.toNat / 16) (b.toNat % 16) n) s) :
      BreaksOff F env (.skip 11) (p ++ b :: s)
  | skipStruct (s) (hs : BreaksOff F env (.skipFields 0#16) s) : BreaksOff F env (.skip 12) s
  | skipElem (ft n s) (hs : BreaksOff F env (.skip ft) s) : BreaksOff F env (.skipElems ft (n + 1)) s
  | skipElemsRest (ft n p s) (hp : WireOf F.int lenientStop (.value ft true) p) (hs : BreaksOff F env (.skipElems ft n) s) : BreaksOff F env (.skipElems ft (n + 1)) (p ++ s)
  | skipKey (k v n s) (hs : BreaksOff F env (.skip k) s) : BreaksOff F env (.skipEntries k v (n + 1)) s
  | skipVal (k v n p s) (hp : WireOf F.int lenientStop (.value k true) p) (hs : BreaksOff F env (.skip v) s) : BreaksOff F env (.skipEntries k v (n + 1)) (p ++ s)
  | skipEntriesRest (k v n p q s) (hp : WireOf F.int lenientStop (.value k true) p) (hq : WireOf F.int lenientStop (.value v true) q) (hs : BreaksOff F env (.skipEntries k v n) s) :
      BreaksOff F env (.skipEntries k v (n + 1)) (p ++ (q ++ s))
  | skipHeader (last s) (h : HeaderBreaks F last s) : BreaksOff F env (.skipFields last) s
  | skipField (last h ft id s) (hh : FieldHeader last h ft id) (hs : BreaksOff F env (.skip ft) s) : BreaksOff F env (.skipFields last) (h ++ s)
  | skipFieldsRest (last h ft id p s) (hh : FieldHeader last h ft id) (hp : WireOf F.int lenientStop (.value ft false) p) (hs : BreaksOff F env (.skipFields id) s) :
      BreaksOff F env (.skipFields last) (h ++ (p ++ s))
  | int (t o s) (ht : t = .i16 ∨ t = .i32 ∨ t = .i64 ∨ t = .binary ∨ t = .string) (h : F.varint s) : BreaksOff F env (.value t o) s
  | enum (k name o s) (hk : env[k]? = some (.enum name)) (h : F.varint s) : BreaksOff F env (.value (.named k) (.enum o)) s
  | encodingSetHeader (o s) (h : ListBreaks F s) : BreaksOff F env (.value .encodingSet o) s
  /-- the elements before are encodings, each between 0 and 30 -/
  | encodingSet (o h n p s) (xs : List (BitVec 32)) (hh : ListHeader h 5 n) (hx : xs.length < n) (hp : DecOf F.int env (.elems .i32 (xs.map .i32)) p)
      (hi : ∀ x ∈ xs, 0 ≤ x.toInt ∧ x.toInt ≤ 30) (hs : F.varint s) : BreaksOff F env (.value .encodingSet o) (h ++ (p ++ s))
  | listHeader (t o s) (h : ListBreaks F s) : BreaksOff F env (.value (.list t) o) s
  | list (t o h et n s) (hh : ListHeader h et n) (he : ElemType env t et) (hs : BreaksOff F env (.elems t n) s) : BreaksOff F env (.value (.list t) o) (h ++ s)
  | some (t d s) (hd : IsDefault env t d) (hs : BreaksOff F env (.value t d) s) : BreaksOff F env (.value (.option t) .none) s
  | box (t o s) (hs : BreaksOff F env (.value t o) s) : BreaksOff F env (.value (.box t) (.box o)) s
  | rc (t o s) (hs : BreaksOff F env (.value t o) s) : BreaksOff F env (.value (.rc t) (.rc false o)) s
  | struct (k name fs old s) (hk : env[k]? = some (.struct name fs)) (hs : BreaksOff F env (.fields fs 0#16 old) s) :
      BreaksOff F env (.value (.named k) (.struct old)) s
  | unionHeader (k name us j o s) (hk : env[k]? = some (.union name us)) (h : HeaderBreaks F 0#16 s) : BreaksOff F env (.value (.named k) (.union j o)) s
  | union (k name us) (i : Nat) (u : Variant) (j o d h ft s) (hk : env[k]? = some (.union name us)) (hu : us[i]? = some u)
      (hfst : ∀ (j : Nat) (w : Variant), j < i → us[j]? = some w → w.id ≠ u.id) (hh : FieldHeader 0#16 h ft u.id) (hd : IsDefault env u.ty d)
      (hs : BreaksOff F env (.value u.ty d) s) : BreaksOff F env (.value (.named k) (.union j o)) (h ++ s)
  | elem (t d n s) (hd : IsDefault env t d) (hs : BreaksOff F env (.value t d) s) : BreaksOff F env (.elems t (n + 1)) s
  | elemsRest (t d v n p s) (hd : IsDefault env t d) (hp : DecOf F.int env (.value t d v) p) (hs : BreaksOff F env (.elems t n) s) : BreaksOff F env (.elems t (n + 1)) (p ++ s)
  | fieldSome (t ft d s) (hd : IsDefault env t d) (hs : BreaksOff F env (.field t ft d) s) : BreaksOff F env (.field (.option t) ft .none) s
  | fieldValue (t o s) (h1 : t ≠ .bool) (h2 : ∀ t', t ≠ .option t') (hs : BreaksOff F env (.value t o) s) : BreaksOff F env (.field t (wireType env t).toNat o) s
  | header (fs last old s) (h : HeaderBreaks F last s) : BreaksOff F env (.fields fs last old) s
  | known (fs last old h ft) (i : Nat) (f : Field) (o s) (hh : FieldHeader last h ft f.id) (hf : fs[i]? = some f)
      (hfst : ∀ (j : Nat) (g : Field), j < i → fs[j]? = some g → g.id ≠ f.id) (ho : old[i]? = some o) (hs : BreaksOff F env (.field f.rustTy ft o) s) :
      BreaksOff F env (.fields fs last old) (h ++ s)
  | knownRest (fs last old h ft) (i : Nat) (f : Field) (o v p s) (hh : FieldHeader last h ft f.id) (hf : fs[i]? = some f)
      (hfst : ∀ (j : Nat) (g : Field), j < i → fs[j]? = some g → g.id ≠ f.id) (ho : old[i]? = some o) (hp : DecOf F.int env (.field f.rustTy ft o v) p)
      (hs : BreaksOff F env (.fields fs f.id (old.set i v)) s) : BreaksOff F env (.fields fs last old) (h ++ (p ++ s))
  | unknown (fs last old h ft id s) (hh : FieldHeader last h ft id) (hid : ∀ f ∈ fs, f.id ≠ id) (hs : BreaksOff F env (.skip ft) s) :
      BreaksOff F env (.fields fs last old) (h ++ s)
  | unknownRest (fs last old h ft id p s) (hh : FieldHeader last h ft id) (hid : ∀ f ∈ fs, f.id ≠ id) (hp : WireOf F.int lenientStop (.value ft false) p)
      (hs : BreaksOff F env (.fields fs id old) s) : BreaksOff F env (.fields fs last old) (h ++ (p ++ s))

/-- Additions that overflow, without SSE2. -/
def overflowFaults : Faults := ⟨IsVarint, LongVarint, LongVarint, True⟩

abbrev Overflow := BreaksOff overflowFaults

end CT.Spec
