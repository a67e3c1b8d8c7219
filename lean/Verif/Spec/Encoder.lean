import Verif.Spec.Decoder
import Verif.Spec.Encoding
import Verif.Spec.Schema

/-! Programs written by hand over the output trait: what a user of `CompactThriftOutput` (protocol.rs:385-396) and of `write_thrift` and `write_thrift_field`
(protocol.rs:455-464) can do without a schema compiler, the bytes such a program is meant to write, and the program that reads them back. -/

namespace CT.Spec
open CT

/-- One step of such a program. `last` sets the variable a program passes as `&mut last_field_id`; `string` is given by its UTF-8 bytes. -/
inductive Put where
  | byte (b : Byte)
  | len (n : BitVec 64)
  | i16 (x : BitVec 16)
  | i32 (x : BitVec 32)
  | i64 (x : BitVec 64)
  | double (x : BitVec 64)
  | binary (bs : Bytes)
  | string (bs : Bytes)
  | value (t : Ty) (v : Val)
  | last (x : BitVec 16)
  | field (t : Ty) (v : Val) (id : BitVec 16)

/-- What a step does, given the variable for the last field id, whose new content is the result. -/
def Put.write {τ : Type} (S : Sink τ) (env : List Def) (last : BitVec 16) : Put → Wr τ (BitVec 16)
  | .byte b => do S.writeByte b; pure last
  | .len n => do S.writeLen n.toNat; pure last
  | .i16 x => do S.writeI16 x; pure last
  | .i32 x => do S.writeI32 x; pure last
  | .i64 x => do S.writeI64 x; pure last
  | .double x => do S.writeDouble x; pure last
  | .binary bs => do S.writeBinary bs; pure last
  | .string bs => do S.writeBinary bs; pure last
  | .value t v => do writeTy S env t v; pure last
  | .last x => pure x
  | .field t v id => writeField S env t v id last

/-- The steps in order, each followed by `?`. -/
def writePuts {τ : Type} (S : Sink τ) (env : List Def) : BitVec 16 → List Put → Wr τ (BitVec 16)
  | last, [] => pure last
  | last, p :: ps => do
    let last' ← p.write S env last
    writePuts S env last' ps

/-- The values handed over are values of Rust: strings are valid UTF-8, other values have their type. -/
def Put.Typed (env : List Def) : Put → Prop
  | .string bs => utf8Valid bs = true
  | .value t v => HasTy env v t
  | .field t v _ => HasTy env v t
  | _ => True

/-- The bytes a step is meant to write (from `last`, to the new last field id), by the specification of the protocol alone. -/
inductive PutBytes (env : List Def) : BitVec 16 → Put → Bytes → BitVec 16 → Prop where
  | byte (l b) : PutBytes env l (.byte b) [b] l
  | len (l) (n : BitVec 64) : PutBytes env l (.len n) (varint n.toNat) l
  | i16 (l) (x : BitVec 16) : PutBytes env l (.i16 x) (varint (zigzag x.toInt)) l
  | i32 (l) (x : BitVec 32) : PutBytes env l (.i32 x) (varint (zigzag x.toInt)) l
  | i64 (l) (x : BitVec 64) : PutBytes env l (.i64 x) (varint (zigzag x.toInt)) l
  | double (l x) : PutBytes env l (.double x) (le64 x) l
  | binary (l) (bs : Bytes) (h : bs.length ≤ 16777216) : PutBytes env l (.binary bs) (varint bs.length ++ bs) l
  | string (l) (bs : Bytes) (h : bs.length ≤ 16777216) : PutBytes env l (.string bs) (varint bs.length ++ bs) l
  | value (l t v p) (h : Enc env anyStep (.value t v) p) : PutBytes env l (.value t v) p l
  | last (l x) : PutBytes env l (.last x) [] x
  | absent (l t v id p) (hv : present v = false) (h : Enc env anyStep (.field t v id l) p) : PutBytes env l (.field t v id) p l
  | field (l t v id p) (hv : present v = true) (h : Enc env anyStep (.field t v id l) p) : PutBytes env l (.field t v id) p id

/-- The same for the steps in order. -/
inductive PutsBytes (env : List Def) : BitVec 16 → List Put → Bytes → BitVec 16 → Prop where
  | nil (l) : PutsBytes env l [] [] l
  | cons (l l' l'' p ps bs cs) (h : PutBytes env l p bs l') (hs : PutsBytes env l' ps cs l'') : PutsBytes env l (p :: ps) (bs ++ cs) l''

/-- What the library refuses to write. -/
inductive PutRefused (env : List Def) : Put → ThriftError → Prop where
  | binary (bs : Bytes) (h : 16777216 < bs.length) : PutRefused env (.binary bs) (.invalidBinaryLen bs.length)
  | string (bs : Bytes) (h : 16777216 < bs.length) : PutRefused env (.string bs) (.invalidBinaryLen bs.length)
  | value (t v e) (h : Refused env t v e) : PutRefused env (.value t v) e
  | field (t v id e) (h : RefusedField env t v e) : PutRefused env (.field t v id) e

/-- What the reading program has to know about a step: everything but the content. -/
inductive Shape where
  | byte | len | i16 | i32 | i64 | double | binary | string
  | value (t : Ty)
  | last (x : BitVec 16)
  | field (t : Ty)
deriving DecidableEq

def Put.shape : Put → Shape
  | .byte _ => .byte
  | .len _ => .len
  | .i16 _ => .i16
  | .i32 _ => .i32
  | .i64 _ => .i64
  | .double _ => .double
  | .binary _ => .binary
  | .string _ => .string
  | .value t _ => .value t
  | .last x => .last x
  | .field t _ _ => .field t

/-- What was written, up to reference counts. -/
def Put.unshare : Put → Put
  | .value t v => .value t v.unshare
  | .field t v id => .field t v.unshare id
  | p => p

/-- The mirror image of a step: read what was written, and the variable for the last field id afterwards. The id of a field is the one read. -/
def Shape.read (env : List Def) (last : BitVec 16) : Shape → Decoder (Put × BitVec 16)
  | .byte => .ask .byte fun b => .done (.byte b, last)
  | .len => .ask .len fun n => .done (.len (BitVec.ofNat 64 n), last)
  | .i16 => .ask .i16 fun x => .done (.i16 x, last)
  | .i32 => .ask .i32 fun x => .done (.i32 x, last)
  | .i64 => .ask .i64 fun x => .done (.i64 x, last)
  | .double => .ask .double fun x => .done (.double x, last)
  | .binary => .ask .binary fun bs => .done (.binary bs, last)
  | .string => .ask .string fun bs => .done (.string bs, last)
  | .value t => .ask (.read env t) fun v => .done (.value t v, last)
  | .last x => .done (.last x, x)
  | .field t => .ask (.fieldHeader last) fun (ft, id) => .ask (.fillField env t (dflt env t) ft) fun v => .done (.field t v id, id)

/-- The mirror image of a program. -/
def readBack (env : List Def) : BitVec 16 → List Shape → Decoder (List Put)
  | _, [] => .done []
  | last, s :: ss => (s.read env last).bind fun (p, last') => (readBack env last' ss).map (p :: ·)

/-- Where a field is written: it is there (an absent optional field leaves no trace), its type is not an option of an option, and the step from the last id is one
the reader can follow. -/
def FieldsReadable (ov : Bool) : BitVec 16 → List Put → Prop
  | _, [] => True
  | _, .last x :: ps => FieldsReadable ov x ps
  | last, .field t v id :: ps => present v = true ∧ (Ty.isOption t = false ∨ ∃ t', t = .option t' ∧ Ty.isOption t' = false) ∧ HeaderOk ov last id ∧ FieldsReadable ov id ps
  | last, _ :: ps => FieldsReadable ov last ps

/-- A field of a struct that is written by hand -/
structure HandField where
  ty : Ty
  val : Val
  id : BitVec 16

/-- A struct written by hand: `write_thrift_field` for each field, then the stop byte. -/
def handPuts (fs : List HandField) : List Put := (fs.map fun f => .field f.ty f.val f.id) ++ [.byte 0#8]

/-- One round of a struct read by hand: a field of a known id is read, another one is skipped. -/
def handField (env : List Def) (ty : BitVec 16 → Option Ty) (found : List (BitVec 16 × Val)) (ft : Byte) (id : BitVec 16) : Decoder (List (BitVec 16 × Val)) :=
  match ty id with
  | some t => .ask (.fillField env t (dflt env t) ft) fun v => .done (found ++ [(id, v)])
  | none => .ask (.skipField ft) fun _ => .done found

/-- A struct read by hand: the ids and values found. -/
def handRead (env : List Def) (ty : BitVec 16 → Option Ty) : Decoder (List (BitVec 16 × Val)) :=
  .fields [] (handField env ty) fun g => .done g

end CT.Spec
