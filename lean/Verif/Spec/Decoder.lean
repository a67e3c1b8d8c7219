import Verif.Spec.Ops
import Verif.Spec.Reads
import Verif.Spec.Encoding
/-!
# Specification: programs that read by hand

A program that reads through the trait `CompactThriftInput` (protocol.rs:52-98) and the functions beside it: it makes requests, each of which may depend on the
answers so far, and ends with a result, with an error of its own, or with the first error of a request (`?`).
-/
namespace CT.Spec
open CT

/-- What can be asked of an input, with the type of the answer: the methods of `CompactThriftInput`, the headers of lists and maps (protocol.rs:113-146), and
`read_thrift`, `fill_thrift` and `fill_thrift_field` of any type (protocol.rs:434-465). -/
inductive Request : Type → Type where
  | byte : Request Byte
  | len : Request Nat
  | i16 : Request (BitVec 16)
  | i32 : Request (BitVec 32)
  | i64 : Request (BitVec 64)
  | double : Request (BitVec 64)
  | binary : Request Bytes
  | string : Request Bytes
  | skipInteger : Request Unit
  | skipBinary : Request Unit
  | skipField (fieldType : Byte) : Request Unit
  | fieldHeader (last : BitVec 16) : Request (Byte × BitVec 16)
  | collection : Request (Nat × Byte)
  | map : Request (Nat × Byte × Byte)
  | read (env : List Def) (t : Ty) : Request Val
  | fill (env : List Def) (t : Ty) (v : Val) : Request Val
  | fillField (env : List Def) (t : Ty) (v : Val) (fieldType : Byte) : Request Val

def Request.run {σ β : Type} (cfg : Cfg) (I : Input σ) : Request β → Rd σ β
  | .byte => I.readByte
  | .len => I.readLen cfg
  | .i16 => I.readI16 cfg
  | .i32 => I.readI32 cfg
  | .i64 => I.readI64 cfg
  | .double => I.readDouble
  | .binary => I.readBinary
  | .string => I.readString
  | .skipInteger => I.skipInteger
  | .skipBinary => I.skipBinary
  | .skipField ft => I.skipField cfg ft
  | .fieldHeader last => I.readFieldHeader cfg last
  | .collection => I.readCollectionLenAndType cfg
  | .map => I.readMapLenAndTypes cfg
  | .read env t => readThrift cfg I env t
  | .fill env t v => fillThrift cfg I env t v
  | .fillField env t v ft => fun s => CT.fillField cfg I env (CT.fillNamed cfg I env (I.size s + 1)) t v ft s

/-- A program that reads. Its own errors are not those of an input. `fields` is a loop over the fields of a struct, up to the stop byte: the state so far, the type
and the id of a field give the new state. -/
inductive Decoder : Type → Type 1 where
  | done {α : Type} (a : α) : Decoder α
  | stop {α : Type} (e : ThriftError) (h : ∀ k, e ≠ .io k) : Decoder α
  | ask {α β : Type} (r : Request β) (next : β → Decoder α) : Decoder α
  | fields {α γ : Type} (start : γ) (field : γ → Byte → BitVec 16 → Decoder γ) (next : γ → Decoder α) : Decoder α

/-- The loop over the fields, with a bound on the number of rounds. -/
def fieldsLoop {σ γ : Type} (cfg : Cfg) (I : Input σ) (field : γ → Byte → BitVec 16 → Rd σ γ) : Nat → BitVec 16 → γ → Rd σ γ
  | 0, _, _ => Rd.fail .diverge
  | n + 1, last, g => do
    let (ft, id) ← I.readFieldHeader cfg last
    if ft = 0#8 then pure g
    else do
      let g' ← field g ft id
      fieldsLoop cfg I field n id g'

/-- The meaning of a program on an input; the bound on the rounds is the number of bytes left, and one more. -/
def Decoder.run {σ : Type} (cfg : Cfg) (I : Input σ) : {α : Type} → Decoder α → Rd σ α
  | _, .done a => pure a
  | _, .stop e _ => Rd.throw e
  | _, .ask r next => do
    let b ← r.run cfg I
    (next b).run cfg I
  | _, .fields start field next => do
    let g ← fun s => fieldsLoop cfg I (fun g ft id => (field g ft id).run cfg I) (I.size s + 1) 0#16 start s
    (next g).run cfg I

/-- A function applied to the result -/
def Decoder.map {α β : Type} (f : α → β) : Decoder α → Decoder β
  | .done a => .done (f a)
  | .stop e h => .stop e h
  | .ask r next => .ask r fun b => (next b).map f
  | .fields start field next => .fields start field fun g => (next g).map f

/-- One program, then another that depends on its result -/
def Decoder.bind {α β : Type} (d : Decoder α) (f : α → Decoder β) : Decoder β := match d with
  | .done a => f a
  | .stop e h => .stop e h
  | .ask r next => .ask r fun b => (next b).bind f
  | .fields start field next => .fields start field fun g => (next g).bind f

/-- Values in a row: those marked are read, the others skipped. -/
def inTurn (env : List Def) : List (Bool × Ty) → Decoder (List Val)
  | [] => .done []
  | (true, t) :: rest => .ask (.read env t) fun v => (inTurn env rest).map (v :: ·)
  | (false, t) :: rest => .ask (.skipField (wireType env t)) fun _ => inTurn env rest

/-- The values written one after the other to an output. -/
def writeInTurn {τ : Type} (S : Sink τ) (env : List Def) : List (Ty × Val) → Wr τ Unit
  | [] => pure ()
  | (t, v) :: rest => do
    writeTy S env t v
    writeInTurn S env rest

end CT.Spec
