import Verif.Model.Types
import Verif.Spec.Delivery
/-!
# Specification: the operations a caller can invoke on an input, and agreement of their results
-/
namespace CT.Spec
open CT

/-- A request to the library: read a fresh value, fill an existing one, or skip a field. -/
inductive Op where
  | read (env : List Def) (t : Ty)
  | fill (env : List Def) (t : Ty) (v : Val)
  | skip (fieldType : Byte) (insideCollection : Bool)

/-- Performing the request; skipping returns no value. -/
def Op.run {σ : Type} (cfg : Cfg) (I : Input σ) : Op → Rd σ (Option Val)
  | .read env t => do let v ← readThrift cfg I env t; pure (some v)
  | .fill env t v => do let v ← fillThrift cfg I env t v; pure (some v)
  | .skip ft ins => do I.skip cfg ft ins; pure none

/-- The same outcome: the same value with related rests, or the same failure. -/
def Same {σ τ α : Type} (R : σ → τ → Prop) : Except Fail (α × σ) → Except Fail (α × τ) → Prop
  | .ok (a, s), .ok (b, t) => a = b ∧ R s t
  | .error e, .error f => e = f
  | _, _ => False

/-- A slice that refuses (with the marker `ub`, which a run on a slice without SSE2 skip never produces) to skip an
integer of which no final byte is found among its first 17 bytes. -/
def watchedInput (cfg : Cfg) : Input Bytes where
  size := List.length
  readByte := Slice.readByte
  readDouble := Slice.readDouble
  readBinary := Slice.readBinary cfg
  skipInteger := fun s =>
    match (s.take 17).findIdx? (fun b => decide (b.toNat < 128)) with
    | some i => .ok ((), s.drop (i + 1))
    | none => .error .ub
  skipBinary := Slice.skipBinary cfg

/-- No integer skipped during the request is cut off or longer than 17 bytes. -/
def ShortSkips (cfg : Cfg) (op : Op) (s : Bytes) : Prop := op.run cfg (watchedInput cfg) s ≠ .error .ub

end CT.Spec
