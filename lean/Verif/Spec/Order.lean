import Verif.Spec.Decoding
/-!
# Specification: a struct on the wire as a list of fields
-/
namespace CT.Spec
open CT

/-- A field on the wire: its id, the type number of its header, and its content. -/
structure WField where
  id : BitVec 16
  ft : Nat
  content : Bytes
deriving DecidableEq

/-- `Framed last ws p`: the bytes `p` are the fields `ws` in this order, each after a header - in the short or the long form - that gives its id and type, and a
stop byte. -/
inductive Framed : BitVec 16 → List WField → Bytes → Prop where
  | stop (last) (b : Byte) (h : lenientStop b) : Framed last [] [b]
  | field (last) (w : WField) (ws h q) (hh : FieldHeader last h w.ft w.id) (hq : Framed w.id ws q) : Framed last (w :: ws) (h ++ w.content ++ q)

/-- `Taken env fs met ws old new`: taking the fields `ws` one after the other turns the old values of the declared fields into the new ones; the content of a declared
field is one value of its type, that of another field a wire value. `met` are the positions of the declared fields met. -/
inductive Taken (env : List Def) (fs : List Field) : List Nat → List WField → List Val → List Val → Prop where
  | nil (vs) : Taken env fs [] [] vs vs
  | known (met) (w : WField) (ws vs new) (i : Nat) (f : Field) (o v) (hid : f.id = w.id) (hf : fs[i]? = some f)
      (hfst : ∀ (j : Nat) (g : Field), j < i → fs[j]? = some g → g.id ≠ f.id) (ho : vs[i]? = some o)
      (hp : Dec env (.field f.rustTy w.ft o v) w.content) (hr : Taken env fs met ws (vs.set i v) new) : Taken env fs (i :: met) (w :: ws) vs new
  | unknown (met) (w : WField) (ws vs new) (hid : ∀ f ∈ fs, f.id ≠ w.id) (hp : Wire lenientStop (.value w.ft false) w.content)
      (hr : Taken env fs met ws vs new) : Taken env fs met (w :: ws) vs new

/-- The same fields, in another order: for every id the fields with that id are the same and in the same order. -/
def Rearranged (ws ws' : List WField) : Prop := ∀ id, ws'.filter (fun w => w.id == id) = ws.filter (fun w => w.id == id)

end CT.Spec
