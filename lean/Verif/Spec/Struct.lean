import Verif.Model.Types
/-!
# Specification: the fields of a struct as they are met on the wire

Independent of the loop, the flags and the fuel of the reader: only the header reader, `fill_thrift_field` of the field met and
`skip_field` occur.
-/
namespace CT.Spec
open CT

/-- One field met on the wire: wire type, id, and the input at its payload. -/
structure Occ (σ : Type) where
  ft : Byte
  id : BitVec 16
  pos : σ

/-- `Met … fs last s vs occs last' s' vs'`: from `s`, with `last` the id before, the fields `occs` are met one after the other; those
declared in `fs` fill their place in `vs`, the others are skipped. Then the input is `s'`, the last id `last'`, the values `vs'`. -/
inductive Met {σ : Type} (cfg : Cfg) (I : Input σ) (env : List Def) (fs : List Field) :
    BitVec 16 → σ → List Val → List (Occ σ) → BitVec 16 → σ → List Val → Prop where
  | nil (last s vs) : Met cfg I env fs last s vs [] last s vs
  | known (last s vs ft id s₁ i f v v' s₂ occs last' s' vs') (hh : I.readFieldHeader cfg last s = .ok ((ft, id), s₁)) (hft : ft ≠ 0#8)
      (hf : fs[i]? = some f) (hid : f.id = id) (hv : vs[i]? = some v)
      (hfill : fillThriftField cfg I env f.rustTy v ft s₁ = .ok (v', s₂))
      (hr : Met cfg I env fs id s₂ (vs.set i v') occs last' s' vs') :
      Met cfg I env fs last s vs (⟨ft, id, s₁⟩ :: occs) last' s' vs'
  | unknown (last s vs ft id s₁ s₂ occs last' s' vs') (hh : I.readFieldHeader cfg last s = .ok ((ft, id), s₁)) (hft : ft ≠ 0#8)
      (hid : ∀ f ∈ fs, f.id ≠ id) (hskip : I.skip cfg ft false s₁ = .ok ((), s₂))
      (hr : Met cfg I env fs id s₂ vs occs last' s' vs') :
      Met cfg I env fs last s vs (⟨ft, id, s₁⟩ :: occs) last' s' vs'

/-- The field with this id was met. -/
def Has {σ : Type} (occs : List (Occ σ)) (id : BitVec 16) : Prop := ∃ o ∈ occs, o.id = id

end CT.Spec
