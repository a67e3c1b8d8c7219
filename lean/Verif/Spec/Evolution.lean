import Verif.Spec.Schema
/-!
# Specification: changing a schema

`evolves env₁ env₂`: data of the schema `env₁` can be read with `env₂`. Fields may be removed, optional fields added, required fields made
optional; variants may be added. `Conv` is what becomes of the values: the fields of `env₂` that `env₁` has too keep their content, new ones are
`None`. No bytes occur here.
-/
namespace CT.Spec
open CT

def defEvolves : Def → Def → Bool
  | .struct _ fs, .struct _ gs => gs.all fun g =>
      (fs.any fun f => f.id == g.id && f.ty == g.ty && (f.required || !g.required)) || (!g.required && fs.all fun f => f.id != g.id)
  | .union _ us, .union _ xs => us.all fun u => xs.any fun x => x.id == u.id && x.ty == u.ty
  | .enum _, .enum _ => true
  | _, _ => false

/-- Every definition of the first schema has a successor in the second, at the same place. -/
def evolves : List Def → List Def → Bool
  | [], _ => true
  | d :: ds, e :: es => defEvolves d e && evolves ds es
  | _ :: _, [] => false

/-- Types without parts. -/
def isLeaf : Ty → Bool
  | .bool | .i8 | .i16 | .i32 | .i64 | .double | .binary | .string | .encodingSet => true
  | _ => false

mutual
/-- `w` is the value of the schema `env₂` that corresponds to the value `v` of the schema `env₁`. -/
inductive Conv (env₁ env₂ : List Def) : Ty → Val → Val → Prop where
  | leaf (t v) (h : isLeaf t = true) : Conv env₁ env₂ t v v
  | enum (k name x) (hk : env₁[k]? = some (.enum name)) : Conv env₁ env₂ (.named k) (.enum x) (.enum x)
  | list (t) (vs ws : List Val) (hl : ws.length = vs.length)
      (h : ∀ (i : Nat) (v w : Val), vs[i]? = some v → ws[i]? = some w → Conv env₁ env₂ t v w) : Conv env₁ env₂ (.list t) (.list vs) (.list ws)
  | some (t v w) (h : Conv env₁ env₂ t v w) : Conv env₁ env₂ (.option t) (.some v) (.some w)
  | box (t v w) (h : Conv env₁ env₂ t v w) : Conv env₁ env₂ (.box t) (.box v) (.box w)
  | rc (t b v w) (h : Conv env₁ env₂ t v w) : Conv env₁ env₂ (.rc t) (.rc b v) (.rc false w)
  | struct (k name fs name' gs) (vs ws : List Val) (hk : env₁[k]? = some (.struct name fs)) (hk' : env₂[k]? = some (.struct name' gs))
      (hl : ws.length = gs.length)
      (h : ∀ (j : Nat) (g : Field) (w : Val), gs[j]? = some g → ws[j]? = some w → ConvField env₁ env₂ fs vs g w) :
      Conv env₁ env₂ (.named k) (.struct vs) (.struct ws)
  | union (k name us name' xs) (i j : Nat) (u x : Variant) (v w) (hk : env₁[k]? = some (.union name us))
      (hk' : env₂[k]? = some (.union name' xs)) (hu : us[i]? = some u) (hx : xs[j]? = some x) (hid : x.id = u.id) (hty : x.ty = u.ty)
      (h : Conv env₁ env₂ u.ty v w) : Conv env₁ env₂ (.named k) (.union i v) (.union j w)
/-- `w` is the value of field `g` in the successor of a struct with fields `fs` and values `vs`. -/
inductive ConvField (env₁ env₂ : List Def) : List Field → List Val → Field → Val → Prop where
  /-- the field has content: in either schema it may be required or optional -/
  | content (fs vs) (i : Nat) (f g : Field) (v w) (hf : fs[i]? = some f) (hid : f.id = g.id) (hty : f.ty = g.ty)
      (hv : vs[i]? = some (if f.required then v else .some v)) (h : Conv env₁ env₂ g.ty v w) :
      ConvField env₁ env₂ fs vs g (if g.required then w else .some w)
  | unset (fs) (vs : List Val) (i : Nat) (f g : Field) (hf : fs[i]? = some f) (hid : f.id = g.id) (hty : f.ty = g.ty) (hr : f.required = false)
      (hv : vs[i]? = some .none) (hg : g.required = false) : ConvField env₁ env₂ fs vs g .none
  | added (fs vs) (g : Field) (hid : ∀ f ∈ fs, f.id ≠ g.id) (hg : g.required = false) : ConvField env₁ env₂ fs vs g .none
end

/-- Every header any value of the schema can need conveys its id and steps to a larger one. -/
def stepsForward (ov : Bool) (env : List Def) : Bool := stepsWith (fun l i => decide (HeaderOk ov l i) && decide (Ascends l i)) env

/-- The header of field `id` after field `last` in the compact protocol: the difference in the high nibble if it is 1 to 15, otherwise the
type and the id as a zigzag varint. -/
def protoHeader (ft : Byte) (id last : BitVec 16) : Bytes :=
  if 1 ≤ id.toInt - last.toInt ∧ id.toInt - last.toInt ≤ 15 then [BitVec.ofNat 8 (16 * (id.toInt - last.toInt).toNat + ft.toNat)]
  else ft :: varint (zigzag id.toInt)

end CT.Spec
