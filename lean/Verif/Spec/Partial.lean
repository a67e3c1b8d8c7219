import Verif.Spec.Decoding
/-!
# Specification: values that were filled only in part
-/
namespace CT.Spec
open CT

/-- Types assigned in one go. -/
def isScalar : Ty → Bool
  | .bool | .i8 | .i16 | .i32 | .i64 | .double | .binary | .string | .encodingSet => true
  | _ => false

/-- Types without optional fields, except inside lists and unions (which are emptied before they are filled). -/
inductive Refillable (env : List Def) : Ty → Prop where
  | scalar (t) (h : isScalar t = true) : Refillable env t
  | list (t) : Refillable env (.list t)
  | box (t) (h : Refillable env t) : Refillable env (.box t)
  | rc (t) (h : Refillable env t) : Refillable env (.rc t)
  | enum (k name) (hk : env[k]? = some (.enum name)) : Refillable env (.named k)
  | union (k name us) (hk : env[k]? = some (.union name us)) : Refillable env (.named k)
  | struct (k name fs) (hk : env[k]? = some (.struct name fs)) (hr : ∀ f ∈ fs, f.required = true) (h : ∀ f ∈ fs, Refillable env f.ty) :
      Refillable env (.named k)

/-- `CutAt env t v v0 w`: `w` is what there is of the value `v` when its encoding ends too early and `v0` was there before: everything that was
complete, nothing of a scalar that was not, and defaults where something had begun. -/
inductive CutAt (env : List Def) : Ty → Val → Val → Val → Prop where
  | scalar (t v v0) (h : isScalar t = true) : CutAt env t v v0 v0
  | enum (k name v v0) (hk : env[k]? = some (.enum name)) : CutAt env (.named k) v v0 v0
  /-- the header of the list is incomplete -/
  | listHeader (t v v0) : CutAt env (.list t) v v0 v0
  /-- element `i` is incomplete -/
  | list (t) (vs : List Val) (v0 i v d w) (hv : vs[i]? = some v) (hd : IsDefault env t d) (h : CutAt env t v d w) :
      CutAt env (.list t) (.list vs) v0 (.list ((vs.take i).map Val.unshare ++ [w]))
  | some (t v d w) (hd : IsDefault env t d) (h : CutAt env t v d w) : CutAt env (.option t) (.some v) .none (.some w)
  | box (t v v0 w) (h : CutAt env t v v0 w) : CutAt env (.box t) (.box v) (.box v0) (.box w)
  | rc (t b v v0 w) (h : CutAt env t v v0 w) : CutAt env (.rc t) (.rc b v) (.rc false v0) (.rc false w)
  /-- the first `i` fields are complete, the header of the next (or the stop field) is not -/
  | structHeader (k name fs) (vs v0s : List Val) (i) (hk : env[k]? = some (.struct name fs)) (hi : i ≤ vs.length) :
      CutAt env (.named k) (.struct vs) (.struct v0s) (.struct ((vs.take i).map Val.unshare ++ v0s.drop i))
  /-- the first `i` fields are complete, and the header of the next -/
  | struct (k name) (fs : List Field) (vs v0s : List Val) (i f v v0 w) (hk : env[k]? = some (.struct name fs)) (hf : fs[i]? = some f)
      (hv : vs[i]? = some v) (h0 : v0s[i]? = some v0) (h : CutAt env f.rustTy v v0 w) :
      CutAt env (.named k) (.struct vs) (.struct v0s) (.struct ((vs.take i).map Val.unshare ++ w :: v0s.drop (i + 1)))
  | unionHeader (k name us v v0) (hk : env[k]? = some (.union name us)) : CutAt env (.named k) v v0 v0
  | union (k name us) (i : Nat) (u : Variant) (v v0 d w) (hk : env[k]? = some (.union name us)) (hu : us[i]? = some u)
      (hd : IsDefault env u.ty d) (h : CutAt env u.ty v d w) : CutAt env (.named k) (.union i v) v0 (.union i w)
  | unionStop (k name us) (i : Nat) (v v0) (hk : env[k]? = some (.union name us)) : CutAt env (.named k) (.union i v) v0 (.union i v.unshare)

end CT.Spec
