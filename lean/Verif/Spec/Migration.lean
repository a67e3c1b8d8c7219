import Verif.Spec.Evolution
/-!
# Specification: moving to another schema

`migrates ρ env₁ env₂`: data of the schema `env₁` can be read with `env₂`, where `ρ` says which definition of `env₂` stands for which of `env₁`. Beyond
what `evolves` allows, definitions may have other places and names, `Box`, `Rc` and `Arc` may be added or removed anywhere, and a list of enum values may have become
an `EncodingSet`. `Mig` is what becomes of the values. No bytes occur here.
-/
namespace CT.Spec
open CT

/-- The type without `Box`, `Rc` and `Arc`. -/
def bare : Ty → Ty
  | .box t | .rc t => bare t
  | .list t => .list (bare t)
  | .option t => .option (bare t)
  | t => t

/-- Whether a type (without `Box`) is an enum of the schema. -/
def isEnumTy (env : List Def) : Ty → Bool
  | .named k => match env[k]? with
    | some (.enum _) => true
    | _ => false
  | _ => false

/-- The bare type `t` of `env₁` and the bare type `u` of `env₂` have the same encoding. -/
def sameBare (ρ : Nat → Nat) (env₁ : List Def) : Ty → Ty → Bool
  | .list t, .list u => sameBare ρ env₁ t u
  | .list t, .encodingSet => isEnumTy env₁ t
  | .option t, .option u => sameBare ρ env₁ t u
  | .named k, .named j => j == ρ k
  | t, u => isLeaf t && t == u

/-- The type `t` of `env₁` and the type `u` of `env₂` have the same encoding. -/
def tyTo (ρ : Nat → Nat) (env₁ : List Def) (t u : Ty) : Bool := sameBare ρ env₁ (bare t) (bare u)

def defMigrates (ρ : Nat → Nat) (env₁ : List Def) : Def → Def → Bool
  | .struct _ fs, .struct _ gs =>
      (gs.all fun g => (fs.any fun f => f.id == g.id && (f.required || !g.required)) || (!g.required && fs.all fun f => f.id != g.id)) &&
      fs.all fun f => gs.all fun g => f.id != g.id || tyTo ρ env₁ f.ty g.ty
  | .union _ us, .union _ xs => us.all fun u => xs.any fun x => x.id == u.id && tyTo ρ env₁ u.ty x.ty
  | .enum _, .enum _ => true
  | _, _ => false

/-- Every definition of the first schema has a successor in the second. -/
def migrates (ρ : Nat → Nat) (env₁ env₂ : List Def) : Bool :=
  (List.range env₁.length).all fun k =>
    match env₁[k]?, env₂[ρ k]? with
    | some d, some e => defMigrates ρ env₁ d e
    | _, _ => false

/-- `mask` has exactly the members `xs`, and these are in 0..30. -/
def SetOf (mask : BitVec 32) (xs : List (BitVec 32)) : Prop :=
  (∀ x ∈ xs, 0 ≤ x.toInt ∧ x.toInt ≤ 30) ∧ ∀ i : Nat, i ∈ members mask ↔ ∃ x ∈ xs, x.toInt = i

/-- `v` is the enum value `x`, possibly behind `Box`, `Rc` or `Arc`. -/
inductive EnumVal : Val → BitVec 32 → Prop where
  | enum (x) : EnumVal (.enum x) x
  | box (v x) (h : EnumVal v x) : EnumVal (.box v) x
  | rc (b v x) (h : EnumVal v x) : EnumVal (.rc b v) x

mutual
/-- `w` is the value of type `u` in the schema `env₂` that corresponds to the value `v` of type `t` in the schema `env₁`. -/
inductive Mig (ρ : Nat → Nat) (env₁ env₂ : List Def) : Ty → Ty → Val → Val → Prop where
  | leaf (t v) (h : isLeaf t = true) : Mig ρ env₁ env₂ t t v v
  | enum (k name x) (hk : env₁[k]? = some (.enum name)) : Mig ρ env₁ env₂ (.named k) (.named (ρ k)) (.enum x) (.enum x)
  | list (t u) (vs ws : List Val) (hl : ws.length = vs.length)
      (h : ∀ (i : Nat) (v w : Val), vs[i]? = some v → ws[i]? = some w → Mig ρ env₁ env₂ t u v w) :
      Mig ρ env₁ env₂ (.list t) (.list u) (.list vs) (.list ws)
  | encodings (t mask) (vs : List Val) (xs : List (BitVec 32)) (ht : isEnumTy env₁ (bare t) = true) (hl : xs.length = vs.length)
      (h : ∀ (i : Nat) (v : Val) (x : BitVec 32), vs[i]? = some v → xs[i]? = some x → EnumVal v x) (hm : SetOf mask xs) :
      Mig ρ env₁ env₂ (.list t) .encodingSet (.list vs) (.encodingSet mask)
  | some (t u v w) (h : Mig ρ env₁ env₂ t u v w) : Mig ρ env₁ env₂ (.option t) (.option u) (.some v) (.some w)
  | unbox (t u v w) (h : Mig ρ env₁ env₂ t u v w) : Mig ρ env₁ env₂ (.box t) u (.box v) w
  | unrc (t u b v w) (h : Mig ρ env₁ env₂ t u v w) : Mig ρ env₁ env₂ (.rc t) u (.rc b v) w
  | box (t u v w) (h : Mig ρ env₁ env₂ t u v w) : Mig ρ env₁ env₂ t (.box u) v (.box w)
  | rc (t u v w) (h : Mig ρ env₁ env₂ t u v w) : Mig ρ env₁ env₂ t (.rc u) v (.rc false w)
  | struct (k name fs name' gs) (vs ws : List Val) (hk : env₁[k]? = some (.struct name fs)) (hk' : env₂[ρ k]? = some (.struct name' gs))
      (hl : ws.length = gs.length)
      (h : ∀ (j : Nat) (g : Field) (w : Val), gs[j]? = some g → ws[j]? = some w → MigField ρ env₁ env₂ fs vs g w) :
      Mig ρ env₁ env₂ (.named k) (.named (ρ k)) (.struct vs) (.struct ws)
  | union (k name us name' xs) (i j : Nat) (u x : Variant) (v w) (hk : env₁[k]? = some (.union name us))
      (hk' : env₂[ρ k]? = some (.union name' xs)) (hu : us[i]? = some u) (hx : xs[j]? = some x) (hid : x.id = u.id)
      (h : Mig ρ env₁ env₂ u.ty x.ty v w) : Mig ρ env₁ env₂ (.named k) (.named (ρ k)) (.union i v) (.union j w)
/-- `w` is the value of field `g` in the successor of a struct with fields `fs` and values `vs`. -/
inductive MigField (ρ : Nat → Nat) (env₁ env₂ : List Def) : List Field → List Val → Field → Val → Prop where
  | content (fs vs) (i : Nat) (f g : Field) (v w) (hf : fs[i]? = some f) (hid : f.id = g.id)
      (hv : vs[i]? = some (if f.required then v else .some v)) (h : Mig ρ env₁ env₂ f.ty g.ty v w) :
      MigField ρ env₁ env₂ fs vs g (if g.required then w else .some w)
  | unset (fs) (vs : List Val) (i : Nat) (f g : Field) (hf : fs[i]? = some f) (hid : f.id = g.id) (hr : f.required = false)
      (hv : vs[i]? = some .none) (hg : g.required = false) : MigField ρ env₁ env₂ fs vs g .none
  | added (fs vs) (g : Field) (hid : ∀ f ∈ fs, f.id ≠ g.id) (hg : g.required = false) : MigField ρ env₁ env₂ fs vs g .none
end

mutual
/-- All enum values that are elements of lists are in 0..30. -/
def smallEnums : Val → Prop
  | .list vs => smallEnumsList vs
  | .some v => smallEnums v
  | .box v => smallEnums v
  | .rc _ v => smallEnums v
  | .struct vs => smallEnumsAll vs
  | .union _ v => smallEnums v
  | _ => True
/-- the same for the elements of a list -/
def smallEnumsList : List Val → Prop
  | [] => True
  | v :: vs => smallEnums v ∧ (∀ x, EnumVal v x → 0 ≤ x.toInt ∧ x.toInt ≤ 30) ∧ smallEnumsList vs
/-- the same for the fields of a struct -/
def smallEnumsAll : List Val → Prop
  | [] => True
  | v :: vs => smallEnums v ∧ smallEnumsAll vs
end

end CT.Spec
