import Verif.Spec.Schema
/-!
# Specification: the values a read can return, and what they weigh
-/
namespace CT.Spec
open CT

/-- The definitions a type refers to exist. -/
def tyClosed (env : List Def) : Ty → Bool
  | .list t | .option t | .box t | .rc t => tyClosed env t
  | .named k => decide (k < env.length)
  | _ => true

def defClosed (env : List Def) : Def → Bool
  | .struct _ fs => fs.all fun f => tyClosed env f.ty
  | .union _ us => us.all fun u => tyClosed env u.ty
  | .enum _ => true

/-- The definitions all types of the schema refer to exist. -/
def envClosed (env : List Def) : Bool := env.all (defClosed env)

/-- Values that are well typed, unshared, within the limits of the format, and hold something wherever a value is required. -/
inductive Clean (env : List Def) : Ty → Val → Prop where
  | bool (b) : Clean env .bool (.bool b)
  | i8 (x) : Clean env .i8 (.i8 x)
  | i16 (x) : Clean env .i16 (.i16 x)
  | i32 (x) : Clean env .i32 (.i32 x)
  | i64 (x) : Clean env .i64 (.i64 x)
  | double (x) : Clean env .double (.double x)
  | binary (bs) (h : bs.length ≤ 16777216) : Clean env .binary (.binary bs)
  | string (bs) (h : bs.length ≤ 16777216) (hu : utf8Valid bs = true) : Clean env .string (.string bs)
  | encodingSet (mask) (h : mask.toNat < 2 ^ 31) : Clean env .encodingSet (.encodingSet mask)
  | list (t vs) (hl : vs.length ≤ 10000000) (h : ∀ v ∈ vs, Clean env t v) : Clean env (.list t) (.list vs)
  | some (t v) (h : Clean env t v) : Clean env (.option t) (.some v)
  | box (t v) (h : Clean env t v) : Clean env (.box t) (.box v)
  | rc (t v) (h : Clean env t v) : Clean env (.rc t) (.rc false v)
  | enum (k name x) (hk : env[k]? = some (.enum name)) : Clean env (.named k) (.enum x)
  | struct (k name fs vs) (hk : env[k]? = some (.struct name fs)) (hl : vs.length = fs.length)
      (h : ∀ (i : Nat) (f : Field) (v : Val), fs[i]? = some f → vs[i]? = some v → ¬ (f.required = false ∧ v = .none) →
        Clean env f.rustTy v) :
      Clean env (.named k) (.struct vs)
  | union (k name us) (i : Nat) (u : Variant) (v) (hk : env[k]? = some (.union name us)) (hu : us[i]? = some u)
      (h : Clean env u.ty v) : Clean env (.named k) (.union i v)

/-- Values to read into: whatever is there in an optional field is `Clean`, everything else is only of the right shape. -/
inductive Seed (env : List Def) : Ty → Val → Prop where
  | bool (v) : Seed env .bool v
  | i8 (v) : Seed env .i8 v
  | i16 (v) : Seed env .i16 v
  | i32 (v) : Seed env .i32 v
  | i64 (v) : Seed env .i64 v
  | double (v) : Seed env .double v
  | binary (v) : Seed env .binary v
  | string (v) : Seed env .string v
  | encodingSet (v) : Seed env .encodingSet v
  | list (t v) : Seed env (.list t) v
  | none (t) : Seed env (.option t) .none
  | some (t v) (h : Clean env t v) : Seed env (.option t) (.some v)
  | box (t v) (h : Seed env t v) : Seed env (.box t) (.box v)
  | rc (t b v) (h : Seed env t v) : Seed env (.rc t) (.rc b v)
  | enum (k name x) (hk : env[k]? = some (.enum name)) : Seed env (.named k) (.enum x)
  | struct (k name fs vs) (hk : env[k]? = some (.struct name fs)) (hl : vs.length = fs.length)
      (h : ∀ (i : Nat) (f : Field) (v : Val), fs[i]? = some f → vs[i]? = some v → Seed env f.rustTy v) :
      Seed env (.named k) (.struct vs)
  | union (k name us i v) (hk : env[k]? = some (.union name us)) : Seed env (.named k) (.union i v)

mutual
/-- Number of list elements and of bytes of binaries and strings in a value. -/
def weight : Val → Nat
  | .binary bs => bs.length
  | .string bs => bs.length
  | .list vs => vs.length + weightList vs
  | .some v => weight v
  | .box v => weight v
  | .rc _ v => weight v
  | .struct vs => weightList vs
  | .union _ v => weight v
  | _ => 0
def weightList : List Val → Nat
  | [] => 0
  | v :: vs => weight v + weightList vs
end

end CT.Spec
