import Verif.Spec.Encoding
/-!
# Specification: schemas and start values

Conditions on definitions and on the value that is read into. All conditions on schemas are decidable.
-/
namespace CT.Spec
open CT

/-- Values a read of type `t` overwrites without complaint: optional fields are unset and reference counted values are
not shared. `Default::default()` gives such a value. -/
inductive Fillable (env : List Def) : Ty → Val → Prop where
  | bool (b) : Fillable env .bool (.bool b)
  | i8 (x) : Fillable env .i8 (.i8 x)
  | i16 (x) : Fillable env .i16 (.i16 x)
  | i32 (x) : Fillable env .i32 (.i32 x)
  | i64 (x) : Fillable env .i64 (.i64 x)
  | double (x) : Fillable env .double (.double x)
  | binary (bs) : Fillable env .binary (.binary bs)
  | string (bs) : Fillable env .string (.string bs)
  | encodingSet (mask) : Fillable env .encodingSet (.encodingSet mask)
  | list (t vs) : Fillable env (.list t) (.list vs)
  | none (t) : Fillable env (.option t) .none
  | box (t v) (h : Fillable env t v) : Fillable env (.box t) (.box v)
  | rc (t v) (h : Fillable env t v) : Fillable env (.rc t) (.rc false v)
  | enum (k name x) (hk : env[k]? = some (.enum name)) : Fillable env (.named k) (.enum x)
  | struct (k name fs vs) (hk : env[k]? = some (.struct name fs)) (hl : vs.length = fs.length)
      (h : ∀ (i : Nat) (f : Field) (v : Val), fs[i]? = some f → vs[i]? = some v → Fillable env f.rustTy v) :
      Fillable env (.named k) (.struct vs)
  | union (k name us i v) (hk : env[k]? = some (.union name us)) : Fillable env (.named k) (.union i v)

mutual
/-- The value is defined everywhere. -/
def defined : Val → Bool
  | .undef => false
  | .list vs => definedList vs
  | .some v => defined v
  | .box v => defined v
  | .rc _ v => defined v
  | .struct vs => definedList vs
  | .union _ v => defined v
  | _ => true
def definedList : List Val → Bool
  | [] => true
  | v :: vs => defined v && definedList vs
end

/-- Every definition has a default value (in Rust: `Default::default()` terminates). -/
def defaultsDefined (env : List Def) : Bool := definedList (defaults env)

def Ty.isOption : Ty → Bool
  | .option _ => true
  | _ => false

/-- Field ids are distinct and no field type is an `Option` itself. -/
def structOk (fs : List Field) : Bool := decide (fs.map (·.id)).Nodup && fs.all fun f => !Ty.isOption f.ty

/-- Variant ids are distinct, no variant holds a bare `bool` or an `Option`. -/
def unionOk (us : List Variant) : Bool :=
  decide (us.map (·.id)).Nodup && us.all fun u => !Ty.isOption u.ty && u.ty != .bool

def defOk : Def → Bool
  | .struct _ fs => structOk fs
  | .union _ us => unionOk us
  | .enum _ => true

/-- Schemas whose values can be told apart on the wire. -/
def schemaOk (env : List Def) : Bool := env.all defOk && defaultsDefined env

instance (ov : Bool) (last id : BitVec 16) : Decidable (HeaderOk ov last id) := by unfold HeaderOk; infer_instance

/-- Every header that can be written for these fields satisfies `ok last id`: `lasts` are the ids that may precede. -/
def fieldSteps (ok : BitVec 16 → BitVec 16 → Bool) : List (BitVec 16) → List Field → Bool
  | _, [] => true
  | lasts, f :: fs =>
    (lasts.all fun l => ok l f.id) && fieldSteps ok (if f.required then [f.id] else f.id :: lasts) fs

def defSteps (ok : BitVec 16 → BitVec 16 → Bool) : Def → Bool
  | .struct _ fs => fieldSteps ok [0#16] fs
  | .union _ us => us.all fun u => ok 0#16 u.id
  | .enum _ => true

/-- Every header any value of the schema can need satisfies `ok`. -/
def stepsWith (ok : BitVec 16 → BitVec 16 → Bool) (env : List Def) : Bool := env.all (defSteps ok)

/-- Every header any value of the schema can need conveys its id. -/
def stepsOk (ov : Bool) (env : List Def) : Bool := stepsWith (fun l i => decide (HeaderOk ov l i)) env

/-- A step to a larger id, starting from a non-negative one. -/
def Ascends (last id : BitVec 16) : Prop := 0 ≤ last.toInt ∧ last.toInt < id.toInt

instance (last id : BitVec 16) : Decidable (Ascends last id) := by unfold Ascends; infer_instance

/-- A step whose header has one of the two forms of the protocol: the difference modulo 16 is not 0 or the long form is
used. -/
def HeaderForm (last id : BitVec 16) : Prop := 15 < (id - last).toInt ∨ (id - last).toNat % 16 ≠ 0

instance (last id : BitVec 16) : Decidable (HeaderForm last id) := by unfold HeaderForm; infer_instance

/-- Every header any value of the schema can need has a form of the protocol. -/
def headersFormed (env : List Def) : Bool := stepsWith (fun l i => decide (HeaderForm l i)) env

/-- Structs list their fields in the order of their ids, and all ids are positive. -/
def ascending (env : List Def) : Bool := stepsWith (fun l i => decide (Ascends l i)) env

/-- `bool` behind any number of `Option`, `Box`, `Rc` or `Arc`. -/
def isBoolish : Ty → Bool
  | .bool => true
  | .option t | .box t | .rc t => isBoolish t
  | _ => false

/-- `bool` behind at least one `Box`, `Rc` or `Arc`. -/
def boxedBool : Ty → Bool
  | .option t => boxedBool t
  | .box t | .rc t => isBoolish t
  | _ => false

def defNoBoxedBool : Def → Bool
  | .struct _ fs => fs.all fun f => !boxedBool f.ty
  | .union _ us => us.all fun u => !boxedBool u.ty
  | .enum _ => true

/-- No field and no variant is a boxed `bool`. -/
def noBoxedBool (env : List Def) : Bool := env.all defNoBoxedBool

end CT.Spec
