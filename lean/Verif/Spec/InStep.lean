import Verif.Spec.Decoding
/-!
# Specification: types read and skipped over the same bytes, and schemas with fewer fields
-/
namespace CT.Spec
open CT

/-- Every definition the type mentions is in the set. -/
def tyIn (S : Nat → Bool) : Ty → Bool
  | .list t | .option t | .box t | .rc t => tyIn S t
  | .named k => S k
  | _ => true

/-- A set of enums and structs closed under the types of fields, in which no field is a boolean (also not optional, boxed or shared). -/
def inStep (S : Nat → Bool) (env : List Def) : Bool := (List.range env.length).all fun k => !S k || match env[k]? with
  | some (.struct _ fs) => fs.all fun f => tyIn S f.ty && wireType env f.ty != 2#8
  | some (.enum _) => true
  | _ => false

/-- The elements of a list whose positions are marked. -/
def pick {α : Type} : List Bool → List α → List α
  | true :: ks, x :: xs => x :: pick ks xs
  | false :: ks, _ :: xs => pick ks xs
  | _, _ => []

/-- Which fields of a definition are kept: one mark for each field. -/
abbrev Keep := Nat → List Bool

/-- The schema with only the fields to be kept. -/
def restrict (keep : Keep) (env : List Def) : List Def := env.mapIdx fun k d => match d with
  | .struct name fs => .struct name (pick (keep k) fs)
  | d => d

mutual
/-- What is left of a value of a type when the other fields are left out. -/
def project (keep : Keep) (env : List Def) : Val → Ty → Val
  | .list vs, .list t => .list (projectList keep env vs t)
  | .some v, .option t => .some (project keep env v t)
  | .box v, .box t => .box (project keep env v t)
  | .rc b v, .rc t => .rc b (project keep env v t)
  | .struct vs, .named k => match env[k]? with
    | some (.struct _ fs) => .struct (pick (keep k) (projectFields keep env vs fs))
    | _ => .struct vs
  | .union i v, .named k => match env[k]? with
    | some (.union _ us) => match us[i]? with
      | some u => .union i (project keep env v u.ty)
      | none => .union i v
    | _ => .union i v
  | v, _ => v
/-- `project` on lists -/
def projectList (keep : Keep) (env : List Def) : List Val → Ty → List Val
  | [], _ => []
  | v :: vs, t => project keep env v t :: projectList keep env vs t
/-- `project` on the values of all fields -/
def projectFields (keep : Keep) (env : List Def) : List Val → List Field → List Val
  | v :: vs, f :: fs => project keep env v f.rustTy :: projectFields keep env vs fs
  | vs, _ => vs
end

/-- One mark for each field, the ids of a struct differ, and every field left out has a type of the set `S` and is no boolean. -/
def keepsStep (S : Nat → Bool) (keep : Keep) (env : List Def) : Bool := (List.range env.length).all fun k => match env[k]? with
  | some (.struct _ fs) => (keep k).length == fs.length && decide (fs.map (·.id)).Nodup && (fs.zip (keep k)).all fun (f, kept) =>
      kept || (tyIn S f.ty && wireType env f.ty != 2#8)
  | _ => true

end CT.Spec
