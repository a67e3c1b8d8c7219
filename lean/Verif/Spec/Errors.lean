import Verif.Model.Types
/-!
# Specification: the errors a read can report

Written from the documentation of the protocol: what can be wrong with the bytes of a value of a type, and the error for it.
-/
namespace CT.Spec
open CT

/-- What can be wrong with a field that is skipped, or whose header is: an unknown or unexpected type, or a length beyond the limits. -/
inductive SkipError : ThriftError → Prop where
  | type : SkipError .invalidType
  | collection : SkipError .invalidCollectionLen
  | binary (n : Nat) (h : 16777216 < n) (h64 : n < 2 ^ 64) : SkipError (.invalidBinaryLen n)

/-- Types that cannot be read twice into the same place. -/
def Once : Ty → Prop
  | .option _ => True
  | .box t | .rc t => Once t
  | _ => False

/-- The errors about the contents when a value of a type is read. `alloc n`: memory for `n` elements is granted.
The end of the input is not about the contents. -/
inductive CanFail (alloc : Nat → Bool) (env : List Def) : Ty → ThriftError → Prop where
  | binaryLen (n) (h : 16777216 < n) (h64 : n < 2 ^ 64) : CanFail alloc env .binary (.invalidBinaryLen n)
  | stringLen (n) (h : 16777216 < n) (h64 : n < 2 ^ 64) : CanFail alloc env .string (.invalidBinaryLen n)
  | utf8 : CanFail alloc env .string .invalidString
  | setLen : CanFail alloc env .encodingSet .invalidCollectionLen
  | setType : CanFail alloc env .encodingSet .invalidType
  | setNumber : CanFail alloc env .encodingSet .invalidNumber
  | listLen (t) : CanFail alloc env (.list t) .invalidCollectionLen
  | listType (t) : CanFail alloc env (.list t) .invalidType
  | listAlloc (t n) (h : n ≤ 10000000) (ha : alloc n = false) : CanFail alloc env (.list t) .reserveError
  | elem (t e) (h : CanFail alloc env t e) : CanFail alloc env (.list t) e
  | option (t e) (h : CanFail alloc env t e) : CanFail alloc env (.option t) e
  | box (t e) (h : CanFail alloc env t e) : CanFail alloc env (.box t) e
  | rc (t e) (h : CanFail alloc env t e) : CanFail alloc env (.rc t) e
  | skip (k name fs e) (hk : env[k]? = some (.struct name fs)) (h : SkipError e) : CanFail alloc env (.named k) e
  | missing (k name fs) (f : Field) (hk : env[k]? = some (.struct name fs)) (hf : f ∈ fs) (hr : f.required = true) :
      CanFail alloc env (.named k) (.missingField (name ++ "::" ++ f.name))
  | repeated (k name fs) (f : Field) (hk : env[k]? = some (.struct name fs)) (hf : f ∈ fs) (h : Once f.rustTy) :
      CanFail alloc env (.named k) .duplicateField
  | field (k name fs) (f : Field) (e) (hk : env[k]? = some (.struct name fs)) (hf : f ∈ fs) (h : CanFail alloc env f.rustTy e) :
      CanFail alloc env (.named k) e
  | noVariant (k name us) (hk : env[k]? = some (.union name us)) : CanFail alloc env (.named k) .invalidType
  | otherVariant (k name us) (hk : env[k]? = some (.union name us)) : CanFail alloc env (.named k) (.missingField "$struct_name")
  | noStop (k name us) (u : Variant) (hk : env[k]? = some (.union name us)) (hu : u ∈ us) : CanFail alloc env (.named k) .missingStop
  | variant (k name us) (u : Variant) (e) (hk : env[k]? = some (.union name us)) (hu : u ∈ us) (h : CanFail alloc env u.ty e) :
      CanFail alloc env (.named k) e

mutual
/-- Nothing in the value is shared: every `Rc` is the only owner. -/
def Unshared : Val → Prop
  | .list vs => UnsharedAll vs
  | .some v => Unshared v
  | .box v => Unshared v
  | .rc b v => b = false ∧ Unshared v
  | .struct vs => UnsharedAll vs
  | .union _ v => Unshared v
  | _ => True
def UnsharedAll : List Val → Prop
  | [] => True
  | v :: vs => Unshared v ∧ UnsharedAll vs
end

/-- No `Option` anywhere in a type: as all types the macros can be given. -/
def optionFree : Ty → Bool
  | .option _ => false
  | .list t | .box t | .rc t => optionFree t
  | _ => true

def defOptionFree : Def → Bool
  | .struct _ fs => fs.all fun f => optionFree f.ty
  | .union _ us => us.all fun u => optionFree u.ty
  | .enum _ => true

/-- The only `Option`s are those of optional fields. -/
def envOptionFree (env : List Def) : Bool := env.all defOptionFree

/-- No struct has a field, and no union a variant, with this id. -/
def defSpare (id : BitVec 16) : Def → Bool
  | .struct _ fs => fs.all fun f => f.id != id
  | .union _ us => us.all fun u => u.id != id
  | .enum _ => true

end CT.Spec
