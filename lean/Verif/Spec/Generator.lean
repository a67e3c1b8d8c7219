import Verif.Model.Generator
/-!
# Specification: what the generator should compute
-/
namespace CT.Gen.Spec
open CT.Gen

/-! ## Numbers -/

/-- The value of digits, most significant first. -/
def ofDigits (radix : Nat) (ds : List Nat) : Nat := ds.foldl (fun acc d => acc * radix + d) 0

/-- The character of a digit. -/
def digitChar (d : Nat) : Char := if d < 10 then Char.ofNat (48 + d) else Char.ofNat (87 + d)

/-- The optional sign. -/
inductive Sign where
  | absent | plus | minus
deriving DecidableEq

def Sign.text : Sign → List Char
  | .absent => []
  | .plus => ['+']
  | .minus => ['-']

def Sign.apply : Sign → Nat → Int
  | .minus, n => -n
  | _, n => n

/-! ## Lifetimes -/

/-- The type mentions a string or binary, directly or in a field of a struct or union reached from it. -/
inductive Borrows (document : Document) : FieldType → Prop
  | string : Borrows document (.base .STRING)
  | binary : Borrows document (.base .BINARY)
  | list (t) (h : Borrows document t) : Borrows document (.list t)
  | set (t) (h : Borrows document t) : Borrows document (.set t)
  | key (k v) (h : Borrows document k) : Borrows document (.map k v)
  | value (k v) (h : Borrows document v) : Borrows document (.map k v)
  | struct (name fs) (k f) (hd : get? name document = some (.struct k fs)) (hf : f ∈ fs) (h : Borrows document f.2.type) : Borrows document (.named name)
  | union (name fs) (k f) (hd : get? name document = some (.union k fs)) (hf : f ∈ fs) (h : Borrows document f.2.type) : Borrows document (.named name)

/-- The names in a type. -/
inductive Names : FieldType → String → Prop
  | named (n) : Names (.named n) n
  | list (t n) (h : Names t n) : Names (.list t) n
  | set (t n) (h : Names t n) : Names (.set t) n
  | key (k v n) (h : Names k n) : Names (.map k v) n
  | value (k v n) (h : Names v n) : Names (.map k v) n

/-- A field of the struct or union `a` names `b`. -/
def Refers (document : Document) (a b : String) : Prop := ∃ f ∈ fieldsOf document a, Names f.type b

/-- One or more steps. -/
inductive Path (document : Document) : String → String → Prop
  | one (a b) (h : Refers document a b) : Path document a b
  | step (a b c) (h : Refers document a b) (hs : Path document b c) : Path document a c

end CT.Gen.Spec
