import Verif.Model.Schema
/-!
# Specification: what a printed schema shows
-/
namespace CT.Spec
open CT CT.Schema

mutual
/-- The field without what is not printed: field ids, levels and indexes. -/
def shown : SField → SField
  | .group c fs l => .group ⟨c.name, none, c.repetition, 0, 0⟩ (shownAll fs) l
  | .primitive c p l _ => .primitive ⟨c.name, none, c.repetition, 0, 0⟩ p l 0
def shownAll : List SField → List SField
  | [] => []
  | f :: fs => shown f :: shownAll fs
end

mutual
/-- The field without field ids. -/
def withoutIds : SField → SField
  | .group c fs l => .group ⟨c.name, none, c.repetition, c.defLevel, c.repLevel⟩ (withoutIdsAll fs) l
  | .primitive c p l i => .primitive ⟨c.name, none, c.repetition, c.defLevel, c.repLevel⟩ p l i
def withoutIdsAll : List SField → List SField
  | [] => []
  | f :: fs => withoutIds f :: withoutIdsAll fs
end

/-- No line feed, and no opening parenthesis behind a space. -/
def PlainName (name : Bytes) : Prop := (10#8 : Byte) ∉ name ∧ ∀ a b, name ≠ a ++ 32#8 :: 40#8 :: b

mutual
/-- The names of all fields. -/
def fieldNames : SField → List Bytes
  | .group c fs _ => c.name :: fieldNamesAll fs
  | .primitive c _ _ _ => [c.name]
def fieldNamesAll : List SField → List Bytes
  | [] => []
  | f :: fs => fieldNames f ++ fieldNamesAll fs
end

mutual
/-- One line for a leaf, two for a group. -/
def lineCount : SField → Nat
  | .group _ fs _ => lineCountAll fs + 2
  | .primitive .. => 1
def lineCountAll : List SField → Nat
  | [] => 0
  | f :: fs => lineCount f + lineCountAll fs
end

end CT.Spec
