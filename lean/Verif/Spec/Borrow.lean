import Verif.Spec.Wire
import Verif.Model.Types
/-!
# Specification: where the bytes of binaries and strings come from
-/
namespace CT.Spec
open CT

/-- `bs` is the content of a binary or string somewhere in the value. -/
inductive Leaf : Val → Bytes → Prop where
  | binary (bs) : Leaf (.binary bs) bs
  | string (bs) : Leaf (.string bs) bs
  | list (vs v bs) (hv : v ∈ vs) (h : Leaf v bs) : Leaf (.list vs) bs
  | some (v bs) (h : Leaf v bs) : Leaf (.some v) bs
  | box (v bs) (h : Leaf v bs) : Leaf (.box v) bs
  | rc (b v bs) (h : Leaf v bs) : Leaf (.rc b v) bs
  | struct (vs v bs) (hv : v ∈ vs) (h : Leaf v bs) : Leaf (.struct vs) bs
  | union (i v bs) (h : Leaf v bs) : Leaf (.union i v) bs

/-- `bs` is a contiguous part of `p`, preceded there by its length. -/
def SliceOf (p bs : Bytes) : Prop := ∃ pre len post, p = pre ++ len ++ bs ++ post ∧ VarintVal len bs.length

end CT.Spec
