import Verif.Model.Parquet
/-!
# What is left of a computation if memory is refused

A computation gives the capacities it requests, in order, and its result. With an allocator `cap` that may refuse, it ends at the first request that is refused.
-/
namespace CT.Spec
open CT CT.Parquet

/-- The requests that are made, and the first refusal. -/
def granted (cap : Nat → Except PFail Unit) : List Nat → List Nat × Option PFail
  | [] => ([], none)
  | k :: ks => match cap k with
    | .error x => ([k], some x)
    | .ok _ => (k :: (granted cap ks).1, (granted cap ks).2)

/-- The computation with this allocator. -/
def withMemory {α : Type} (cap : Nat → Except PFail Unit) (o : List Nat × Except PFail α) : List Nat × Except PFail α :=
  match (granted cap o.1).2 with
  | some x => ((granted cap o.1).1, .error x)
  | none => ((granted cap o.1).1, o.2)

end CT.Spec
