import Verif.Model.Schema
/-!
# The memory requested by the schema conversion

`field_from_schema_element` calls `Vec::with_capacity(num_children as usize)` for every group (schema.rs:531).
Here the conversion once more, returning in addition the capacities requested, in order, also if it fails.
-/
namespace CT.Schema
open CT CT.Parquet

/-- schema.rs:579-586 with the capacities -/
def childLoopCap (rec : List Element → Nat → List Nat × Except PFail (SField × List Element × Nat)) :
    Nat → List Element → Nat → List Nat × Except PFail (List SField × List Element × Nat)
  | 0, es, index => ([], .ok ([], es, index))
  | n + 1, es, index =>
    match rec es index with
    | (caps, .error x) => (caps, .error x)
    | (caps, .ok (child, es, index)) =>
      match childLoopCap rec n es index with
      | (caps', .error x) => (caps ++ caps', .error x)
      | (caps', .ok (children, es, index)) => (caps ++ caps', .ok (child :: children, es, index))

/-- schema.rs:541-589 `convert_schema_inner` with the capacities; the request is made before the limit of the nesting is tested. -/
def convertInnerCap (cfg : Cfg) : Nat → List Element → Nat → BitVec 8 → BitVec 8 → BitVec 8 → List Nat × Except PFail (SField × List Element × Nat)
  | 0, _, _, _, _, _ => ([], .error .diverge)
  | depth + 1, elements, index, defLevel, repLevel, nesting =>
    match elements with
    | [] => ([], schemaErr "Missing schema elements")
    | root :: remainder =>
      let repetitionType := root.repetitionType.getD 0
      match addU8 cfg defLevel (if repetitionType = 1 then 1 else 0) with
      | .error x => ([], .error x)
      | .ok defLevel =>
        match addU8 cfg repLevel (if repetitionType = 2 then 1 else 0) with
        | .error x => ([], .error x)
        | .ok repLevel =>
          match fieldFromElement root index defLevel repLevel remainder.length with
          | .error x => ([], .error x)
          | .ok (.primitive c p l i, index) => ([], .ok (.primitive c p l i, remainder, index))
          | .ok (.group common _ logicalType, index) =>
            let numChildren := asUsize32 (root.numChildren.getD 0)
            match addU8 cfg nesting 1 with
            | .error x => ([numChildren], .error x)
            | .ok nesting =>
              if 128 ≤ nesting.toNat then ([numChildren], schemaErr "Schema is too deeply nested")
              else
                match childLoopCap (fun es index => convertInnerCap cfg depth es index defLevel repLevel nesting) numChildren remainder index with
                | (caps, .error x) => (numChildren :: caps, .error x)
                | (caps, .ok (children, remainder, index)) => (numChildren :: caps, .ok (.group common children logicalType, remainder, index))

/-- schema.rs:591-611 `convert_schema` with the capacities -/
def convertSchemaCap (cfg : Cfg) (elements : List Element) : List Nat × Except PFail SField :=
  match elements with
  | [] => ([], schemaErr "Empty schema")
  | _ =>
    match convertInnerCap cfg maxDepth elements 0 0 0 0 with
    | (caps, .error x) => (caps, .error x)
    | (caps, .ok (root, remainder, _)) =>
      (caps, if remainder ≠ [] then schemaErr "Trailing schema elements after root group"
        else if root.common.repetition ≠ .Required then schemaErr "Root element must have repetition type required"
        else .ok root)

end CT.Schema
