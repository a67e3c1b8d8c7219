import Verif.Model.PqProgram
/-!
# What the results of lib.rs are as values

Reads results of the model as values of the interpreter. Used to state C112.
-/
namespace CT.Pq
open CT CT.Parquet

/-- The outcome of a function as that of a function on the file: the value in `Ok` and the file, or the error or other failure. -/
def asFd (o : FnOut) : Except PFail (V × File) :=
  match resultOf o with
  | .ok (v, _, w) => .ok (v, w.file)
  | .error f => .error f

/-- An `Option<Range<usize>>` -/
def rangeV : Option (Nat × Nat) → V
  | none => .none
  | some (a, b) => .some (.range (some (.base (.usize (BitVec.ofNat 64 a)))) (some (.base (.usize (BitVec.ofNat 64 b)))))

/-- An `Option<(Vec<u8>, Range<usize>)>` -/
def chunkV : Option (Bytes × (Nat × Nat)) → V
  | none => .none
  | some (bs, a, b) => .some (.tuple [.base (.bytes bs), .range (some (.base (.usize (BitVec.ofNat 64 a)))) (some (.base (.usize (BitVec.ofNat 64 b))))])

/-- An `Option<(OffsetIndex, ColumnIndex)>` -/
def pairV : Option (Val × Val) → V
  | none => .none
  | some (a, b) => .some (.tuple [.obj Format.tOffsetIndex a, .obj Format.tColumnIndex b])

/-- The index of a row group. -/
def groupV (rs : List (Option (Val × Val))) : V := .vec (rs.map pairV)

end CT.Pq
