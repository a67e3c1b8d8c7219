import Verif.Model.Programs
/-!
# The benchmarks: runtime/benches/numbers.rs and parquet/benches/filemetadata.rs

What the benchmarks compute, without the measuring: `criterion` calls each closure some number of times. The closures that only read from a clone of their
input do the same each time and appear once; the closure that fetches the page index moves the file, and is called `calls` times. As in Programs,
`.error (.err e)` is the panic of an `unwrap` on `Err(e)`.
-/
namespace CT.Benches
open CT.Parquet

/-- A `Vec<i64>` as a value. -/
def numbersVal (numbers : List (BitVec 64)) : Val := .list (numbers.map .i64)

/-- `&result == &numbers` (numbers.rs:16) -/
def eqNumbers : Val → List (BitVec 64) → Bool
  | .list (.i64 x :: vs), y :: ys => x == y && eqNumbers (.list vs) ys
  | .list [], [] => true
  | _, _ => false

/-- numbers.rs:6-43, for any numbers in place of the 1000 random ones; `deliver` is how `impl Read for &[u8]` hands out the bytes. -/
def numbersBench (cfg : Cfg) (deliver : Bytes → List REvent) (numbers : List (BitVec 64)) : Except Fail Unit :=
  let t : Ty := .list .i64
  match encode [] t (numbersVal numbers) with                                       -- 10-11
  | .error x => .error x
  | .ok data =>
    match readThrift cfg (sliceInput cfg) [] t data with                            -- 15
    | .error x => .error x
    | .ok (result, _) =>
      if eqNumbers result numbers = false then .error .panic                        -- 16
      else
        match readThrift cfg (sliceInput cfg) [] t data with                        -- 21
        | .error x => .error x
        | .ok _ =>
          match (sliceInput cfg).skipField cfg (fieldType [] t) data with            -- 24
          | .error x => .error x
          | .ok _ =>
            match readThrift cfg (readerInput cfg) [] t (deliver data) with         -- 32-33
            | .error x => .error x
            | .ok _ =>
              match (readerInput cfg).skipField cfg (fieldType [] t) (deliver data) with -- 38-39
              | .error x => .error x
              | .ok _ => .ok ()

/-- filemetadata.rs:47-50, the closure of `bench_function("read", …)` for the page index -/
def pageIndexBench (cfg : Cfg) (fmd : Val) : Fd Unit := do
  match ← getPageIndexChunk cfg fmd with
  | none => Fd.fail .panic
  | some (chunk, (a, b)) =>
    if ¬ a < b then Fd.fail .panic
    else if chunk = [] then Fd.fail .panic
    else
      let _ ← Fd.lift (readPageIndex cfg chunk a fmd)
      pure ()

/-- The closure called `calls` times, with the same file. -/
def repeated (x : Fd Unit) : Nat → Fd Unit
  | 0 => pure ()
  | n + 1 => do x; repeated x n

/-- filemetadata.rs:12-54. The file is as `File::open` and `read_to_end` (13-15) leave it; the data read there are not used. -/
def filemetadataBench (cfg : Cfg) (calls : Nat) (file : Except ErrorKind File) : Except PFail Unit :=
  let t := Format.tFileMetaData
  match file with
  | .error k => .error (.err (.io k))
  | .ok f =>
    match getMetadataChunk cfg f with                                               -- 17
    | .error x => .error x
    | .ok (chunk, f) =>
      match readThrift cfg (sliceInput cfg) Format.parquetEnv t chunk with          -- 20
      | .error x => .error (.ofFail x)
      | .ok (fmd, _) =>
        match getPageIndexRange cfg fmd with                                        -- 22
        | .error x => .error x
        | .ok range =>
          match readThrift cfg (sliceInput cfg) Format.parquetEnv t chunk with      -- 27
          | .error x => .error (.ofFail x)
          | .ok _ =>
            match fillThrift cfg (sliceInput cfg) Format.parquetEnv t (dflt Format.parquetEnv t) chunk with -- 31-32
            | .error x => .error (.ofFail x)
            | .ok _ =>
              match (sliceInput cfg).skipField cfg (fieldType Format.parquetEnv t) chunk with -- 36
              | .error x => .error (.ofFail x)
              | .ok _ =>
                match range with                                                    -- 38
                | none => .ok ()
                | some _ =>
                  match getPageIndexRange cfg fmd with                              -- 42
                  | .error x => .error x
                  | .ok _ =>
                    match repeated (pageIndexBench cfg fmd) calls f with            -- 44-50
                    | .error x => .error x
                    | .ok _ => .ok ()

end CT.Benches
