import Verif.Proofs.PqPrint
import Verif.Proofs.PqLib
import Verif.Props.Programs
/-!
# `main` of parquet/src/bin/schema.rs, run
-/
namespace CT.Pq
open CT CT.Parquet CT.Schema CT.Spec CT.Props CT.Programs CT.Props.Programs
open CT.Rs (Name ITy BinOp)

@[pq] theorem opt_unwrapE (v : V) : optMethod (n! "unwrap") [n! "Err"] [v] [] = .error .panic := (rfl)

@[pq] theorem index_FileMetaData : indexOf (n! "FileMetaData") = some 64 := (rfl)

/-! ## The fields of the metadata -/

section
variable (v : BitVec 32) (sch : List Val) (r : BitVec 64) (a b c d e f : Val)
theorem md_version : fieldOf (.obj (.named 64) (.struct [.i32 v, .list sch, .i64 r, a, b, c, d, e, f])) (n! "version") = some (.base (.i32 v)) := (rfl)
theorem md_rows : fieldOf (.obj (.named 64) (.struct [.i32 v, .list sch, .i64 r, a, b, c, d, e, f])) (n! "num_rows") = some (.base (.i64 r)) := (rfl)
theorem md_created : fieldOf (.obj (.named 64) (.struct [.i32 v, .list sch, .i64 r, a, b, c, d, e, f])) (n! "created_by") = some (wrap (.option .string) c) := (rfl)
theorem md_schema : fieldOf (.obj (.named 64) (.struct [.i32 v, .list sch, .i64 r, a, b, c, d, e, f])) (n! "schema") =
    some (.vec (sch.map (wrap Format.tSchemaElement))) := (rfl)
end

theorem wrap_elements {sch : List Val} (h : ∀ w ∈ sch, HasTy Format.parquetEnv w Format.tSchemaElement) :
    sch.map (wrap Format.tSchemaElement) = sch.map (.obj Format.tSchemaElement) := by
  apply List.map_congr_left
  intro w hw
  obtain ⟨vs, rfl, _, _⟩ := typed_struct (show Format.parquetEnv[34]? = some (.struct _ _) from rfl) (h w hw)
  rfl

theorem typed_schema {fmd : Val} (h : HasTy Format.parquetEnv fmd Format.tFileMetaData) {v : BitVec 32} {sch : List Val} {r : BitVec 64} {c : Option Bytes}
    (hf : MetadataFields fmd v sch r c) : ∀ w ∈ sch, HasTy Format.parquetEnv w Format.tSchemaElement := by
  obtain ⟨_, _, _, _, _, rfl⟩ := hf
  cases h with
  | struct _ _ fs vs hk hl h =>
    cases hk
    have h1 := h 1 _ _ rfl rfl
    change HasTy _ _ (.list Format.tSchemaElement) at h1
    cases h1 with
    | list _ _ h1 => exact h1

theorem chunk_length {cfg : Cfg} {f f' : File} {bs : Bytes} (h : getMetadataChunk cfg f = .ok (bs, f')) : bs.length < 2 ^ 32 := by
  simp only [getMetadataChunk, bind, Fd.bind] at h
  rcases h1 : seekBack 8 f with x | ⟨_, f1⟩
  · rw [h1] at h; cases h
  rw [h1] at h
  dsimp only at h
  rcases h2 : readExactF 8 f1 with x | ⟨footer, f2⟩
  · rw [h2] at h; cases h
  rw [h2] at h
  dsimp only at h
  split at h
  · cases h
  generalize hk : leNat (footer.take 4) = k at h
  have hk' : k < 2 ^ 32 := by
    have := leNat_lt (footer.take 4)
    rw [List.length_take, readExactF_length h2, hk] at this
    exact this
  simp only [Fd.bind] at h
  rcases h3 : seekBack (k + 8) f2 with x | ⟨_, f3⟩
  · rw [h3] at h; cases h
  rw [h3] at h
  dsimp only at h
  rcases h4 : Fd.lift (withCapacity cfg k) f3 with x | ⟨_, f4⟩
  · rw [h4] at h; cases h
  rw [h4] at h
  rw [readExactF_length h]
  exact hk'

theorem mapM_length : ∀ {ws : List Val} {es : List Element}, ws.mapM elementOfVal = some es → es.length = ws.length
  | [], es, h => by cases h; rfl
  | w :: ws, es, h => by
    rw [List.mapM_cons] at h
    cases hw : elementOfVal w with
    | none => rw [hw] at h; cases h
    | some e =>
      cases hws : ws.mapM elementOfVal with
      | none => rw [hw, hws] at h; cases h
      | some es' => rw [hw, hws] at h; cases h; rw [List.length_cons, List.length_cons, mapM_length hws]

theorem schema_length {cfg : Cfg} {f f' : File} {bs rest : Bytes} {fmd : Val} (h : getMetadataChunk cfg f = .ok (bs, f'))
    (h' : readThrift cfg (sliceInput cfg) Format.parquetEnv Format.tFileMetaData bs = .ok (fmd, rest)) {v : BitVec 32} {sch : List Val} {r : BitVec 64} {c : Option Bytes}
    (hf : MetadataFields fmd v sch r c) : sch.length < 2 ^ 32 := by
  have h1 := chunk_length h
  have h2 := (C36_weight (cfg := cfg) (env := Format.parquetEnv) (t := Format.tFileMetaData) (v := fmd) (by decide) (by decide)).1 _ _ h'
  obtain ⟨_, _, _, _, _, rfl⟩ := hf
  simp only [weight, weightList] at h2
  omega

section
variable (cfg : Cfg) (cap : Nat → Except PFail Unit)

theorem run_main_missing (w : World) {k : ErrorKind} (h : w.missing = some k) (n : Nat) :
    runFn (eval cfg cap schemaProg (n + 40)) pq_main [] w = .fail .panic w := by
  conv => lhs; unfold runFn
  pq_simp [pq_main, h]

theorem run_main_chunk (w : World) (h : w.missing = none) {x : PFail} (hx : getMetadataChunk cfg w.file = .error x) (n : Nat) :
    runFn (eval cfg cap schemaProg (n + 40)) pq_main [] w = .fail (match x with | .err _ => .panic | x => x) w := by
  conv => lhs; unfold runFn
  pq_simp [pq_main, h, hx]
  cases x <;> pq_simp []

theorem run_main_read (w : World) (h : w.missing = none) {bs : Bytes} {f' : File} (hc : getMetadataChunk cfg w.file = .ok (bs, f')) {x : Fail}
    (hx : readThrift cfg (sliceInput cfg) Format.parquetEnv Format.tFileMetaData bs = .error x) (n : Nat) :
    runFn (eval cfg cap schemaProg (n + 40)) pq_main [] w = .fail (match PFail.ofFail x with | .err _ => .panic | x => x) { w with file := f' } := by
  change readThrift cfg (sliceInput cfg) Format.parquetEnv (.named 64) bs = _ at hx
  conv => lhs; unfold runFn
  pq_simp [pq_main, h, hc, hx]
  cases x <;> pq_simp []

/-- `created_by` -/
theorem wrap_created (c : Option Bytes) : wrap (.option .string) (match c with | some x => .some (.string x) | none => .none) = optV (fun x => .base (.bytes x)) c := by
  cases c <;> rfl

section
variable {w : World} (h : w.missing = none) {bs : Bytes} {f' : File} (hc : getMetadataChunk cfg w.file = .ok (bs, f'))
  {fmd : Val} {rest : Bytes} (hx : readThrift cfg (sliceInput cfg) Format.parquetEnv Format.tFileMetaData bs = .ok (fmd, rest))
  {v : BitVec 32} {sch : List Val} {r : BitVec 64} {c : Option Bytes} (hf : MetadataFields fmd v sch r c) {F n : Nat}
include h hc hx hf

theorem run_main_fail {x : PFail} {caps : List Nat}
    (hv : ∀ N w, F ≤ N → runFn (eval cfg cap schemaProg N) pq_convert_schema [.vec (sch.map (wrap Format.tSchemaElement))] w = .fail x { w with caps := w.caps ++ caps }) (hn : F ≤ n) :
    runFn (eval cfg cap schemaProg (n + 40)) pq_main [] w = .fail x ({ w with file := f', caps := w.caps ++ caps }.print (printHead v r c)) := by
  change readThrift cfg (sliceInput cfg) Format.parquetEnv (.named 64) bs = _ at hx
  obtain ⟨g, keys, orders, alg, key, rfl⟩ := hf
  have hN : ∀ i, F ≤ n + i := fun i => by omega
  conv => lhs; unfold runFn
  cases c with
  | none =>
    pq_simp [pq_main, h, hc, hx, ↓md_version, ↓md_rows, ↓md_created, ↓md_schema, ↓hv, hN, wrap, optV]
    simp only [printHead, World.print, List.append_assoc]
    rfl
  | some c =>
    pq_simp [pq_main, h, hc, hx, ↓md_version, ↓md_rows, ↓md_created, ↓md_schema, ↓hv, hN, wrap, optV]
    simp only [printHead, World.print, List.append_assoc]
    rfl

theorem run_main_err {u : V} {vs : List V} {caps : List Nat}
    (hv : ∀ N w, F ≤ N → runFn (eval cfg cap schemaProg N) pq_convert_schema [.vec (sch.map (wrap Format.tSchemaElement))] w = .ret (.err u) vs { w with caps := w.caps ++ caps }) (hn : F ≤ n) :
    runFn (eval cfg cap schemaProg (n + 40)) pq_main [] w = .fail .panic ({ w with file := f', caps := w.caps ++ caps }.print (printHead v r c)) := by
  change readThrift cfg (sliceInput cfg) Format.parquetEnv (.named 64) bs = _ at hx
  obtain ⟨g, keys, orders, alg, key, rfl⟩ := hf
  have hN : ∀ i, F ≤ n + i := fun i => by omega
  conv => lhs; unfold runFn
  cases c with
  | none =>
    pq_simp [pq_main, h, hc, hx, ↓md_version, ↓md_rows, ↓md_created, ↓md_schema, ↓hv, hN, wrap, optV]
    simp only [printHead, World.print, List.append_assoc]
    rfl
  | some c =>
    pq_simp [pq_main, h, hc, hx, ↓md_version, ↓md_rows, ↓md_created, ↓md_schema, ↓hv, hN, wrap, optV]
    simp only [printHead, World.print, List.append_assoc]
    rfl

theorem run_main_ok {f : SField} {caps : List Nat}
    (hv : ∀ N w, F ≤ N → runFn (eval cfg cap schemaProg N) pq_convert_schema [.vec (sch.map (wrap Format.tSchemaElement))] w = .ret (.ok (fieldV f)) [.vec (sch.map (wrap Format.tSchemaElement))] { w with caps := w.caps ++ caps })
    (hn : F ≤ n) (hh : height f ≤ 127) (hn' : 60 * 128 ≤ n) :
    runFn (eval cfg cap schemaProg (n + 40)) pq_main [] w = .ret .unit [] ({ w with file := f', caps := w.caps ++ caps }.print (printHead v r c ++ prettyPrint f 0)) := by
  change readThrift cfg (sliceInput cfg) Format.parquetEnv (.named 64) bs = _ at hx
  obtain ⟨g, keys, orders, alg, key, rfl⟩ := hf
  have hN : ∀ i, F ≤ n + i := fun i => by omega
  have hlit : ∀ ev w, runFn ev pq_pretty_print_schema [fieldV f, .base (.lit 0)] w = runFn ev pq_pretty_print_schema [fieldV f, .base (.usize 0#64)] w := fun _ _ => rfl
  have hp := fun N w (h : 60 * (height f + 1) ≤ N) => (hlit (eval cfg cap schemaProg N) w).trans (run_pretty cfg cap f 0#64 N w h (by rw [show BitVec.toNat 0#64 = 0 from rfl]; omega))
  have hN' : ∀ i, 60 * (height f + 1) ≤ n + i := fun i => by omega
  conv => lhs; unfold runFn
  cases c with
  | none =>
    pq_simp [pq_main, h, hc, hx, ↓md_version, ↓md_rows, ↓md_created, ↓md_schema, ↓hv, hN, ↓hp, hN', wrap, optV]
    simp only [printHead, World.print, List.append_assoc, List.cons_append, List.nil_append]
    rfl
  | some c =>
    pq_simp [pq_main, h, hc, hx, ↓md_version, ↓md_rows, ↓md_created, ↓md_schema, ↓hv, hN, ↓hp, hN', wrap, optV]
    simp only [printHead, World.print, List.append_assoc, List.cons_append, List.nil_append]
    rfl
end

end

end CT.Pq
