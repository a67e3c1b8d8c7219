import Verif.Proofs.PqMain
import Verif.Proofs.PqParse
import Verif.Model.DumpText
/-!
# `main` of parquet/examples/dump.rs, run
-/
namespace CT.Pq
open CT CT.Parquet CT.Schema CT.Spec CT.Props CT.Programs CT.Props.Programs
open CT.Rs (Name ITy BinOp)

theorem dump_lines : dumpLines.all lineOk = true := by kernel_rfl
theorem dump_items : (trees [] [] (dumpLines.flatMap lexLine ++ lexLine (text! "}"))).bind (parseItems 200) = some dumpItems := by kernel_rfl

theorem parse_dump : parseText dumpText = some dumpItems := (parse_lines dump_lines lib_last).trans dump_items

/-- The program of dump.rs. -/
def dumpProg (s : DebugStd) : Prog := { progOf dumpItems with pretty := prettyOf s }

theorem runPretty_eq (s : DebugStd) (cfg : Cfg) (cap : Nat → Except PFail Unit) (n : Nat) (w : World) :
    runPretty s cfg cap dumpText (n! "main") n [] w = runFn (eval cfg cap (dumpProg s) n) dump_main [] w := by
  unfold runPretty
  rw [parse_dump]
  rfl

section
variable (s : DebugStd)
@[pq] theorem du_chunk : assoc (dumpProg s).fns (n! "get_metadata_chunk") = none := (rfl)
@[pq] theorem du_fn_Ok : assoc (dumpProg s).fns (n! "Ok") = none := (rfl)
@[pq] theorem du_fn_Err : assoc (dumpProg s).fns (n! "Err") = none := (rfl)
@[pq] theorem du_consts (x : Name) : assoc (dumpProg s).consts x = none := (rfl)
@[pq] theorem du_impls (x f t : Name) : implFn x f t (dumpProg s).impls = none := (rfl)
@[pq] theorem du_pretty : (dumpProg s).pretty = prettyOf s := (rfl)
@[pq] theorem du_format : formatOf (n! "{:#?}") = some [.pretty] := (rfl)
end

variable (s : DebugStd) (cfg : Cfg) (cap : Nat → Except PFail Unit)

theorem dump_missing (w : World) {k : ErrorKind} (h : w.missing = some k) (n : Nat) :
    runFn (eval cfg cap (dumpProg s) (n + 40)) dump_main [] w = .fail .panic w := by
  conv => lhs; unfold runFn
  pq_simp [dump_main, h]

theorem dump_chunk (w : World) (h : w.missing = none) {x : PFail} (hx : getMetadataChunk cfg w.file = .error x) (n : Nat) :
    runFn (eval cfg cap (dumpProg s) (n + 40)) dump_main [] w = .fail (match x with | .err _ => .panic | x => x) w := by
  conv => lhs; unfold runFn
  pq_simp [dump_main, h, hx]
  cases x <;> pq_simp []

theorem dump_read (w : World) (h : w.missing = none) {bs : Bytes} {f' : File} (hc : getMetadataChunk cfg w.file = .ok (bs, f')) {x : Fail}
    (hx : readThrift cfg (sliceInput cfg) Format.parquetEnv Format.tFileMetaData bs = .error x) (n : Nat) :
    runFn (eval cfg cap (dumpProg s) (n + 40)) dump_main [] w = .fail (match PFail.ofFail x with | .err _ => .panic | x => x) { w with file := f' } := by
  change readThrift cfg (sliceInput cfg) Format.parquetEnv (.named 64) bs = _ at hx
  conv => lhs; unfold runFn
  pq_simp [dump_main, h, hc, hx]
  cases x <;> pq_simp []

theorem dump_ok (w : World) (h : w.missing = none) {bs : Bytes} {f' : File} (hc : getMetadataChunk cfg w.file = .ok (bs, f')) {fmd : Val} {rest : Bytes}
    (hx : readThrift cfg (sliceInput cfg) Format.parquetEnv Format.tFileMetaData bs = .ok (fmd, rest)) (n : Nat) :
    runFn (eval cfg cap (dumpProg s) (n + 40)) dump_main [] w =
      .ret .unit [] ({ w with file := f' }.print (debugVal s Format.parquetEnv true Format.tFileMetaData fmd ++ [10#8])) := by
  obtain ⟨vs, rfl, _, _⟩ := typed_struct (show Format.parquetEnv[64]? = some (.struct _ _) from rfl)
    (readFile_typed (cfg := cfg) (a := .ok w.file) (v := fmd) (by simp only [readFile, hc, hx]))
  change readThrift cfg (sliceInput cfg) Format.parquetEnv (.named 64) bs = _ at hx
  conv => lhs; unfold runFn
  pq_simp [dump_main, h, hc, hx, prettyOf]
  simp only [World.print, List.append_assoc]
  rfl

end CT.Pq
