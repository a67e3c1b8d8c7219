import Verif.Proofs.DumpRun
import Verif.Props.Text
import Verif.Props.SchemaRefused
/-!
# C119: the program parquet/examples/dump.rs prints what the model says

The text of dump.rs is parsed as Rust and run, on any file.
-/
namespace CT.Props
open CT CT.Parquet CT.Schema CT.Pq CT.Spec CT.Programs CT.Props.Programs

/-- C119: the file parses, and `dumpItems` is what it parses to. -/
theorem C119_text : parseText dumpText = some dumpItems := parse_dump

/-- C119: `main`, dump.rs:6-13, on every file, in every build: it prints what the model prints and ends as the model does, where an error that is unwrapped is a panic. -/
theorem C119_main (s : DebugStd) (cfg : Cfg) (cap : Nat → Except PFail Unit) (w : World) (n : Nat) (hn : 40 ≤ n) :
    asRun (runPretty s cfg cap dumpText (n! "main") n [] w) = unwrapped w.out (dumpMain s cfg w.opened) ∧
    (runPretty s cfg cap dumpText (n! "main") n [] w).world.caps = w.caps := by
  obtain ⟨m, rfl⟩ := Nat.exists_eq_add_of_le hn
  rw [runPretty_eq, Nat.add_comm 40 m]
  cases hk : w.missing with
  | some k =>
    rw [dump_missing s cfg cap w hk, World.opened, hk, asRun, unwrapped]
    simp only [dumpMain, readFile, List.append_nil, FnOut.world, and_self]
  | none =>
    rw [World.opened, hk]
    rcases hc : getMetadataChunk cfg w.file with x | ⟨bs, f'⟩
    · rw [dump_chunk s cfg cap w hk hc, asRun, unwrapped]
      simp only [dumpMain, readFile, hc, List.append_nil, FnOut.world]
      cases x <;> exact ⟨rfl, trivial⟩
    · rcases hx : readThrift cfg (sliceInput cfg) Format.parquetEnv Format.tFileMetaData bs with x | ⟨fmd, rest⟩
      · rw [dump_read s cfg cap w hk hc hx, asRun, unwrapped]
        simp only [dumpMain, readFile, hc, hx, List.append_nil, FnOut.world]
        cases x <;> exact ⟨rfl, trivial⟩
      · rw [dump_ok s cfg cap w hk hc hx]
        simp only [dumpMain, readFile, hc, hx]
        exact ⟨rfl, rfl⟩

set_option maxRecDepth 100000 in
/-- The file of C99 with one column, and one that cannot be opened. -/
example : let cfg : Cfg := ⟨false, false, fun _ => true⟩
    (asRun (runPretty plainStd cfg (fun _ => .error .abort) dumpText (n! "main") 40 [] ⟨tinyFile (tinySchema 2), [], [], none⟩)).out.take 15 = ascii! "FileMetaData {\n" ∧
    asRun (runPretty plainStd cfg (fun _ => .ok ()) dumpText (n! "main") 40 [] ⟨⟨[], 0, [], []⟩, [], [], some (.other 2)⟩) = ⟨[], .error .panic⟩ := by
  intro cfg
  rw [(C119_main _ cfg _ _ 40 (Nat.le_refl _)).1, (C119_main _ cfg _ _ 40 (Nat.le_refl _)).1]
  exact ⟨rfl, rfl⟩

/-- C119: so, without overflow checks, with memory and on a file whose reads do not fail, the text itself does what C103 says: without metadata in the file it panics and has printed nothing; with metadata it prints
their lines as the specification of `{:#?}` gives them and returns. -/
theorem C119_dump {cfg : Cfg} (hov : cfg.overflowChecks = false) (hs : cfg.sse2 = false) (ha : ∀ n, cfg.alloc n = true) (cap : Nat → Except PFail Unit) {f : File} (hq : Quiet f) {s : DebugStd} (hd : StdOk s) (n : Nat) (hn : 40 ≤ n) :
    ((¬ ∃ fmd, HoldsMetadata f.data fmd) ∧ asRun (runPretty s cfg cap dumpText (n! "main") n [] ⟨f, [], [], none⟩) = ⟨[], .error .panic⟩) ∨
    ∃ fmd x, HoldsMetadata f.data fmd ∧ ValDoc s Format.parquetEnv Format.tFileMetaData fmd x ∧
      asRun (runPretty s cfg cap dumpText (n! "main") n [] ⟨f, [], [], none⟩) = ⟨Spec.printed 4 (x.lines 0), .ok ()⟩ := by
  have hm := (C119_main s cfg cap ⟨f, [], [], none⟩ n hn).1
  change _ = unwrapped [] (dumpMain s cfg (.ok f)) at hm
  rcases C103_dump hov hs ha hq hd with ⟨h, e, he⟩ | ⟨fmd, x, h1, h2, h3⟩
  · rw [he] at hm
    exact .inl ⟨h, hm⟩
  · rw [h3] at hm
    exact .inr ⟨fmd, x, h1, h2, hm⟩

set_option maxRecDepth 100000 in
/-- The hypotheses hold for the file of C99 with one column, and there the second case is the one. -/
example : ∃ fmd x, HoldsMetadata (tinyFile (tinySchema 2)).data fmd ∧ ValDoc plainStd Format.parquetEnv Format.tFileMetaData fmd x ∧
    asRun (runPretty plainStd ⟨false, false, fun _ => true⟩ (fun _ => .ok ()) dumpText (n! "main") 40 [] ⟨tinyFile (tinySchema 2), [], [], none⟩) = ⟨Spec.printed 4 (x.lines 0), .ok ()⟩ := by
  rcases C119_dump (cfg := ⟨false, false, fun _ => true⟩) rfl rfl (fun _ => rfl) (fun _ => .ok ()) (f := tinyFile (tinySchema 2)) ⟨by simp [tinyFile], by simp [tinyFile]⟩ plainStd_ok 40 (Nat.le_refl _) with ⟨_, h⟩ | h
  · rw [(C119_main _ _ _ _ 40 (Nat.le_refl _)).1] at h
    exact absurd (congrArg Run.exit h) (by intro h; cases (show (Except.ok () : Except PFail Unit) = .error .panic from h))
  · exact h

/-- C119: what the text prints determines the metadata, but for which NaN a number is; also across builds. -/
theorem C119_shows {s : DebugStd} (hs : StdOk s) {cfg cfg' : Cfg} (cap cap' : Nat → Except PFail Unit) {f f' : File} {m m' : Option ErrorKind} {n n' : Nat} (hn : 40 ≤ n) (hn' : 40 ≤ n') {out : Bytes}
    (h : asRun (runPretty s cfg cap dumpText (n! "main") n [] ⟨f, [], [], m⟩) = ⟨out, .ok ()⟩) (h' : asRun (runPretty s cfg' cap' dumpText (n! "main") n' [] ⟨f', [], [], m'⟩) = ⟨out, .ok ()⟩) :
    ∃ v w, readFile cfg (.ok f) = .ok v ∧ readFile cfg' (.ok f') = .ok w ∧ visible v = visible w := by
  have key : ∀ {cfg : Cfg} {cap : Nat → Except PFail Unit} {f : File} {m : Option ErrorKind} {n : Nat}, 40 ≤ n → asRun (runPretty s cfg cap dumpText (n! "main") n [] ⟨f, [], [], m⟩) = ⟨out, .ok ()⟩ →
      dumpMain s cfg (.ok f) = ⟨out, .ok ()⟩ := by
    intro cfg cap f m n hn h
    have e := (C119_main s cfg cap ⟨f, [], [], m⟩ n hn).1
    rw [h] at e
    cases m with
    | some k =>
      change _ = unwrapped [] (dumpMain s cfg (.error k)) at e
      simp only [dumpMain, readFile, unwrapped] at e
      cases e
    | none =>
      change _ = unwrapped [] (dumpMain s cfg (.ok f)) at e
      generalize dumpMain s cfg (.ok f) = r at e
      obtain ⟨o, x⟩ := r
      simp only [unwrapped, List.nil_append, Run.mk.injEq] at e
      rcases x with x | u
      · cases x <;> cases e.2
      · rw [e.1]
  have e1 := key hn h
  have e2 := key hn' h'
  exact C99_dump_shows hs (a := .ok f) (b := .ok f') (by rw [e1]) (by rw [e2]) (by rw [e1, e2])

set_option maxRecDepth 100000 in
/-- The hypotheses hold for the file of C99, in builds with and without SSE2 and overflow checks. -/
example (c c' : Bool) : ∃ out, asRun (runPretty plainStd ⟨c, false, fun _ => true⟩ (fun _ => .ok ()) dumpText (n! "main") 40 [] ⟨tinyFile (tinySchema 2), [], [], none⟩) = ⟨out, .ok ()⟩ ∧
    asRun (runPretty plainStd ⟨c', true, fun _ => true⟩ (fun _ => .ok ()) dumpText (n! "main") 50 [] ⟨tinyFile (tinySchema 2), [], [], none⟩) = ⟨out, .ok ()⟩ := by
  refine ⟨(dumpMain plainStd ⟨false, false, fun _ => true⟩ (.ok (tinyFile (tinySchema 2)))).out, (C119_main _ _ _ _ 40 (by decide)).1.trans ?_, (C119_main _ _ _ _ 50 (by decide)).1.trans ?_⟩
  · cases c <;> rfl
  · cases c' <;> rfl

/-- C119: on the same file, in the same build, `dump` prints something exactly if `schema` does, whatever memory there is for the schema; if not, both end in the same way. -/
theorem C119_agree (s : DebugStd) (cfg : Cfg) (cap cap' : Nat → Except PFail Unit) (f : File) (m : Option ErrorKind) (n n' : Nat) (hn : 40 ≤ n) (hn' : mainSteps ≤ n') :
    ((asRun (runPretty s cfg cap dumpText (n! "main") n [] ⟨f, [], [], m⟩)).out ≠ [] ∧ (asRun (runText cfg cap' schemaText (n! "main") n' [] ⟨f, [], [], m⟩)).out ≠ []) ∨
    ((asRun (runPretty s cfg cap dumpText (n! "main") n [] ⟨f, [], [], m⟩)).out = [] ∧
      asRun (runPretty s cfg cap dumpText (n! "main") n [] ⟨f, [], [], m⟩) = asRun (runText cfg cap' schemaText (n! "main") n' [] ⟨f, [], [], m⟩)) := by
  have hd := (C119_main s cfg cap ⟨f, [], [], m⟩ n hn).1
  have hne : ∀ v r c, printHead v r c ≠ [] := fun v r c => by unfold printHead; simp
  rw [hd]
  generalize ha : World.opened ⟨f, [], [], m⟩ = a
  have hs := main_cases cfg cap' ⟨f, [], [], m⟩ n' hn'
  rw [ha] at hs
  cases hr : readFile cfg a with
  | error x =>
    right
    have e1 : dumpMain s cfg a = ⟨[], .error x⟩ := by unfold dumpMain; rw [hr]
    have e2 : schemaMain cfg a = ⟨[], .error x⟩ := by unfold schemaMain; rw [hr]
    rcases hs with ⟨_, hs⟩ | ⟨_, _, _, _, _, _, _, _, _, _, h, _⟩
    · rw [hs, e1, e2]
      exact ⟨rfl, rfl⟩
    · rw [hr] at h; cases h
  | ok fmd =>
    left
    have e1 : dumpMain s cfg a = ⟨debugVal s Format.parquetEnv true Format.tFileMetaData fmd ++ ascii! "\n", .ok ()⟩ := by unfold dumpMain; rw [hr]
    refine ⟨by rw [e1]; simp [unwrapped], ?_⟩
    rcases hs with ⟨_, hs⟩ | ⟨_, v, _, r, c, _, _, _, _, _, _, _, _, _, _, _, _, h, _⟩
    · rw [hs]
      obtain ⟨v, sch, r, c, hf⟩ := typed_fields (readFile_typed hr)
      obtain ⟨es, he⟩ := typed_elements (readFile_typed hr) hf
      obtain ⟨hh1, hh2⟩ := fields_head hf
      simp only [schemaMain, hr, hh1, hh2, he]
      cases convertSchema cfg es with
      | error x => exact fun h => hne v r c (by simpa [unwrapped] using h)
      | ok t => exact fun h => hne v r c (by simpa [unwrapped] using (List.append_eq_nil_iff.1 (by simpa [unwrapped] using h)).1)
    · rw [h]
      exact fun h => hne v r c (by simpa using h)

end CT.Props
