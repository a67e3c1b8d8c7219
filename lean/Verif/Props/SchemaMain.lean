import Verif.Proofs.PqMain
import Verif.Props.SchemaCode
import Verif.Spec.SchemaMain
/-!
# C114: the program parquet/src/bin/schema.rs prints what the model says

The text of schema.rs is parsed as Rust; `pretty_print_schema` and `main` are run, on any tree of fields and on any file.
-/
namespace CT.Props
open CT CT.Parquet CT.Schema CT.Pq CT.Spec CT.Programs CT.Props.Programs

/-- C114: `pretty_print_schema`, schema.rs:619-647, with `print_indent` and the implementations of `Display` and `Debug` it uses: on every tree and for
every indentation that can be counted, what it appends to the output; nothing else is done. -/
theorem C114_print (cfg : Cfg) (cap : Nat → Except PFail Unit) (f : SField) (k : BitVec 64) (hk : k.toNat + height f < 2 ^ 64) (w : World) (n : Nat) (hn : 60 * (height f + 1) ≤ n) :
    runText cfg cap schemaText (n! "pretty_print_schema") n [fieldV f, .base (.usize k)] w =
      .ret .unit [fieldV f, .base (.usize k)] { w with out := w.out ++ prettyPrint f k.toNat } := by
  rw [runText_schema (fn := pq_pretty_print_schema) rfl]
  exact run_pretty cfg cap f k n w hn hk

example (cfg : Cfg) (cap : Nat → Except PFail Unit) (w : World) :
    runText cfg cap schemaText (n! "pretty_print_schema") 200 [fieldV sampleTree, .base (.usize 1#64)] w =
      .ret .unit [fieldV sampleTree, .base (.usize 1#64)] { w with out := w.out ++ prettyPrint sampleTree 1 } :=
  C114_print cfg cap sampleTree 1#64 (by decide) w 200 (by decide)

/-- C114: `print_indent`, schema.rs:613-617 -/
theorem C114_indent (cfg : Cfg) (cap : Nat → Except PFail Unit) (k : BitVec 64) (w : World) (n : Nat) (hn : 20 ≤ n) :
    runText cfg cap schemaText (n! "print_indent") n [.base (.usize k)] w =
      .ret .unit [.base (.usize k)] { w with out := w.out ++ List.replicate (2 * k.toNat) 32#8 } := by
  have h : ∀ m, printIndent m = List.replicate (2 * m) 32#8 := by
    intro m
    induction m with
    | zero => rfl
    | succ m ih => rw [printIndent, ih]; rfl
  obtain ⟨m, rfl⟩ := Nat.exists_eq_add_of_le hn
  rw [runText_schema (fn := pq_print_indent) rfl, Nat.add_comm, run_indent, World.print, h]

example (cfg : Cfg) (cap : Nat → Except PFail Unit) (f : File) : runText cfg cap schemaText (n! "print_indent") 20 [.base (.usize 2#64)] ⟨f, [], [65#8], none⟩ =
    .ret .unit [.base (.usize 2#64)] ⟨f, [], [65#8, 32#8, 32#8, 32#8, 32#8], none⟩ :=
  C114_indent cfg cap 2#64 _ 20 (by decide)

/-- The number of nested steps that is enough for every file. -/
def mainSteps : Nat := maxDepth * (2 ^ 32 - 1 + 150) + 100

/-- `main`, schema.rs:649-666, on every file, in every build and with every allocator: if the memory for the schema is there it prints what the model prints and ends as the model does,
where an error that is unwrapped is a panic; if a request is refused it has printed the head and ends there. -/
theorem main_cases (cfg : Cfg) (cap : Nat → Except PFail Unit) (w : World) (n : Nat) (hn : mainSteps ≤ n) :
    ((∀ fmd v sch r c es, readFile cfg w.opened = .ok fmd → MetadataFields fmd v sch r c → sch.mapM elementOfVal = some es → ∀ k ∈ (convertSchemaCap cfg es).1, cap k = .ok ()) ∧
      asRun (runText cfg cap schemaText (n! "main") n [] w) = unwrapped w.out (schemaMain cfg w.opened)) ∨
    ∃ fmd v sch r c es a k b x, readFile cfg w.opened = .ok fmd ∧ MetadataFields fmd v sch r c ∧ sch.mapM elementOfVal = some es ∧ es.length < 2 ^ 32 ∧
      (convertSchemaCap cfg es).1 = a ++ k :: b ∧ (∀ j ∈ a, cap j = .ok ()) ∧ cap k = .error x ∧
      asRun (runText cfg cap schemaText (n! "main") n [] w) = ⟨w.out ++ printHead v r c, .error x⟩ ∧
      (runText cfg cap schemaText (n! "main") n [] w).world.caps = w.caps ++ (a ++ [k]) := by
  rw [runText_schema (f := n! "main") (fn := pq_main) rfl]
  obtain ⟨F, hF⟩ : ∃ F, F = maxDepth * (2 ^ 32 - 1 + 150) := ⟨_, rfl⟩
  have hF' : 7680 ≤ F := by
    rw [show maxDepth = 1000 from rfl] at hF
    omega
  obtain ⟨m, rfl, hm⟩ : ∃ m, n = m + 40 ∧ F + 50 ≤ m := by
    have hn : F + 100 ≤ n := by rw [hF]; exact hn
    clear hF
    exact ⟨n - 40, by omega, by omega⟩
  cases hk : w.missing with
  | some k =>
    left
    refine ⟨fun fmd v sch r c es h => ?_, ?_⟩
    · rw [World.opened, hk] at h; cases h
    rw [run_main_missing cfg cap w hk, World.opened, hk, asRun, unwrapped]
    simp only [schemaMain, readFile, List.append_nil]
  | none =>
    rw [World.opened, hk]
    rcases hc : getMetadataChunk cfg w.file with x | ⟨bs, f'⟩
    · left
      refine ⟨fun fmd v sch r c es h => (by simp only [readFile, hc] at h; cases h), ?_⟩
      rw [run_main_chunk cfg cap w hk hc, asRun, unwrapped]
      simp only [schemaMain, readFile, hc, List.append_nil]
      cases x <;> rfl
    · rcases hx : readThrift cfg (sliceInput cfg) Format.parquetEnv Format.tFileMetaData bs with x | ⟨fmd, rest⟩
      · left
        refine ⟨fun fmd v sch r c es h => (by simp only [readFile, hc, hx] at h; cases h), ?_⟩
        rw [run_main_read cfg cap w hk hc hx, asRun, unwrapped]
        simp only [schemaMain, readFile, hc, hx, List.append_nil]
        cases x <;> rfl
      · have hrd : readFile cfg (.ok w.file) = .ok fmd := by simp only [readFile, hc, hx]
        have hty : HasTy Format.parquetEnv fmd Format.tFileMetaData := readFile_typed (cfg := cfg) (a := .ok w.file) hrd
        obtain ⟨v, sch, r, c, hf⟩ := typed_fields hty
        obtain ⟨es, he⟩ := typed_elements hty hf
        have hts := typed_schema hty hf
        have hl := schema_length hc hx hf
        have hl' := mapM_length he
        have hrun := run_convertSchema cfg cap (elements_typed hts he) (L := 2 ^ 32 - 1) (by omega) (by decide) (Nat.le_of_eq hF.symm)
        rw [← wrap_elements hts] at hrun
        cases hg : (granted cap (convertSchemaCap cfg es).1).2 with
        | some x =>
          right
          obtain ⟨a, k, b, h1, h2, h3, h4⟩ := granted_some hg
          have hw : withMemory cap (convertSchemaCap cfg es) = (a ++ [k], .error x) := by simp only [withMemory, hg, h4]
          rw [hw] at hrun
          refine ⟨fmd, v, sch, r, c, es, a, k, b, x, hrd, hf, he, by omega, h1, h2, h3, ?_⟩
          rcases hrun with ⟨_, _, _, hrun, _⟩ | ⟨_, hrun⟩
          · rw [hrun k (by simp)] at h3
            cases h3
          · rw [run_main_fail cfg cap hk hc hx hf hrun hm]
            exact ⟨rfl, rfl⟩
        | none =>
          left
          obtain ⟨_, hall⟩ := granted_none hg
          rw [withMemory_all hall] at hrun
          refine ⟨fun fmd' v' sch' r' c' es' h1 h2 h3 => ?_, ?_⟩
          · rw [hrd] at h1
            cases h1
            obtain ⟨_, _, _, _, _, e1⟩ := hf
            obtain ⟨_, _, _, _, _, e2⟩ := h2
            rw [e1, Val.struct.injEq, List.cons.injEq, List.cons.injEq, Val.list.injEq] at e2
            obtain ⟨_, rfl, _⟩ := e2
            rw [he] at h3
            cases h3
            exact hall
          obtain ⟨hh1, hh2⟩ := fields_head hf
          have hm' : schemaMain cfg (.ok w.file) = match convertSchema cfg es with
              | .error x => ⟨printHead v r c, .error x⟩
              | .ok schema => ⟨printHead v r c ++ prettyPrint schema 0, .ok ()⟩ := by
            simp only [schemaMain, readFile, hc, hx, hh1, hh2, he]
            cases convertSchema cfg es <;> rfl
          rw [hm', ← C73_erase]
          have hx' := C50_only_errors cfg es
          rw [← C73_erase] at hx'
          clear hF hn
          rcases hq : convertSchemaCap cfg es with ⟨caps, x | f⟩
          · rw [hq] at hrun hx' hall
            have hx'' : ∃ y, x = .err y := by
              rcases hx' with ⟨_, hx⟩ | ⟨_, hx⟩ | ⟨_, hx⟩ <;> cases hx <;> exact ⟨_, rfl⟩
            obtain ⟨y, rfl⟩ := hx''
            rcases hrun with ⟨q, us, _, _, hrun⟩ | ⟨hrun | ⟨k, hk, hrun⟩, _⟩
            · rw [run_main_err cfg cap hk hc hx hf hrun hm]
              rfl
            · cases hrun
            · rw [hall k hk] at hrun; cases hrun
          · rw [hq] at hrun
            have hheight := ((C46_iff cfg es f).1 (by rw [← C73_erase, hq])).2.2.2.1
            rw [run_main_ok cfg cap hk hc hx hf hrun hm hheight (by omega)]
            rfl

/-- C114: `main`, schema.rs:649-666, on every file, in every build: it prints what the model prints and ends as the model does, where an error that
is unwrapped is a panic. Of the memory for the schema it is assumed that fewer than 2^32 fields can be had at once. -/
theorem C114_main (cfg : Cfg) (cap : Nat → Except PFail Unit) (hcap : ∀ k, k < 2 ^ 32 → cap k = .ok ()) (w : World) (n : Nat) (hn : mainSteps ≤ n) :
    asRun (runText cfg cap schemaText (n! "main") n [] w) = unwrapped w.out (schemaMain cfg w.opened) := by
  rcases main_cases cfg cap w n hn with h | ⟨_, _, _, _, _, es, a, k, b, x, _, _, _, hl, h1, _, h, _⟩
  · exact h.2
  · rw [hcap k (Nat.lt_trans (C73_each cfg es k (by rw [h1]; simp)) hl)] at h
    cases h

/-- C114: so, without overflow checks, with memory and on a file whose reads do not fail, the text itself does what C99 says: without metadata in the file it panics and
has printed nothing; with metadata and an acceptable schema it prints the lines of the head and of the tree and returns; with another schema it prints the head and panics. -/
theorem C114_schema {cfg : Cfg} (hov : cfg.overflowChecks = false) (hs : cfg.sse2 = false) (ha : ∀ n, cfg.alloc n = true) (cap : Nat → Except PFail Unit)
    (hcap : ∀ k, k < 2 ^ 32 → cap k = .ok ()) {f : File} (hq : Quiet f) (n : Nat) (hn : mainSteps ≤ n) :
    ((¬ ∃ fmd, HoldsMetadata f.data fmd) ∧ asRun (runText cfg cap schemaText (n! "main") n [] ⟨f, [], [], none⟩) = ⟨[], .error .panic⟩) ∨
    ∃ fmd version schema rows created elements, HoldsMetadata f.data fmd ∧ MetadataFields fmd version schema rows created ∧
      schema.mapM elementOfVal = some elements ∧
      ((∃ root head body, Flat root elements ∧ LevelsOk root ∧ IndexesOk root ∧ height root ≤ 127 ∧ root.common.repetition = .Required ∧
          HeadLines version rows created head ∧ SchemaLines 0 [root] body ∧
          asRun (runText cfg cap schemaText (n! "main") n [] ⟨f, [], [], none⟩) = ⟨Spec.printed 2 (head ++ body), .ok ()⟩) ∨
       ((¬ ∃ root, Flat root elements ∧ LevelsOk root ∧ IndexesOk root ∧ height root ≤ 127 ∧ root.common.repetition = .Required) ∧
          ∃ head, HeadLines version rows created head ∧
          asRun (runText cfg cap schemaText (n! "main") n [] ⟨f, [], [], none⟩) = ⟨Spec.printed 2 head, .error .panic⟩)) := by
  have hm := C114_main cfg cap hcap ⟨f, [], [], none⟩ n hn
  change _ = unwrapped [] (schemaMain cfg (.ok f)) at hm
  rcases C99_schema hov hs ha hq with ⟨h, e, he⟩ | ⟨fmd, v, sch, r, c, es, h1, h2, h3, ⟨root, head, body, a, b, c', d, e, g, i, h⟩ | ⟨a, head, e, b, h⟩⟩
  · rw [he] at hm
    exact .inl ⟨h, hm⟩
  · rw [h] at hm
    exact .inr ⟨fmd, v, sch, r, c, es, h1, h2, h3, .inl ⟨root, head, body, a, b, c', d, e, g, i, hm⟩⟩
  · rw [h] at hm
    exact .inr ⟨fmd, v, sch, r, c, es, h1, h2, h3, .inr ⟨a, head, b, hm⟩⟩

/-- The file of C99 with one column, and the same with an unknown type. -/
example : let cfg : Cfg := ⟨false, false, fun _ => true⟩
    asRun (runText cfg (fun _ => .ok ()) schemaText (n! "main") mainSteps [] ⟨tinyFile (tinySchema 2), [], [], none⟩) =
      ⟨ascii! "version: 1\nnum of rows: 0\ncreated by: x\nREQUIRED group r {\n  OPTIONAL INT32 a;\n}\n", .ok ()⟩ ∧
    asRun (runText cfg (fun _ => .ok ()) schemaText (n! "main") mainSteps [] ⟨tinyFile (tinySchema 100), [], [], none⟩) =
      ⟨ascii! "version: 1\nnum of rows: 0\ncreated by: x\n", .error .panic⟩ ∧
    asRun (runText cfg (fun _ => .ok ()) schemaText (n! "main") mainSteps [] ⟨⟨[], 0, [], []⟩, [], [], some (.other 2)⟩) = ⟨[], .error .panic⟩ :=
  ⟨(C114_main _ _ (fun _ _ => rfl) _ _ (Nat.le_refl _)).trans rfl, (C114_main _ _ (fun _ _ => rfl) _ _ (Nat.le_refl _)).trans rfl, (C114_main _ _ (fun _ _ => rfl) _ _ (Nat.le_refl _)).trans rfl⟩

end CT.Props
