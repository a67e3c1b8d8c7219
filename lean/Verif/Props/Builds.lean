import Verif.Props.Sse2
import Verif.Props.Programs
import Verif.Spec.Builds
/-!
# C105: the outcome of reading, in every build
-/
namespace CT.Props
open CT Spec CT.Parquet CT.Schema CT.Programs CT.Props.Programs

theorem build_reads {cfg : Cfg} (hov : cfg.overflowChecks = false) : SliceReads cfg (skippedInt cfg.sse2) := by
  cases h2 : cfg.sse2 with
  | true => exact sse2_reads h2 hov
  | false => exact Plain.reads ⟨hov, h2⟩

theorem build_panics (cfg : Cfg) : BreaksAt cfg .panic (panicsAt cfg.sse2 cfg.overflowChecks) where
  reads := build_reads (cfg := unchecked cfg) rfl
  checks _ := rfl
  varint s := by
    show _ ↔ cfg.overflowChecks = true ∧ LongVarint s
    constructor
    · intro h
      have hov : cfg.overflowChecks = true := uleb_panic_ov h
      exact ⟨hov, (uleb_panic hov s).1 h⟩
    · rintro ⟨hov, h⟩
      exact (uleb_panic hov s).2 h
  skip s := by
    cases h2 : cfg.sse2 with
    | true => exact skipInteger_panic h2 s
    | false =>
      show _ ↔ cfg.overflowChecks = true ∧ LongVarint s
      cases hov : cfg.overflowChecks with
      | true => rw [(overflow_breaks hov h2).skip]; simp [overflowFaults]
      | false =>
        rw [slice_skipInteger_noSse2 h2, Rd.bind_eq_error]
        refine ⟨fun h => h.elim (fun h => ?_) (fun ⟨_, _, _, h⟩ => by cases h), fun h => by simp at h⟩
        have := uleb_panic_ov h
        simp [hov] at this
  sum := Iff.rfl

theorem fill_ok_iff {cfg : Cfg} (ha : AllocOk cfg) {env : List Def} (he : schemaReads env = true) {t : Ty} (ht : tyClosed env t = true) (o v : Val) (s s' : Bytes) :
    fillThrift cfg (sliceInput cfg) env t o s = .ok (v, s') ↔
      ¬ BreaksOff (panicsAt cfg.sse2 cfg.overflowChecks) env (.value t o) s ∧ ∃ p, s = p ++ s' ∧ DecOf (skippedInt cfg.sse2) env (.value t o v) p := by
  have hr : fillThrift (unchecked cfg) (sliceInput (unchecked cfg)) env t o s = .ok (v, s') ↔ ∃ p, s = p ++ s' ∧ DecOf (skippedInt cfg.sse2) env (.value t o v) p :=
    fill_reads (build_reads (cfg := unchecked cfg) rfl) ha he ht o v s s'
  rw [← fill_breaks (build_panics cfg) ha he ht, ← hr]
  rcases (C60_overflow_checks cfg (.fill env t o)).1 s with e | e
  · have e' := run_fill_error.2 e
    simp [e']
  · rw [run_fill_ok, e, ← run_fill_ok]
    refine ⟨fun h => ⟨fun h' => ?_, h⟩, fun h => h.2⟩
    rw [run_fill_error] at h'
    rw [run_fill_ok, ← e, h'] at h
    cases h

theorem fill_ub_iff {cfg : Cfg} (ha : AllocOk cfg) {env : List Def} (he : schemaReads env = true) {t : Ty} (ht : tyClosed env t = true) {o : Val} (ho : Seed env t o) (s : Bytes) :
    fillThrift cfg (sliceInput cfg) env t o s = .error .ub ↔
      cfg.sse2 = true ∧ ¬ BreaksOff (panicsAt cfg.sse2 cfg.overflowChecks) env (.value t o) s ∧ BreaksOff sse2Undefined env (.value t o) s := by
  rw [← fill_breaks (build_panics cfg) ha he ht]
  cases h2 : cfg.sse2 with
  | false =>
    simp only [Bool.false_eq_true, false_and, iff_false]
    intro h
    rcases (C16_any_build he ht ho).2 s h with ⟨_, h⟩ | ⟨h, _⟩ | ⟨_, h⟩
    · cases h
    · cases h
    · rw [h2] at h; cases h
  | true =>
    cases hov : cfg.overflowChecks with
    | true =>
      rw [C104_checked_undefined h2 ha he ht hov, ← C104_checked_panic h2 ha he ht hov]
      exact ⟨fun h => ⟨rfl, h.2, h.1⟩, fun h => ⟨h.2.2, h.2.1⟩⟩
    | false =>
      rw [← C104_undefined h2 ha he ht hov]
      exact ⟨fun h => ⟨rfl, by rw [h]; nofun, h⟩, fun h => h.2.2⟩

/-- What a run of the model ends with, `left` relating what is left of the input to bytes. -/
inductive Yields {σ : Type} (left : σ → Bytes → Prop) : Except Fail (Val × σ) → Outcome → Prop where
  | value (v) (s : σ) (rest) (h : left s rest) : Yields left (.ok (v, s)) (.value v rest)
  | error (e) : Yields left (.error (.err e)) .error
  | panic : Yields left (.error .panic) .panic
  | undefined : Yields left (.error .ub) .undefined

/-- C105: what filling from a slice ends with is exactly what the specification says, in every build. -/
theorem C105_fill {cfg : Cfg} (ha : AllocOk cfg) {env : List Def} (he : schemaReads env = true) {t : Ty} (ht : tyClosed env t = true) {o : Val} (ho : Seed env t o)
    (s : Bytes) (x : Outcome) :
    Yields Eq (fillThrift cfg (sliceInput cfg) env t o s) x ↔ Ends cfg.sse2 cfg.overflowChecks env t o s x := by
  have h1 := fun v s' => fill_ok_iff ha he ht o v s s'
  have h2 := fill_ub_iff ha he ht ho s
  have h3 := fill_breaks (build_panics cfg) ha he ht o s
  have h4 := fun f => (C16_any_build (f := f) (cfg := cfg) he ht ho).2 s
  generalize hr : fillThrift cfg (sliceInput cfg) env t o s = r at h1 h2 h3 h4
  constructor
  · intro h
    cases h with
    | value v s' rest h =>
      subst h
      obtain ⟨h, p, hp, hd⟩ := (h1 v s').1 rfl
      exact .value v p _ h hp hd
    | error e =>
      refine .error (fun h => by cases h3.2 h) (fun hs hu => by cases h2.2 ⟨hs, fun h => by (cases h3.2 h), hu⟩) ?_
      rintro ⟨v, p, rest, hp, hd⟩
      cases (h1 v rest).2 ⟨fun h => by (cases h3.2 h), p, hp, hd⟩
    | panic => exact .panic (h3.1 rfl)
    | undefined => obtain ⟨a, b, c⟩ := h2.1 rfl; exact .undefined a b c
  · intro h
    cases h with
    | value v p rest h hp hd => rw [(h1 v rest).2 ⟨h, p, hp, hd⟩]; exact .value _ _ _ rfl
    | panic h => rw [h3.2 h]; exact .panic
    | undefined a b c => rw [h2.2 ⟨a, b, c⟩]; exact .undefined
    | error h hu hd =>
      match r, h4 with
      | .ok (v, s'), _ => obtain ⟨_, p, hp, h⟩ := (h1 v s').1 rfl; exact (hd ⟨v, p, s', hp, h⟩).elim
      | .error f, h4 =>
        rcases h4 f rfl with ⟨e, rfl⟩ | ⟨rfl, _⟩ | ⟨rfl, _⟩
        · exact .error e
        · exact (h (h3.1 rfl)).elim
        · obtain ⟨a, _, c⟩ := h2.1 rfl; exact (hu a c).elim

theorem same_fill {cfg₁ cfg₂ : Cfg} {σ τ : Type} {I : Input σ} {J : Input τ} {R : σ → τ → Prop} {env : List Def} {t : Ty} {o : Val} {s : σ} {s' : τ}
    (h : Same R ((Op.fill env t o).run cfg₁ I s) ((Op.fill env t o).run cfg₂ J s')) : Same R (fillThrift cfg₁ I env t o s) (fillThrift cfg₂ J env t o s') := by
  cases h1 : fillThrift cfg₁ I env t o s with
  | error e =>
    rw [run_fill_error.1 h1] at h
    cases h2 : fillThrift cfg₂ J env t o s' with
    | error f => rw [run_fill_error.1 h2] at h; exact h
    | ok q => obtain ⟨v, q⟩ := q; rw [run_fill_ok.1 h2] at h; exact h
  | ok r =>
    obtain ⟨v, r⟩ := r
    rw [run_fill_ok.1 h1] at h
    cases h2 : fillThrift cfg₂ J env t o s' with
    | error f => rw [run_fill_error.1 h2] at h; exact h
    | ok q => obtain ⟨w, q⟩ := q; rw [run_fill_ok.1 h2] at h; exact ⟨Option.some.inj h.1, h.2⟩

/-- C105: filling from a reader ends as it does from a slice in a build that is not for x86-64, whatever the build. -/
theorem C105_reader {cfg : Cfg} (ha : AllocOk cfg) {env : List Def} (he : schemaReads env = true) {t : Ty} (ht : tyClosed env t = true) {o : Val} (ho : Seed env t o)
    {s : Bytes} {evs : List REvent} (hd : Delivers evs s) (x : Outcome) :
    Yields Delivers (fillThrift cfg (readerInput cfg) env t o evs) x ↔ Ends false cfg.overflowChecks env t o s x := by
  refine Iff.trans ?_ (C105_fill (cfg := cfg.noSse2) ha he ht ho s x)
  have h := same_fill (slice_reader_same cfg (.fill env t o) hd)
  revert h
  generalize fillThrift cfg.noSse2 (sliceInput cfg.noSse2) env t o s = a
  generalize fillThrift cfg (readerInput cfg) env t o evs = b
  intro h
  match a, b, h with
  | .ok (v, s'), .ok (w, evs'), ⟨e, h⟩ =>
    subst e
    constructor
    · intro h'; cases h' with | value _ _ _ h' => exact .value _ _ _ (Delivers.det h h')
    · intro h'; cases h' with | value _ _ _ h' => subst h'; exact .value _ _ _ h
  | .error e, .error f, h =>
    cases h
    constructor <;> (intro h'; cases h' <;> constructor)

theorem ends_read {cfg : Cfg} (ha : AllocOk cfg) {env : List Def} (he : schemaReads env = true) {t : Ty} (ht : tyClosed env t = true) {d : Val} (hd : IsDefault env t d)
    (s : Bytes) (x : Outcome) : Yields Eq (readThrift cfg (sliceInput cfg) env t s) x ↔ Ends cfg.sse2 cfg.overflowChecks env t d s x := by
  obtain ⟨hcl, hdf⟩ := schemaReads_iff.1 he
  have e : dflt env t = d := dflt_of_isDefault hdf hd
  rw [readThrift, e]
  have h0 := (fillable_dflt_closed hdf ht).seed
  rw [e] at h0
  exact C105_fill ha he ht h0 s x

/-- C105 for `read_thrift`, from a slice and from a reader. -/
theorem C105_read {cfg : Cfg} (ha : AllocOk cfg) {env : List Def} (he : schemaReads env = true) {t : Ty} (ht : tyClosed env t = true) {d : Val} (hd : IsDefault env t d)
    (s : Bytes) (x : Outcome) :
    (Yields Eq (readThrift cfg (sliceInput cfg) env t s) x ↔ Ends cfg.sse2 cfg.overflowChecks env t d s x) ∧
    ∀ evs, Delivers evs s → (Yields Delivers (readThrift cfg (readerInput cfg) env t evs) x ↔ Ends false cfg.overflowChecks env t d s x) := by
  refine ⟨ends_read ha he ht hd s x, fun evs hv => ?_⟩
  obtain ⟨hcl, hdf⟩ := schemaReads_iff.1 he
  have e : dflt env t = d := dflt_of_isDefault hdf hd
  rw [readThrift, e]
  have h0 := (fillable_dflt_closed hdf ht).seed
  rw [e] at h0
  exact C105_reader ha he ht h0 hv x

/-- A run has at most one outcome. -/
theorem yields_det {r : Except Fail (Val × Bytes)} {x y : Outcome} (h : Yields Eq r x) (h' : Yields Eq r y) : x = y := by
  cases h with
  | value v s rest h => cases h' with | value _ _ _ h' => rw [← h, ← h']
  | error => cases h'; rfl
  | panic => cases h'; rfl
  | undefined => cases h'; rfl

/-- C105: every input has exactly one outcome, in every build. -/
theorem C105_one (sse2 checks : Bool) {env : List Def} (he : schemaReads env = true) {t : Ty} (ht : tyClosed env t = true) {o : Val} (ho : Seed env t o) (s : Bytes) :
    ∃ x, Ends sse2 checks env t o s x ∧ ∀ y, Ends sse2 checks env t o s y → y = x := by
  have key := C105_fill (cfg := ⟨checks, sse2, fun _ => true⟩) (fun _ _ => rfl) he ht ho s
  have hx : ∃ x, Yields Eq (fillThrift ⟨checks, sse2, fun _ => true⟩ (sliceInput ⟨checks, sse2, fun _ => true⟩) env t o s) x := by
    have h4 := fun f => (C16_any_build (f := f) (cfg := ⟨checks, sse2, fun _ => true⟩) he ht ho).2 s
    generalize hr : fillThrift ⟨checks, sse2, fun _ => true⟩ (sliceInput ⟨checks, sse2, fun _ => true⟩) env t o s = r at h4
    match r, h4 with
    | .ok (v, s'), _ => exact ⟨_, .value v s' s' rfl⟩
    | .error f, h4 =>
      rcases h4 f rfl with ⟨e, rfl⟩ | ⟨rfl, _⟩ | ⟨rfl, _⟩
      · exact ⟨_, .error e⟩
      · exact ⟨_, .panic⟩
      · exact ⟨_, .undefined⟩
  obtain ⟨x, hx⟩ := hx
  exact ⟨x, (key x).1 hx, fun y hy => yields_det ((key y).2 hy) hx⟩

/-! ## The programs -/

/-- What reading a file ends with -/
inductive FileYields : Except PFail Val → Outcome → Prop where
  | value (v rest) : FileYields (.ok v) (.value v rest)
  | error (e) : FileYields (.error (.err e)) .error
  | panic : FileYields (.error .panic) .panic
  | undefined : FileYields (.error .ub) .undefined

theorem readFile_ends {cfg : Cfg} (ha : ∀ n, cfg.alloc n = true) {f : File} (hq : Quiet f) :
    ∃ x, FileEnds cfg.sse2 cfg.overflowChecks f.data x ∧ FileYields (readFile cfg (.ok f)) x := by
  have hsr : schemaReads Format.parquetEnv = true := by decide
  have htc : tyClosed Format.parquetEnv Format.tFileMetaData = true := by decide
  obtain ⟨hcl, hdf⟩ := schemaReads_iff.1 hsr
  have hd := isDefault_dflt hdf htc
  unfold readFile
  dsimp only
  rcases C41_no_panic cfg f with ⟨mb, f', h1⟩ | ⟨e, h1⟩ | ⟨h1, n, _, hn⟩
  · rw [h1]
    dsimp only
    have hf := (C41_ok_iff hq (ha _)).1 ⟨f', h1⟩
    obtain ⟨x, hx, _⟩ := C105_one cfg.sse2 cfg.overflowChecks hsr htc (fillable_dflt_closed hdf htc).seed mb
    have hy := (ends_read (cfg := cfg) (fun n _ => ha n) hsr htc hd mb x).2 hx
    refine ⟨x, .footer mb _ x hf hd hx, ?_⟩
    generalize readThrift cfg (sliceInput cfg) Format.parquetEnv Format.tFileMetaData mb = r at hy
    cases hy with
    | value => exact .value _ _
    | error e => exact .error _
    | panic => exact .panic
    | undefined => exact .undefined
  · refine ⟨.error, .noFooter fun ⟨mb, hf⟩ => ?_, ?_⟩
    · obtain ⟨f', h2⟩ := (C41_ok_iff hq (ha _)).2 hf
      rw [h1] at h2; cases h2
    · rw [h1]; exact .error e
  · rw [ha] at hn; cases hn

/-- C105: reading the metadata of a file has at most one outcome. -/
theorem fileEnds_det {sse2 checks : Bool} {file : Bytes} {x y : Outcome} (hx : FileEnds sse2 checks file x) (hy : FileEnds sse2 checks file y) : x = y := by
  have hsr : schemaReads Format.parquetEnv = true := by decide
  have htc : tyClosed Format.parquetEnv Format.tFileMetaData = true := by decide
  obtain ⟨hcl, hdf⟩ := schemaReads_iff.1 hsr
  cases hx with
  | noFooter h =>
    cases hy with
    | noFooter => rfl
    | footer mb _ _ h' => exact (h ⟨mb, h'⟩).elim
  | footer mb d _ h hd he =>
    cases hy with
    | noFooter h' => exact (h' ⟨mb, h⟩).elim
    | footer mb' d' _ h' hd' he' =>
      obtain rfl := footer_det h h'
      have e := dflt_of_isDefault hdf hd
      have e' := dflt_of_isDefault hdf hd'
      obtain ⟨z, _, hz⟩ := C105_one sse2 checks hsr htc (fillable_dflt_closed hdf htc).seed mb
      rw [e] at hz
      rw [e] at e'
      subst e'
      rw [hz _ he, hz _ he']

/-- C105: what `schema` does with a file that makes no trouble, in every build. -/
theorem C105_schema {cfg : Cfg} (ha : ∀ n, cfg.alloc n = true) {f : File} (hq : Quiet f) {x : Outcome} (hx : FileEnds cfg.sse2 cfg.overflowChecks f.data x) :
    match x with
    | .value fmd _ => ∃ version schema rows created elements, MetadataFields fmd version schema rows created ∧ schema.mapM elementOfVal = some elements ∧
        ((∃ root head body, Flat root elements ∧ LevelsOk root ∧ IndexesOk root ∧ height root ≤ 127 ∧ root.common.repetition = .Required ∧
            HeadLines version rows created head ∧ SchemaLines 0 [root] body ∧ schemaMain cfg (.ok f) = ⟨printed 2 (head ++ body), .ok ()⟩) ∨
         ((¬ ∃ root, Flat root elements ∧ LevelsOk root ∧ IndexesOk root ∧ height root ≤ 127 ∧ root.common.repetition = .Required) ∧
            ∃ head e, HeadLines version rows created head ∧ schemaMain cfg (.ok f) = ⟨printed 2 head, .error (.err e)⟩))
    | .error => ∃ e, schemaMain cfg (.ok f) = ⟨[], .error (.err e)⟩
    | .panic => schemaMain cfg (.ok f) = ⟨[], .error .panic⟩
    | .undefined => schemaMain cfg (.ok f) = ⟨[], .error .ub⟩ := by
  obtain ⟨y, hy, hr⟩ := readFile_ends ha hq
  obtain rfl := fileEnds_det hx hy
  have hp := fun fmd => schema_prints (cfg := cfg) (a := .ok f) (fmd := fmd)
  unfold schemaMain at hp ⊢
  generalize readFile cfg (.ok f) = r at hr hp ⊢
  cases hr with
  | value v => exact hp v rfl
  | error e => exact ⟨_, rfl⟩
  | panic => rfl
  | undefined => rfl

/-- C105: what `dump` does with a file that makes no trouble, in every build. -/
theorem C105_dump {cfg : Cfg} (ha : ∀ n, cfg.alloc n = true) {f : File} (hq : Quiet f) (s : DebugStd) {x : Outcome} (hx : FileEnds cfg.sse2 cfg.overflowChecks f.data x) :
    match x with
    | .value fmd _ => dumpMain s cfg (.ok f) = ⟨debugVal s Format.parquetEnv true Format.tFileMetaData fmd ++ [10#8], .ok ()⟩
    | .error => ∃ e, dumpMain s cfg (.ok f) = ⟨[], .error (.err e)⟩
    | .panic => dumpMain s cfg (.ok f) = ⟨[], .error .panic⟩
    | .undefined => dumpMain s cfg (.ok f) = ⟨[], .error .ub⟩ := by
  obtain ⟨y, hy, hr⟩ := readFile_ends ha hq
  obtain rfl := fileEnds_det hx hy
  unfold dumpMain
  generalize readFile cfg (.ok f) = r at hr ⊢
  cases hr with
  | value v => rfl
  | error e => exact ⟨_, rfl⟩
  | panic => rfl
  | undefined => rfl

/-- C105: every file has exactly one outcome. -/
theorem C105_file_one (sse2 checks : Bool) (file : Bytes) : ∃ x, FileEnds sse2 checks file x ∧ ∀ y, FileEnds sse2 checks file y → y = x := by
  have hsr : schemaReads Format.parquetEnv = true := by decide
  have htc : tyClosed Format.parquetEnv Format.tFileMetaData = true := by decide
  obtain ⟨hcl, hdf⟩ := schemaReads_iff.1 hsr
  by_cases h : ∃ mb, HasFooter file mb
  · obtain ⟨mb, h⟩ := h
    obtain ⟨x, hx, _⟩ := C105_one sse2 checks hsr htc (fillable_dflt_closed hdf htc).seed mb
    have := FileEnds.footer mb _ x h (isDefault_dflt hdf htc) hx
    exact ⟨x, this, fun y hy => fileEnds_det hy this⟩
  · exact ⟨_, .noFooter h, fun y hy => fileEnds_det hy (.noFooter h)⟩

/-- The four outcomes exist, in the release build for x86-64. -/
theorem skew_seed : schemaReads skewEnv = true ∧ tyClosed skewEnv (.named 0) = true ∧ Seed skewEnv (.named 0) (.struct [.none]) := by
  refine ⟨rfl, rfl, ?_⟩
  exact (fillable_dflt_closed (env := skewEnv) (t := .named 0) rfl rfl).seed

example : Ends true false skewEnv (.named 0) (.struct [.none]) [0x25#8] .panic ∧
    Ends true false skewEnv (.named 0) (.struct [.none]) (0x25#8 :: List.replicate 16 0xFF#8) .undefined ∧
    Ends true false skewEnv (.named 0) (.struct [.none]) [0x13#8, 7#8, 0#8, 9#8] (.value (.struct [.some (.i8 7#8)]) [9#8]) ∧
    Ends true false skewEnv (.named 0) (.struct [.none]) [0x13#8, 7#8] .error := by
  have key := C105_fill (cfg := ⟨false, true, fun _ => true⟩) (fun _ _ => rfl) skew_seed.1 skew_seed.2.1 skew_seed.2.2
  exact ⟨(key _ _).1 .panic, (key _ _).1 .undefined, (key _ _).1 (.value _ _ _ rfl), (key _ _).1 (.error _)⟩

end CT.Props
