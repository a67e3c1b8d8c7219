import Verif.Props.Builds
import Verif.Proofs.ReportsOccur
/-!
# C107: which error a read reports
-/
namespace CT.Props
open CT Spec CT.Parquet CT.Schema CT.Programs CT.Props.Programs

/-- Without overflow checks. -/
theorem fill_reports {cfg : Cfg} (hov : cfg.overflowChecks = false) (ha : AllocOk cfg) {env : List Def} (he : schemaReads env = true) {t : Ty}
    (ht : tyClosed env t = true) (o : Val) (s : Bytes) (e : ThriftError) :
    fillThrift cfg (sliceInput cfg) env t o s = .error (.err e) ↔ Reports cfg.sse2 env (.value t o) s e := by
  obtain ⟨hcl, hd⟩ := schemaReads_iff.1 he
  have hc := skipReads hov
  constructor
  · intro h
    exact er_fillTy hc hd ha (fun k o hk => er_fillNamed hc hd ha hcl _ k o hk) (fun k o hk => sound_fillNamed hc.reads hd hcl _ k o hk) t ht o s e h
  · intro h
    rcases report_occurs hc hd ha h (s.length + 1) with h | h
    · exact h
    · exact absurd (run_fill_error.1 h) (op_slice_notDiverge cfg _ s)

theorem skip_reports {cfg : Cfg} (hov : cfg.overflowChecks = false) (ha : AllocOk cfg) (ft : Byte) (ins : Bool) (s : Bytes) (e : ThriftError) :
    (sliceInput cfg).skip cfg ft ins s = .error (.err e) ↔ Reports cfg.sse2 [] (.skip ft.toNat ins) s e := by
  have hc := skipReads hov
  constructor
  · intro h
    exact (er_skip_all hc [] _).2.2 ft ins s e h
  · intro h
    rcases report_occurs hc (env := []) rfl ha h ft rfl (2 * s.length + 2) with h | h
    · exact h
    · exact absurd (run_skip_error.1 h) (op_slice_notDiverge cfg _ s)

/-- C107: filling from a slice reports an error exactly if the specification says so, and that error, in every build. -/
theorem C107_fill {cfg : Cfg} (ha : AllocOk cfg) {env : List Def} (he : schemaReads env = true) {t : Ty} (ht : tyClosed env t = true) (o : Val) (s : Bytes) (e : ThriftError) :
    fillThrift cfg (sliceInput cfg) env t o s = .error (.err e) ↔
      ¬ BreaksOff (panicsAt cfg.sse2 cfg.overflowChecks) env (.value t o) s ∧ Reports cfg.sse2 env (.value t o) s e := by
  have hr : fillThrift (unchecked cfg) (sliceInput (unchecked cfg)) env t o s = .error (.err e) ↔ Reports cfg.sse2 env (.value t o) s e :=
    fill_reports (cfg := unchecked cfg) rfl ha he ht o s e
  rw [← fill_breaks (build_panics cfg) ha he ht, ← hr]
  rcases (C60_overflow_checks cfg (.fill env t o)).1 s with e' | e'
  · have e' := run_fill_error.2 e'
    simp [e']
  · simp only [run_fill_error]
    rw [e']
    refine ⟨fun h => ⟨fun h' => ?_, h⟩, fun h => h.2⟩
    rw [h'] at h
    cases h

/-- C107 for readers, however the bytes are delivered. -/
theorem C107_reader {cfg : Cfg} (ha : AllocOk cfg) {env : List Def} (he : schemaReads env = true) {t : Ty} (ht : tyClosed env t = true) (o : Val)
    {s : Bytes} {evs : List REvent} (hd : Delivers evs s) (e : ThriftError) :
    fillThrift cfg (readerInput cfg) env t o evs = .error (.err e) ↔
      ¬ BreaksOff (panicsAt false cfg.overflowChecks) env (.value t o) s ∧ Reports false env (.value t o) s e := by
  refine Iff.trans ?_ (C107_fill (cfg := cfg.noSse2) ha he ht o s e)
  have h := same_fill (slice_reader_same cfg (.fill env t o) hd)
  revert h
  generalize fillThrift cfg.noSse2 (sliceInput cfg.noSse2) env t o s = a
  generalize fillThrift cfg (readerInput cfg) env t o evs = b
  intro h
  match a, b, h with
  | .ok _, .ok _, _ => simp
  | .error e, .error f, h => cases h; simp

/-- C107 for `read_thrift`, from a slice and from a reader. -/
theorem C107_read {cfg : Cfg} (ha : AllocOk cfg) {env : List Def} (he : schemaReads env = true) {t : Ty} (ht : tyClosed env t = true) {d : Val} (hd : IsDefault env t d)
    (s : Bytes) (e : ThriftError) :
    (readThrift cfg (sliceInput cfg) env t s = .error (.err e) ↔
      ¬ BreaksOff (panicsAt cfg.sse2 cfg.overflowChecks) env (.value t d) s ∧ Reports cfg.sse2 env (.value t d) s e) ∧
    ∀ evs, Delivers evs s → (readThrift cfg (readerInput cfg) env t evs = .error (.err e) ↔
      ¬ BreaksOff (panicsAt false cfg.overflowChecks) env (.value t d) s ∧ Reports false env (.value t d) s e) := by
  obtain ⟨hcl, hdf⟩ := schemaReads_iff.1 he
  have e' : dflt env t = d := dflt_of_isDefault hdf hd
  rw [readThrift, e']
  refine ⟨C107_fill ha he ht d s e, fun evs hv => ?_⟩
  rw [readThrift, e']
  exact C107_reader ha he ht d hv e

/-- C107 for skipping a field. -/
theorem C107_skip {cfg : Cfg} (ha : AllocOk cfg) (ft : Byte) (ins : Bool) (s : Bytes) (e : ThriftError) :
    ((sliceInput cfg).skip cfg ft ins s = .error (.err e) ↔
      ¬ BreaksOff (panicsAt cfg.sse2 cfg.overflowChecks) [] (.skip ft.toNat) s ∧ Reports cfg.sse2 [] (.skip ft.toNat ins) s e) ∧
    ∀ evs, Delivers evs s → ((readerInput cfg).skip cfg ft ins evs = .error (.err e) ↔
      ¬ BreaksOff (panicsAt false cfg.overflowChecks) [] (.skip ft.toNat) s ∧ Reports false [] (.skip ft.toNat ins) s e) := by
  have key : ∀ {cfg : Cfg}, AllocOk cfg → ((sliceInput cfg).skip cfg ft ins s = .error (.err e) ↔
      ¬ BreaksOff (panicsAt cfg.sse2 cfg.overflowChecks) [] (.skip ft.toNat) s ∧ Reports cfg.sse2 [] (.skip ft.toNat ins) s e) := by
    intro cfg ha
    have hr : (sliceInput (unchecked cfg)).skip (unchecked cfg) ft ins s = .error (.err e) ↔ Reports cfg.sse2 [] (.skip ft.toNat ins) s e :=
      skip_reports (cfg := unchecked cfg) rfl ha ft ins s e
    rw [← skip_breaks (build_panics cfg) ft ins, ← hr]
    rcases (C60_overflow_checks cfg (.skip ft ins)).1 s with e' | e'
    · have e' := run_skip_error.2 e'
      simp [e']
    · simp only [run_skip_error]
      rw [e']
      refine ⟨fun h => ⟨fun h' => ?_, h⟩, fun h => h.2⟩
      rw [h'] at h
      cases h
  refine ⟨key ha, fun evs hd => ?_⟩
  refine Iff.trans ?_ (key (cfg := cfg.noSse2) ha)
  rw [run_skip_error, run_skip_error]
  have h := slice_reader_same cfg (.skip ft ins) hd
  revert h
  generalize (Op.skip ft ins).run cfg.noSse2 (sliceInput cfg.noSse2) s = a
  generalize (Op.skip ft ins).run cfg (readerInput cfg) evs = b
  intro h
  match a, b, h with
  | .ok _, .ok _, _ => simp
  | .error e, .error f, h => cases h; simp

/-- C107: at most one error is reported. -/
theorem C107_one (sse2 : Bool) {env : List Def} (he : schemaReads env = true) {t : Ty} (ht : tyClosed env t = true) (o : Val) {s : Bytes} {e e' : ThriftError}
    (h : Reports sse2 env (.value t o) s e) (h' : Reports sse2 env (.value t o) s e') : e = e' := by
  have key := fill_reports (cfg := ⟨false, sse2, fun _ => true⟩) rfl (fun _ _ => rfl) he ht o s
  have h1 := (key e).2 h
  rw [(key e').2 h'] at h1
  exact (Fail.err.inj (Except.error.inj h1)).symm

/-- C107: a read ends with an error (C105) exactly if there is an error for it to report. -/
theorem C107_ends (sse2 checks : Bool) {env : List Def} (he : schemaReads env = true) {t : Ty} (ht : tyClosed env t = true) {o : Val} (ho : Seed env t o) (s : Bytes) :
    Ends sse2 checks env t o s .error ↔ ¬ BreaksOff (panicsAt sse2 checks) env (.value t o) s ∧ ∃ e, Reports sse2 env (.value t o) s e := by
  have k1 := C105_fill (cfg := ⟨checks, sse2, fun _ => true⟩) (fun _ _ => rfl) he ht ho s .error
  have k2 := C107_fill (cfg := ⟨checks, sse2, fun _ => true⟩) (fun _ _ => rfl) he ht o s
  rw [← k1]
  constructor
  · intro h
    generalize hr : fillThrift ⟨checks, sse2, fun _ => true⟩ (sliceInput ⟨checks, sse2, fun _ => true⟩) env t o s = r at h
    cases h with
    | error e => obtain ⟨a, b⟩ := (k2 e).1 hr; exact ⟨a, e, b⟩
  · rintro ⟨a, e, b⟩
    rw [(k2 e).2 ⟨a, b⟩]
    exact .error e

/-! ## The programs -/

/-- C107: reading the metadata of a file that makes no trouble reports an error exactly if the specification says so, and that error, in every build. -/
theorem C107_file {cfg : Cfg} (ha : ∀ n, cfg.alloc n = true) {f : File} (hq : Quiet f) (e : ParquetError) :
    readFile cfg (.ok f) = .error (.err e) ↔ FileReports cfg.sse2 cfg.overflowChecks f.data e := by
  have hsr : schemaReads Format.parquetEnv = true := by decide
  have htc : tyClosed Format.parquetEnv Format.tFileMetaData = true := by decide
  obtain ⟨hcl, hdf⟩ := schemaReads_iff.1 hsr
  have hd := isDefault_dflt hdf htc
  have hr := fun mb e => (C107_read (cfg := cfg) (fun n _ => ha n) hsr htc hd mb e).1
  have one := fun d (h : IsDefault Format.parquetEnv Format.tFileMetaData d) => dflt_of_isDefault hdf h
  have h0 := C41_outcome cfg f
  unfold readFile
  dsimp only
  have noFault : ∀ k, ¬ Faulty f k := Quiet.not_faulty hq
  rcases h0 with ⟨k, hk, _⟩ | ⟨mb, hmb, h⟩ | ⟨hno, h⟩
  · exact (noFault k hk).elim
  · have h : ∃ f', getMetadataChunk cfg f = .ok (mb, f') := by
      rcases h with ⟨_, h⟩ | ⟨h, _⟩
      · exact h
      · rw [ha] at h; cases h
    obtain ⟨f', h⟩ := h
    rw [h]
    dsimp only
    constructor
    · intro h'
      cases hx : readThrift cfg (sliceInput cfg) Format.parquetEnv Format.tFileMetaData mb with
      | ok r => rw [hx] at h'; cases h'
      | error x =>
        rw [hx] at h'
        cases x <;> cases h'
        obtain ⟨a, b⟩ := (hr mb _).1 hx
        exact .thrift mb _ _ hmb hd a b
    · intro h'
      cases h' with
      | thrift mb' d e hmb' hd' a b =>
        obtain rfl := footer_det hmb hmb'
        rw [← one d hd'] at a b
        rw [(hr mb e).2 ⟨a, b⟩]
        rfl
      | short h' =>
        obtain ⟨_, pre, hp⟩ := hmb
        rw [hp] at h'
        simp [footer, le32] at h'
        omega
      | magic h' h2 =>
        obtain ⟨_, pre, hp⟩ := hmb
        refine (h2 ?_).elim
        rw [hp, footer, ← List.append_assoc]
        exact List.suffix_append _ _
      | length h2 h3 => exact (h3 ⟨mb, hmb⟩).elim
  · rcases h with ⟨h, h8, hm⟩ | ⟨h, hm⟩
    · rw [h]
      constructor
      · intro h'; cases h'; exact .magic h8 hm
      · intro h'
        cases h' with
        | short h' => omega
        | magic => rfl
        | length h' => exact (hm h').elim
        | thrift mb _ _ h' => exact (hno ⟨mb, h'⟩).elim
    · rw [h]
      constructor
      · intro h'
        cases h'
        by_cases h8 : 8 ≤ f.data.length
        · exact .length (hm h8) hno
        · exact .short (by omega)
      · intro h'
        cases h' with
        | short h' => rfl
        | magic h8 h' => exact (h' (hm h8)).elim
        | length h' => rfl
        | thrift mb _ _ h' => exact (hno ⟨mb, h'⟩).elim

/-- C107: what the programs end with when the metadata of the file cannot be read; nothing is printed. -/
theorem C107_programs {cfg : Cfg} (ha : ∀ n, cfg.alloc n = true) {f : File} (hq : Quiet f) (s : DebugStd) {e : ParquetError}
    (h : FileReports cfg.sse2 cfg.overflowChecks f.data e) :
    schemaMain cfg (.ok f) = ⟨[], .error (.err e)⟩ ∧ dumpMain s cfg (.ok f) = ⟨[], .error (.err e)⟩ := by
  have h := (C107_file ha hq e).2 h
  constructor
  · unfold schemaMain; rw [h]
  · unfold dumpMain; rw [h]

/-- C107: a file has an error to report exactly if reading it ends with one (C105). -/
theorem C107_file_ends (sse2 checks : Bool) (file : Bytes) : FileEnds sse2 checks file .error ↔ ∃ e, FileReports sse2 checks file e := by
  have hq : Quiet ⟨file, 0, [], []⟩ := ⟨by simp, by simp⟩
  obtain ⟨x, hx, hy⟩ := readFile_ends (cfg := ⟨checks, sse2, fun _ => true⟩) (fun _ => rfl) hq
  have hk := C107_file (cfg := ⟨checks, sse2, fun _ => true⟩) (fun _ => rfl) hq
  generalize readFile ⟨checks, sse2, fun _ => true⟩ (.ok ⟨file, 0, [], []⟩) = r at hy hk
  constructor
  · intro h
    obtain rfl := fileEnds_det hx h
    cases hy with
    | error e => exact ⟨e, (hk e).1 rfl⟩
  · rintro ⟨e, h⟩
    have := (hk e).2 h
    subst this
    cases hy
    exact hx

/-! ## Examples -/

/-- A struct with two required fields and an optional list of booleans. -/
def reportEnv : List Def := [.struct "S" [⟨1#16, true, "a", .i32⟩, ⟨2#16, true, "b", .string⟩, ⟨3#16, false, "c", .list .bool⟩]]

theorem report_ok : schemaReads reportEnv = true ∧ tyClosed reportEnv (.named 0) = true := ⟨rfl, rfl⟩

def reportSeed : Val := .struct [.i32 0#32, .string [], .none]

/-- Of two missing required fields, the first is reported; that a list is too long is seen before its elements are of the wrong type; an unknown field with an
impossible type; a field that is there twice is fine if it is required, and an error if it is optional; a text that is none. -/
example : Reports true reportEnv (.value (.named 0) reportSeed) [0#8] (.missingField "S::a") ∧
    Reports true reportEnv (.value (.named 0) reportSeed) [0x15#8, 2#8, 0#8] (.missingField "S::b") ∧
    Reports false reportEnv (.value (.named 0) reportSeed) [0x39#8, 0xF8#8, 0x81#8, 0xAD#8, 0xE2#8, 0x04#8] .invalidCollectionLen ∧
    Reports false reportEnv (.value (.named 0) reportSeed) [0x39#8, 0x18#8] .invalidType ∧
    Reports true reportEnv (.value (.named 0) reportSeed) [0x4D#8] .invalidType ∧
    Reports true reportEnv (.value (.named 0) reportSeed) [0x15#8, 2#8, 0x05#8, 2#8, 2#8, 0#8] (.missingField "S::b") ∧
    Reports true reportEnv (.value (.named 0) reportSeed) [0x39#8, 0x02#8, 0x09#8, 6#8] .duplicateField ∧
    Reports true reportEnv (.value (.named 0) reportSeed) [0x28#8, 1#8, 0xFF#8] .invalidString ∧
    Reports true reportEnv (.value (.named 0) reportSeed) [0x28#8, 2#8, 0x41#8] (.io .unexpectedEof) := by
  have k2 := fun s e => (fill_reports (cfg := ⟨false, true, fun _ => true⟩) rfl (fun _ _ => rfl) report_ok.1 report_ok.2 reportSeed s e).1
  have k1 := fun s e => (fill_reports (cfg := ⟨false, false, fun _ => true⟩) rfl (fun _ _ => rfl) report_ok.1 report_ok.2 reportSeed s e).1
  exact ⟨k2 _ _ rfl, k2 _ _ rfl, k1 _ _ rfl, k1 _ _ rfl, k2 _ _ rfl, k2 _ _ rfl, k2 _ _ rfl, k2 _ _ rfl, k2 _ _ rfl⟩

/-- Directly from the specification. -/
example : Reports true reportEnv (.value (.named 0) reportSeed) [0x15#8, 2#8, 0x10#8] (.missingField "S::b") := by
  refine .further _ _ (.fields "S" _ 0#16 [] _) _ _ (.struct 0 "S" _ _ _ rfl) ?_
  have hh : FieldHeader 0#16 [0x15#8] 5 1#16 := .short 0#16 0x15#8 (by decide) (by decide)
  have hv : DecOf (skippedInt true) reportEnv (.field .i32 5 (.i32 0#32) (.i32 1#32)) [2#8] :=
    .fieldValue .i32 _ _ _ (by nofun) (by nofun) (.i32 _ _ 2 _ (decVarint (b := 2#8) (by decide)) rfl)
  refine .further _ _ _ _ _ (.knownRest "S" _ 0#16 [] _ [0x15#8] 5 0 ⟨1#16, true, "a", .i32⟩ (.i32 0#32) (.i32 1#32) [2#8] [0x10#8] hh rfl (by simp) rfl hv) ?_
  refine .here _ _ _ (.missing "S" _ _ _ _ 0x10#8 [] 1 ⟨2#16, true, "b", .string⟩ ?_ rfl rfl (by decide) ?_)
  · show _ = _; rfl
  · intro j g hj hg _
    obtain rfl : j = 0 := by omega
    simp

end CT.Props
