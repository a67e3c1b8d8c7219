import Verif.Props.Decoding
import Verif.Proofs.OverflowPanics
/-!
# C102: exactly when a build with overflow checks panics

Rust code built with overflow checks (the default of debug builds) panics where an addition leaves the range of its type; without them it wraps around.
`C60` says that this is the only difference between the builds. Here: on which inputs it shows.
-/
namespace CT.Props
open CT Spec

theorem run_fill_error {σ : Type} {cfg : Cfg} {I : Input σ} {env : List Def} {t : Ty} {o : Val} {s : σ} {f : Fail} :
    fillThrift cfg I env t o s = .error f ↔ (Op.fill env t o).run cfg I s = .error f := by
  unfold Op.run
  rw [Rd.bind_eq_error]
  constructor
  · exact .inl
  · rintro (h | ⟨_, _, _, h⟩)
    · exact h
    · cases h

theorem run_skip_error {σ : Type} {cfg : Cfg} {I : Input σ} {ft : Byte} {ins : Bool} {s : σ} {f : Fail} :
    I.skip cfg ft ins s = .error f ↔ (Op.skip ft ins).run cfg I s = .error f := by
  unfold Op.run
  rw [Rd.bind_eq_error]
  constructor
  · exact .inl
  · rintro (h | ⟨_, _, _, h⟩)
    · exact h
    · cases h

/-- Filling breaks off exactly where the specification says, in terms of the places where it can. -/
theorem fill_breaks {cfg : Cfg} {f : Fail} [hb : BrokenOff f] {F : Faults} (hF : BreaksAt cfg f F) (ha : AllocOk cfg) {env : List Def} (he : schemaReads env = true) {t : Ty}
    (ht : tyClosed env t = true) (o : Val) (s : Bytes) :
    fillThrift cfg (sliceInput cfg) env t o s = .error f ↔ BreaksOff F env (.value t o) s := by
  obtain ⟨hcl, hd⟩ := schemaReads_iff.1 he
  constructor
  · intro h
    exact pan_fillTy hF hd (fun k o hk => pan_fillNamed hF hd hcl _ k o hk) (Sim.fillNamed hF.cfgSim hF.inputSim env _ _ (Nat.le_refl _))
      (fun k o hk => sound_fillNamed hF.reads hd hcl _ k o hk) t ht o s h
  · intro h
    rcases overflow_panics hF hd h ha (s.length + 1) with h | h
    · exact h
    · exact absurd (run_fill_error.1 h) (op_slice_notDiverge cfg _ s)

/-- The same for skipping. -/
theorem skip_breaks {cfg : Cfg} {f : Fail} [hb : BrokenOff f] {F : Faults} (hF : BreaksAt cfg f F) (ft : Byte) (ins : Bool) (s : Bytes) :
    (sliceInput cfg).skip cfg ft ins s = .error f ↔ BreaksOff F [] (.skip ft.toNat) s := by
  constructor
  · intro h
    exact (pan_skip_all hF [] _).2.2 ft ins s h
  · intro h
    have h1 := (overflow_panics hF (env := []) rfl h).2 (2 * s.length + 2) ins
    rw [show BitVec.ofNat 8 ft.toNat = ft by simp] at h1
    rcases h1 with h | h
    · exact h
    · exact absurd (run_skip_error.1 h) (op_slice_notDiverge cfg _ s)

/-- With overflow checks and without SSE2. -/
theorem overflow_breaks {cfg : Cfg} (hov : cfg.overflowChecks = true) (hs : cfg.sse2 = false) : BreaksAt cfg .panic overflowFaults where
  reads := Plain.reads ⟨rfl, hs⟩
  checks _ := rfl
  varint s := uleb_panic hov s
  skip s := by
    rw [slice_skipInteger_noSse2 hs, Rd.bind_eq_error, uleb_panic hov]
    exact ⟨fun h => h.elim id (fun ⟨_, _, _, h⟩ => by cases h), .inl⟩
  sum := ⟨fun _ => hov, fun _ => trivial⟩

instance panic_broken : BrokenOff .panic := ⟨.inl rfl⟩
instance ub_broken : BrokenOff .ub := ⟨.inr rfl⟩

theorem same_panic_iff {α : Type} {x : Except Fail (α × Bytes)} {y : Except Fail (α × List REvent)} (h : Same (fun s evs => Delivers evs s) x y) :
    x = .error .panic ↔ y = .error .panic := by
  cases x with
  | error e =>
    cases y with
    | error f => rw [show e = f from h]; simp
    | ok r => exact h.elim
  | ok q =>
    cases y with
    | error f => exact h.elim
    | ok r => simp

/-- C102, slices without the SSE2 skip: filling panics exactly on the inputs of the specification. -/
theorem C102_slice {cfg : Cfg} (hov : cfg.overflowChecks = true) (hs : cfg.sse2 = false) (ha : AllocOk cfg) {env : List Def} (he : schemaReads env = true) {t : Ty}
    (ht : tyClosed env t = true) (o : Val) (s : Bytes) :
    fillThrift cfg (sliceInput cfg) env t o s = .error .panic ↔ Overflow env (.value t o) s :=
  fill_breaks (overflow_breaks hov hs) ha he ht o s

/-- C102 for readers, however the bytes are delivered. -/
theorem C102_reader {cfg : Cfg} (hov : cfg.overflowChecks = true) (ha : AllocOk cfg) {env : List Def} (he : schemaReads env = true) {t : Ty}
    (ht : tyClosed env t = true) (o : Val) {evs : List REvent} {s : Bytes} (hd : Delivers evs s) :
    fillThrift cfg (readerInput cfg) env t o evs = .error .panic ↔ Overflow env (.value t o) s := by
  rw [← C102_slice (cfg := cfg.noSse2) hov rfl ha he ht, run_fill_error, run_fill_error, same_panic_iff (slice_reader_same cfg (.fill env t o) hd)]

/-- C102 for slices with the SSE2 skip, if no skipped integer is cut off or longer than 17 bytes. -/
theorem C102_slice_sse2 {cfg : Cfg} (hov : cfg.overflowChecks = true) (ha : AllocOk cfg) {env : List Def} (he : schemaReads env = true) {t : Ty}
    (ht : tyClosed env t = true) (o : Val) {s : Bytes} (hs : ShortSkips cfg (.fill env t o) s) :
    fillThrift cfg (sliceInput cfg) env t o s = .error .panic ↔ Overflow env (.value t o) s := by
  obtain ⟨evs, hd⟩ := delivers_one s
  rw [← C102_reader hov ha he ht o hd, run_fill_error, run_fill_error, same_panic_iff (sse2_same cfg (.fill env t o) hd hs)]

/-- C102 for `read_thrift` from a slice and from a reader. -/
theorem C102_read {cfg : Cfg} (hov : cfg.overflowChecks = true) (ha : AllocOk cfg) {env : List Def} (he : schemaReads env = true) {t : Ty}
    (ht : tyClosed env t = true) (s : Bytes) :
    (cfg.sse2 = false → (readThrift cfg (sliceInput cfg) env t s = .error .panic ↔ ∃ d, IsDefault env t d ∧ Overflow env (.value t d) s)) ∧
    ∀ evs, Delivers evs s → (readThrift cfg (readerInput cfg) env t evs = .error .panic ↔ ∃ d, IsDefault env t d ∧ Overflow env (.value t d) s) := by
  obtain ⟨hcl, hdf⟩ := schemaReads_iff.1 he
  have key : Overflow env (.value t (dflt env t)) s ↔ ∃ d, IsDefault env t d ∧ Overflow env (.value t d) s :=
    ⟨fun h => ⟨_, isDefault_dflt hdf ht, h⟩, fun ⟨d, h1, h2⟩ => by rw [dflt_of_isDefault hdf h1]; exact h2⟩
  exact ⟨fun hs => (C102_slice hov hs ha he ht _ s).trans key, fun evs hd => (C102_reader hov ha he ht _ hd).trans key⟩

/-- C102 for skipping a field. -/
theorem C102_skip {cfg : Cfg} (hov : cfg.overflowChecks = true) (ft : Byte) (ins : Bool) (s : Bytes) :
    (cfg.sse2 = false → ((sliceInput cfg).skip cfg ft ins s = .error .panic ↔ Overflow [] (.skip ft.toNat) s)) ∧
    ∀ evs, Delivers evs s → ((readerInput cfg).skip cfg ft ins evs = .error .panic ↔ Overflow [] (.skip ft.toNat) s) := by
  have key : ∀ {cfg : Cfg}, cfg.overflowChecks = true → cfg.sse2 = false → ((sliceInput cfg).skip cfg ft ins s = .error .panic ↔ Overflow [] (.skip ft.toNat) s) := by
    intro cfg hov hs
    exact skip_breaks (overflow_breaks hov hs) ft ins s
  refine ⟨key hov, fun evs hd => ?_⟩
  rw [← key (cfg := cfg.noSse2) hov rfl, run_skip_error, run_skip_error, same_panic_iff (slice_reader_same cfg (.skip ft ins) hd)]

/-- C102: on all other inputs overflow checks change nothing. -/
theorem C102_otherwise {cfg : Cfg} (hov : cfg.overflowChecks = true) (ha : AllocOk cfg) {env : List Def} (he : schemaReads env = true) {t : Ty}
    (ht : tyClosed env t = true) (o : Val) (s : Bytes) (h : ¬ Overflow env (.value t o) s) :
    (cfg.sse2 = false → fillThrift cfg (sliceInput cfg) env t o s = fillThrift (unchecked cfg) (sliceInput (unchecked cfg)) env t o s) ∧
    ∀ evs, Delivers evs s → fillThrift cfg (readerInput cfg) env t o evs = fillThrift (unchecked cfg) (readerInput (unchecked cfg)) env t o evs := by
  have back : ∀ {σ : Type} {c₁ c₂ : Cfg} {I J : Input σ} {s : σ}, (Op.fill env t o).run c₁ I s = (Op.fill env t o).run c₂ J s →
      fillThrift c₁ I env t o s = fillThrift c₂ J env t o s := by
    intro σ c₁ c₂ I J s h
    cases e : fillThrift c₁ I env t o s with
    | error f => rw [run_fill_error, h, ← run_fill_error] at e; exact e.symm
    | ok r => obtain ⟨v, s'⟩ := r; rw [run_fill_ok, h, ← run_fill_ok] at e; exact e.symm
  refine ⟨fun hs => ?_, fun evs hd => ?_⟩
  · rcases (C60_overflow_checks cfg (.fill env t o)).1 s with e | e
    · exact absurd ((C102_slice hov hs ha he ht o s).1 (run_fill_error.2 e)) h
    · exact back e
  · rcases (C60_overflow_checks cfg (.fill env t o)).2 evs with e | e
    · exact absurd ((C102_reader hov ha he ht o hd).1 (run_fill_error.2 e)) h
    · exact back e

/-- C102: what the writer produces never makes a build with overflow checks panic, whatever follows it, if every header any value of the schema can need
conveys its id. -/
theorem C102_written {env : List Def} (hs : schemaOk env = true) (hst : stepsOk true env = true) {t : Ty} {v : Val} (hv : HasTy env v t) {bytes : Bytes}
    (he : encode env t v = .ok bytes) {d : Val} (hd : IsDefault env t d) (suf : Bytes) : ¬ Overflow env (.value t d) (bytes ++ suf) := by
  intro h
  have hdf : defaultsDefined env = true := by
    unfold schemaOk at hs; rw [Bool.and_eq_true] at hs; exact hs.2
  have hr := (C22_round_trip (cfg := ⟨true, false, fun _ => true⟩) (fun _ _ => rfl) hs hst hv he suf).1
  rw [← dflt_of_isDefault hdf hd] at h
  rcases overflow_panics (overflow_breaks (cfg := ⟨true, false, fun _ => true⟩) rfl rfl) hdf h (fun _ _ => rfl) ((bytes ++ suf).length + 1) with e | e <;>
  · have := hr.symm.trans e
    cases this

/-- A struct that knows field 1 only. The input holds field 32767 in the long form (skipped), then a header with difference 1. -/
def wrapEnv : List Def := [.struct "S" [⟨1#16, true, "a", .i8⟩]]

def wrapBytes : Bytes := [0x03#8, 0xFE#8, 0xFF#8, 0x03#8, 7#8, 0x13#8, 9#8, 0#8]

/-- The conditions of C102 hold and both sides are true: the build with overflow checks panics at the second header; without them the id wraps to -32768. -/
theorem wrapBytes_overflow : schemaReads wrapEnv = true ∧ tyClosed wrapEnv (.named 0) = true ∧
    Overflow wrapEnv (.value (.named 0) (.struct [.i8 0#8])) wrapBytes := by
  refine ⟨rfl, rfl, .struct 0 _ _ _ _ rfl ?_⟩
  refine .unknownRest _ _ _ [0x03#8, 0xFE#8, 0xFF#8, 0x03#8] 3 32767#16 [7#8] _ ?_ ?_ (.byte _ _) (.header _ _ _ _ (.sum 0x13#8 _ trivial (by decide)))
  · exact .long _ 0x03#8 [0xFE#8, 0xFF#8, 0x03#8] 65534 _ (by decide) (by decide) (varintVal_leb (p := [0xFE#8, 0xFF#8, 0x03#8]) (by decide) (by decide)) (by decide)
  · simp

example : fillThrift ⟨true, false, fun _ => true⟩ (sliceInput ⟨true, false, fun _ => true⟩) wrapEnv (.named 0) (.struct [.i8 0#8]) wrapBytes = .error .panic :=
  (C102_slice rfl rfl (fun _ _ => rfl) wrapBytes_overflow.1 wrapBytes_overflow.2.1 _ _).2 wrapBytes_overflow.2.2

/-- The same input without overflow checks: field -32768 is skipped, too, and the required field is missing. -/
example : fillThrift ⟨false, false, fun _ => true⟩ (sliceInput ⟨false, false, fun _ => true⟩) wrapEnv (.named 0) (.struct [.i8 0#8]) wrapBytes =
    .error (.err (.missingField "S::a")) := rfl

/-- C102: a stop byte with a nonzero difference is enough, although the difference is not used. -/
example : (sliceInput ⟨true, false, fun _ => true⟩).skip ⟨true, false, fun _ => true⟩ 12#8 false [0x03#8, 0xFE#8, 0xFF#8, 0x03#8, 7#8, 0x10#8] = .error .panic :=
  ((C102_skip rfl 12#8 false _).1 rfl).2 <| .skipStruct _ <|
    .skipFieldsRest _ [0x03#8, 0xFE#8, 0xFF#8, 0x03#8] 3 32767#16 [7#8] _
      (.long _ 0x03#8 [0xFE#8, 0xFF#8, 0x03#8] 65534 _ (by decide) (by decide) (varintVal_leb (p := [0xFE#8, 0xFF#8, 0x03#8]) (by decide) (by decide)) (by decide))
      (.byte _ _) (.skipHeader _ _ (.sum 0x10#8 _ trivial (by decide)))

/-- The conditions of C102_written hold. -/
example : schemaOk wrapEnv = true ∧ stepsOk true wrapEnv = true ∧ HasTy wrapEnv (.struct [.i8 5#8]) (.named 0) ∧
    encode wrapEnv (.named 0) (.struct [.i8 5#8]) = .ok [0x13#8, 5#8, 0#8] ∧ ∃ d, IsDefault wrapEnv (.named 0) d := by
  refine ⟨by decide, by decide, ?_, ?_, _, isDefault_dflt (t := .named 0) rfl rfl⟩
  · refine .struct 0 _ _ _ rfl rfl fun i f v hf hv => ?_
    match i with
    | 0 => simp at hf hv; subst hf hv; exact .i8 _
    | i + 1 => simp at hf
  · have h := encode_of_enc (ok := anyStep) (env := wrapEnv) (.struct 0 "S" [⟨1#16, true, "a", .i8⟩] _ _ rfl
      (.fieldsCons ⟨1#16, true, "a", .i8⟩ _ _ _ _ _ _ (.fieldValue .i8 _ _ _ _ (by simp) (by simp) trivial (.i8 5#8)) (.fieldsNil _)))
    exact h

end CT.Props
