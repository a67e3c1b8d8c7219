import Verif.Proofs.Typed
import Verif.Props.Writing
/-! # C16, C24, C35, C36: what reading returns -/
namespace CT.Props
open CT Spec

/-- A schema Rust accepts: its types exist and `Default::default()` terminates. -/
def schemaReads (env : List Def) : Bool := envClosed env && defaultsDefined env

theorem schemaReads_iff {env : List Def} : schemaReads env = true ↔ envClosed env = true ∧ defaultsDefined env = true := by
  simp [schemaReads]

/-! ## C16 -/

/-- Returns `Ok` or `Err`: no panic, no undefined behaviour, no endless loop, no ill-typed state. -/
def Returns {α : Type} (r : Except Fail α) : Prop := (∃ a, r = .ok a) ∨ ∃ e, r = .error (.err e)

/-- An `Err`. -/
def isErr (f : Fail) : Prop := ∃ e, f = .err e

theorem allowed_isErr {cfg : Cfg} (h : cfg.overflowChecks = false) : Allowed isErr cfg where
  err e _ := ⟨e, rfl⟩
  panic hp := by rw [h] at hp; cases hp
  reserve _ _ _ := ⟨_, rfl⟩

theorem returns_of_tri {σ α : Type} {P : σ → Prop} {x : Rd σ α} {Q : α → σ → Prop} (h : Tri P x Q isErr) {s : σ} (hs : P s) :
    Returns (x s) := by
  cases e : x s with
  | ok p => exact .inl ⟨p, rfl⟩
  | error f => obtain ⟨e', rfl⟩ := h.error hs e; exact .inr ⟨e', rfl⟩

/-- C16: without overflow checks, reading any bytes from any `io::Read`, into any value, returns. -/
theorem C16_reader {cfg : Cfg} (h : cfg.overflowChecks = false) {env : List Def} (hs : schemaReads env = true) {t : Ty}
    (ht : tyClosed env t = true) {v0 : Val} (h0 : Seed env t v0) (evs : List REvent) :
    Returns (fillThrift cfg (readerInput cfg) env t v0 evs) :=
  returns_of_tri (fillThrift_good (allowed_isErr h) (reader_counted (allowed_isErr h)) env (schemaReads_iff.1 hs).2
    (schemaReads_iff.1 hs).1 ht h0 _) (Nat.le_refl _)

/-- C16: without overflow checks and without SSE2, the same for slices. -/
theorem C16_slice {cfg : Cfg} (h : cfg.overflowChecks = false) (h2 : cfg.sse2 = false) {env : List Def} (hs : schemaReads env = true)
    {t : Ty} (ht : tyClosed env t = true) {v0 : Val} (h0 : Seed env t v0) (s : Bytes) :
    Returns (fillThrift cfg (sliceInput cfg) env t v0 s) :=
  returns_of_tri (fillThrift_good (allowed_isErr h) (slice_counted (allowed_isErr h) (by simp [h2])) env (schemaReads_iff.1 hs).2
    (schemaReads_iff.1 hs).1 ht h0 _) (Nat.le_refl _)

/-- `read_thrift` on both inputs. -/
theorem C16_read {cfg : Cfg} (h : cfg.overflowChecks = false) {env : List Def} (hs : schemaReads env = true) {t : Ty}
    (ht : tyClosed env t = true) :
    (∀ evs, Returns (readThrift cfg (readerInput cfg) env t evs)) ∧
    (cfg.sse2 = false → ∀ s, Returns (readThrift cfg (sliceInput cfg) env t s)) :=
  have h0 := (fillable_dflt_closed (schemaReads_iff.1 hs).2 ht).seed
  ⟨C16_reader h hs ht h0, fun h2 => C16_slice h h2 hs ht h0⟩

/-- Skipping likewise. -/
theorem C16_skip {cfg : Cfg} (h : cfg.overflowChecks = false) (ft : Byte) (ins : Bool) :
    (∀ evs, Returns ((readerInput cfg).skip cfg ft ins evs)) ∧
    (cfg.sse2 = false → ∀ s, Returns ((sliceInput cfg).skip cfg ft ins s)) :=
  ⟨fun _ => returns_of_tri (Tri.skip (allowed_isErr h) (reader_measured (allowed_isErr h)) ft ins _) (Nat.le_refl _),
   fun h2 _ => returns_of_tri (Tri.skip (allowed_isErr h) (slice_measured (allowed_isErr h) (by simp [h2])) ft ins _) (Nat.le_refl _)⟩

/-- A failure that is an `Err`, or one of the known defects: a panic with overflow checks, or, for slices with SSE2, a panic or undefined
behaviour. -/
def knownDefect (cfg : Cfg) (sse : Bool) (f : Fail) : Prop :=
  isErr f ∨ (f = .panic ∧ (cfg.overflowChecks = true ∨ sse = true)) ∨ (f = .ub ∧ sse = true)

theorem allowed_knownDefect (cfg : Cfg) (sse : Bool) : Allowed (knownDefect cfg sse) cfg where
  err e _ := .inl ⟨e, rfl⟩
  panic hp := .inr (.inl ⟨rfl, .inl hp⟩)
  reserve _ _ _ := .inl ⟨_, rfl⟩

/-- C16 in every build: the only failures other than `Err` are the known ones; reading never loops and never reaches an ill-typed
state. -/
theorem C16_any_build {cfg : Cfg} {env : List Def} (hs : schemaReads env = true) {t : Ty} (ht : tyClosed env t = true) {v0 : Val}
    (h0 : Seed env t v0) {f : Fail} :
    (∀ evs, fillThrift cfg (readerInput cfg) env t v0 evs = .error f → knownDefect cfg false f) ∧
    (∀ s, fillThrift cfg (sliceInput cfg) env t v0 s = .error f → knownDefect cfg cfg.sse2 f) := by
  constructor
  · intro evs h
    exact (fillThrift_good (allowed_knownDefect cfg false) (reader_counted (allowed_knownDefect cfg false)) env (schemaReads_iff.1 hs).2
      (schemaReads_iff.1 hs).1 ht h0 _).error (Nat.le_refl _) h
  · intro s h
    refine (fillThrift_good (allowed_knownDefect cfg cfg.sse2) (slice_counted (allowed_knownDefect cfg cfg.sse2) fun h2 => ?_) env
      (schemaReads_iff.1 hs).2 (schemaReads_iff.1 hs).1 ht h0 _).error (Nat.le_refl _) h
    rw [h2]
    exact ⟨.inr (.inl ⟨rfl, .inr rfl⟩), .inr (.inr ⟨rfl, rfl⟩)⟩

/-- Every Parquet type meets the hypotheses. -/
example : schemaReads Format.parquetEnv = true ∧ tyClosed Format.parquetEnv Format.tFileMetaData = true := by decide

example : schemaReads nodeEnv = true ∧ tyClosed nodeEnv (.named 0) = true := by decide

/-- `struct Empty {}` -/
def emptyEnv : List Def := [.struct "Empty" []]

/-- C16 fails with overflow checks, on any input: after field 32767 a short header overflows the field id. -/
theorem C16_counterexample_overflow (al : Nat → Bool) :
    readThrift ⟨true, false, al⟩ (sliceInput ⟨true, false, al⟩) emptyEnv (.named 0)
      [0x05#8, 0xFE#8, 0xFF#8, 0x03#8, 0x00#8, 0x15#8, 0x00#8, 0x00#8] = .error .panic ∧
    readThrift ⟨true, false, al⟩ (readerInput ⟨true, false, al⟩) emptyEnv (.named 0)
      [.data [0x05#8, 0xFE#8, 0xFF#8, 0x03#8, 0x00#8, 0x15#8, 0x00#8, 0x00#8]] = .error .panic ∧
    readThrift ⟨false, false, al⟩ (sliceInput ⟨false, false, al⟩) emptyEnv (.named 0)
      [0x05#8, 0xFE#8, 0xFF#8, 0x03#8, 0x00#8, 0x15#8, 0x00#8, 0x00#8] = .ok (.struct [], []) :=
  ⟨rfl, rfl, rfl⟩

/-- C16 fails for slices with SSE2: a truncated integer in an unknown field panics. -/
theorem C16_counterexample_sse2_panic (ov : Bool) (al : Nat → Bool) :
    readThrift ⟨ov, true, al⟩ (sliceInput ⟨ov, true, al⟩) emptyEnv (.named 0) [0x15#8, 0x80#8] = .error .panic := by
  cases ov <;> rfl

/-- C16 fails for slices with SSE2: sixteen continuation bytes at the end of the slice in an unknown field are undefined behaviour. -/
theorem C16_counterexample_sse2_ub (ov : Bool) (al : Nat → Bool) :
    readThrift ⟨ov, true, al⟩ (sliceInput ⟨ov, true, al⟩) emptyEnv (.named 0)
      (0x15#8 :: List.replicate 16 0x80#8) = .error .ub := by
  cases ov <;> rfl

/-! ## C35 -/

theorem allowed_any (cfg : Cfg) : Allowed (fun _ => True) cfg := ⟨fun _ _ => trivial, fun _ => trivial, fun _ _ _ => trivial⟩

/-- What a read returned, on either input and in any build. -/
theorem fill_returned {cfg : Cfg} {env : List Def} (hs : schemaReads env = true) {t : Ty}
    (ht : tyClosed env t = true) {v0 : Val} (h0 : Seed env t v0) {v : Val} :
    (∀ evs evs', fillThrift cfg (readerInput cfg) env t v0 evs = .ok (v, evs') →
      Clean env t v ∧ weight v + readerSize evs' + 1 ≤ readerSize evs + weight v0) ∧
    (∀ s s', fillThrift cfg (sliceInput cfg) env t v0 s = .ok (v, s') →
      Clean env t v ∧ weight v + s'.length + 1 ≤ s.length + weight v0) := by
  have hE := allowed_any cfg
  obtain ⟨hcl, hd⟩ := schemaReads_iff.1 hs
  constructor
  · intro evs evs' h
    obtain ⟨h1, h2, _⟩ := (fillThrift_good hE (reader_counted hE) env hd hcl ht h0 _).ok (Nat.le_refl _) h
    exact ⟨h1, h2⟩
  · intro s s' h
    obtain ⟨h1, h2, _⟩ :=
      (fillThrift_good hE (slice_counted hE fun _ => ⟨trivial, trivial⟩) env hd hcl ht h0 _).ok (Nat.le_refl _) h
    exact ⟨h1, h2⟩

/-- The value was returned by `read_thrift` from some input. -/
def WasRead (cfg : Cfg) (env : List Def) (t : Ty) (v : Val) : Prop :=
  (∃ s s', readThrift cfg (sliceInput cfg) env t s = .ok (v, s')) ∨
  (∃ evs evs', readThrift cfg (readerInput cfg) env t evs = .ok (v, evs'))

theorem clean_of_wasRead {cfg : Cfg} {env : List Def} (hs : schemaReads env = true) {t : Ty} (ht : tyClosed env t = true) {v : Val}
    (h : WasRead cfg env t v) : Clean env t v := by
  have h0 := (fillable_dflt_closed (schemaReads_iff.1 hs).2 ht).seed
  rcases h with ⟨s, s', h⟩ | ⟨evs, evs', h⟩
  · exact ((fill_returned hs ht h0).2 s s' h).1
  · exact ((fill_returned hs ht h0).1 evs evs' h).1

/-- C35: whatever is read has the declared type. -/
theorem C35_typed {cfg : Cfg} {env : List Def} (hs : schemaReads env = true) {t : Ty} (ht : tyClosed env t = true) {v : Val}
    (h : WasRead cfg env t v) : HasTy env v t := (clean_of_wasRead hs ht h).hasTy

/-- C35 for reading into an existing value. -/
theorem C35_fill {cfg : Cfg} {env : List Def} (hs : schemaReads env = true) {t : Ty}
    (ht : tyClosed env t = true) {v0 : Val} (h0 : Seed env t v0) {v : Val} :
    (∀ evs evs', fillThrift cfg (readerInput cfg) env t v0 evs = .ok (v, evs') → HasTy env v t) ∧
    (∀ s s', fillThrift cfg (sliceInput cfg) env t v0 s = .ok (v, s') → HasTy env v t) :=
  ⟨fun evs evs' h => ((fill_returned hs ht h0).1 evs evs' h).1.hasTy, fun s s' h => ((fill_returned hs ht h0).2 s s' h).1.hasTy⟩

/-- A node with one child is read. -/
example (cfg : Cfg) : WasRead cfg nodeEnv (.named 0)
    (.struct [.string [0x61#8], .some (.box (.struct [.string [], .none, .none])), .none]) := by
  refine .inl ⟨[0x18#8, 0x01#8, 0x61#8, 0x1C#8, 0x18#8, 0x00#8, 0x00#8, 0x00#8], [], ?_⟩
  obtain ⟨ov, sse, al⟩ := cfg
  cases ov <;> cases sse <;> rfl

/-! ## C36 -/

/-- C36: list elements and bytes of binaries and strings in what was read are fewer than the bytes consumed. -/
theorem C36_weight {cfg : Cfg} {env : List Def} (hs : schemaReads env = true) {t : Ty} (ht : tyClosed env t = true) {v : Val} :
    (∀ s s', readThrift cfg (sliceInput cfg) env t s = .ok (v, s') → weight v < s.length - s'.length) ∧
    (∀ evs evs', readThrift cfg (readerInput cfg) env t evs = .ok (v, evs') → weight v < readerSize evs - readerSize evs') := by
  have h0 := (fillable_dflt_closed (schemaReads_iff.1 hs).2 ht).seed
  constructor
  · intro s s' h
    have := ((fill_returned hs ht h0).2 s s' h).2
    rw [weight_dflt] at this
    omega
  · intro evs evs' h
    have := ((fill_returned hs ht h0).1 evs evs' h).2
    rw [weight_dflt] at this
    omega

/-- C36 when reading into an existing value: the value grows by less than what was consumed. -/
theorem C36_growth {cfg : Cfg} {env : List Def} (hs : schemaReads env = true) {t : Ty}
    (ht : tyClosed env t = true) {v0 : Val} (h0 : Seed env t v0) {v : Val} {s s' : Bytes}
    (h : fillThrift cfg (sliceInput cfg) env t v0 s = .ok (v, s')) : weight v + s'.length < s.length + weight v0 :=
  ((fill_returned hs ht h0).2 s s' h).2

/-- Not a failed reservation. -/
def notReserve (f : Fail) : Prop := f ≠ .err .reserveError

theorem allowed_notReserve {cfg : Cfg} (ha : AllocOk cfg) : Allowed notReserve cfg where
  err e he := fun h => he (by injection h)
  panic _ := by simp [notReserve]
  reserve n hn h := by rw [ha n hn] at h; cases h

/-- C36: an allocator that can reserve 10,000,000 elements is never asked for more: no read or skip, successful or not, of any bytes
fails to reserve. -/
theorem C36_reserve {cfg : Cfg} (ha : AllocOk cfg) (op : Op) :
    (∀ s, op.run cfg (sliceInput cfg) s ≠ .error (.err .reserveError)) ∧
    (∀ evs, op.run cfg (readerInput cfg) evs ≠ .error (.err .reserveError)) := by
  have hE := allowed_notReserve ha
  constructor
  · intro s h
    exact (Tri.op hE (slice_measured hE fun _ => by simp [notReserve]) (by simp [notReserve]) op _).error (Nat.le_refl _) h rfl
  · intro evs h
    exact (Tri.op hE (reader_measured hE) (by simp [notReserve]) op _).error (Nat.le_refl _) h rfl

/-- The bound is reached: with an allocator that fails at 10,000,000, a list header announcing that many fails to reserve. -/
example : readThrift ⟨false, false, fun n => decide (n < 10000000)⟩ (sliceInput ⟨false, false, fun n => decide (n < 10000000)⟩) []
    (.list .i8) [0xF3#8, 0x80#8, 0xAD#8, 0xE2#8, 0x04#8] = .error (.err .reserveError) := rfl

/-! ## C24 -/

/-- C24: whatever was read can be written. -/
theorem C24_writable {cfg : Cfg} {env : List Def} (hs : schemaReads env = true) {t : Ty} (ht : tyClosed env t = true) {v : Val}
    (h : WasRead cfg env t v) : ∃ bytes, encode env t v = .ok bytes :=
  (C38_ok_iff (C35_typed hs ht h)).2 (clean_of_wasRead hs ht h).unrefused.1

/-- C24: and what is written is read back as the same value, by every input and in every build. -/
theorem C24_reread {cfg cfg' : Cfg} (ha : AllocOk cfg') {env : List Def} (hs : schemaReads env = true) (hok : schemaOk env = true)
    (hst : stepsOk cfg'.overflowChecks env = true) {t : Ty} (ht : tyClosed env t = true) {v : Val}
    (h : WasRead cfg env t v) :
    ∃ bytes, encode env t v = .ok bytes ∧ ∀ suf, Reads cfg' (fun I => readThrift cfg' I env t) bytes suf v := by
  obtain ⟨bytes, hb⟩ := C24_writable hs ht h
  exact ⟨bytes, hb, fun suf => C22_identity ha hok hst (C35_typed hs ht h) (clean_of_wasRead hs ht h).unshare hb suf⟩

/-- C24 for all Parquet types. -/
theorem C24_parquet {cfg cfg' : Cfg} (ha : AllocOk cfg') {t : Ty} (ht : tyClosed Format.parquetEnv t = true) {v : Val}
    (h : WasRead cfg Format.parquetEnv t v) :
    ∃ bytes, encode Format.parquetEnv t v = .ok bytes ∧
      ∀ suf, Reads cfg' (fun I => readThrift cfg' I Format.parquetEnv t) bytes suf v := by
  refine C24_reread ha (by decide) (by decide) ?_ ht h
  cases cfg'.overflowChecks <;> decide

example : schemaOk nodeEnv = true ∧ stepsOk true nodeEnv = true ∧ stepsOk false nodeEnv = true := by decide

end CT.Props
