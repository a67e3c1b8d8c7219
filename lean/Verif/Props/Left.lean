import Verif.Proofs.PartialSim
import Verif.Spec.Left
import Verif.Props.Partial
import Verif.Props.Wire
/-! # C92: what a failed fill leaves depends on the bytes alone -/
namespace CT.Props
open CT Spec

theorem fillP_failure {σ : Type} {cfg : Cfg} {I : Input σ} {env : List Def} {t : Ty} {v : Val} {s : σ} {f : Fail} {w : Val}
    (h : fillThriftP cfg I env t v s = .error (f, w)) : (Op.fill env t v).run cfg I s = .error f := by
  have h1 := C79_result cfg I env t v s
  rw [h] at h1
  show (fillThrift cfg I env t v >>= fun v => Pure.pure (some v)) s = _
  rw [Rd.bind_err h1]

/-- Agreement from a simulation whose only exceptions cannot occur. -/
theorem sameLeft_of_sim {σ τ : Type} {A : Fail → Prop} {R : σ → τ → Prop} {c₁ c₂ : Cfg} {I₁ : Input σ} {I₂ : Input τ}
    (hc : CfgSim A c₁ c₂) (hI : InputSim (SimP.std A R) c₂ I₁ I₂) (env : List Def) (t : Ty) (v : Val) {x : σ} {y : τ} (hR : R x y)
    (hx : ∀ f, A f → (Op.fill env t v).run c₁ I₁ x ≠ .error f) :
    SameLeft R (fillThriftP c₁ I₁ env t v x) (fillThriftP c₂ I₂ env t v y) := by
  have h := FSim.fillThrift (P := SimP.std A R) hc hI env t v x y hR
  rcases e : fillThriftP c₁ I₁ env t v x with ⟨f, w⟩ | ⟨a, s'⟩
  · rw [e] at h
    rcases h with h | h | h
    · exact absurd (fillP_failure e) (hx f h)
    · exact h.elim
    · rw [h]; exact ⟨rfl, rfl⟩
  · rw [e] at h
    obtain ⟨t', h1, h2⟩ := h
    rw [h1]; exact ⟨rfl, h2⟩

theorem slice_reader_left (cfg : Cfg) (env : List Def) (t : Ty) (v : Val) {s : Bytes} {evs : List REvent} (he : Delivers evs s) :
    SameLeft (fun s' evs' => Delivers evs' s') (fillThriftP cfg.noSse2 (sliceInput cfg.noSse2) env t v s) (fillThriftP cfg (readerInput cfg) env t v evs) :=
  sameLeft_of_sim (cfgSim_noSse2 OnlyDiverge cfg) (reader_sim cfg) env t v he (by rintro f rfl; exact op_slice_notDiverge _ _ s)

/-- C92: filling from a slice and from a reader that delivers the same bytes give the same value, or the same failure leaving the same value (without
the SSE2 skip). -/
theorem C92_slice_reader (cfg : Cfg) (h : cfg.sse2 = false) (env : List Def) (t : Ty) (v : Val) (s : Bytes) (evs : List REvent) (he : Delivers evs s) :
    SameLeft (fun s' evs' => Delivers evs' s') (fillThriftP cfg (sliceInput cfg) env t v s) (fillThriftP cfg (readerInput cfg) env t v evs) := by
  have := slice_reader_left cfg env t v he
  rwa [noSse2_eq h] at this

theorem sameLeft_swap {σ υ α : Type} {R : σ → υ → Prop} {x : Except (Fail × Val) (α × σ)} {y : Except (Fail × Val) (α × σ)}
    {z : Except (Fail × Val) (α × υ)} (h1 : SameLeft (fun s t => s = t) x y) (h2 : SameLeft R x z) : SameLeft R y z := by
  rcases x with ⟨f, u⟩ | ⟨a, s⟩ <;> rcases y with ⟨g, v⟩ | ⟨b, t⟩ <;> rcases z with ⟨k, w⟩ | ⟨c, u⟩ <;> simp only [SameLeft] at *
  · exact ⟨h1.1.symm.trans h2.1, h1.2.symm.trans h2.2⟩
  · obtain ⟨rfl, rfl⟩ := h1; exact h2

/-- C92, with or without the SSE2 skip, when no integer skipped on the way is cut off or longer than 17 bytes. -/
theorem C92_slice_reader_sse2 (cfg : Cfg) (env : List Def) (t : Ty) (v : Val) (s : Bytes) (evs : List REvent) (he : Delivers evs s)
    (hs : ShortSkips cfg (.fill env t v) s) :
    SameLeft (fun s' evs' => Delivers evs' s') (fillThriftP cfg (sliceInput cfg) env t v s) (fillThriftP cfg (readerInput cfg) env t v evs) := by
  have hx : ∀ f, Marked f → (Op.fill env t v).run cfg (watchedInput cfg) s ≠ .error f := by
    rintro f (rfl | rfl)
    · exact watched_notDiverge cfg _ s
    · exact hs
  exact sameLeft_swap (sameLeft_of_sim (CfgSim.refl _ _) (watched_slice_sim cfg) env t v rfl hx)
    (sameLeft_of_sim (CfgSim.refl _ _) (watched_reader_sim cfg) env t v he hx)

/-- C92: how the bytes are cut into chunks and interrupted does not matter. -/
theorem C92_chunking (cfg : Cfg) (env : List Def) (t : Ty) (v : Val) (s : Bytes) (evs₁ evs₂ : List REvent) (h₁ : Delivers evs₁ s) (h₂ : Delivers evs₂ s) :
    SameLeft (fun e₁ e₂ => ∃ rest, Delivers e₁ rest ∧ Delivers e₂ rest)
      (fillThriftP cfg (readerInput cfg) env t v evs₁) (fillThriftP cfg (readerInput cfg) env t v evs₂) := by
  have a := slice_reader_left cfg env t v h₁
  have b := slice_reader_left cfg env t v h₂
  revert a b
  rcases fillThriftP cfg.noSse2 (sliceInput cfg.noSse2) env t v s with ⟨f, u⟩ | ⟨a, s⟩ <;>
  rcases fillThriftP cfg (readerInput cfg) env t v evs₁ with ⟨g, v⟩ | ⟨b, t⟩ <;>
  rcases fillThriftP cfg (readerInput cfg) env _ _ evs₂ with ⟨k, w⟩ | ⟨c, u⟩ <;> simp only [SameLeft] <;> intro h1 h2
  · exact ⟨h1.1.symm.trans h2.1, h1.2.symm.trans h2.2⟩
  · exact h2.elim
  · exact h1.elim
  · exact h1.elim
  · exact h1.elim
  · exact h1.elim
  · exact h2.elim
  · exact ⟨h1.1.symm.trans h2.1, s, h1.2, h2.2⟩

theorem slice_breaks_left (cfg : Cfg) (env : List Def) (t : Ty) (v : Val) {k : ErrorKind} {d : Bytes} {evs : List REvent} (h : Breaks k evs d) :
    BrokenLeft (fun s' evs' => Breaks k evs' s') k (fillThriftP cfg.noSse2 (sliceInput cfg.noSse2) env t v d) (fillThriftP cfg (readerInput cfg) env t v evs) := by
  have h := FSim.fillThrift (cfgSim_noSse2 OnlyDiverge cfg) (slice_breaks_sim k (A := OnlyDiverge) rfl (cfgSim_noSse2 _ cfg) rfl) env t v d evs h
  rcases e : fillThriftP cfg.noSse2 (sliceInput cfg.noSse2) env t v d with ⟨f, w⟩ | ⟨a, s'⟩
  · simp only [e] at h
    rcases h with h | h | h
    · exact absurd (fillP_failure e) (h ▸ op_slice_notDiverge _ _ d)
    · exact h.elim
    · rw [h]; exact ⟨rfl, rfl⟩
  · simp only [e] at h
    obtain ⟨t', h1, h2⟩ := h
    rw [h1]; exact ⟨rfl, h2⟩

/-- C92: if the reader fails with the error `k` where another one ends, then `k` takes the place of `UnexpectedEof`, and the value left is the same. -/
theorem C92_io_error (cfg : Cfg) (env : List Def) (t : Ty) (v : Val) (k : ErrorKind) (d : Bytes) (evs₁ evs₂ : List REvent) (h₁ : Delivers evs₁ d)
    (h₂ : Breaks k evs₂ d) :
    BrokenLeft (fun e₁ e₂ => ∃ rest, Delivers e₁ rest ∧ Breaks k e₂ rest) k
      (fillThriftP cfg (readerInput cfg) env t v evs₁) (fillThriftP cfg (readerInput cfg) env t v evs₂) := by
  have a := slice_reader_left cfg env t v h₁
  have b := slice_breaks_left cfg env t v h₂
  revert a b
  rcases fillThriftP cfg.noSse2 (sliceInput cfg.noSse2) env t v d with ⟨f, u⟩ | ⟨a, s⟩ <;>
  rcases fillThriftP cfg (readerInput cfg) env t v evs₁ with ⟨g, v⟩ | ⟨b, t⟩ <;>
  rcases fillThriftP cfg (readerInput cfg) env _ _ evs₂ with ⟨k, w⟩ | ⟨c, u⟩ <;> simp only [SameLeft, BrokenLeft] <;> intro h1 h2
  · obtain ⟨rfl, rfl⟩ := h1; exact h2
  · exact h2.elim
  · exact h1.elim
  · exact h1.elim
  · exact h1.elim
  · exact h1.elim
  · exact h2.elim
  · exact ⟨h1.1.symm.trans h2.1, s, h1.2, h2.2⟩

/-- C92: a refusal other than for the end of the input is final, with the value it leaves: nothing that follows in the input changes them. -/
theorem C92_final (cfg : Cfg) (env : List Def) (t : Ty) (v : Val) (s suf : Bytes) (e : ThriftError) (w : Val) (he : e ≠ .io .unexpectedEof)
    (h : fillThriftP cfg (sliceInput cfg) env t v s = .error (.err e, w)) :
    fillThriftP cfg (sliceInput cfg) env t v (s ++ suf) = .error (.err e, w) := by
  have x := FSim.fillThrift (P := extendP OnlyDiverge _ suf) (CfgSim.refl _ _) (slice_extend cfg suf) env t v s _ rfl
  simp only [h] at x
  rcases x with x | x | x
  · cases x
  · rcases x with x | ⟨_, x | x⟩
    · cases x; exact absurd rfl he
    · cases x
    · cases x
  · exact x

theorem cfg_left {σ : Type} {c₁ c₂ : Cfg} {I J : Input σ} {g : Fail} (hc : CfgSim (fun f => f = .diverge ∨ f = g) c₁ c₂)
    (hI : InputSim (SimP.std (fun f => f = .diverge ∨ f = g) fun s t => s = t) c₂ I J) (env : List Def) (t : Ty) (v : Val) (s : σ)
    (hd : (Op.fill env t v).run c₁ I s ≠ .error .diverge) :
    (∃ w, fillThriftP c₁ I env t v s = .error (g, w)) ∨ fillThriftP c₁ I env t v s = fillThriftP c₂ J env t v s := by
  have h := FSim.fillThrift (P := SimP.std _ _) hc hI env t v s s rfl
  rcases e : fillThriftP c₁ I env t v s with ⟨f, w⟩ | ⟨a, s'⟩
  · simp only [e] at h
    rcases h with (h | h) | h | h
    · exact absurd (fillP_failure e) (h ▸ hd)
    · exact .inl ⟨w, by rw [h]⟩
    · exact h.elim
    · exact .inr h.symm
  · simp only [e] at h
    obtain ⟨t', h1, h2⟩ := h
    subst h2
    exact .inr h1.symm

/-- C92: a build with overflow checks panics or fills exactly as the build without them, also where both fail. Slices and readers. -/
theorem C92_overflow_checks (cfg : Cfg) (env : List Def) (t : Ty) (v : Val) :
    (∀ s, (∃ w, fillThriftP cfg (sliceInput cfg) env t v s = .error (.panic, w)) ∨
      fillThriftP cfg (sliceInput cfg) env t v s = fillThriftP (unchecked cfg) (sliceInput (unchecked cfg)) env t v s) ∧
    (∀ evs, (∃ w, fillThriftP cfg (readerInput cfg) env t v evs = .error (.panic, w)) ∨
      fillThriftP cfg (readerInput cfg) env t v evs = fillThriftP (unchecked cfg) (readerInput (unchecked cfg)) env t v evs) := by
  have key : ∀ {σ : Type} {I J : Input σ}, InputSim (SimP.std (fun f => f = .diverge ∨ f = .panic) fun s t => s = t) (unchecked cfg) I J →
      ∀ s, (Op.fill env t v).run cfg I s ≠ .error .diverge →
      (∃ w, fillThriftP cfg I env t v s = .error (.panic, w)) ∨ fillThriftP cfg I env t v s = fillThriftP (unchecked cfg) J env t v s :=
    fun hI s hd => cfg_left (cfgSim_unchecked cfg) hI env t v s hd
  exact ⟨fun s => key (slice_cfg_sim (.inl rfl) (cfgSim_unchecked cfg) rfl) s (op_slice_notDiverge _ _ s),
    fun evs => key (reader_cfg_sim (.inl rfl) (cfgSim_unchecked cfg)) evs (op_reader_notDiverge _ _ evs)⟩

/-- C92: a failing allocator gives `ReserveError` (wherever it strikes), or nothing changes. -/
theorem C92_allocation (cfg : Cfg) (env : List Def) (t : Ty) (v : Val) :
    (∀ s, (∃ w, fillThriftP cfg (sliceInput cfg) env t v s = .error (.err .reserveError, w)) ∨
      fillThriftP cfg (sliceInput cfg) env t v s = fillThriftP (unlimited cfg) (sliceInput (unlimited cfg)) env t v s) ∧
    (∀ evs, (∃ w, fillThriftP cfg (readerInput cfg) env t v evs = .error (.err .reserveError, w)) ∨
      fillThriftP cfg (readerInput cfg) env t v evs = fillThriftP (unlimited cfg) (readerInput (unlimited cfg)) env t v evs) := by
  have key : ∀ {σ : Type} {I J : Input σ}, InputSim (SimP.std (fun f => f = .diverge ∨ f = .err .reserveError) fun s t => s = t) (unlimited cfg) I J →
      ∀ s, (Op.fill env t v).run cfg I s ≠ .error .diverge →
      (∃ w, fillThriftP cfg I env t v s = .error (.err .reserveError, w)) ∨ fillThriftP cfg I env t v s = fillThriftP (unlimited cfg) J env t v s :=
    fun hI s hd => cfg_left (cfgSim_unlimited cfg) hI env t v s hd
  exact ⟨fun s => key (slice_cfg_sim (.inl rfl) (cfgSim_unlimited cfg) rfl) s (op_slice_notDiverge _ _ s),
    fun evs => key (reader_cfg_sim (.inl rfl) (cfgSim_unlimited cfg)) evs (op_reader_notDiverge _ _ evs)⟩

/-- C80 for readers: however the encoding is delivered, if it ends too early the refusal is `UnexpectedEof`, and if the reader fails with an error, that
error; in both cases what is left is exactly what had arrived. -/
theorem C80_reader {cfg : Cfg} (ha : AllocOk cfg) {env : List Def} (hs : schemaOk env = true) (hst : stepsOk cfg.overflowChecks env = true) {t : Ty} {v v0 : Val}
    (hv : HasTy env v t) (h0 : Fillable env t v0) {q r : Bytes} (he : encode env t v = .ok (q ++ r)) (hr : r ≠ []) :
    ∃ w, CutAt env t v v0 w ∧
      (∀ evs, Delivers evs q → fillThriftP cfg (readerInput cfg) env t v0 evs = .error (.err (.io .unexpectedEof), w)) ∧
      (∀ k evs, Breaks k evs q → fillThriftP cfg (readerInput cfg) env t v0 evs = .error (.err (.io k), w)) := by
  obtain ⟨w, h1, h2⟩ := C80_cut (cfg := cfg.noSse2) ha hs hst hv h0 he hr
  refine ⟨w, h2, fun evs hd => ?_, fun k evs hd => ?_⟩
  · have := slice_reader_left cfg env t v0 hd
    rw [h1] at this
    rcases e : fillThriftP cfg (readerInput cfg) env t v0 evs with ⟨f, u⟩ | p
    · rw [e] at this; obtain ⟨rfl, rfl⟩ := this; rfl
    · rw [e] at this; exact this.elim
  · have := slice_breaks_left cfg env t v0 hd
    rw [h1] at this
    rcases e : fillThriftP cfg (readerInput cfg) env t v0 evs with ⟨f, u⟩ | p
    · rw [e] at this; obtain ⟨rfl, rfl⟩ := this; rfl
    · rw [e] at this; exact this.elim

/-- `Loose { a: 7, b: Some("a") }` without its last two bytes, in two chunks with an interruption, from a connection that is then reset: `Loose { a: 7, b: Some("") }`
is left, with the error of the connection. -/
example (ov : Bool) : let cfg : Cfg := ⟨ov, true, fun _ => true⟩
    let evs : List REvent := [.data [0x15#8, 0x0E#8, 0x18#8], .error .interrupted, .data [0x01#8], .error (.other 1)]
    Breaks (.other 1) evs [0x15#8, 0x0E#8, 0x18#8, 0x01#8] ∧
    fillThriftP cfg (readerInput cfg) pairEnv (.named 1) (dflt pairEnv (.named 1)) evs = .error (.err (.io (.other 1)), .struct [.i32 7#32, .some (.string [])]) :=
  ⟨.data [0x15#8, 0x0E#8, 0x18#8] _ [0x01#8] (by simp) (.interrupted _ _ (.data [0x01#8] _ [] (by simp) (.error _ (by simp)))), by cases ov <;> rfl⟩

/-- A list of the wrong element type in `Pair` leaves the number read before, from the slice and with anything after it. -/
example (ov sse : Bool) (suf : Bytes) : let cfg : Cfg := ⟨ov, sse, fun _ => true⟩
    fillThriftP cfg (sliceInput cfg) pairEnv (.named 0) (dflt pairEnv (.named 0)) ([0x15#8, 0x0E#8, 0x19#8, 0x25#8] ++ suf) =
      .error (.err .invalidType, .struct [.i32 7#32, .list []]) :=
  C92_final _ _ _ _ _ suf .invalidType _ (by simp) (by cases ov <;> cases sse <;> rfl)

end CT.Props
