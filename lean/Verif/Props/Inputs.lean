import Verif.Proofs.Ops
/-!
# C11-C15, C17, C20: inputs, chunking, I/O errors, locality, truncation, termination, the SSE2 skip

All for every request (`Op`): any schema, any type, any initial value, any wire type to skip.
-/
namespace CT.Props
open CT Spec

/-- A small schema for the examples: a struct with a required `i32` (id 1) and an optional string (id 3). -/
def exEnv : List Def := [.struct "P" [⟨1#16, true, "a", .i32⟩, ⟨3#16, false, "b", .string⟩]]

def exCfg : Cfg := ⟨false, true, fun _ => true⟩

/-- `a = 1`, an unknown field 2 of wire type i64, `b = "x"`, stop, and two further bytes. -/
def exBytes : Bytes := [0x15#8, 0x02#8, 0x16#8, 0x80#8, 0x01#8, 0x18#8, 0x01#8, 0x78#8, 0x00#8, 0xAA#8, 0xBB#8]

def exVal : Val := .struct [.i32 1#32, .some (.string [0x78#8])]

/-- C11, without the SSE2 skip: slice and `io::Read` agree on every byte string. -/
theorem C11_slice_reader (cfg : Cfg) (h : cfg.sse2 = false) (op : Op) (s : Bytes) (evs : List REvent)
    (he : Delivers evs s) :
    Same (fun s' evs' => Delivers evs' s') (op.run cfg (sliceInput cfg) s) (op.run cfg (readerInput cfg) evs) := by
  have := slice_reader_same cfg op he
  rwa [noSse2_eq h] at this

example : Delivers [.data (exBytes.take 3), .error .interrupted, .data (exBytes.drop 3)] exBytes :=
  .data _ _ _ (by decide) (.interrupted _ _ (.data _ _ [] (by decide) .nil))

example : (Op.read exEnv (.named 0)).run exCfg.noSse2 (sliceInput exCfg.noSse2) exBytes =
    .ok (some exVal, [0xAA#8, 0xBB#8]) := by rfl

/-- C11, with or without the SSE2 skip: slice and `io::Read` agree whenever no integer skipped on the way is cut off
or longer than 17 bytes. -/
theorem C11_slice_reader_sse2 (cfg : Cfg) (op : Op) (s : Bytes) (evs : List REvent) (he : Delivers evs s)
    (hs : ShortSkips cfg op s) :
    Same (fun s' evs' => Delivers evs' s') (op.run cfg (sliceInput cfg) s) (op.run cfg (readerInput cfg) evs) :=
  sse2_same cfg op he hs

example : ShortSkips exCfg (.read exEnv (.named 0)) exBytes := by
  show (Op.read exEnv (.named 0)).run exCfg (watchedInput exCfg) exBytes ≠ _
  rw [show (Op.read exEnv (.named 0)).run exCfg (watchedInput exCfg) exBytes = .ok (some exVal, [0xAA#8, 0xBB#8]) from rfl]
  nofun

/-- Disagreement otherwise, 1: an integer cut off while skipping is a panic on the slice, an error on the reader. -/
theorem C11_counterexample_truncated :
    ∃ (op : Op) (s : Bytes) (evs : List REvent), Delivers evs s ∧
      op.run exCfg (sliceInput exCfg) s = .error .panic ∧
      op.run exCfg (readerInput exCfg) evs = .error (.err (.io .unexpectedEof)) :=
  ⟨.skip 6#8 false, [0x80#8], [.data [0x80#8]], .data _ _ [] (by decide) .nil, rfl, rfl⟩

/-- Disagreement otherwise, 2: a varint of 18 bytes is skipped only in part by the SSE2 code. -/
theorem C11_counterexample_overlong :
    ∃ (op : Op) (s : Bytes) (evs : List REvent), Delivers evs s ∧
      op.run exCfg (sliceInput exCfg) s = .ok (none, [0x00#8]) ∧
      ∃ evs', op.run exCfg (readerInput exCfg) evs = .ok (none, evs') ∧ Delivers evs' [] :=
  ⟨.skip 6#8 false, List.replicate 17 0x80#8 ++ [0x00#8], [.data (List.replicate 17 0x80#8 ++ [0x00#8])],
    .data _ _ [] (by decide) .nil, rfl, [], rfl, .nil⟩

/-- C12: the way the bytes are cut into chunks and interrupted does not matter. -/
theorem C12_chunking (cfg : Cfg) (op : Op) (s : Bytes) (evs₁ evs₂ : List REvent) (h₁ : Delivers evs₁ s)
    (h₂ : Delivers evs₂ s) :
    Same (fun e₁ e₂ => ∃ rest, Delivers e₁ rest ∧ Delivers e₂ rest)
      (op.run cfg (readerInput cfg) evs₁) (op.run cfg (readerInput cfg) evs₂) := by
  have a := slice_reader_same cfg op h₁
  have b := slice_reader_same cfg op h₂
  revert a b
  generalize op.run cfg.noSse2 (sliceInput cfg.noSse2) s = x
  generalize op.run cfg (readerInput cfg) evs₁ = y
  generalize op.run cfg (readerInput cfg) evs₂ = z
  intro a b
  rcases x with f | ⟨v, s'⟩ <;> rcases y with g | ⟨v₁, e₁⟩ <;> rcases z with k | ⟨v₂, e₂⟩ <;> simp only [Same] at *
  · exact a.symm.trans b
  · obtain ⟨rfl, ha⟩ := a
    obtain ⟨rfl, hb⟩ := b
    exact ⟨rfl, s', ha, hb⟩

/-- The outcome of a reader that breaks, in terms of one that ends at the same point. -/
def Broken (k : ErrorKind) : Except Fail (Option Val × List REvent) → Except Fail (Option Val × List REvent) → Prop
  | .ok (v, e₁), .ok (w, e₂) => v = w ∧ ∃ rest, Delivers e₁ rest ∧ Breaks k e₂ rest
  | .error f, .error g => (f = .err (.io .unexpectedEof) ∧ g = .err (.io k)) ∨ (f ≠ .err (.io .unexpectedEof) ∧ g = f)
  | _, _ => False

theorem slice_breaks (cfg : Cfg) (op : Op) {k : ErrorKind} {d : Bytes} {evs : List REvent} (h : Breaks k evs d) :
    match op.run cfg.noSse2 (sliceInput cfg.noSse2) d with
    | .ok (v, s') => ∃ e', op.run cfg (readerInput cfg) evs = .ok (v, e') ∧ Breaks k e' s'
    | .error f => op.run cfg (readerInput cfg) evs = .error (eofTo k f) := by
  have := (generic_op op (cfgSim_noSse2 OnlyDiverge cfg)
    (slice_breaks_sim k (A := OnlyDiverge) rfl (cfgSim_noSse2 _ cfg) rfl)).run d evs h
  cases e : op.run cfg.noSse2 (sliceInput cfg.noSse2) d with
  | error f =>
    simp only [e] at this
    rcases this with h | h | h
    · exact absurd (h ▸ e) (op_slice_notDiverge _ op d)
    · exact h.1.elim
    · exact h
  | ok p => obtain ⟨v, s'⟩ := p; simp only [e] at this; exact this

/-- C13: a reader that delivers the bytes `d` and then fails with the hard error `k` behaves exactly like one that
ends after `d`, with "unexpected end of file" replaced by `k`. -/
theorem C13_io_error (cfg : Cfg) (op : Op) (k : ErrorKind) (d : Bytes) (evs₁ evs₂ : List REvent) (h₁ : Delivers evs₁ d)
    (h₂ : Breaks k evs₂ d) :
    Broken k (op.run cfg (readerInput cfg) evs₁) (op.run cfg (readerInput cfg) evs₂) := by
  have a := slice_reader_same cfg op h₁
  have b := slice_breaks cfg op h₂
  revert a b
  generalize op.run cfg.noSse2 (sliceInput cfg.noSse2) d = x
  generalize op.run cfg (readerInput cfg) evs₁ = y
  generalize op.run cfg (readerInput cfg) evs₂ = z
  intro a b
  rcases x with f | ⟨v, s'⟩
  · simp only at b
    subst b
    rcases y with g | ⟨w, e⟩ <;> simp only [Same] at a
    subst a
    simp only [Broken, eofTo]
    by_cases hf : f = .err (.io .unexpectedEof)
    · left; exact ⟨hf, by rw [if_pos hf]⟩
    · right; exact ⟨hf, by rw [if_neg hf]⟩
  · obtain ⟨e', rfl, hb⟩ := b
    rcases y with g | ⟨w, e⟩ <;> simp only [Same] at a
    obtain ⟨rfl, ha⟩ := a
    exact ⟨rfl, s', ha, hb⟩

/-- C13: compared with the complete data `d ++ rest`: the value or error of the complete data, or `IO(k)`. -/
theorem C13_nothing_invented (cfg : Cfg) (op : Op) (k : ErrorKind) (d rest : Bytes) (evs full : List REvent)
    (h : Breaks k evs d) (hf : Delivers full (d ++ rest)) :
    op.run cfg (readerInput cfg) evs = .error (.err (.io k)) ∨
    Same (fun e₁ e₂ => ∃ s, Breaks k e₁ s ∧ Delivers e₂ (s ++ rest))
      (op.run cfg (readerInput cfg) evs) (op.run cfg (readerInput cfg) full) := by
  have b := slice_breaks cfg op h
  have c := slice_reader_same cfg op hf
  have x := (generic_op op (P := extendP OnlyDiverge _ rest) (CfgSim.refl _ _) (slice_extend cfg.noSse2 rest)).run d _ rfl
  cases e : op.run cfg.noSse2 (sliceInput cfg.noSse2) d with
  | error f =>
    simp only [e] at b x
    rcases x with x | ⟨x, _⟩ | x
    · exact absurd (x ▸ e) (op_slice_notDiverge _ op d)
    · left
      rcases x with rfl | ⟨x, _⟩
      · rw [b]; rfl
      · cases x
    · rw [x] at c
      rw [b]
      cases hr : op.run cfg (readerInput cfg) full with
      | ok p => rw [hr] at c; exact c.elim
      | error g =>
        rw [hr] at c
        by_cases hE : f = .err (.io .unexpectedEof)
        · left; simp [eofTo, hE]
        · right; simp only [eofTo, if_neg hE]; exact c
  | ok p =>
    obtain ⟨v, s'⟩ := p
    simp only [e] at b x
    obtain ⟨e', b1, b2⟩ := b
    obtain ⟨t', x1, x2⟩ := x
    right
    rw [x1] at c
    rw [b1]
    cases hr : op.run cfg (readerInput cfg) full with
    | error g => rw [hr] at c; exact c.elim
    | ok q =>
      obtain ⟨w, e2⟩ := q
      rw [hr] at c
      obtain ⟨rfl, c2⟩ := c
      exact ⟨rfl, s', b2, x2 ▸ c2⟩

example : Breaks (.other 7) [.data (exBytes.take 4), .error .interrupted, .error (.other 7)] (exBytes.take 4) ∧
    (Op.read exEnv (.named 0)).run exCfg (readerInput exCfg)
      [.data (exBytes.take 4), .error .interrupted, .error (.other 7)] = .error (.err (.io (.other 7))) :=
  ⟨.data _ _ [] (by decide) (.interrupted _ _ (.error _ (by decide))), rfl⟩

/-- C14, slices: a successful read consumes a prefix of the input and depends on nothing else. -/
theorem C14_slice (cfg : Cfg) (op : Op) (s s' : Bytes) (v : Option Val)
    (h : op.run cfg (sliceInput cfg) s = .ok (v, s')) :
    ∃ p, s = p ++ s' ∧ ∀ suf, op.run cfg (sliceInput cfg) (p ++ suf) = .ok (v, suf) :=
  slice_local (generic_op op) (op_slice_notDiverge cfg op) h

/-- C14, readers. -/
theorem C14_reader (cfg : Cfg) (op : Op) (s : Bytes) (evs evs' : List REvent) (v : Option Val) (he : Delivers evs s)
    (h : op.run cfg (readerInput cfg) evs = .ok (v, evs')) :
    ∃ p s', s = p ++ s' ∧ Delivers evs' s' ∧ ∀ suf e, Delivers e (p ++ suf) →
      ∃ e', op.run cfg (readerInput cfg) e = .ok (v, e') ∧ Delivers e' suf := by
  have a := slice_reader_same cfg op he
  rw [h] at a
  cases e : op.run cfg.noSse2 (sliceInput cfg.noSse2) s with
  | error f => rw [e] at a; exact a.elim
  | ok q =>
    obtain ⟨w, s'⟩ := q
    rw [e] at a
    obtain ⟨rfl, hd⟩ := a
    obtain ⟨p, rfl, hp⟩ := C14_slice cfg.noSse2 op s s' w e
    exact ⟨p, s', rfl, hd, fun suf e he => reader_ok (generic_op op) (hp suf) he⟩

example : (Op.read exEnv (.named 0)).run exCfg (sliceInput exCfg) exBytes = .ok (some exVal, [0xAA#8, 0xBB#8]) := by rfl

/-- C15, slices: cutting off any of the bytes a successful read consumed makes it fail; with `UnexpectedEof`, or, in the
SSE2 build, possibly with a panic or an access outside the slice. -/
theorem C15_truncation_slice (cfg : Cfg) (op : Op) (q r suf : Bytes) (v : Option Val) (hr : r ≠ [])
    (h : op.run cfg (sliceInput cfg) (q ++ r ++ suf) = .ok (v, suf)) :
    op.run cfg (sliceInput cfg) q = .error (.err (.io .unexpectedEof)) ∨
    (cfg.sse2 = true ∧
      (op.run cfg (sliceInput cfg) q = .error .panic ∨ op.run cfg (sliceInput cfg) q = .error .ub)) := by
  obtain ⟨e, h1, h2⟩ := slice_truncated (generic_op op) (op_slice_notDiverge cfg op) hr h
  rcases h2 with rfl | ⟨hs, rfl | rfl⟩
  · exact .inl h1
  · exact .inr ⟨hs, .inl h1⟩
  · exact .inr ⟨hs, .inr h1⟩

/-- C15, readers: always `UnexpectedEof`. -/
theorem C15_truncation_reader (cfg : Cfg) (op : Op) (q r suf : Bytes) (v : Option Val) (hr : r ≠ [])
    (full rest : List REvent) (hf : Delivers full (q ++ r ++ suf)) (hrest : Delivers rest suf)
    (h : op.run cfg (readerInput cfg) full = .ok (v, rest)) (evs : List REvent) (he : Delivers evs q) :
    op.run cfg (readerInput cfg) evs = .error (.err (.io .unexpectedEof)) := by
  have a := slice_reader_same cfg op hf
  rw [h] at a
  cases e : op.run cfg.noSse2 (sliceInput cfg.noSse2) (q ++ r ++ suf) with
  | error f => rw [e] at a; exact a.elim
  | ok x =>
    obtain ⟨w, s'⟩ := x
    rw [e] at a
    obtain ⟨rfl, hd⟩ := a
    obtain rfl := Delivers.det hd hrest
    rcases C15_truncation_slice cfg.noSse2 op q r s' w hr e with h1 | ⟨h1, _⟩
    · exact reader_error (generic_op op) h1 (by nofun) he
    · cases h1

/-- C13 with C15: a hard error before the value is complete is always reported as such. -/
theorem C13_incomplete (cfg : Cfg) (op : Op) (k : ErrorKind) (q r suf : Bytes) (v : Option Val) (hr : r ≠ [])
    (full rest : List REvent) (hf : Delivers full (q ++ r ++ suf)) (hrest : Delivers rest suf)
    (h : op.run cfg (readerInput cfg) full = .ok (v, rest)) (evs : List REvent) (he : Breaks k evs q) :
    op.run cfg (readerInput cfg) evs = .error (.err (.io k)) := by
  obtain ⟨one, h1⟩ := delivers_one q
  have h2 := C15_truncation_reader cfg op q r suf v hr full rest hf hrest h one h1
  have h3 := C13_io_error cfg op k q one evs h1 he
  rw [h2] at h3
  cases e : op.run cfg (readerInput cfg) evs with
  | ok p => rw [e] at h3; exact h3.elim
  | error g =>
    rw [e] at h3
    rcases h3 with ⟨_, rfl⟩ | ⟨h3, _⟩
    · rfl
    · exact absurd rfl h3

example : (Op.read exEnv (.named 0)).run exCfg (sliceInput exCfg)
    (exBytes.take 4 ++ (exBytes.take 9).drop 4 ++ exBytes.drop 9) = .ok (some exVal, exBytes.drop 9) ∧
    (exBytes.take 9).drop 4 ≠ [] := ⟨rfl, by decide⟩

/-- The SSE2 build panics on truncated input that the other builds report as an error. -/
theorem C15_counterexample_panic :
    (Op.read exEnv (.named 0)).run exCfg (sliceInput exCfg) exBytes = .ok (some exVal, [0xAA#8, 0xBB#8]) ∧
    (Op.read exEnv (.named 0)).run exCfg (sliceInput exCfg) (exBytes.take 4) = .error .panic := ⟨rfl, rfl⟩

/-- The SSE2 build leaves the bounds of the slice on an integer of 17 bytes cut off after 16. -/
theorem C15_counterexample_ub :
    (Op.skip 6#8 false).run exCfg (sliceInput exCfg) (List.replicate 16 0x80#8 ++ [0x00#8]) = .ok (none, []) ∧
    (Op.skip 6#8 false).run exCfg (sliceInput exCfg) (List.replicate 16 0x80#8) = .error .ub := ⟨rfl, rfl⟩

/-! ## Termination -/

/-- C17: on every finite input every request finishes: the bounds on loops and recursion that the model derives from
the input size are never reached. -/
theorem C17_terminates (cfg : Cfg) (op : Op) :
    (∀ s, op.run cfg (sliceInput cfg) s ≠ .error .diverge) ∧ (∀ evs, op.run cfg (readerInput cfg) evs ≠ .error .diverge) :=
  ⟨op_slice_notDiverge cfg op, op_reader_notDiverge cfg op⟩

theorem fuel_eq {σ α : Type} {x y : Rd σ α} {s : σ} (h : Sim (SimP.std OnlyDiverge fun s t => s = t) x y)
    (hx : x s ≠ .error .diverge) : y s = x s := by
  have := h.run s s rfl
  cases e : x s with
  | error f =>
    rw [e] at this
    rcases this with h | h | h
    · exact absurd (h ▸ e) hx
    · exact h.1.elim
    · exact h
  | ok p => obtain ⟨a, s'⟩ := p; rw [e] at this; obtain ⟨t', h1, h2⟩ := this; rw [h1, ← show s' = t' from h2]

theorem refl_sim {σ : Type} (cfg : Cfg) (I : Input σ) :
    InputSim (SimP.std OnlyDiverge fun s t => s = t) cfg I I := by
  have : ∀ {α : Type} (x : Rd σ α), Sim (SimP.std OnlyDiverge fun s t => s = t) x x := fun x =>
    ⟨by rintro s t rfl; cases e : x s with
      | error f => exact .inr (.inr rfl)
      | ok p => exact ⟨p.2, rfl, rfl⟩, fun _ _ _ _ _ => trivial⟩
  exact ⟨rfl, Closed.trivial _ _, by rintro s t rfl; exact Nat.le_refl _, this _, this _, this _, this _, this _⟩

/-- C17: more than the derived bound on nested calls changes nothing: the result does not depend on the bound. Slices. -/
theorem C17_bound_irrelevant_slice (cfg : Cfg) (s : Bytes) (n : Nat) :
    (2 * s.length + 2 ≤ n → ∀ ft ins, skipFieldF cfg (sliceInput cfg) n ft ins s = (sliceInput cfg).skip cfg ft ins s) ∧
    (s.length + 1 ≤ n → ∀ env t v,
      fillTy cfg (sliceInput cfg) env (fillNamed cfg (sliceInput cfg) env n) t v s =
        fillThrift cfg (sliceInput cfg) env t v s) := by
  have hI := refl_sim cfg (sliceInput cfg)
  have hc := CfgSim.refl OnlyDiverge cfg
  refine ⟨fun hn ft ins => ?_, fun hn env t v => ?_⟩
  · refine fuel_eq (x := skipFieldF cfg (sliceInput cfg) (2 * s.length + 2) ft ins)
      ((Sim.skipF (P := SimP.std OnlyDiverge _) hc hI _ _ hn).2.2 ft ins) fun h => ?_
    exact (Tri.skip (allowed_notDiverge cfg) (slice_measured_nd cfg) ft ins s.length).error (Nat.le_refl _) h rfl
  · refine fuel_eq (x := fillTy cfg (sliceInput cfg) env (fillNamed cfg (sliceInput cfg) env (s.length + 1)) t v)
      (Sim.fillTy (P := SimP.std OnlyDiverge _) hc hI env (Sim.fillNamed hc hI env _ _ hn) t v) fun h => ?_
    exact (Tri.fillThrift (allowed_notDiverge cfg) (slice_measured_nd cfg) stuck_notDiverge env t v s.length).error (Nat.le_refl _) h rfl

/-- C17: the same for readers. -/
theorem C17_bound_irrelevant_reader (cfg : Cfg) (evs : List REvent) (n : Nat) :
    (2 * readerSize evs + 2 ≤ n → ∀ ft ins,
      skipFieldF cfg (readerInput cfg) n ft ins evs = (readerInput cfg).skip cfg ft ins evs) ∧
    (readerSize evs + 1 ≤ n → ∀ env t v,
      fillTy cfg (readerInput cfg) env (fillNamed cfg (readerInput cfg) env n) t v evs =
        fillThrift cfg (readerInput cfg) env t v evs) := by
  have hI := refl_sim cfg (readerInput cfg)
  have hc := CfgSim.refl OnlyDiverge cfg
  refine ⟨fun hn ft ins => ?_, fun hn env t v => ?_⟩
  · refine fuel_eq (x := skipFieldF cfg (readerInput cfg) (2 * readerSize evs + 2) ft ins)
      ((Sim.skipF (P := SimP.std OnlyDiverge _) hc hI _ _ hn).2.2 ft ins) fun h => ?_
    exact (Tri.skip (allowed_notDiverge cfg) (reader_measured_nd cfg) ft ins (readerSize evs)).error (Nat.le_refl _) h rfl
  · refine fuel_eq (x := fillTy cfg (readerInput cfg) env (fillNamed cfg (readerInput cfg) env (readerSize evs + 1)) t v)
      (Sim.fillTy (P := SimP.std OnlyDiverge _) hc hI env (Sim.fillNamed hc hI env _ _ hn) t v) fun h => ?_
    exact (Tri.fillThrift (allowed_notDiverge cfg) (reader_measured_nd cfg) stuck_notDiverge env t v (readerSize evs)).error
      (Nat.le_refl _) h rfl

/-- A recursive schema: a list of itself. -/
example : (Op.read [.struct "Node" [⟨1#16, true, "children", .list (.named 0)⟩]] (.named 0)).run exCfg (sliceInput exCfg)
    [0x19#8, 0x1C#8, 0x19#8, 0x0C#8, 0x00#8, 0x00#8] =
      .ok (some (.struct [.list [.struct [.list []]]]), []) := by rfl

/-! ## The SSE2 skip -/

/-- C20: a varint that ends within 17 bytes is skipped exactly, by the SSE2 code and by the scalar code alike. -/
theorem C20_sse2_varint (p r : Bytes) (hp : IsVarint p) (hl : p.length ≤ 17) :
    skipUlebSse2 (p ++ r) = .ok r ∧ skipUlebFallback (p ++ r) = .ok r :=
  ⟨skipUlebSse2_varint p r hp hl, skipUlebFallback_varint p r hp⟩

/-- C20: otherwise (16 or more bytes, the first 17 of them, or all 16, with continuation bit) the SSE2 code drops 17
bytes, and reads outside of the slice if there are only 16. -/
theorem C20_sse2_long (s : Bytes) (hl : 16 ≤ s.length) (h : ∀ b ∈ s.take 17, 128 ≤ b.toNat) :
    skipUlebSse2 s = if s.length = 16 then .error .ub else .ok (s.drop 17) := by
  rw [skipUlebSse2_all s (fun b hb => h b ?_) hl]
  · by_cases h16 : s.length = 16
    · rw [if_pos h16, if_neg (by omega)]
    · rw [if_neg h16, if_pos (by omega)]
  · rw [show s.take 16 = (s.take 17).take 16 by rw [List.take_take]; simp] at hb
    exact List.mem_of_mem_take hb

/-- C20: one of the two cases always applies. -/
theorem C20_cases (s : Bytes) :
    (∃ p r, s = p ++ r ∧ IsVarint p ∧ p.length ≤ 17) ∨ (∀ b ∈ s.take 17, 128 ≤ b.toNat) := by
  cases h : (s.take 17).findIdx? (fun b => decide (b.toNat < 128)) with
  | some i => obtain ⟨p, r, e, hp, h1, h2, _⟩ := varint_findIdx h; exact .inl ⟨p, r, e, hp, by omega⟩
  | none =>
    right
    intro b hb
    rw [List.findIdx?_eq_none_iff] at h
    have := h b hb
    simp at this; exact this

example : IsVarint [0x80#8, 0xFF#8, 0x01#8] := by decide
example : ∀ b ∈ (List.replicate 20 0x80#8).take 17, 128 ≤ b.toNat := by decide

end CT.Props
