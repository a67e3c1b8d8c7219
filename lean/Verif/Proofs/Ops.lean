import Verif.Proofs.Reads
import Verif.Spec.Ops
/-! # Transfer between inputs, for all requests -/
namespace CT
open Spec

theorem generic_op (op : Op) : Generic (fun c _ I => op.run c I) := by
  intro σ₁ σ₂ P c₁ c₂ I₁ I₂ hc hI
  cases op with
  | read env t => exact Sim.bind (Sim.readThrift hc hI env t) fun _ => Sim.pure _
  | fill env t v => exact Sim.bind (Sim.fillThrift hc hI env t v) fun _ => Sim.pure _
  | skip ft ins => exact Sim.bind (Sim.skip hc hI ft ins) fun _ => Sim.pure _

theorem Tri.op {σ : Type} {E : Fail → Prop} {cfg : Cfg} (hE : Allowed E cfg) {I : Input σ} (hI : Measured E I) (hS : E .stuck) (op : Op)
    (n : Nat) : Tri (fun s => I.size s ≤ n) (op.run cfg I) (fun _ s => I.size s ≤ n) E := by
  cases op with
  | read env t => exact Tri.bind (Tri.readThrift hE hI hS env t n) fun _ => Tri.pure fun _ h => h
  | fill env t v => exact Tri.bind (Tri.fillThrift hE hI hS env t v n) fun _ => Tri.pure fun _ h => h
  | skip ft ins => exact Tri.bind (Tri.skip hE hI ft ins n) fun _ => Tri.pure fun _ h => h

theorem op_slice_notDiverge (cfg : Cfg) (op : Op) (s : Bytes) : op.run cfg (sliceInput cfg) s ≠ .error .diverge := by
  intro h
  exact (Tri.op (allowed_notDiverge cfg) (slice_measured_nd cfg) stuck_notDiverge op s.length).error (Nat.le_refl _) h rfl

theorem op_reader_notDiverge (cfg : Cfg) (op : Op) (evs : List REvent) :
    op.run cfg (readerInput cfg) evs ≠ .error .diverge := by
  intro h
  exact (Tri.op (allowed_notDiverge cfg) (reader_measured_nd cfg) stuck_notDiverge op (readerSize evs)).error (Nat.le_refl _) h rfl

/-- Agreement from a simulation whose only exception cannot occur. -/
theorem same_of_sim {σ τ α : Type} {A : Fail → Prop} {R : σ → τ → Prop} {x : Rd σ α} {y : Rd τ α}
    (h : Sim (SimP.std A R) x y) {s : σ} {t : τ} (hR : R s t) (hx : ∀ f, A f → x s ≠ .error f) :
    Same R (x s) (y t) := by
  have := h.run s t hR
  cases e : x s with
  | error f =>
    rw [e] at this
    rcases this with h | h | h
    · exact absurd e (hx f h)
    · exact h.1.elim
    · rw [h]; rfl
  | ok p =>
    obtain ⟨a, s'⟩ := p
    rw [e] at this
    obtain ⟨t', h1, h2⟩ := this
    rw [h1]; exact ⟨rfl, h2⟩

theorem slice_reader_same (cfg : Cfg) (op : Op) {evs : List REvent} {s : Bytes} (h : Delivers evs s) :
    Same (fun s evs => Delivers evs s) (op.run cfg.noSse2 (sliceInput cfg.noSse2) s)
      (op.run cfg (readerInput cfg) evs) :=
  same_of_sim (generic_op op (P := SimP.std OnlyDiverge _) (cfgSim_noSse2 OnlyDiverge cfg) (reader_sim cfg)) h
    (by rintro f rfl; exact op_slice_notDiverge _ op s)

theorem noSse2_eq {cfg : Cfg} (h : cfg.sse2 = false) : cfg.noSse2 = cfg := by
  cases cfg; cases h; rfl

/-! ## The watched slice -/

theorem varint_findIdx {s : Bytes} {i : Nat} (h : (s.take 17).findIdx? (fun b => decide (b.toNat < 128)) = some i) :
    ∃ p r, s = p ++ r ∧ IsVarint p ∧ p.length = i + 1 ∧ i + 1 ≤ 17 ∧ s.drop (i + 1) = r := by
  rcases varint_split s with ⟨p, r, rfl, hp⟩ | hall
  · have hsc := scan_varint p r hp
    obtain ⟨h1, h2⟩ := scan_spec (p ++ r)
    rw [List.findIdx?_eq_some_iff_getElem] at h
    obtain ⟨hi, hb, hlt⟩ := h
    simp only [List.length_take] at hi
    have hi' : i = scanContinuation (p ++ r) := by
      rcases Nat.lt_trichotomy i (scanContinuation (p ++ r)) with h | h | h
      · obtain ⟨b, e, hb'⟩ := h1 i h
        rw [List.getElem?_eq_getElem (by omega), Option.some.injEq] at e
        simp only [List.getElem_take, e, decide_eq_true_eq] at hb
        omega
      · exact h
      · have := hlt _ h
        have hx := h2 ((p ++ r)[scanContinuation (p ++ r)]'(by omega)) (List.getElem?_eq_getElem (by omega))
        simp only [List.getElem_take, decide_eq_true_eq] at this
        omega
    refine ⟨p, r, rfl, hp, by omega, by omega, ?_⟩
    rw [hi', hsc, List.drop_left]
  · rw [List.findIdx?_eq_some_iff_getElem] at h
    obtain ⟨hi, hb, _⟩ := h
    have := hall _ (List.mem_of_mem_take (List.getElem_mem hi))
    simp only [decide_eq_true_eq] at hb
    omega

theorem watched_none {cfg : Cfg} {s : Bytes} (h : (s.take 17).findIdx? (fun b => decide (b.toNat < 128)) = none) :
    (watchedInput cfg).skipInteger s = .error .ub := by
  unfold watchedInput; simp only [h]

theorem watched_some {cfg : Cfg} {s : Bytes} {i : Nat}
    (h : (s.take 17).findIdx? (fun b => decide (b.toNat < 128)) = some i) :
    (watchedInput cfg).skipInteger s = .ok ((), s.drop (i + 1)) := by
  unfold watchedInput; simp only [h]

theorem Same.swap {σ υ α : Type} {R : σ → υ → Prop} {x : Except Fail (α × σ)} {y : Except Fail (α × σ)}
    {z : Except Fail (α × υ)} (h1 : Same (fun s t => s = t) x y) (h2 : Same R x z) : Same R y z := by
  rcases x with f | ⟨a, s⟩ <;> rcases y with g | ⟨b, t⟩ <;> rcases z with k | ⟨c, u⟩ <;> simp only [Same] at *
  · exact h1.symm.trans h2
  · obtain ⟨rfl, rfl⟩ := h1; exact h2

/-- Diverging or marked. -/
abbrev Marked (f : Fail) : Prop := f = .diverge ∨ f = .ub

theorem watched_slice_sim (cfg : Cfg) :
    InputSim (SimP.std Marked fun s t => s = t) cfg (watchedInput cfg) (sliceInput cfg) := by
  refine inputSim_of_take (c₁ := cfg) (c₂ := cfg) (Or.inl rfl) (CfgSim.refl _ _) (Closed.trivial _ _) sliceTake sliceTake
    ?_ ?_ slice_readByte_eq slice_readByte_eq slice_readDouble_eq slice_readDouble_eq (slice_readBinary_eq cfg)
    (slice_readBinary_eq cfg) (slice_skipBinary_eq cfg) (slice_skipBinary_eq cfg) ?_
  · rintro s t rfl; exact Nat.le_refl _
  · refine fun n => ⟨?_, fun _ _ _ _ _ => trivial⟩
    rintro s t rfl
    cases h : sliceTake n s with
    | error f => exact .inr (.inr rfl)
    | ok p => exact ⟨_, rfl, rfl⟩
  · refine fun _ => ⟨?_, fun _ _ _ _ _ => trivial⟩
    rintro s t rfl
    cases h : (s.take 17).findIdx? (fun b => decide (b.toNat < 128)) with
    | none =>
      rw [watched_none h]
      exact .inl (.inr rfl)
    | some i =>
      rw [watched_some h]
      obtain ⟨p, r, rfl, hp, hl, hl', hd⟩ := varint_findIdx h
      refine ⟨_, ?_, rfl⟩
      rw [hd]
      show Slice.skipInteger cfg (p ++ r) = _
      by_cases h2 : cfg.sse2 = true
      · exact slice_skipInteger_varint h2 hp (by omega)
      · have e : Slice.skipInteger cfg = _ := slice_skipInteger_noSse2 (by simpa using h2)
        rw [e, Rd.bind_ok (uleb_slice cfg p r hp (by right; omega))]; rfl

theorem watched_reader_sim (cfg : Cfg) :
    InputSim (SimP.std Marked fun s evs => Delivers evs s) cfg (watchedInput cfg) (readerInput cfg) := by
  refine inputSim_of_take (c₁ := cfg) (c₂ := cfg) (Or.inl rfl) (CfgSim.refl _ _) (Closed.trivial _ _) sliceTake readExact
    ?_ ?_ slice_readByte_eq reader_readByte_eq slice_readDouble_eq reader_readDouble_eq (slice_readBinary_eq cfg) rfl
    (slice_skipBinary_eq cfg) rfl ?_
  · intro s t h; exact Nat.le_of_eq (delivers_size h).symm
  · refine fun n => ⟨fun s evs hR => ?_, fun _ _ _ _ _ => trivial⟩
    obtain ⟨h1, h2⟩ := readExact_delivers hR n
    unfold sliceTake
    by_cases h : s.length < n
    · simp only [h, if_true, eof]; right; right; exact h2 h
    · simp only [h, if_false]; exact h1 (by omega)
  · intro hu
    refine ⟨fun s evs hR => ?_, fun _ _ _ _ _ => trivial⟩
    cases h : (s.take 17).findIdx? (fun b => decide (b.toNat < 128)) with
    | none =>
      rw [watched_none h]
      exact .inl (.inr rfl)
    | some i =>
      rw [watched_some h]
      obtain ⟨p, r, rfl, hp, hl, hl', hd⟩ := varint_findIdx h
      have := hu.run (p ++ r) evs hR
      rw [show (watchedInput cfg).readByte = Slice.readByte from rfl,
        show (watchedInput cfg).size = List.length from rfl,
        Rd.bind_ok (uleb_slice cfg p r hp (by right; omega))] at this
      rw [hd]
      exact this

theorem watched_notDiverge (cfg : Cfg) (op : Op) (s : Bytes) : op.run cfg (watchedInput cfg) s ≠ .error .diverge := by
  have hm : Measured notDiverge (watchedInput cfg) := by
    have h := slice_measured_nd cfg
    refine ⟨h.readByte, h.readDouble, h.readBinary, fun n s hs => ?_, h.skipBinary⟩
    cases h : (s.take 17).findIdx? (fun b => decide (b.toNat < 128)) with
    | none =>
      rw [watched_none h]
      simp [notDiverge]
    | some i =>
      rw [watched_some h]
      have : s.length ≤ n := hs
      show (s.drop (i + 1)).length ≤ n
      simp; omega
  intro h
  exact (Tri.op (allowed_notDiverge cfg) hm stuck_notDiverge op s.length).error (Nat.le_refl _) h rfl

theorem sse2_same (cfg : Cfg) (op : Op) {evs : List REvent} {s : Bytes} (h : Delivers evs s) (hs : ShortSkips cfg op s) :
    Same (fun s evs => Delivers evs s) (op.run cfg (sliceInput cfg) s) (op.run cfg (readerInput cfg) evs) := by
  have hx : ∀ f, Marked f → op.run cfg (watchedInput cfg) s ≠ .error f := by
    rintro f (rfl | rfl)
    · exact watched_notDiverge cfg op s
    · exact hs
  have h1 := same_of_sim (generic_op op (P := SimP.std Marked _) (CfgSim.refl _ _) (watched_slice_sim cfg)) (t := s) rfl hx
  have h2 := same_of_sim (generic_op op (P := SimP.std Marked _) (CfgSim.refl _ _) (watched_reader_sim cfg)) h hx
  exact Same.swap h1 h2

/-! ## Locality -/

/-- How truncation surfaces on a slice. -/
def Cut (cfg : Cfg) (f : Fail) : Prop := f = .err (.io .unexpectedEof) ∨ (cfg.sse2 = true ∧ (f = .panic ∨ f = .ub))

theorem slice_extend (cfg : Cfg) (suf : Bytes) :
    InputSim (extendP OnlyDiverge (Cut cfg) suf) cfg (sliceInput cfg) (sliceInput cfg) := by
  cases h : cfg.sse2 with
  | true =>
    exact slice_extend_sim_sse2 suf (A := OnlyDiverge) (B := Cut cfg) rfl (Or.inl rfl) (Or.inr ⟨h, Or.inl rfl⟩)
      (Or.inr ⟨h, Or.inr rfl⟩) (CfgSim.refl _ _) h h
  | false =>
    exact slice_extend_sim_noSse2 suf (A := OnlyDiverge) (B := Cut cfg) rfl (Or.inl rfl) (CfgSim.refl _ _) h h

theorem slice_suffix {α : Type} {f : Cfg → ∀ {σ : Type}, Input σ → Rd σ α} (hg : Generic f) {cfg : Cfg} {s s' : Bytes} {a : α}
    (h : f cfg (sliceInput cfg) s = .ok (a, s')) : ∃ p, s = p ++ s' := by
  have key : ∀ n, Pres (fun t => t <:+ s) (sliceTake n) := by
    intro n t a t' hD e
    unfold sliceTake at e
    split at e
    · cases e
    · simp only [Except.ok.injEq, Prod.mk.injEq] at e
      rw [← e.2]; exact (List.drop_suffix n t).trans hD
  have hbyte : Pres (fun t => t <:+ s) Slice.readByte := by
    rw [slice_readByte_eq]; exact Pres.bind (key 1) fun _ => Pres.pure _
  have hcl : ∀ m sh acc, Pres (fun t => t <:+ s) (ulebLoop cfg Slice.readByte m sh acc) := by
    intro m
    induction m with
    | zero => intro sh acc; exact Pres.fail _
    | succ m ih =>
      intro sh acc
      unfold ulebLoop
      exact Pres.bind hbyte fun _ => Pres.ite (Pres.fail _) (Pres.ite (Pres.pure _) (ih _ _))
  have huleb : Pres (fun t => t <:+ s) (decodeUleb cfg List.length Slice.readByte) := fun t => hcl _ _ _ t
  have hbin : Pres (fun t => t <:+ s) (Slice.readBinary cfg) := by
    rw [slice_readBinary_eq]
    exact Pres.bind huleb fun _ => Pres.ite (Pres.throw _) (key _)
  have hint : Pres (fun t => t <:+ s) (Slice.skipInteger cfg) := by
    cases hs : cfg.sse2 with
    | false =>
      have e : Slice.skipInteger cfg = _ := slice_skipInteger_noSse2 hs
      rw [e]; exact Pres.bind huleb fun _ => Pres.pure _
    | true =>
      intro t a t' hD e
      rw [slice_skipInteger_sse2 hs, skipUlebSse2_eq] at e
      unfold skipUlebFallback at e
      dsimp only at e
      have fin : ∀ n, (t.drop n) <:+ s := fun n => (List.drop_suffix n t).trans hD
      by_cases h1 : 16 ≤ t.length
      · rw [if_pos h1] at e
        by_cases h2 : scanContinuation (t.take 16) + 1 ≤ t.length
        · rw [if_pos h2] at e; cases e; exact fin _
        · rw [if_neg h2] at e; cases e
      · rw [if_neg h1] at e
        by_cases h2 : scanContinuation t + 1 ≤ t.length
        · rw [if_pos h2] at e; cases e; exact fin _
        · rw [if_neg h2] at e; cases e
  have hskip : Pres (fun t => t <:+ s) (Slice.skipBinary cfg) := by
    rw [slice_skipBinary_eq]; exact Pres.bind hbin fun _ => Pres.pure _
  have hdbl : Pres (fun t => t <:+ s) Slice.readDouble := by
    rw [slice_readDouble_eq]; exact Pres.bind (key 8) fun _ => Pres.pure _
  have hI : InputSim (SimP.std OnlyDiverge fun s' t => s' = t ∧ s' <:+ s) cfg (sliceInput cfg) (sliceInput cfg) :=
    ⟨rfl, Closed.trivial _ _, by rintro s t ⟨rfl, _⟩; exact Nat.le_refl _, pres_iff.1 hbyte, pres_iff.1 hdbl,
      pres_iff.1 hbin, pres_iff.1 hint, pres_iff.1 hskip⟩
  have := pres_iff.2 (hg (P := SimP.std OnlyDiverge _) (CfgSim.refl _ _) hI) s a s' (List.suffix_refl s) h
  obtain ⟨p, hp⟩ := this
  exact ⟨p, hp.symm⟩

/-- A successful read depends only on the bytes it consumes. -/
theorem slice_local {α : Type} {f : Cfg → ∀ {σ : Type}, Input σ → Rd σ α} (hg : Generic f) {cfg : Cfg}
    (hd : ∀ s, f cfg (sliceInput cfg) s ≠ .error .diverge) {s s' : Bytes} {a : α}
    (h : f cfg (sliceInput cfg) s = .ok (a, s')) :
    ∃ p, s = p ++ s' ∧ ∀ suf, f cfg (sliceInput cfg) (p ++ suf) = .ok (a, suf) := by
  obtain ⟨p, rfl⟩ := slice_suffix hg h
  have hp : f cfg (sliceInput cfg) p = .ok (a, []) := by
    have := (hg (P := extendP OnlyDiverge _ s') (CfgSim.refl _ _) (slice_extend cfg s')).run p (p ++ s') rfl
    cases e : f cfg (sliceInput cfg) p with
    | error g =>
      rw [e] at this
      rcases this with h1 | ⟨_, h1⟩ | h1
      · exact absurd (h1 ▸ e) (hd p)
      · have : s'.length < s'.length := h1 a s' h
        omega
      · rw [h] at h1; cases h1
    | ok q =>
      obtain ⟨b, t⟩ := q
      rw [e] at this
      obtain ⟨t', h1, h2⟩ := this
      rw [h] at h1
      simp only [Except.ok.injEq, Prod.mk.injEq] at h1
      obtain ⟨rfl, rfl⟩ := h1
      have : t = [] := by simpa using congrArg List.length h2
      rw [this]
  refine ⟨p, rfl, fun suf => ?_⟩
  have := (hg (P := extendP OnlyDiverge _ suf) (CfgSim.refl _ _) (slice_extend cfg suf)).run p (p ++ suf) rfl
  rw [hp] at this
  obtain ⟨t', h1, h2⟩ := this
  rw [h1, show t' = suf from h2]

/-- Cutting consumed bytes off. -/
theorem slice_truncated {α : Type} {f : Cfg → ∀ {σ : Type}, Input σ → Rd σ α} (hg : Generic f) {cfg : Cfg}
    (hd : ∀ s, f cfg (sliceInput cfg) s ≠ .error .diverge) {q r suf : Bytes} {a : α} (hr : r ≠ [])
    (h : f cfg (sliceInput cfg) (q ++ r ++ suf) = .ok (a, suf)) :
    ∃ e, f cfg (sliceInput cfg) q = .error e ∧ Cut cfg e := by
  obtain ⟨p, e1, e2⟩ := slice_local hg hd h
  have hp : p = q ++ r := (List.append_cancel_right e1).symm
  have hp2 := e2 []
  rw [List.append_nil, hp] at hp2
  have := (hg (P := extendP OnlyDiverge _ r) (CfgSim.refl _ _) (slice_extend cfg r)).run q (q ++ r) rfl
  cases e : f cfg (sliceInput cfg) q with
  | error g =>
    rw [e] at this
    rcases this with h1 | ⟨h1, _⟩ | h1
    · exact absurd (h1 ▸ e) (hd q)
    · exact ⟨g, rfl, h1⟩
    · rw [hp2] at h1; cases h1
  | ok x =>
    obtain ⟨b, t⟩ := x
    rw [e] at this
    obtain ⟨t', h1, h2⟩ := this
    rw [hp2] at h1
    simp only [Except.ok.injEq, Prod.mk.injEq] at h1
    obtain ⟨rfl, rfl⟩ := h1
    have h2 : [] = t ++ r := h2
    exact absurd (List.append_eq_nil_iff.1 h2.symm).2 hr

end CT
