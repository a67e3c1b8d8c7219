import Verif.Proofs.Inputs
/-! # Skipping integers: the SSE2 and the scalar code -/
namespace CT
open Spec

theorem varint_split (s : Bytes) : (∃ p r, s = p ++ r ∧ IsVarint p) ∨ ∀ b ∈ s, 128 ≤ b.toNat := by
  induction s with
  | nil => right; simp
  | cons b s ih =>
    by_cases hb : b.toNat < 128
    · left; exact ⟨[b], s, rfl, hb⟩
    · rcases ih with ⟨p, r, rfl, hp⟩ | h
      · left; exact ⟨b :: p, r, rfl, isVarint_cons.2 (.inr ⟨by omega, hp⟩)⟩
      · right
        intro c hc
        rcases List.mem_cons.1 hc with rfl | hc
        · omega
        · exact h c hc

theorem scan_varint : ∀ (p r : Bytes), IsVarint p → scanContinuation (p ++ r) + 1 = p.length := by
  intro p
  induction p with
  | nil => intro r h; exact h.elim
  | cons b p ih =>
    intro r h
    simp only [List.cons_append, scanContinuation, and_80_eq_zero]
    rcases isVarint_cons.1 h with ⟨rfl, hb⟩ | ⟨hb, hp⟩
    · simp [hb]
    · rw [if_neg (by omega), ih r hp, List.length_cons]

theorem scan_all : ∀ (s : Bytes), (∀ b ∈ s, 128 ≤ b.toNat) → scanContinuation s = s.length := by
  intro s
  induction s with
  | nil => intro _; rfl
  | cons b s ih =>
    intro h
    have hb := h b (by simp)
    simp only [scanContinuation, and_80_eq_zero]
    rw [if_neg (by omega), ih (fun c hc => h c (by simp [hc])), List.length_cons]

theorem scan_append : ∀ (s r : Bytes), (∀ b ∈ s, 128 ≤ b.toNat) → s.length ≤ scanContinuation (s ++ r) := by
  intro s
  induction s with
  | nil => intro r _; simp
  | cons b s ih =>
    intro r h
    have hb := h b (by simp)
    simp only [List.cons_append, scanContinuation, and_80_eq_zero]
    rw [if_neg (by omega)]
    have := ih r (fun c hc => h c (by simp [hc]))
    simp only [List.length_cons]; omega

theorem scan_le (s : Bytes) : scanContinuation s ≤ s.length := by
  induction s with
  | nil => simp [scanContinuation]
  | cons b s ih => simp only [scanContinuation]; split <;> simp <;> omega

/-- bit `i` of the movemask -/
theorem movemask_bit : ∀ (bs : Bytes) (i : Nat), i < 32 → bs.length ≤ 32 →
    (movemask bs).getLsbD i = (match bs[i]? with | some b => decide (128 ≤ b.toNat) | none => false) := by
  intro bs
  induction bs with
  | nil => intro i _ _; simp [movemask]
  | cons b bs ih =>
    intro i hi hl
    simp only [List.length_cons] at hl
    simp only [movemask, BitVec.getLsbD_or, BitVec.getLsbD_shiftLeft, and_80_eq_zero]
    cases i with
    | zero =>
      by_cases hb : b.toNat < 128
      · simp [hb, decide_eq_false (show ¬ 128 ≤ b.toNat by omega)]
      · simp [hb, decide_eq_true (show 128 ≤ b.toNat by omega)]
    | succ i =>
      have := ih i (by omega) (by omega)
      simp only [List.getElem?_cons_succ, ← this, Nat.add_sub_cancel]
      by_cases hb : b.toNat < 128 <;> simp [hb, hi]

theorem trailingZerosFrom_eq (x : BitVec 32) (n : Nat) (hn : x.getLsbD n = true) :
    ∀ fuel i, i ≤ n → n < i + fuel → (∀ j, i ≤ j → j < n → x.getLsbD j = false) → trailingZerosFrom x fuel i = n := by
  intro fuel
  induction fuel with
  | zero => intro i h1 h2; omega
  | succ fuel ih =>
    intro i h1 h2 h3
    unfold trailingZerosFrom
    by_cases hi : i = n
    · subst hi; simp [hn]
    · have := h3 i (Nat.le_refl _) (by omega)
      simp only [this, Bool.false_eq_true, if_false]
      exact ih (i + 1) (by omega) (by omega) fun j hj hj' => h3 j (by omega) hj'

theorem trailingZeros_eq (x : BitVec 32) (n : Nat) (hn : x.getLsbD n = true) (hlt : n < 32)
    (h : ∀ j, j < n → x.getLsbD j = false) : trailingZeros x = n :=
  trailingZerosFrom_eq x n hn 32 0 (by omega) (by omega) fun j _ hj => h j hj

theorem scan_spec : ∀ (s : Bytes), (∀ j, j < scanContinuation s → ∃ b, s[j]? = some b ∧ 128 ≤ b.toNat) ∧
    (∀ b, s[scanContinuation s]? = some b → b.toNat < 128) := by
  intro s
  induction s with
  | nil => simp [scanContinuation]
  | cons b s ih =>
    simp only [scanContinuation, and_80_eq_zero]
    by_cases hb : b.toNat < 128
    · simp [hb]
    · simp only [hb, if_false]
      refine ⟨?_, ?_⟩
      · intro j hj
        cases j with
        | zero => exact ⟨b, rfl, by omega⟩
        | succ j => simpa using ih.1 j (by omega)
      · intro c hc; exact ih.2 c (by simpa using hc)

/-- What the SSE2 code computes: one more than the index of the first of 16 bytes without continuation bit. -/
theorem sse2_len (s : Bytes) :
    trailingZeros (~~~(movemask (s.take 16)) <<< 1) = scanContinuation (s.take 16) + 1 := by
  have hl : (s.take 16).length ≤ 16 := by simp; omega
  generalize s.take 16 = c at hl
  have hs := scan_le c
  obtain ⟨h1, h2⟩ := scan_spec c
  apply trailingZeros_eq
  · rw [BitVec.getLsbD_shiftLeft]
    simp only [BitVec.getLsbD_not, Nat.add_sub_cancel]
    rw [movemask_bit c _ (by omega) (by omega)]
    have e : (match c[scanContinuation c]? with | some b => decide (128 ≤ b.toNat) | none => false) = false := by
      cases hc : c[scanContinuation c]? with
      | none => rfl
      | some b => have := h2 b hc; simp; omega
    rw [e]; simp; omega
  · omega
  · intro j hj
    rw [BitVec.getLsbD_shiftLeft]
    cases j with
    | zero => simp
    | succ j =>
      obtain ⟨b, hb, hb'⟩ := h1 j (by omega)
      simp only [BitVec.getLsbD_not, Nat.add_sub_cancel]
      rw [movemask_bit c _ (by omega) (by omega), hb]
      simp [hb']

theorem skipUlebSse2_eq (s : Bytes) : skipUlebSse2 s =
    if scanContinuation (s.take 16) + 1 ≤ s.length then .ok (s.drop (scanContinuation (s.take 16) + 1)) else .error .ub := by
  unfold skipUlebSse2
  simp only [sse2_len]

theorem isVarint_prefix_all {p : Bytes} (hp : IsVarint p) : ∀ n, n < p.length → ∀ b ∈ p.take n, 128 ≤ b.toNat := by
  induction p with
  | nil => exact hp.elim
  | cons c p ih =>
    intro n hn b hb
    cases n with
    | zero => simp at hb
    | succ n =>
      rcases isVarint_cons.1 hp with ⟨rfl, _⟩ | ⟨hc, hp'⟩
      · simp at hn
      · simp only [List.take_succ_cons, List.mem_cons] at hb
        rcases hb with rfl | hb
        · exact hc
        · exact ih hp' n (by simpa using hn) b hb

/-- SSE2 on a varint of at most 16 bytes, in a buffer of any length; 17 bytes if the buffer has 16. -/
theorem skipUlebSse2_varint (p r : Bytes) (hp : IsVarint p) (hl : p.length ≤ 17) :
    skipUlebSse2 (p ++ r) = .ok r := by
  have hpos : 0 < p.length := by cases p with | nil => exact hp.elim | cons => simp
  have hscan : scanContinuation ((p ++ r).take 16) + 1 = p.length := by
    by_cases h : p.length ≤ 16
    · rw [List.take_append, List.take_of_length_le h]; exact scan_varint _ _ hp
    · have h17 : p.length = 17 := by omega
      rw [List.take_append_of_le_length (by omega), scan_all _ (isVarint_prefix_all hp 16 (by omega))]
      simp; omega
  rw [skipUlebSse2_eq, hscan]
  simp

theorem skipUlebSse2_all (s : Bytes) (h : ∀ b ∈ s.take 16, 128 ≤ b.toNat) (hl : 16 ≤ s.length) :
    skipUlebSse2 s = if 17 ≤ s.length then .ok (s.drop 17) else .error .ub := by
  rw [skipUlebSse2_eq, scan_all _ h]
  have : (s.take 16).length + 1 = 17 := by simp; omega
  rw [this]

theorem skipUlebFallback_varint (p r : Bytes) (hp : IsVarint p) : skipUlebFallback (p ++ r) = .ok r := by
  unfold skipUlebFallback
  dsimp only
  rw [scan_varint p r hp]
  simp

theorem skipUlebFallback_all (s : Bytes) (h : ∀ b ∈ s, 128 ≤ b.toNat) : skipUlebFallback s = .error .panic := by
  unfold skipUlebFallback
  dsimp only
  rw [scan_all s h, if_neg (by omega)]

/-- Reading a varint that is cut off. -/
theorem ulebLoop_truncated (cfg : Cfg) : ∀ (s : Bytes) (fuel k : Nat) (acc : BitVec 64),
    (∀ b ∈ s, 128 ≤ b.toNat) → s.length < fuel → (cfg.overflowChecks = false ∨ 7 * (k + s.length) < 2 ^ 32) →
    ulebLoop cfg Slice.readByte fuel (BitVec.ofNat 32 (7 * k)) acc s = eof := by
  intro s
  induction s with
  | nil =>
    intro fuel k acc _ hf _
    obtain ⟨fuel, rfl⟩ : ∃ f, fuel = f + 1 := ⟨fuel - 1, by simp at hf; omega⟩
    rfl
  | cons b bs ih =>
    intro fuel k acc hall hf hc
    obtain ⟨fuel, rfl⟩ : ∃ f, fuel = f + 1 := ⟨fuel - 1, by simp at hf; omega⟩
    have hb := hall b (by simp)
    have hnp : ¬ ((cfg.overflowChecks && decide (2 ^ 32 ≤ (BitVec.ofNat 32 (7 * k)).toNat + 7)) = true) := by
      rcases hc with h | h
      · simp [h]
      · simp only [List.length_cons] at h
        have : (BitVec.ofNat 32 (7 * k)).toNat + 7 < 2 ^ 32 := by
          rw [BitVec.toNat_ofNat, Nat.mod_eq_of_lt (by omega)]; omega
        simp only [Bool.and_eq_true, decide_eq_true_eq, not_and]; omega
    unfold ulebLoop
    rw [Rd.bind_ok (x := Slice.readByte) (a := b) (s' := bs) rfl]
    simp only [Rd.ite_apply', Rd.pure_apply, Rd.fail_apply, if_neg hnp, and_80_eq_zero, shift_succ]
    rw [if_neg (by omega)]
    refine ih fuel (k + 1) _ (fun c hc => hall c (by simp [hc])) (by simpa using hf) ?_
    rcases hc with h | h
    · exact .inl h
    · right; simp only [List.length_cons] at h; omega

theorem uleb_truncated (cfg : Cfg) (s : Bytes) (h : ∀ b ∈ s, 128 ≤ b.toNat)
    (hc : cfg.overflowChecks = false ∨ 7 * s.length < 2 ^ 32) :
    decodeUleb cfg List.length Slice.readByte s = eof :=
  ulebLoop_truncated cfg s _ 0 _ h (by simp) (by simpa using hc)

/-- Nowhere 17 consecutive bytes with the continuation bit: no varint of more than 17 bytes. -/
def NoLongRun (s : Bytes) : Prop := ∀ n, ¬ (17 ≤ ((s.drop n).take 17).length ∧ ∀ b ∈ (s.drop n).take 17, 128 ≤ b.toNat)

theorem NoLongRun.drop {s : Bytes} (h : NoLongRun s) (k : Nat) : NoLongRun (s.drop k) := by
  intro n
  rw [List.drop_drop]
  exact h _

theorem NoLongRun.right {p r : Bytes} (h : NoLongRun (p ++ r)) : NoLongRun r := by
  have := h.drop p.length
  rwa [List.drop_left] at this

theorem NoLongRun.varint {p r : Bytes} (h : NoLongRun (p ++ r)) (hp : IsVarint p) : p.length ≤ 17 := by
  refine Nat.le_of_not_lt fun hlt => h 0 ?_
  rw [List.drop_zero, List.take_append_of_le_length (by omega)]
  exact ⟨by simp; omega, isVarint_prefix_all hp 17 hlt⟩

theorem NoLongRun.all {s : Bytes} (h : NoLongRun s) (ha : ∀ b ∈ s, 128 ≤ b.toNat) : s.length ≤ 16 := by
  refine Nat.le_of_not_lt fun hlt => h 0 ?_
  rw [List.drop_zero]
  exact ⟨by simp; omega, fun b hb => ha b (List.mem_of_mem_take hb)⟩

theorem slice_skipInteger_sse2 {cfg : Cfg} (h2 : cfg.sse2 = true) (s : Bytes) : Slice.skipInteger cfg s =
    if 16 ≤ s.length then (match skipUlebSse2 s with | .ok s' => .ok ((), s') | .error e => .error e)
    else (match skipUlebFallback s with | .ok s' => .ok ((), s') | .error e => .error e) := by
  unfold Slice.skipInteger
  simp only [h2, if_true, Rd.of_apply]
  rfl

/-- Slice skipping an integer with SSE2, in terms of the varint at its start. -/
theorem slice_skipInteger_varint {cfg : Cfg} (h2 : cfg.sse2 = true) {p r : Bytes} (hp : IsVarint p)
    (hl : p.length ≤ 17) : Slice.skipInteger cfg (p ++ r) = .ok ((), r) := by
  rw [slice_skipInteger_sse2 h2]
  simp only [skipUlebSse2_varint p r hp hl, skipUlebFallback_varint p r hp, ite_self]

/-- The slice without SSE2 is simulated by the slice with SSE2, up to truncation, when there is no long run. -/
theorem sse2_sim {A : Fail → Prop} (hA : A .diverge) (hEof : A (.err (.io .unexpectedEof))) {c₁ c₂ : Cfg}
    (hc : CfgSim A c₁ c₂) (h1 : c₁.sse2 = false) (h2 : c₂.sse2 = true) :
    InputSim (SimP.std A fun s t => s = t ∧ NoLongRun s) c₂ (sliceInput c₁) (sliceInput c₂) := by
  refine inputSim_of_take (c₁ := c₁) (c₂ := c₂) hA hc (Closed.trivial _ _) sliceTake sliceTake ?_ ?_ slice_readByte_eq
    slice_readByte_eq slice_readDouble_eq slice_readDouble_eq (slice_readBinary_eq c₁) (slice_readBinary_eq c₂)
    (slice_skipBinary_eq c₁) (slice_skipBinary_eq c₂) ?_
  · rintro s t ⟨rfl, _⟩; exact Nat.le_refl _
  · refine fun n => ⟨?_, fun _ _ _ _ _ => trivial⟩
    rintro s t ⟨rfl, hn⟩
    unfold sliceTake
    by_cases h : s.length < n
    · simp only [h, if_true, eof]; exact .inl hEof
    · simp only [h, if_false]
      exact ⟨_, rfl, rfl, hn.drop n⟩
  · refine fun _ => ⟨?_, fun _ _ _ _ _ => trivial⟩
    rintro s t ⟨rfl, hn⟩
    rw [slice_skipInteger_noSse2 h1]
    rcases varint_split s with ⟨p, r, rfl, hp⟩ | hall
    · have hl := hn.varint hp
      rw [Rd.bind_ok (uleb_slice c₁ p r hp (by right; omega))]
      exact ⟨r, slice_skipInteger_varint h2 hp hl, rfl, hn.right⟩
    · have hl := hn.all hall
      rw [Rd.bind_err (uleb_truncated c₁ s hall (by right; omega))]
      exact .inl hEof

/-- With SSE2 a slice is still simulated by its extensions, up to truncation, panic and out-of-bounds access. -/
theorem slice_extend_sim_sse2 (suf : Bytes) {A B : Fail → Prop} (hA : A .diverge) (hEof : B (.err (.io .unexpectedEof)))
    (hp : B .panic) (hu : B .ub) {c₁ c₂ : Cfg} (hc : CfgSim A c₁ c₂) (h1 : c₁.sse2 = true) (h2 : c₂.sse2 = true) :
    InputSim (extendP A B suf) c₂ (sliceInput c₁) (sliceInput c₂) := by
  refine slice_extend_sim suf hA hEof hc fun _ => ?_
  refine ⟨?_, (slice_closed c₂ suf.length).skipF 1 4#8 false⟩
  rintro s t rfl
  rw [slice_skipInteger_sse2 h1, slice_skipInteger_sse2 h2]
  by_cases h16 : 16 ≤ s.length
  · have h16' : 16 ≤ (s ++ suf).length := by simp; omega
    simp only [h16, h16', if_true]
    rw [skipUlebSse2_eq, skipUlebSse2_eq]
    rw [List.take_append_of_le_length h16]
    by_cases h : scanContinuation (s.take 16) + 1 ≤ s.length
    · simp only [h, if_true]
      rw [if_pos (by simp; omega)]
      exact ⟨_, rfl, List.drop_append_of_le_length h⟩
    · simp only [h, if_false]
      refine .inr (.inl ⟨hu, fun a t' e => ?_⟩)
      by_cases h' : scanContinuation (s.take 16) + 1 ≤ (s ++ suf).length
      · simp only [h', if_true, Except.ok.injEq, Prod.mk.injEq] at e
        rw [← e.2]
        show (List.drop _ (s ++ suf)).length < suf.length
        simp only [List.length_drop, List.length_append] at h' ⊢; omega
      · rw [if_neg h'] at e; cases e
  · simp only [h16, if_false]
    rcases varint_split s with ⟨p, r, rfl, hpv⟩ | hall
    · have hl : p.length ≤ 17 := by simp at h16; omega
      rw [skipUlebFallback_varint p r hpv]
      refine ⟨r ++ suf, ?_, rfl⟩
      rw [List.append_assoc, skipUlebSse2_varint p _ hpv hl, skipUlebFallback_varint p _ hpv]
      simp
    · rw [skipUlebFallback_all s hall]
      refine .inr (.inl ⟨hp, fun a t' e => ?_⟩)
      have key : ∀ n, s.length < n → n ≤ (s ++ suf).length → ((s ++ suf).drop n).length < suf.length := by
        intro n h1 h2; simp only [List.length_drop, List.length_append] at h2 ⊢; omega
      have hsc : s.length ≤ scanContinuation (s ++ suf) := scan_append s suf hall
      by_cases h' : 16 ≤ (s ++ suf).length
      · simp only [h', if_true] at e
        rw [skipUlebSse2_eq] at e
        have hs16 : s.length ≤ scanContinuation ((s ++ suf).take 16) := by
          rw [List.take_append, List.take_of_length_le (by omega)]
          exact scan_append _ _ hall
        by_cases h'' : scanContinuation ((s ++ suf).take 16) + 1 ≤ (s ++ suf).length
        · simp only [h'', if_true, Except.ok.injEq, Prod.mk.injEq] at e
          rw [← e.2]; exact key _ (by omega) h''
        · rw [if_neg h''] at e; cases e
      · simp only [h', if_false] at e
        unfold skipUlebFallback at e
        dsimp only at e
        by_cases h'' : scanContinuation (s ++ suf) + 1 ≤ (s ++ suf).length
        · simp only [h'', if_true, Except.ok.injEq, Prod.mk.injEq] at e
          rw [← e.2]; exact key _ (by omega) h''
        · rw [if_neg h''] at e; cases e

theorem slice_extend_sim_noSse2 (suf : Bytes) {A B : Fail → Prop} (hA : A .diverge) (hEof : B (.err (.io .unexpectedEof)))
    {c₁ c₂ : Cfg} (hc : CfgSim A c₁ c₂) (h1 : c₁.sse2 = false) (h2 : c₂.sse2 = false) :
    InputSim (extendP A B suf) c₂ (sliceInput c₁) (sliceInput c₂) := by
  refine slice_extend_sim suf hA hEof hc fun h => ?_
  have e1 : Slice.skipInteger c₁ = _ := slice_skipInteger_noSse2 h1
  have e2 : Slice.skipInteger c₂ = _ := slice_skipInteger_noSse2 h2
  rw [e1, e2]; exact h

end CT
