import Verif.Proofs.Wire
/-! # What is skipped for an integer with SSE2 -/
namespace CT
open Spec

theorem varint_split16 (s : Bytes) : (∃ p r, s = p ++ r ∧ IsVarint p ∧ p.length ≤ 16) ∨ ∀ b ∈ s.take 16, 128 ≤ b.toNat := by
  rcases varint_split s with ⟨p, r, rfl, hp⟩ | h
  · by_cases hl : p.length ≤ 16
    · exact .inl ⟨p, r, rfl, hp, hl⟩
    · right
      rw [List.take_append_of_le_length (by omega)]
      exact isVarint_prefix_all hp 16 (by omega)
  · exact .inr fun b hb => h b (List.mem_of_mem_take hb)

section
variable {cfg : Cfg} (h2 : cfg.sse2 = true)
include h2

theorem skipInteger_all {s : Bytes} (h : ∀ b ∈ s.take 16, 128 ≤ b.toNat) : Slice.skipInteger cfg s =
    if s.length < 16 then .error .panic else if s.length = 16 then .error .ub else .ok ((), s.drop 17) := by
  rw [slice_skipInteger_sse2 h2]
  by_cases h16 : 16 ≤ s.length
  · rw [if_pos h16, skipUlebSse2_all s h h16, if_neg (Nat.not_lt.2 h16)]
    by_cases h17 : 17 ≤ s.length
    · rw [if_pos h17, if_neg (by omega)]
    · rw [if_neg h17, if_pos (by omega)]
  · rw [List.take_of_length_le (by omega)] at h
    rw [if_neg h16, skipUlebFallback_all s h, if_pos (by omega)]

/-- Skipping an integer with SSE2: when it succeeds. -/
theorem skipInteger_ok (s s' : Bytes) : Slice.skipInteger cfg s = .ok ((), s') ↔ ∃ p, s = p ++ s' ∧ Sse2Int p := by
  constructor
  · intro h
    rcases varint_split16 s with ⟨p, r, rfl, hp, hl⟩ | hall
    · rw [slice_skipInteger_varint h2 hp (by omega)] at h
      cases h
      exact ⟨p, rfl, .inl ⟨hp, hl⟩⟩
    · rw [skipInteger_all h2 hall] at h
      split at h
      · cases h
      · split at h
        · cases h
        · cases h
          exact ⟨s.take 17, (List.take_append_drop 17 s).symm, .inr ⟨by simp; omega, by rw [List.take_take]; exact hall⟩⟩
  · rintro ⟨p, rfl, ⟨hp, hl⟩ | ⟨hl, hall⟩⟩
    · exact slice_skipInteger_varint h2 hp (by omega)
    · rw [skipInteger_all h2 (by rw [List.take_append_of_le_length (by omega)]; exact hall), if_neg (by simp; omega), if_neg (by simp; omega), List.drop_left' hl]

/-- … and how it fails: fewer than 16 bytes that all have the continuation bit, or exactly 16. -/
theorem skipInteger_error (s : Bytes) (f : Fail) : Slice.skipInteger cfg s = .error f ↔
    (∀ b ∈ s, 128 ≤ b.toNat) ∧ ((s.length < 16 ∧ f = .panic) ∨ (s.length = 16 ∧ f = .ub)) := by
  constructor
  · intro h
    rcases varint_split16 s with ⟨p, r, rfl, hp, hl⟩ | hall
    · rw [slice_skipInteger_varint h2 hp (by omega)] at h
      cases h
    · rw [skipInteger_all h2 hall] at h
      split at h
      · cases h
        rw [List.take_of_length_le (by omega)] at hall
        exact ⟨hall, .inl ⟨by omega, rfl⟩⟩
      · split at h
        · cases h
          rw [List.take_of_length_le (by omega)] at hall
          exact ⟨hall, .inr ⟨by omega, rfl⟩⟩
        · cases h
  · rintro ⟨hall, h⟩
    rw [skipInteger_all h2 fun b hb => hall b (List.mem_of_mem_take hb)]
    rcases h with ⟨h, rfl⟩ | ⟨h, rfl⟩
    · rw [if_pos h]
    · rw [if_neg (by omega), if_pos h]

/-- A build with SSE2 and without overflow checks. -/
theorem sse2_reads (hov : cfg.overflowChecks = false) : SliceReads cfg Sse2Int where
  ov := hov
  sound := fun s _ s' h => (skipInteger_ok h2 s s').1 h
  compl := fun _ p h suf => (skipInteger_ok h2 _ suf).2 ⟨p, rfl, h⟩

end

/-- Every build without overflow checks. -/
theorem reads_unchecked {cfg : Cfg} (hov : cfg.overflowChecks = false) : ∃ int, SliceReads cfg int := by
  cases h2 : cfg.sse2 with
  | true => exact ⟨_, sse2_reads h2 hov⟩
  | false => exact ⟨_, Plain.reads ⟨hov, h2⟩⟩

end CT
