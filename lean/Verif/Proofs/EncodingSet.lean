import Verif.Proofs.Prim
/-! # The members of an `EncodingSet` -/
namespace CT
open Spec

theorem getLsbD_eq_testBit {w : Nat} (x : BitVec w) (i : Nat) : x.getLsbD i = x.toNat.testBit i := (BitVec.testBit_toNat x).symm

/-- `mask & (mask - 1)` clears the lowest set bit. -/
theorem clear_lowest (mask : BitVec 32) (k : Nat) (hk : mask.getLsbD k = true) (hlow : ∀ j, j < k → mask.getLsbD j = false)
    (j : Nat) : (mask &&& (mask - 1#32)).getLsbD j = (mask.getLsbD j && decide (j ≠ k)) := by
  have hk32 : k < 32 := BitVec.lt_of_getLsbD hk
  have hlow0 : mask.toNat % 2 ^ k = 0 := by
    apply Nat.eq_of_testBit_eq
    intro j
    rw [Nat.testBit_mod_two_pow, Nat.zero_testBit]
    by_cases hj : j < k
    · rw [← getLsbD_eq_testBit, hlow j hj]; simp
    · simp [hj]
  obtain ⟨m, hm⟩ : ∃ m, mask.toNat = 2 ^ (k + 1) * m + 2 ^ k := by
    have h1 : mask.toNat = 2 ^ k * (mask.toNat / 2 ^ k) := by
      have := Nat.div_add_mod mask.toNat (2 ^ k); omega
    have h2 : mask.toNat / 2 ^ k % 2 = 1 := by
      rw [getLsbD_eq_testBit, Nat.testBit_eq_decide_div_mod_eq] at hk
      simpa using hk
    refine ⟨mask.toNat / 2 ^ k / 2, ?_⟩
    have h3 := Nat.div_add_mod (mask.toNat / 2 ^ k) 2
    rw [h2] at h3
    calc mask.toNat = 2 ^ k * (2 * (mask.toNat / 2 ^ k / 2) + 1) := by rw [h3]; exact h1
      _ = _ := by rw [Nat.mul_add, Nat.mul_one, Nat.pow_succ, Nat.mul_assoc]
  have hpos : 0 < 2 ^ k := Nat.pow_pos (by omega)
  have hlt : 2 ^ k < 2 ^ (k + 1) := Nat.pow_lt_pow_right (by omega) (by omega)
  have hsub : (mask - 1#32).toNat = 2 ^ (k + 1) * m + (2 ^ k - 1) := by
    rw [BitVec.toNat_sub]
    have := mask.isLt
    simp only [BitVec.toNat_ofNat]
    omega
  rw [BitVec.getLsbD_and, getLsbD_eq_testBit, getLsbD_eq_testBit, hsub, hm, Nat.testBit_two_pow_mul_add _ hlt,
    Nat.testBit_two_pow_mul_add _ (by omega)]
  by_cases hj : j < k + 1
  · simp only [hj, if_true, Nat.testBit_two_pow, Nat.testBit_two_pow_sub_one]
    rcases Nat.lt_or_ge j k with h | h
    · have h' : ¬ k = j := by omega
      simp [h']
    · have : j = k := by omega
      subst this; simp
  · simp only [hj, if_false, Bool.and_self]
    have : j ≠ k := by omega
    simp [this]

theorem members_eq (mask : BitVec 32) : members mask = (List.range 32).filter fun i => mask.getLsbD i := by
  unfold members
  simp only [getLsbD_eq_testBit]

theorem range_split (k : Nat) (h : k < 32) : List.range 32 = List.range k ++ k :: List.range' (k + 1) (31 - k) := by
  rw [List.range_eq_range', List.range_eq_range']
  have h1 := List.range'_append_1 (s := 0) (m := k) (n := 32 - k)
  rw [show k + (32 - k) = 32 by omega] at h1
  rw [← h1, Nat.zero_add, show 32 - k = (31 - k) + 1 by omega, List.range'_succ]

/-- Taking the lowest member off. -/
theorem members_lowest (mask : BitVec 32) (k : Nat) (hk : mask.getLsbD k = true)
    (hlow : ∀ j, j < k → mask.getLsbD j = false) : members mask = k :: members (mask &&& (mask - 1#32)) := by
  have hk32 : k < 32 := BitVec.lt_of_getLsbD hk
  have h0 : ∀ p : Nat → Bool, (∀ j, j < k → p j = false) → (List.range k).filter p = [] := by
    intro p hp
    rw [List.filter_eq_nil_iff]
    intro j hj
    rw [List.mem_range] at hj
    simp [hp j hj]
  have hc := clear_lowest mask k hk hlow
  rw [members_eq, members_eq, range_split k hk32, List.filter_append, List.filter_append, h0 _ hlow,
    h0 _ (fun j hj => by rw [hc, hlow j hj]; rfl), List.nil_append, List.nil_append, List.filter_cons_of_pos (by simpa using hk),
    List.filter_cons_of_neg (by rw [hc]; simp)]
  congr 1
  apply List.filter_congr
  intro j hj
  have := (List.mem_range'_1.1 hj).1
  rw [hc]
  have : j ≠ k := by omega
  simp [this]

theorem exists_lowest (mask : BitVec 32) (h : mask ≠ 0#32) :
    ∃ k, mask.getLsbD k = true ∧ ∀ j, j < k → mask.getLsbD j = false := by
  have : ∃ i, mask.getLsbD i = true := by
    refine Classical.byContradiction fun hn => h ?_
    apply BitVec.eq_of_getLsbD_eq
    intro i hi
    cases e : mask.getLsbD i with
    | false => simp
    | true => exact absurd ⟨i, e⟩ hn
  have key : ∀ n i, i ≤ n → mask.getLsbD i = true → ∃ k, mask.getLsbD k = true ∧ ∀ j, j < k → mask.getLsbD j = false := by
    intro n
    induction n with
    | zero => intro i hi he; exact ⟨i, he, fun j hj => by omega⟩
    | succ n ih =>
      intro i hi he
      by_cases hex : ∃ j, j < i ∧ mask.getLsbD j = true
      · obtain ⟨j, hj, hje⟩ := hex
        exact ih j (by omega) hje
      · refine ⟨i, he, fun j hj => ?_⟩
        cases e : mask.getLsbD j with
        | false => rfl
        | true => exact absurd ⟨j, hj, e⟩ hex
  obtain ⟨i, hi⟩ := this
  exact key i i (Nat.le_refl _) hi

theorem members_length_le (mask : BitVec 32) : (members mask).length ≤ 32 := by
  have := List.length_filter_le (fun i => mask.toNat.testBit i) (List.range 32)
  simpa [members] using this

/-- `EncodingSet::iter` yields exactly the members, in increasing order. -/
theorem encodingSetIter_eq (mask : BitVec 32) : encodingSetIter mask = (members mask).map (BitVec.ofNat 32) := by
  have key : ∀ fuel (mask : BitVec 32), (members mask).length ≤ fuel →
      encodingSetIterLoop fuel mask = (members mask).map (BitVec.ofNat 32) := by
    intro fuel
    induction fuel with
    | zero =>
      intro mask h
      have : members mask = [] := List.eq_nil_of_length_eq_zero (by omega)
      rw [this]; rfl
    | succ fuel ih =>
      intro mask h
      unfold encodingSetIterLoop
      by_cases h0 : mask = 0#32
      · subst h0; rfl
      · rw [if_neg h0]
        obtain ⟨k, hk, hlow⟩ := exists_lowest mask h0
        rw [trailingZeros_eq mask k hk (BitVec.lt_of_getLsbD hk) hlow]
        have e := members_lowest mask k hk hlow
        rw [e] at h ⊢
        rw [ih _ (by simpa using h)]
        rfl
  exact key 32 mask (members_length_le mask)

theorem encodingSetLen_eq (mask : BitVec 32) : encodingSetLen mask = (members mask).length := by
  unfold encodingSetLen countOnes
  rw [members_eq]

theorem mem_members {mask : BitVec 32} {i : Nat} : i ∈ members mask ↔ mask.getLsbD i = true := by
  rw [members_eq, List.mem_filter, List.mem_range]
  exact ⟨fun h => h.2, fun h => ⟨BitVec.lt_of_getLsbD h, h⟩⟩

end CT
