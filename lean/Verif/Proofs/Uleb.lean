import Verif.Spec.Varint
import Verif.Proofs.Monad
/-! Varints and zigzag: helper lemmas. -/
namespace CT
open Spec

theorem byte_lt (b : Byte) : b.toNat < 256 := b.isLt

/-- continuation bit clear, in arithmetic -/
theorem and_80_eq_zero (b : Byte) : (b &&& 0x80#8 = 0#8) ↔ b.toNat < 128 := by
  revert b; decide

theorem and_7f_toNat (b : Byte) : (b &&& 0x7F#8).toNat = b.toNat % 128 := by
  revert b; decide

/-- The value `decode_uleb` computes from the digit at position `k` on. -/
def decDigits : Nat → BitVec 64 → Bytes → BitVec 64
  | _, acc, [] => acc
  | k, acc, b :: bs => decDigits (k + 1) (acc ||| ((b &&& 0x7F#8).setWidth 64 <<< (7 * k % 64))) bs

theorem isVarint_cons {b : Byte} {bs : Bytes} :
    IsVarint (b :: bs) ↔ (bs = [] ∧ b.toNat < 128) ∨ (128 ≤ b.toNat ∧ IsVarint bs) := by
  cases bs with
  | nil => simp [IsVarint]
  | cons c cs => simp [IsVarint]

theorem shift_mod (k : Nat) : (BitVec.ofNat 32 (7 * k)).toNat % 64 = 7 * k % 64 := by
  rw [BitVec.toNat_ofNat]; omega

theorem shift_succ (k : Nat) : BitVec.ofNat 32 (7 * k) + 7#32 = BitVec.ofNat 32 (7 * (k + 1)) := by
  apply BitVec.eq_of_toNat_eq; simp only [BitVec.toNat_add, BitVec.toNat_ofNat]; omega

/-- `decode_uleb` on a slice that starts with a terminated varint. -/
theorem ulebLoop_slice (cfg : Cfg) (suf : Bytes) : ∀ (p : Bytes) (fuel k : Nat) (acc : BitVec 64),
    IsVarint p → p.length ≤ fuel → (cfg.overflowChecks = false ∨ 7 * (k + p.length) < 2 ^ 32) →
    ulebLoop cfg Slice.readByte fuel (BitVec.ofNat 32 (7 * k)) acc (p ++ suf) = .ok (decDigits k acc p, suf) := by
  intro p
  induction p with
  | nil => intro _ _ _ h; exact h.elim
  | cons b bs ih =>
    intro fuel k acc hv hf hc
    obtain ⟨fuel, rfl⟩ : ∃ f, fuel = f + 1 := ⟨fuel - 1, by simp at hf; omega⟩
    have hnp : ¬ ((cfg.overflowChecks && decide (2 ^ 32 ≤ (BitVec.ofNat 32 (7 * k)).toNat + 7)) = true) := by
      rcases hc with h | h
      · simp [h]
      · simp only [List.length_cons] at h
        have : (BitVec.ofNat 32 (7 * k)).toNat + 7 < 2 ^ 32 := by
          rw [BitVec.toNat_ofNat, Nat.mod_eq_of_lt (by omega)]; omega
        simp only [Bool.and_eq_true, decide_eq_true_eq, not_and]; omega
    unfold ulebLoop
    rw [List.cons_append, Rd.bind_ok (x := Slice.readByte) (a := b) (s' := bs ++ suf) rfl]
    simp only [Rd.ite_apply', Rd.pure_apply, Rd.fail_apply, if_neg hnp, shift_mod, and_80_eq_zero, shift_succ]
    rcases isVarint_cons.1 hv with ⟨rfl, hb⟩ | ⟨hb, hbs⟩
    · simp [hb, decDigits]
    · rw [if_neg (by omega)]
      rw [ih fuel (k + 1) _ hbs (by simpa using hf)]
      · rfl
      · rcases hc with h | h
        · exact .inl h
        · right; simp only [List.length_cons] at h; omega

theorem leb_lt_of_length : ∀ p : Bytes, leb p < 128 ^ p.length
  | [] => by simp [leb]
  | b :: bs => by
    have := leb_lt_of_length bs
    simp only [leb, List.length_cons, Nat.pow_succ]; omega

theorem or_shift (acc : BitVec 64) (d : BitVec 64) (i : Nat) (h : acc.toNat < 2 ^ i) (hi : i < 64) :
    (acc ||| (d <<< i)).toNat = (acc.toNat + d.toNat * 2 ^ i) % 2 ^ 64 := by
  rw [BitVec.toNat_or, BitVec.toNat_shiftLeft, Nat.shiftLeft_eq]
  have e : 2 ^ 64 = 2 ^ i * 2 ^ (64 - i) := by rw [← Nat.pow_add]; congr 1; omega
  have hmod : d.toNat * 2 ^ i % 2 ^ 64 = 2 ^ i * (d.toNat % 2 ^ (64 - i)) := by
    rw [e, Nat.mul_comm d.toNat, Nat.mul_mod_mul_left]
  rw [hmod, Nat.or_comm, ← Nat.two_pow_add_eq_or_of_lt h]
  have h2 : d.toNat % 2 ^ (64 - i) < 2 ^ (64 - i) := Nat.mod_lt _ (Nat.two_pow_pos _)
  have hlt : 2 ^ i * (d.toNat % 2 ^ (64 - i)) + acc.toNat < 2 ^ 64 := by
    rw [e]
    calc _ < 2 ^ i * (d.toNat % 2 ^ (64 - i)) + 2 ^ i := by omega
      _ = 2 ^ i * (d.toNat % 2 ^ (64 - i) + 1) := by rw [Nat.mul_add, Nat.mul_one]
      _ ≤ _ := Nat.mul_le_mul_left _ h2
  generalize 2 ^ i * (d.toNat % 2 ^ (64 - i)) = y at hmod hlt ⊢
  generalize d.toNat * 2 ^ i = x at hmod ⊢
  omega

theorem digit_toNat (b : Byte) : ((b &&& 0x7F#8).setWidth 64).toNat = b.toNat % 128 := by
  rw [BitVec.toNat_setWidth, and_7f_toNat]
  have := byte_lt b; omega

theorem decDigits_toNat : ∀ (p : Bytes) (k : Nat) (acc : BitVec 64), k + p.length ≤ 10 →
    acc.toNat < 2 ^ (7 * k) → (decDigits k acc p).toNat = (acc.toNat + leb p * 128 ^ k) % 2 ^ 64 := by
  intro p
  induction p with
  | nil => intro k acc _ _; simp [decDigits, leb, Nat.mod_eq_of_lt acc.isLt]
  | cons b bs ih =>
    intro k acc hk hacc
    simp only [List.length_cons] at hk
    have hk9 : 7 * k < 64 := by omega
    have hpow : (128 : Nat) ^ k = 2 ^ (7 * k) := by rw [show (128:Nat) = 2 ^ 7 from rfl, ← Nat.pow_mul]
    have hval := or_shift acc ((b &&& 0x7F#8).setWidth 64) (7 * k) hacc hk9
    rw [digit_toNat] at hval
    simp only [decDigits]
    rw [Nat.mod_eq_of_lt hk9]
    by_cases hlast : bs = []
    · subst hlast
      simp only [decDigits, leb, Nat.mul_zero, Nat.add_zero, hpow]; exact hval
    · have hk8 : k + 1 ≤ 9 := by
        cases bs with
        | nil => exact absurd rfl hlast
        | cons => simp at hk; omega
      have hb : b.toNat % 128 + 1 ≤ 128 := by omega
      have hlt : acc.toNat + b.toNat % 128 * 2 ^ (7 * k) < 2 ^ (7 * (k + 1)) := by
        have : (b.toNat % 128 + 1) * 2 ^ (7 * k) ≤ 128 * 2 ^ (7 * k) := Nat.mul_le_mul_right _ hb
        have e : 2 ^ (7 * (k + 1)) = 128 * 2 ^ (7 * k) := by
          rw [Nat.mul_add, Nat.pow_add]; simp [Nat.mul_comm]
        rw [e]; rw [Nat.add_mul] at this; omega
      have hle : 2 ^ (7 * (k + 1)) ≤ 2 ^ 64 := Nat.pow_le_pow_right (by omega) (by omega)
      rw [Nat.mod_eq_of_lt (by omega)] at hval
      rw [ih (k + 1) _ (by omega) (by rw [hval]; exact hlt), hval]
      congr 1
      simp only [leb, Nat.pow_succ, hpow, Nat.add_mul]
      rw [Nat.mul_comm (2 ^ (7 * k)) 128, ← Nat.mul_assoc, Nat.mul_comm (leb bs) 128]; omega

theorem setWidth8_toNat (v : BitVec 64) : (v.setWidth 8).toNat = v.toNat % 256 := by
  rw [BitVec.toNat_setWidth]

theorem or_80_toNat (b : Byte) : (b ||| 0x80#8).toNat = b.toNat % 128 + 128 := by
  revert b; decide

theorem encodeUleb_eq (v : BitVec 64) : encodeUleb v = varint v.toNat := by
  induction v using encodeUleb.induct with
  | case1 v h ih =>
    rw [encodeUleb, if_pos h, varint, if_neg (by omega), ih]
    congr 1
    · apply BitVec.eq_of_toNat_eq
      rw [or_80_toNat, setWidth8_toNat, BitVec.toNat_ofNat]; omega
    · rw [BitVec.toNat_ushiftRight, Nat.shiftRight_eq_div_pow]
  | case2 v h =>
    rw [encodeUleb, if_neg h, varint, if_pos (by omega)]
    congr 1

theorem varint_isVarint (n : Nat) : IsVarint (varint n) := by
  induction n using varint.induct with
  | case1 n h => rw [varint, if_pos h]; simp [IsVarint]; omega
  | case2 n h ih =>
    rw [varint, if_neg h, isVarint_cons]; right
    exact ⟨by rw [BitVec.toNat_ofNat]; omega, ih⟩

theorem leb_varint (n : Nat) : leb (varint n) = n := by
  induction n using varint.induct with
  | case1 n h => rw [varint, if_pos h]; simp [leb]; omega
  | case2 n h ih => rw [varint, if_neg h]; simp only [leb, ih, BitVec.toNat_ofNat]; omega

theorem varint_length_le (n : Nat) : ∀ k, n < 128 ^ (k + 1) → (varint n).length ≤ k + 1 := by
  induction n using varint.induct with
  | case1 n h => intro k _; rw [varint, if_pos h]; simp
  | case2 n h ih =>
    intro k hk
    rw [varint, if_neg h, List.length_cons]
    cases k with
    | zero => simp at hk; omega
    | succ k =>
      have := ih k (by rw [Nat.pow_succ] at hk; omega)
      omega

theorem varint_length_pos (n : Nat) : 0 < (varint n).length := by
  rw [varint]; split <;> simp

theorem varint64_length_le (v : BitVec 64) : (varint v.toNat).length ≤ 10 :=
  varint_length_le _ 9 (by have := v.isLt; omega)

/-- Reading a varint of at most ten bytes from a slice. -/
theorem uleb_slice (cfg : Cfg) (p suf : Bytes) (hv : IsVarint p)
    (hc : cfg.overflowChecks = false ∨ 7 * p.length < 2 ^ 32) :
    decodeUleb cfg List.length Slice.readByte (p ++ suf) = .ok (decDigits 0 0#64 p, suf) := by
  unfold decodeUleb
  exact ulebLoop_slice cfg suf p _ 0 0#64 hv (by simp; omega) (by simpa using hc)

theorem uleb_slice_short (cfg : Cfg) (p suf : Bytes) (hv : IsVarint p) (hl : p.length ≤ 10) :
    decodeUleb cfg List.length Slice.readByte (p ++ suf) = .ok (BitVec.ofNat 64 (leb p), suf) := by
  rw [uleb_slice cfg p suf hv (by right; omega)]
  congr 2
  apply BitVec.eq_of_toNat_eq
  rw [decDigits_toNat p 0 0#64 (by omega) (by simp)]
  simp

/-- Writing then reading an unsigned varint. -/
theorem uleb_encode (cfg : Cfg) (v : BitVec 64) (suf : Bytes) :
    decodeUleb cfg List.length Slice.readByte (encodeUleb v ++ suf) = .ok (v, suf) := by
  rw [encodeUleb_eq, uleb_slice_short cfg _ suf (varint_isVarint _) (varint64_length_le v), leb_varint]
  simp

/-! ## zigzag -/

theorem sshiftRight_last {w : Nat} (hw : 0 < w) (x : BitVec w) :
    x.sshiftRight (w - 1) = if x.msb then BitVec.allOnes w else 0#w := by
  apply BitVec.eq_of_getLsbD_eq
  intro i hi
  rw [BitVec.getLsbD_sshiftRight]
  have hm : x.msb = x.getLsbD (w - 1) := by rw [BitVec.msb_eq_getLsbD_last]
  have h1 : decide (w ≤ i) = false := by simp; omega
  rw [h1, Bool.not_false, Bool.true_and]
  by_cases h0 : i = 0
  · subst h0
    rw [if_pos (by omega)]
    cases hx : x.msb <;> simp [hm] at hx <;> simp [hx, hw]
  · rw [if_neg (by omega)]
    cases hx : x.msb <;> simp [hi]

theorem zigzagEncode_toNat {w : Nat} (hw : 0 < w) (x : BitVec w) :
    (zigzagEncode x).toNat = zigzag x.toInt := by
  unfold zigzagEncode zigzag
  rw [sshiftRight_last hw]
  obtain ⟨v, rfl⟩ : ∃ v, w = v + 1 := ⟨w - 1, by omega⟩
  have hp : 2 ^ (v + 1) = 2 * 2 ^ v := by rw [Nat.pow_succ]; omega
  have hx := x.isLt
  have hshl : (x <<< 1).toNat = 2 * x.toNat % 2 ^ (v + 1) := by
    rw [BitVec.toNat_shiftLeft, Nat.shiftLeft_eq]; congr 1; omega
  cases hm : x.msb with
  | false =>
    have h1 := (BitVec.msb_eq_false_iff_two_mul_lt).1 hm
    simp only [Bool.false_eq_true, if_false, BitVec.xor_zero]
    rw [hshl, BitVec.toInt_eq_toNat_of_msb hm, if_pos (by omega), Nat.mod_eq_of_lt h1]
    omega
  | true =>
    have h1 := (BitVec.msb_eq_true_iff_two_mul_ge).1 hm
    have hneg : x.toInt = x.toNat - (2 ^ (v + 1) : Nat) := by
      rw [BitVec.toInt_eq_msb_cond, if_pos hm]
    simp only [if_true]
    rw [BitVec.xor_allOnes, BitVec.toNat_not, hshl, hneg, if_neg (by omega)]
    have hmod : 2 * x.toNat % 2 ^ (v + 1) = 2 * x.toNat - 2 ^ (v + 1) := by
      rw [Nat.mod_eq_sub_mod h1, Nat.mod_eq_of_lt (by omega)]
    rw [hmod]
    omega

theorem and_one_eq {w : Nat} (hw : 0 < w) (i : BitVec w) :
    i &&& 1#w = if i.toNat % 2 = 1 then 1#w else 0#w := by
  apply BitVec.eq_of_toNat_eq
  have h2 : 1 < 2 ^ w := Nat.one_lt_two_pow (by omega)
  rw [BitVec.toNat_and, BitVec.toNat_ofNat, Nat.mod_eq_of_lt h2, Nat.and_one_is_mod]
  split <;> rename_i h
  · rw [BitVec.toNat_ofNat, Nat.mod_eq_of_lt h2, h]
  · simp; omega

theorem neg_one_eq {w : Nat} : -(1#w) = BitVec.allOnes w := by
  rw [BitVec.neg_one_eq_allOnes]

theorem zigzagDecode_toInt {w : Nat} (hw : 0 < w) (u : BitVec w) :
    (zigzagDecode u).toInt = if u.toNat % 2 = 0 then (u.toNat / 2 : Int) else -(u.toNat / 2 : Int) - 1 := by
  unfold zigzagDecode
  rw [and_one_eq hw]
  have hu := u.isLt
  obtain ⟨v, rfl⟩ : ∃ v, w = v + 1 := ⟨w - 1, by omega⟩
  have hp : 2 ^ (v + 1) = 2 * 2 ^ v := by rw [Nat.pow_succ]; omega
  have hs : (u >>> 1).toNat = u.toNat / 2 := by rw [BitVec.toNat_ushiftRight, Nat.shiftRight_eq_div_pow]
  by_cases h : u.toNat % 2 = 0
  · rw [if_neg (by omega), if_pos h]
    have e : -(0#(v+1)) = 0#(v+1) := by simp
    rw [e, BitVec.xor_zero, BitVec.toInt_eq_toNat_cond, hs, if_pos (by omega)]
    omega
  · rw [if_pos (by omega), if_neg h, neg_one_eq, BitVec.xor_allOnes, BitVec.toInt_eq_toNat_cond, BitVec.toNat_not, hs,
      if_neg (by omega)]
    omega

theorem zigzag_decode_encode {w : Nat} (hw : 0 < w) (x : BitVec w) : zigzagDecode (zigzagEncode x) = x := by
  apply BitVec.eq_of_toInt_eq
  rw [zigzagDecode_toInt hw, zigzagEncode_toNat hw]
  unfold zigzag
  split <;> split <;> omega

theorem zigzag_encode_decode {w : Nat} (hw : 0 < w) (u : BitVec w) : zigzagEncode (zigzagDecode u) = u := by
  apply BitVec.eq_of_toNat_eq
  rw [zigzagEncode_toNat hw, zigzagDecode_toInt hw]
  unfold zigzag
  split <;> split <;> omega

/-- Bit `i` of the decoded number is set exactly if some digit `k` has a bit `j` with `7k mod 64 + j = i`. -/
theorem decDigits_getLsbD : ∀ (p : Bytes) (k0 : Nat) (acc : BitVec 64) (i : Nat), i < 64 →
    ((decDigits k0 acc p).getLsbD i = true ↔ acc.getLsbD i = true ∨
      ∃ k j b, p[k]? = some b ∧ j < 7 ∧ b.getLsbD j = true ∧ 7 * (k0 + k) % 64 + j = i) := by
  intro p
  induction p with
  | nil => intro k0 acc i _; simp [decDigits]
  | cons b p ih =>
    intro k0 acc i hi
    rw [decDigits, ih (k0 + 1) _ i hi]
    have h7f : ∀ j, (0x7F#8).getLsbD j = decide (j < 7) := by
      intro j
      by_cases hj : j < 8
      · revert j; decide
      · rw [BitVec.getLsbD_of_ge _ _ (by omega)]; simp; omega
    simp only [BitVec.getLsbD_or, BitVec.getLsbD_shiftLeft, BitVec.getLsbD_setWidth, BitVec.getLsbD_and, hi, h7f,
      decide_true, Bool.true_and, Bool.or_eq_true, Bool.and_eq_true, Bool.not_eq_true', decide_eq_true_eq,
      decide_eq_false_iff_not]
    constructor
    · rintro ((h | ⟨h1, h2, h3, h4⟩) | ⟨k, j, b', h1, h2, h3, h4⟩)
      · exact .inl h
      · exact .inr ⟨0, i - 7 * k0 % 64, b, rfl, h4, h3, by simp; omega⟩
      · exact .inr ⟨k + 1, j, b', h1, h2, h3, by rw [← h4]; congr 3; omega⟩
    · rintro (h | ⟨k, j, b', h1, h2, h3, h4⟩)
      · exact .inl (.inl h)
      · cases k with
        | zero =>
          simp at h1; subst h1
          have e : i - 7 * k0 % 64 = j := by simp at h4; omega
          refine .inl (.inr ⟨by simp at h4; omega, ?_⟩)
          rw [e]; exact ⟨by simp at h4; omega, h3, h2⟩
        | succ k => exact .inr ⟨k, j, b', h1, h2, h3, by rw [← h4]; congr 3; omega⟩

end CT
