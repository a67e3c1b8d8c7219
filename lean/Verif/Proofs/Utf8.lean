import Verif.Model.Types
import Verif.Spec.Utf8
/-! # The UTF-8 validator accepts exactly the encodings of scalar values -/
namespace CT
open Spec

theorem inRange_iff (lo hi : Nat) (b : Byte) : inRange lo hi b = true ↔ lo ≤ b.toNat ∧ b.toNat ≤ hi := by simp [inRange]
theorem isCont_iff (b : Byte) : isCont b = true ↔ 0x80 ≤ b.toNat ∧ b.toNat ≤ 0xBF := by simp [isCont]
theorem inRange_false (lo hi : Nat) (b : Byte) : inRange lo hi b = false ↔ b.toNat < lo ∨ hi < b.toNat := by
  simp [inRange]; omega

/-- one, two, three and four byte sequences -/
def seq2 (a b : Byte) : Prop := 0xC2 ≤ a.toNat ∧ a.toNat ≤ 0xDF ∧ 0x80 ≤ b.toNat ∧ b.toNat ≤ 0xBF
def seq3 (a b c : Byte) : Prop :=
  ((a.toNat = 0xE0 ∧ 0xA0 ≤ b.toNat ∧ b.toNat ≤ 0xBF) ∨
   (0xE1 ≤ a.toNat ∧ a.toNat ≤ 0xEC ∧ 0x80 ≤ b.toNat ∧ b.toNat ≤ 0xBF) ∨
   (a.toNat = 0xED ∧ 0x80 ≤ b.toNat ∧ b.toNat ≤ 0x9F) ∨
   (0xEE ≤ a.toNat ∧ a.toNat ≤ 0xEF ∧ 0x80 ≤ b.toNat ∧ b.toNat ≤ 0xBF)) ∧ 0x80 ≤ c.toNat ∧ c.toNat ≤ 0xBF
def seq4 (a b c d : Byte) : Prop :=
  ((a.toNat = 0xF0 ∧ 0x90 ≤ b.toNat ∧ b.toNat ≤ 0xBF) ∨
   (0xF1 ≤ a.toNat ∧ a.toNat ≤ 0xF3 ∧ 0x80 ≤ b.toNat ∧ b.toNat ≤ 0xBF) ∨
   (a.toNat = 0xF4 ∧ 0x80 ≤ b.toNat ∧ b.toNat ≤ 0x8F)) ∧
  0x80 ≤ c.toNat ∧ c.toNat ≤ 0xBF ∧ 0x80 ≤ d.toNat ∧ d.toNat ≤ 0xBF

theorem utf8Three_iff (a b c : Byte) : utf8Valid.utf8Three a b c = true ↔ seq3 a b c := by
  simp only [utf8Valid.utf8Three, Bool.and_eq_true, Bool.or_eq_true, inRange_iff, isCont_iff, seq3]
  omega

theorem valid_one {a : Byte} (h : a.toNat < 0x80) (t : Bytes) : utf8Valid (a :: t) = utf8Valid t := by
  have h1 : inRange 0x00 0x7F a = true := by rw [inRange_iff]; omega
  have h2 : inRange 0xC2 0xDF a = false := by rw [inRange_false]; omega
  match t with
  | [] => simp [utf8Valid, h1]
  | [b] => (conv => lhs; rw [utf8Valid]); simp [h1, h2]
  | [b, c] => (conv => lhs; rw [utf8Valid]); simp [h1]
  | b :: c :: d :: r => (conv => lhs; rw [utf8Valid]); simp [h1]

theorem valid_two {a b : Byte} (h : seq2 a b) (t : Bytes) : utf8Valid (a :: b :: t) = utf8Valid t := by
  have h1 : inRange 0x00 0x7F a = false := by rw [inRange_false]; unfold seq2 at h; omega
  have h2 : inRange 0xC2 0xDF a = true := by rw [inRange_iff]; unfold seq2 at h; omega
  have h3 : isCont b = true := by rw [isCont_iff]; unfold seq2 at h; omega
  match t with
  | [] => simp [utf8Valid, h1, h2, h3]
  | [c] => (conv => lhs; rw [utf8Valid]); simp [h1, h2, h3]
  | c :: d :: r => (conv => lhs; rw [utf8Valid]); simp [h1, h2, h3]

theorem valid_three {a b c : Byte} (h : seq3 a b c) (t : Bytes) : utf8Valid (a :: b :: c :: t) = utf8Valid t := by
  have h1 : inRange 0x00 0x7F a = false := by rw [inRange_false]; unfold seq3 at h; omega
  have h2 : inRange 0xC2 0xDF a = false := by rw [inRange_false]; unfold seq3 at h; omega
  have h3 : inRange 0xE0 0xEF a = true := by rw [inRange_iff]; unfold seq3 at h; omega
  have h4 := (utf8Three_iff a b c).2 h
  match t with
  | [] => simp [utf8Valid, h1, h2, h4]
  | d :: r => rw [utf8Valid]; simp [h1, h2, h3, h4]

theorem valid_four {a b c d : Byte} (h : seq4 a b c d) (t : Bytes) : utf8Valid (a :: b :: c :: d :: t) = utf8Valid t := by
  have h1 : inRange 0x00 0x7F a = false := by rw [inRange_false]; unfold seq4 at h; omega
  have h2 : inRange 0xC2 0xDF a = false := by rw [inRange_false]; unfold seq4 at h; omega
  have h3 : inRange 0xE0 0xEF a = false := by rw [inRange_false]; unfold seq4 at h; omega
  rw [utf8Valid]
  simp only [h1, h2, h3, Bool.false_eq_true, if_false]
  have : (((inRange 0xF0 0xF0 a && inRange 0x90 0xBF b) || (inRange 0xF1 0xF3 a && isCont b) ||
       (inRange 0xF4 0xF4 a && inRange 0x80 0x8F b)) && isCont c && isCont d) = true := by
    simp only [Bool.and_eq_true, Bool.or_eq_true, inRange_iff, isCont_iff]
    unfold seq4 at h; omega
  rw [this]; simp

/-- Everything the validator accepts starts with a well-formed sequence. -/
theorem valid_cases {a : Byte} {t : Bytes} (h : utf8Valid (a :: t) = true) :
    a.toNat < 0x80 ∨ (∃ b r, t = b :: r ∧ seq2 a b) ∨ (∃ b c r, t = b :: c :: r ∧ seq3 a b c) ∨
    (∃ b c d r, t = b :: c :: d :: r ∧ seq4 a b c d) := by
  match t with
  | [] =>
    rw [utf8Valid, inRange_iff] at h; left; omega
  | [b] =>
    rw [utf8Valid] at h
    simp only [Bool.and_eq_true, Bool.or_eq_true, inRange_iff, isCont_iff] at h
    rcases h with h | h
    · left; omega
    · right; left; exact ⟨b, [], rfl, by unfold seq2; omega⟩
  | [b, c] =>
    rw [utf8Valid] at h
    split at h
    · rename_i h'; rw [inRange_iff] at h'; left; omega
    · split at h
      · rename_i h'; simp only [Bool.and_eq_true, inRange_iff, isCont_iff] at h h'
        right; left; exact ⟨b, [c], rfl, by unfold seq2; omega⟩
      · right; right; left; exact ⟨b, c, [], rfl, (utf8Three_iff a b c).1 h⟩
  | b :: c :: d :: r =>
    rw [utf8Valid] at h
    split at h
    · rename_i h'; rw [inRange_iff] at h'; left; omega
    · split at h
      · rename_i h'; simp only [Bool.and_eq_true, inRange_iff, isCont_iff] at h h'
        right; left; exact ⟨b, _, rfl, by unfold seq2; omega⟩
      · split at h
        · simp only [Bool.and_eq_true] at h
          right; right; left; exact ⟨b, c, _, rfl, (utf8Three_iff a b c).1 h.1⟩
        · simp only [Bool.and_eq_true, Bool.or_eq_true, inRange_iff, isCont_iff] at h
          right; right; right; exact ⟨b, c, d, r, rfl, by unfold seq4; omega⟩

theorem ofNat_toNat8 {n : Nat} (h : n < 256) : (BitVec.ofNat 8 n).toNat = n := by rw [BitVec.toNat_ofNat]; omega

theorem eq_ofNat8 {b : Byte} {n : Nat} (h : n = b.toNat) : b = BitVec.ofNat 8 n := by subst h; simp

/-- Encodings of scalar values are accepted and what follows decides. -/
theorem valid_utf8 {n : Nat} (h : IsScalar n) (t : Bytes) : utf8Valid (utf8 n ++ t) = utf8Valid t := by
  unfold IsScalar at h
  unfold utf8
  split
  · exact valid_one (by rw [ofNat_toNat8] <;> omega) t
  · split
    · refine valid_two ?_ t
      unfold seq2
      rw [ofNat_toNat8 (by omega), ofNat_toNat8 (by omega)]; omega
    · split
      · refine valid_three ?_ t
        unfold seq3
        rw [ofNat_toNat8 (by omega), ofNat_toNat8 (by omega), ofNat_toNat8 (by omega)]; omega
      · refine valid_four ?_ t
        unfold seq4
        rw [ofNat_toNat8 (by omega), ofNat_toNat8 (by omega), ofNat_toNat8 (by omega), ofNat_toNat8 (by omega)]; omega

theorem seq1_scalar {a : Byte} (h : a.toNat < 0x80) : ∃ n, IsScalar n ∧ utf8 n = [a] :=
  ⟨a.toNat, by unfold IsScalar; omega, by unfold utf8; rw [if_pos h]; simp⟩

theorem seq2_scalar {a b : Byte} (h : seq2 a b) : ∃ n, IsScalar n ∧ utf8 n = [a, b] := by
  unfold seq2 at h
  refine ⟨(a.toNat - 0xC0) * 64 + (b.toNat - 0x80), by unfold IsScalar; omega, ?_⟩
  unfold utf8
  rw [if_neg (by omega), if_pos (by omega), ← eq_ofNat8 (b := a) (by omega), ← eq_ofNat8 (b := b) (by omega)]

theorem seq3_scalar {a b c : Byte} (h : seq3 a b c) : ∃ n, IsScalar n ∧ utf8 n = [a, b, c] := by
  unfold seq3 at h
  refine ⟨(a.toNat - 0xE0) * 4096 + (b.toNat - 0x80) * 64 + (c.toNat - 0x80), by unfold IsScalar; omega, ?_⟩
  unfold utf8
  rw [if_neg (by omega), if_neg (by omega), if_pos (by omega), ← eq_ofNat8 (b := a) (by omega),
    ← eq_ofNat8 (b := b) (by omega), ← eq_ofNat8 (b := c) (by omega)]

theorem seq4_scalar {a b c d : Byte} (h : seq4 a b c d) : ∃ n, IsScalar n ∧ utf8 n = [a, b, c, d] := by
  unfold seq4 at h
  refine ⟨(a.toNat - 0xF0) * 262144 + (b.toNat - 0x80) * 4096 + (c.toNat - 0x80) * 64 + (d.toNat - 0x80),
    by unfold IsScalar; omega, ?_⟩
  unfold utf8
  rw [if_neg (by omega), if_neg (by omega), if_neg (by omega), ← eq_ofNat8 (b := a) (by omega),
    ← eq_ofNat8 (b := b) (by omega), ← eq_ofNat8 (b := c) (by omega), ← eq_ofNat8 (b := d) (by omega)]

theorem valid_of_isUtf8 {bs : Bytes} (h : IsUtf8 bs) : utf8Valid bs = true := by
  obtain ⟨ns, hns, rfl⟩ := h
  induction ns with
  | nil => rfl
  | cons n ns ih =>
    rw [List.flatMap_cons, valid_utf8 (hns n (by simp))]
    exact ih fun m hm => hns m (by simp [hm])

theorem isUtf8_cons {n : Nat} {t : Bytes} (hn : IsScalar n) (h : IsUtf8 t) : IsUtf8 (utf8 n ++ t) := by
  obtain ⟨ns, hns, rfl⟩ := h
  refine ⟨n :: ns, ?_, by rw [List.flatMap_cons]⟩
  intro m hm
  rcases List.mem_cons.1 hm with rfl | hm
  · exact hn
  · exact hns m hm

theorem isUtf8_of_valid (k : Nat) : ∀ bs : Bytes, bs.length ≤ k → utf8Valid bs = true → IsUtf8 bs := by
  induction k with
  | zero =>
    intro bs hl _
    match bs, hl with
    | [], _ => exact ⟨[], by simp, rfl⟩
  | succ k ih =>
    intro bs hl h
    match bs, hl, h with
    | [], _, _ => exact ⟨[], by simp, rfl⟩
    | a :: t, hl, h =>
      simp only [List.length_cons] at hl
      rcases valid_cases h with ha | ⟨b, r, rfl, hs⟩ | ⟨b, c, r, rfl, hs⟩ | ⟨b, c, d, r, rfl, hs⟩
      · obtain ⟨n, hn, e⟩ := seq1_scalar ha
        rw [valid_one ha] at h
        have := isUtf8_cons hn (ih t (by omega) h)
        rwa [e] at this
      · obtain ⟨n, hn, e⟩ := seq2_scalar hs
        rw [valid_two hs] at h
        have := isUtf8_cons hn (ih r (by simp at hl; omega) h)
        rwa [e] at this
      · obtain ⟨n, hn, e⟩ := seq3_scalar hs
        rw [valid_three hs] at h
        have := isUtf8_cons hn (ih r (by simp at hl; omega) h)
        rwa [e] at this
      · obtain ⟨n, hn, e⟩ := seq4_scalar hs
        rw [valid_four hs] at h
        have := isUtf8_cons hn (ih r (by simp at hl; omega) h)
        rwa [e] at this

theorem utf8Valid_iff (bs : Bytes) : utf8Valid bs = true ↔ IsUtf8 bs :=
  ⟨isUtf8_of_valid bs.length bs (Nat.le_refl _), valid_of_isUtf8⟩

end CT
