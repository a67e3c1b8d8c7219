import Verif.Spec.Size
import Verif.Props.Writing
/-! # C66: how large encodings get -/
namespace CT.Props
open CT Spec

theorem varint_zigzag_length {w : Nat} (hw : 0 < w) (x : BitVec w) (k : Nat) (hk : 2 ^ w ≤ 128 ^ (k + 1)) : (varint (zigzag x.toInt)).length ≤ k + 1 :=
  varint_length_le _ k (Nat.lt_of_lt_of_le (zigzag_lt hw x) hk)

theorem fieldHeader_length (ft : Byte) (id last : BitVec 16) : (fieldHeader ft id last).length ≤ 4 := by
  unfold fieldHeader
  split
  · have := varint_zigzag_length (by omega) (id - last) 2 (by decide)
    simp only [List.length_cons]; omega
  · simp

theorem listHeader_length {ft : Byte} {n : Nat} (h : n ≤ 10000000) : (listHeader ft n).length ≤ 5 := by
  unfold listHeader
  split
  · simp
  · have := varint_length_le n 3 (by omega)
    simp only [List.length_cons]; omega

/-- The bound of an item. -/
def maxItem : EItem → Nat
  | .value _ v => maxSize v
  | .field _ v _ _ => if present v then 4 + maxSize v else 0
  | .elems _ vs => maxSizes vs
  | .fields _ vs _ => maxFields vs

theorem enc_present {env : List Def} {ok : BitVec 16 → BitVec 16 → Prop} {it : EItem} {p : Bytes} (h : Enc env ok it p) :
    match it with
    | .value _ v => present v = true
    | _ => True := by
  induction h <;> try trivial
  all_goals assumption

theorem enc_size {env : List Def} {ok : BitVec 16 → BitVec 16 → Prop} {it : EItem} {p : Bytes} (h : Enc env ok it p) : p.length ≤ maxItem it := by
  induction h with
  | bool b => simp [maxItem, maxSize]
  | i8 x => simp [maxItem, maxSize]
  | i16 x => exact varint_zigzag_length (by omega) x 2 (by decide)
  | i32 x => exact varint_zigzag_length (by omega) x 4 (by decide)
  | i64 x => exact varint_zigzag_length (by omega) x 9 (by decide)
  | double x => simp [maxItem, maxSize, le64]
  | binary bs h =>
    have := varint_length_le bs.length 3 (by omega)
    simp only [maxItem, maxSize, List.length_append]; omega
  | string bs h =>
    have := varint_length_le bs.length 3 (by omega)
    simp only [maxItem, maxSize, List.length_append]; omega
  | encodingSet mask =>
    have h1 : (members mask).length ≤ 32 := by
      unfold members; exact Nat.le_trans (List.length_filter_le _ _) (by simp)
    have h2 : (listHeader 5#8 (members mask).length).length ≤ 2 := by
      unfold listHeader
      split
      · simp
      · have := varint_length_le (members mask).length 0 (by omega)
        simp only [List.length_cons]; omega
    have h3 : ∀ l : List Nat, (∀ i ∈ l, i < 32) → (l.flatMap fun (i : Nat) => varint (zigzag i)).length ≤ l.length := by
      intro l
      induction l with
      | nil => simp
      | cons a l ih =>
        intro h
        have h4 := varint_length_le (zigzag (a : Int)) 0 (by
          have := h a (by simp)
          unfold zigzag
          rw [if_pos (by omega)]; omega)
        have h5 := ih fun i hi => h i (by simp [hi])
        simp only [List.flatMap_cons, List.length_append, List.length_cons]; omega
    have h4 := h3 (members mask) fun i hi => by
      unfold members at hi; exact List.mem_range.1 (List.mem_filter.1 hi).1
    simp only [maxItem, maxSize, List.length_append]; omega
  | list t vs p h hp ih =>
    have := listHeader_length (ft := wireType env t) h
    simp only [maxItem, maxSize, List.length_append] at ih ⊢; omega
  | some t v p hp ih => simpa [maxItem, maxSize] using ih
  | box t v p hp ih => simpa [maxItem, maxSize] using ih
  | rc t b v p hp ih => simpa [maxItem, maxSize] using ih
  | enum k name x hk => exact varint_zigzag_length (by omega) x 4 (by decide)
  | struct k name fs vs p hk hp ih => simp only [maxItem, maxSize, List.length_append, List.length_singleton] at ih ⊢; omega
  | union k name us i u v p hk hu hp ih =>
    simp only [maxItem, maxSize, List.length_append, List.length_singleton] at ih ⊢
    split at ih <;> omega
  | elemsNil t => simp [maxItem, maxSizes]
  | elemsCons t v vs p q hp hq ih1 ih2 => simp only [maxItem, maxSizes, List.length_append] at ih1 ih2 ⊢; omega
  | fieldBool b id last h =>
    have := fieldHeader_length (boolByte b) id last
    simp only [maxItem, present, maxSize, if_true]; omega
  | fieldNone t id last => simp
  | fieldSome t v id last p hp ih =>
    simp only [maxItem] at ih ⊢
    by_cases hpr : present v = true
    · rw [if_pos hpr] at ih; rw [if_pos (by rw [present]; exact hpr), maxSize]; exact ih
    · rw [if_neg hpr] at ih; rw [if_neg (by rw [present]; exact hpr)]; exact ih
  | fieldValue t v id last p h1 h2 h hp ih =>
    have := fieldHeader_length (wireType env t) id last
    have hpr : present v = true := enc_present hp
    simp only [maxItem, hpr, if_true, List.length_append] at ih ⊢; omega
  | fieldsNil last => simp [maxItem, maxFields]
  | fieldsCons f fs v vs last p q hp hq ih1 ih2 => simp only [maxItem, maxFields, List.length_append] at ih1 ih2 ⊢; omega

/-- C66: a written value takes at most the bytes `maxSize` adds up. -/
theorem C66_size {env : List Def} {t : Ty} {v : Val} (hv : HasTy env v t) {bytes : Bytes} (h : encode env t v = .ok bytes) : bytes.length ≤ maxSize v :=
  enc_size (it := .value t v) (enc_of_encode hv h)

/-- The bound is attained: i64::MIN takes 10 bytes, and a list of two of them 21 of at most 25. -/
example : encode [] (.list .i64) (.list [.i64 (BitVec.intMin 64), .i64 (BitVec.intMin 64)]) =
      .ok (listHeader 6#8 2 ++ (varint (zigzag (BitVec.intMin 64).toInt) ++ (varint (zigzag (BitVec.intMin 64).toInt) ++ []))) ∧
    (varint (zigzag (BitVec.intMin 64).toInt)).length = 10 ∧
    maxSize (.list [.i64 (BitVec.intMin 64), .i64 (BitVec.intMin 64)]) = 25 := by
  refine ⟨encode_of_enc (ok := anyStep) (.list _ _ _ (by simp) (.elemsCons _ _ _ _ _ (.i64 _) (.elemsCons _ _ _ _ _ (.i64 _) (.elemsNil _)))), ?_, ?_⟩
  · rw [show zigzag (BitVec.intMin 64).toInt = 18446744073709551615 from by decide]
    simp [varint]
  · simp [maxSize, maxSizes]

end CT.Props
