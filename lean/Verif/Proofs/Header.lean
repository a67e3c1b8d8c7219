import Verif.Proofs.Reads
/-! # Reading back a written field header -/
namespace CT
open Spec

theorem readHeader_written (cfg : Cfg) (ft : Byte) (hft : ft.toNat < 16) (hft0 : ft ≠ 0#8) (last id : BitVec 16) (suf : Bytes) :
    (sliceInput cfg).readFieldHeader cfg last (fieldHeader ft id last ++ suf) = .ok ((ft, id), suf) ↔
      HeaderOk cfg.overflowChecks last id := by
  have hi := id.isLt
  have hl := last.isLt
  have hli := BitVec.toInt_eq_toNat_cond last
  have hii := BitVec.toInt_eq_toNat_cond id
  have hdi := BitVec.toInt_eq_toNat_cond (id - last)
  have hdn := BitVec.toNat_sub id last
  have h0i : (0#16 : BitVec 16).toInt = 0 := rfl
  unfold fieldHeader HeaderOk
  by_cases h : 15 < (id - last).toInt
  · simp only [h, if_true, List.cons_append]
    rw [readHeader_long cfg last ft _ hft hft0,
      readFullFieldId_varint cfg _ suf (varint_isVarint _) (varint_zigzag_length (by omega) (by omega) _) (id - last)
        (leb_zigzag_mod (by omega) _)]
    simp only [Except.ok.injEq, Prod.mk.injEq, true_and, and_true]
    constructor
    · intro he
      have : last = 0#16 := by
        apply BitVec.eq_of_toNat_eq
        have := congrArg BitVec.toNat he
        simp only [BitVec.toNat_ofNat]
        omega
      subst this
      right; right; refine ⟨rfl, ?_⟩; simpa using h
    · rintro (h' | h' | ⟨rfl, -⟩)
      · omega
      · omega
      · simp
  · simp only [h, if_false, List.singleton_append]
    have hb : (BitVec.ofNat 8 (ft.toNat + 16 * ((id - last).toNat % 16))).toNat = ft.toNat + 16 * ((id - last).toNat % 16) := by
      rw [BitVec.toNat_ofNat]; omega
    by_cases h0 : (id - last).toNat % 16 = 0
    · have e : BitVec.ofNat 8 (ft.toNat + 16 * ((id - last).toNat % 16)) = ft := by
        apply BitVec.eq_of_toNat_eq; rw [hb]; omega
      rw [e, readHeader_long cfg last ft _ hft hft0]
      constructor
      · intro hr
        exfalso
        cases hx : (sliceInput cfg).readFullFieldId cfg suf with
        | error e => rw [hx] at hr; simp at hr
        | ok p =>
          obtain ⟨x, s'⟩ := p
          rw [hx] at hr
          simp at hr
          have := Tri.ok (Tri.readFullFieldId (allowed_notDiverge cfg) (slice_measured_nd cfg) suf.length)
            (s := suf) (Nat.le_refl _) hx
          rw [hr.2] at this
          simp [sliceInput] at this
          omega
      · rintro (h' | h' | ⟨rfl, h'⟩)
        · omega
        · omega
        · simp at h; omega
    · rw [readHeader_short cfg last _ suf (by rw [hb]; omega), hb]
      have e1 : (ft.toNat + 16 * ((id - last).toNat % 16)) / 16 = (id - last).toNat % 16 := by omega
      have e2 : BitVec.ofNat 8 ((ft.toNat + 16 * ((id - last).toNat % 16)) % 16) = ft := by
        apply BitVec.eq_of_toNat_eq; rw [BitVec.toNat_ofNat]; omega
      rw [e1, e2]
      have e3 : (last + BitVec.ofNat 16 ((id - last).toNat % 16) = id) ↔ (id - last).toNat % 16 = (id - last).toNat := by
        constructor
        · intro he
          have := congrArg BitVec.toNat he
          rw [BitVec.toNat_add, BitVec.toNat_ofNat] at this
          omega
        · intro he
          rw [he]
          apply BitVec.eq_of_toNat_eq
          rw [BitVec.toNat_add, BitVec.toNat_ofNat]
          omega
      split
      · rename_i hp
        constructor
        · intro hh; simp at hh
        · rintro (h' | h' | ⟨rfl, h'⟩)
          · omega
          · rw [hp.1] at h'; simp at h'
          · simp at h; omega
      · rename_i hp
        simp only [Except.ok.injEq, Prod.mk.injEq, true_and, and_true]
        rw [e3]
        constructor
        · intro he
          by_cases hc : cfg.overflowChecks = true
          · have hp' : ¬ (32767 < last.toInt + ((id - last).toNat % 16 : Nat)) := fun hh => hp ⟨hc, hh⟩
            left; omega
          · simp only [Bool.not_eq_true] at hc
            by_cases hw : id.toInt < last.toInt
            · right; left; exact ⟨hc, by omega, by omega⟩
            · left; omega
        · rintro (h' | ⟨h'', h'⟩ | ⟨rfl, h'⟩)
          · omega
          · omega
          · simp at h; omega

end CT
