import Verif.Proofs.SkipWritten
/-! # What is written follows the grammar of the protocol -/
namespace CT
open Spec

theorem listHeader_wire (ft : Byte) (hft : ft.toNat < 16) (n : Nat) (hn : n ≤ 10000000) :
    ListHeader (listHeader ft n) ft.toNat n := by
  unfold listHeader
  split
  · rename_i h
    have e : (BitVec.ofNat 8 (ft.toNat + 16 * n)).toNat = ft.toNat + 16 * n := by rw [BitVec.toNat_ofNat]; omega
    have := ListHeader.short (BitVec.ofNat 8 (ft.toNat + 16 * n)) (by rw [e]; omega)
    rwa [e, show (ft.toNat + 16 * n) % 16 = ft.toNat by omega, show (ft.toNat + 16 * n) / 16 = n by omega] at this
  · have e : (BitVec.ofNat 8 (ft.toNat + 240)).toNat = ft.toNat + 240 := by rw [BitVec.toNat_ofNat]; omega
    have := ListHeader.long (BitVec.ofNat 8 (ft.toNat + 240)) (varint n) n (by rw [e]; omega) (varintVal_varint (by omega)) hn
    rwa [e, show (ft.toNat + 240) % 16 = ft.toNat by omega] at this

theorem fieldHeader_wire (ft : Byte) (hft : 1 ≤ ft.toNat ∧ ft.toNat < 16) {last id : BitVec 16} (h : HeaderForm last id) {q r : Bytes}
    (hq : Wire strictStop (.value ft.toNat false) q) (hr : Wire strictStop .fields r) :
    Wire strictStop .fields (fieldHeader ft id last ++ q ++ r) := by
  unfold fieldHeader HeaderForm at *
  split
  · rw [List.append_assoc]
    exact .fieldLong ft _ q r (by omega) (by omega) (varint_isVarint _) hq hr
  · have e : (BitVec.ofNat 8 (ft.toNat + 16 * ((id - last).toNat % 16))).toNat = ft.toNat + 16 * ((id - last).toNat % 16) := by
      rw [BitVec.toNat_ofNat]; omega
    have e' : (ft.toNat + 16 * ((id - last).toNat % 16)) % 16 = ft.toNat := by omega
    rw [List.append_assoc]
    exact .fieldShort _ q r (by rw [e]; omega) (by rw [e]; omega) (by rw [e, e']; exact hq) hr

/-- What is shown of each encoded item. -/
def ConformsItem (env : List Def) (p : Bytes) : EItem → Prop
  | .value t _ => Wire strictStop (.value (wireType env t).toNat true) p ∧
      (isBoolish t = false → Wire strictStop (.value (wireType env t).toNat false) p)
  | .elems t vs => Wire strictStop (.elems (wireType env t).toNat vs.length) p
  | .field t _ id last => boxedBool t = false → p = [] ∨
      (HeaderForm last id ∧ ∃ ft q, p = fieldHeader ft id last ++ q ∧ 1 ≤ ft.toNat ∧ ft.toNat < 16 ∧
        Wire strictStop (.value ft.toNat false) q)
  | .fields fs _ _ => (∀ f ∈ fs, boxedBool f.ty = false) → Wire strictStop .fields (p ++ [0#8])

theorem both_ins {env : List Def} {t : Ty} {v : Val} {p : Bytes} {ft : Byte} (e : wireType env t = ft)
    (h : ∀ ins, Wire strictStop (.value ft.toNat ins) p) : ConformsItem env p (.value t v) := by
  subst e; exact ⟨h true, fun _ => h false⟩

theorem conforms_enc {env : List Def} (hb : noBoxedBool env = true) {i : EItem} {p : Bytes} (h : Enc env HeaderForm i p) :
    ConformsItem env p i := by
  have hdef : ∀ (k : Nat) (d : Def), env[k]? = some d → defNoBoxedBool d = true := by
    intro k d hk
    unfold noBoxedBool at hb; rw [List.all_eq_true] at hb
    exact hb d (List.mem_of_getElem? hk)
  have stop : Wire strictStop .fields [0#8] := .fieldStop _ rfl
  induction h with
  | bool b => exact ⟨.boolElem 2 _ (by omega), fun h => by simp [isBoolish] at h⟩
  | i8 x => exact both_ins rfl fun ins => .byte ins x
  | i16 x => exact both_ins (ft := 4#8) rfl fun ins => .int _ ins _ (by decide) (varint_isVarint _)
  | i32 x => exact both_ins (ft := 5#8) rfl fun ins => .int _ ins _ (by decide) (varint_isVarint _)
  | i64 x => exact both_ins (ft := 6#8) rfl fun ins => .int _ ins _ (by decide) (varint_isVarint _)
  | double x => exact both_ins rfl fun ins => .double ins _ (le64_length x)
  | binary bs h => exact both_ins rfl fun ins => .binary ins _ bs (varintVal_varint (by omega)) h
  | string bs h => exact both_ins rfl fun ins => .binary ins _ bs (varintVal_varint (by omega)) h
  | encodingSet mask =>
    have hl := members_length_le mask
    have hrep : ∀ (l : List Nat), Wire strictStop (.elems 5 l.length) (l.flatMap (fun (i : Nat) => varint (zigzag i))) := by
      intro l
      induction l with
      | nil => exact .elemsNil _ (by omega)
      | cons i l ih =>
        rw [List.flatMap_cons]
        exact .elemsCons _ _ _ _ (.int _ _ _ (by omega) (varint_isVarint _)) ih
    exact both_ins rfl fun ins => .list 9 ins _ 5 _ _ (by omega) (listHeader_wire 5#8 (by decide) _ (by omega)) (hrep _)
  | list t vs p hl hp ih =>
    have hr := wireType_range env t
    exact both_ins rfl fun ins => .list 9 ins _ _ _ _ (by omega) (listHeader_wire _ (by omega) _ hl) ih
  | some t v p hp ih => exact ih
  | box t v p hp ih => exact ih
  | rc t b v p hp ih => exact ih
  | enum k name x hk =>
    have e : wireType env (.named k) = 5#8 := by unfold wireType; rw [hk]
    exact both_ins e fun ins => .int _ ins _ (by decide) (varint_isVarint _)
  | struct k name fs vs p hk hp ih =>
    have hd := hdef k _ hk
    simp only [defNoBoxedBool, List.all_eq_true, Bool.not_eq_true'] at hd
    exact both_ins (wireType_skip_struct hk (by simp)) fun ins => .struct ins _ (ih hd)
  | union k name us i u v p hk hu hp ih =>
    have hd := hdef k _ hk
    simp only [defNoBoxedBool, List.all_eq_true, Bool.not_eq_true'] at hd
    refine both_ins (wireType_skip_struct hk (by simp)) fun ins => .struct ins _ ?_
    rcases ih (hd u (List.mem_of_getElem? hu)) with rfl | ⟨hf, ft, q, rfl, h1, h2, hq⟩
    · exact stop
    · exact fieldHeader_wire ft ⟨h1, h2⟩ hf hq stop
  | elemsNil t => exact .elemsNil _ (by have := wireType_range env t; omega)
  | elemsCons t v vs p q hp hq ihp ihq => exact .elemsCons _ _ _ _ ihp.1 ihq
  | fieldBool b id last h =>
    intro _
    refine .inr ⟨h, boolByte b, [], by simp, by cases b <;> decide, by cases b <;> decide, ?_⟩
    exact .boolField _ (by cases b <;> decide)
  | fieldNone t id last => exact fun _ => .inl rfl
  | fieldSome t v id last p hp ih => exact ih
  | fieldValue t v id last p h1 h2 h hp ih =>
    intro hbx
    have hr := wireType_range env t
    exact .inr ⟨h, wireType env t, p, rfl, by omega, by omega, ih.2 (isBoolish_of_not_boxed t hbx h1 h2)⟩
  | fieldsNil last => exact fun _ => stop
  | fieldsCons f fs v vs last p q hp hq ihp ihq =>
    intro hbx
    have hbf : boxedBool f.rustTy = false := by
      have := hbx f (by simp)
      unfold Field.rustTy; split
      · exact this
      · exact this
    have ihq := ihq fun g hg => hbx g (by simp [hg])
    rcases ihp hbf with rfl | ⟨hf, ft, r, rfl, h1, h2, hr⟩
    · exact ihq
    · rw [List.append_assoc]
      exact fieldHeader_wire ft ⟨h1, h2⟩ hf hr ihq

end CT
