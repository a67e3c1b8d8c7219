import Verif.Proofs.Wire
import Verif.Proofs.RoundTrip
/-! # Skipping what was written -/
namespace CT
open Spec

/-- A header of the writer, read by a reader whose last id is not above the writer's. -/
theorem readHeader_ascends (cfg : Cfg) (ft : Byte) (hft : ft.toNat < 16) (hft0 : ft ≠ 0#8) {rl last id : BitVec 16}
    (h : Ascends last id) (hr : 0 ≤ rl.toInt ∧ rl.toInt ≤ last.toInt) (suf : Bytes) :
    ∃ rl', (sliceInput cfg).readFieldHeader cfg rl (fieldHeader ft id last ++ suf) = .ok ((ft, rl'), suf) ∧
      0 ≤ rl'.toInt ∧ rl'.toInt ≤ id.toInt := by
  have hi := id.isLt
  have hl := last.isLt
  have hli := BitVec.toInt_eq_toNat_cond last
  have hii := BitVec.toInt_eq_toNat_cond id
  have hdi := BitVec.toInt_eq_toNat_cond (id - last)
  have hdn := BitVec.toNat_sub id last
  have hri := BitVec.toInt_eq_toNat_cond rl
  obtain ⟨ha, hb⟩ := h
  unfold fieldHeader
  by_cases h : 15 < (id - last).toInt
  · refine ⟨id - last, ?_, by omega, by omega⟩
    simp only [h, if_true, List.cons_append]
    rw [readHeader_long cfg rl ft _ hft hft0,
      readFullFieldId_varint cfg _ suf (varint_isVarint _) (varint_zigzag_length (by omega) (by omega) _) (id - last)
        (leb_zigzag_mod (by omega) _)]
  · have hb : (BitVec.ofNat 8 (ft.toNat + 16 * ((id - last).toNat % 16))).toNat = ft.toNat + 16 * ((id - last).toNat % 16) := by
      rw [BitVec.toNat_ofNat]; omega
    have hn : (rl + BitVec.ofNat 16 ((id - last).toNat % 16)).toNat = rl.toNat + (id - last).toNat % 16 := by
      rw [BitVec.toNat_add, BitVec.toNat_ofNat]; omega
    have hni := BitVec.toInt_eq_toNat_cond (rl + BitVec.ofNat 16 ((id - last).toNat % 16))
    refine ⟨rl + BitVec.ofNat 16 ((id - last).toNat % 16), ?_, by omega, by omega⟩
    simp only [h, if_false, List.singleton_append]
    rw [readHeader_short cfg rl _ suf (by rw [hb]; omega), hb]
    have e1 : (ft.toNat + 16 * ((id - last).toNat % 16)) / 16 = (id - last).toNat % 16 := by omega
    have e2 : BitVec.ofNat 8 ((ft.toNat + 16 * ((id - last).toNat % 16)) % 16) = ft := by
      apply BitVec.eq_of_toNat_eq; rw [BitVec.toNat_ofNat]; omega
    rw [e1, e2, if_neg (by omega)]

/-- Skipping a varint of at most ten bytes. -/
theorem skipInteger_varint (cfg : Cfg) (p suf : Bytes) (hv : IsVarint p) (hl : p.length ≤ 10) :
    (sliceInput cfg).skipInteger (p ++ suf) = .ok ((), suf) := by
  cases h : cfg.sse2 with
  | true => exact slice_skipInteger_varint h hv (by omega)
  | false =>
    rw [slice_skipInteger_noSse2 h]
    have := uleb_slice cfg p suf hv (.inr (by omega))
    rw [Rd.bind_ok this]; rfl

theorem skipInteger_zigzag (cfg : Cfg) {w : Nat} (hw : 0 < w) (hw' : w ≤ 64) (x : BitVec w) (suf : Bytes) :
    (sliceInput cfg).skipInteger (varint (zigzag x.toInt) ++ suf) = .ok ((), suf) :=
  skipInteger_varint cfg _ suf (varint_isVarint _) (varint_zigzag_length hw hw' x)

/-- With enough fuel, `skip_field` consumes exactly `p`. -/
def SkipsAs (cfg : Cfg) (ft : Byte) (ins : Bool) (p : Bytes) : Prop :=
  ∃ N, ∀ m, N ≤ m → ∀ suf, skipFieldF cfg (sliceInput cfg) m ft ins (p ++ suf) = .ok ((), suf)

/-- What is shown of each encoded item. -/
def SkipsEnc (cfg : Cfg) (env : List Def) (p : Bytes) : EItem → Prop
  | .value t _ => SkipsAs cfg (wireType env t) true p ∧ (isBoolish t = false → SkipsAs cfg (wireType env t) false p)
  | .elems t vs => ∃ N, ∀ m, N ≤ m → ∀ suf,
      repeatRd (skipFieldF cfg (sliceInput cfg) m (wireType env t) true) vs.length (p ++ suf) = .ok ((), suf)
  | .field t v id last => boxedBool t = false → (present v = false ∧ p = []) ∨
      (present v = true ∧ Ascends last id ∧ ∃ ft q, p = fieldHeader ft id last ++ q ∧ 1 ≤ ft.toNat ∧ ft.toNat < 16 ∧
        SkipsAs cfg ft false q)
  | .fields fs _ last => (∀ f ∈ fs, boxedBool f.ty = false) → ∃ N, ∀ m, N ≤ m → ∀ (rl : BitVec 16) (fuel : Nat) (suf : Bytes),
      0 ≤ rl.toInt → rl.toInt ≤ last.toInt → p.length + 1 ≤ fuel →
      skipStructLoop cfg (sliceInput cfg) (fun ft => skipFieldF cfg (sliceInput cfg) m ft false) fuel rl (p ++ 0#8 :: suf) =
        .ok ((), suf)

theorem SkipsAs.of_succ {cfg : Cfg} {ft : Byte} {ins : Bool} {p : Bytes}
    (h : ∀ m suf, skipFieldF cfg (sliceInput cfg) (m + 1) ft ins (p ++ suf) = .ok ((), suf)) : SkipsAs cfg ft ins p := by
  refine ⟨1, fun m hm suf => ?_⟩
  obtain ⟨m, rfl⟩ : ∃ k, m = k + 1 := ⟨m - 1, by omega⟩
  exact h m suf

theorem SkipsAs.both {cfg : Cfg} {ft : Byte} {P : Prop} {p : Bytes}
    (h : ∀ ins, SkipsAs cfg ft ins p) : SkipsAs cfg ft true p ∧ (P → SkipsAs cfg ft false p) :=
  ⟨h true, fun _ => h false⟩

theorem le64_length (x : BitVec 64) : (le64 x).length = 8 := by simp [le64]

theorem isBoolish_of_not_boxed : ∀ t, boxedBool t = false → t ≠ .bool → (∀ t', t ≠ .option t') → isBoolish t = false := by
  intro t hb h1 h2
  cases t with
  | bool => exact absurd rfl h1
  | option t => exact absurd rfl (h2 t)
  | box t => exact hb
  | rc t => exact hb
  | _ => rfl

/-- Reading the stop byte ends the loop. -/
theorem skipStructLoop_stop (cfg : Cfg) (skip1 : Byte → Rd Bytes Unit) (fuel : Nat) (rl : BitVec 16) (suf : Bytes) :
    skipStructLoop cfg (sliceInput cfg) skip1 (fuel + 1) rl (0#8 :: suf) = .ok ((), suf) := by
  rw [skipStructLoop, Rd.bind_ok (readHeader_stop cfg rl suf)]; rfl

/-- One field of the struct being skipped. -/
theorem skipStructLoop_field (cfg : Cfg) {m fuel : Nat} {rl rl' : BitVec 16} {ft : Byte} (hft : ft ≠ 0#8) {h q suf : Bytes} {r : Except Fail (Unit × Bytes)}
    (hh : (sliceInput cfg).readFieldHeader cfg rl (h ++ (q ++ suf)) = .ok ((ft, rl'), q ++ suf))
    (hq : skipFieldF cfg (sliceInput cfg) m ft false (q ++ suf) = .ok ((), suf))
    (hr : skipStructLoop cfg (sliceInput cfg) (fun ft => skipFieldF cfg (sliceInput cfg) m ft false) fuel rl' suf = r) :
    skipStructLoop cfg (sliceInput cfg) (fun ft => skipFieldF cfg (sliceInput cfg) m ft false) (fuel + 1) rl (h ++ q ++ suf) = r := by
  rw [skipStructLoop, List.append_assoc, Rd.bind_ok hh]
  dsimp only
  rw [if_neg hft, Rd.bind_ok hq, hr]

theorem wireType_skip_struct {env : List Def} {k : Nat} {d : Def} (hk : env[k]? = some d) (hd : ∀ n, d ≠ .enum n) :
    wireType env (.named k) = 12#8 := by
  unfold wireType
  rw [hk]
  cases d with
  | enum n => exact absurd rfl (hd n)
  | struct => rfl
  | union => rfl

theorem ne_zero_of_toNat {ft : Byte} (h : 1 ≤ ft.toNat) : ft ≠ 0#8 := by rintro rfl; simp at h

theorem skips_enc (cfg : Cfg) {env : List Def} (hb : noBoxedBool env = true) {i : EItem} {p : Bytes} (h : Enc env Ascends i p) :
    SkipsEnc cfg env p i := by
  have hdef : ∀ (k : Nat) (d : Def), env[k]? = some d → defNoBoxedBool d = true := by
    intro k d hk
    unfold noBoxedBool at hb; rw [List.all_eq_true] at hb
    exact hb d (List.mem_of_getElem? hk)
  induction h with
  | bool b =>
    refine ⟨SkipsAs.of_succ fun m suf => ?_, fun h => by simp [isBoolish] at h⟩
    rw [skipFieldF]; rfl
  | i8 x => exact SkipsAs.both fun ins => SkipsAs.of_succ fun m suf => by rw [skipFieldF]; rfl
  | i16 x =>
    refine SkipsAs.both fun ins => SkipsAs.of_succ fun m suf => ?_
    rw [skipFieldF]; exact skipInteger_zigzag cfg (by omega) (by omega) x suf
  | i32 x =>
    refine SkipsAs.both fun ins => SkipsAs.of_succ fun m suf => ?_
    rw [skipFieldF]; exact skipInteger_zigzag cfg (by omega) (by omega) x suf
  | i64 x =>
    refine SkipsAs.both fun ins => SkipsAs.of_succ fun m suf => ?_
    rw [skipFieldF]; exact skipInteger_zigzag cfg (by omega) (by omega) x suf
  | double x =>
    refine SkipsAs.both fun ins => SkipsAs.of_succ fun m suf => ?_
    rw [skipFieldF]; exact compl_skipDouble (cfg := cfg) () _ (le64_length x) suf
  | binary bs h =>
    refine SkipsAs.both fun ins => SkipsAs.of_succ fun m suf => ?_
    rw [skipFieldF, List.append_assoc]
    exact skipBinary_varint cfg _ bs suf (varint_isVarint _) (varint_length_le _ 9 (by omega))
      (by rw [leb_varint, Nat.mod_eq_of_lt (by omega)]) h
  | string bs h =>
    refine SkipsAs.both fun ins => SkipsAs.of_succ fun m suf => ?_
    rw [skipFieldF, List.append_assoc]
    exact skipBinary_varint cfg _ bs suf (varint_isVarint _) (varint_length_le _ 9 (by omega))
      (by rw [leb_varint, Nat.mod_eq_of_lt (by omega)]) h
  | encodingSet mask =>
    have hl := members_length_le mask
    have hrep : ∀ (l : List Nat), (∀ i ∈ l, i < 32) → ∀ m suf, repeatRd (skipFieldF cfg (sliceInput cfg) (m + 1) 5#8 true) l.length
        (l.flatMap (fun (i : Nat) => varint (zigzag i)) ++ suf) = .ok ((), suf) := by
      intro l
      induction l with
      | nil => intro _ m suf; rfl
      | cons i l ih =>
        intro hl m suf
        rw [List.flatMap_cons]
        refine compl_repeat_cons ?_ (ih (fun j hj => hl j (by simp [hj])) m suf)
        have hi := hl i (by simp)
        have e : ((BitVec.ofNat 32 i).toInt) = i := by
          rw [BitVec.toInt_eq_toNat_cond, BitVec.toNat_ofNat]; omega
        rw [skipFieldF, ← e]
        exact skipInteger_zigzag cfg (by omega) (by omega) _ _
    have hm : ∀ i ∈ members mask, i < 32 := by
      intro i hi; unfold members at hi; simp at hi; exact hi.1
    refine SkipsAs.both fun ins => ⟨3, fun m hm' suf => ?_⟩
    obtain ⟨m, rfl⟩ : ∃ k, m = k + 3 := ⟨m - 3, by omega⟩
    rw [skipFieldF]
    exact skipCollection_of_header (m := m + 1) (et := 5#8) (by decide) (readCollection_write cfg 5#8 _ _ (by decide)
      (by unfold MAX_COLLECTION_LEN; omega)) (hrep _ hm _ _) (hrep _ hm _ _)
  | list t vs p hl hp ih =>
    obtain ⟨N, ih⟩ := ih
    have hr := wireType_range env t
    refine SkipsAs.both fun ins => ⟨N + 3, fun m hm' suf => ?_⟩
    obtain ⟨m, rfl⟩ : ∃ k, m = k + 3 := ⟨m - 3, by omega⟩
    show skipFieldF cfg (sliceInput cfg) (m + 3) 9#8 ins _ = _
    rw [skipFieldF]
    exact skipCollection_of_header (m := m + 1) (et := wireType env t) (by omega) (readCollection_write cfg _ _ _ (by omega) hl)
      (ih _ (by omega) _) (ih _ (by omega) _)
  | some t v p hp ih => exact ih
  | box t v p hp ih => exact ih
  | rc t b v p hp ih => exact ih
  | enum k name x hk =>
    have e : wireType env (.named k) = 5#8 := by unfold wireType; rw [hk]
    refine SkipsAs.both fun ins => ?_
    rw [e]
    refine SkipsAs.of_succ fun m suf => ?_
    rw [skipFieldF]; exact skipInteger_zigzag cfg (by omega) (by omega) x suf
  | struct k name fs vs p hk hp ih =>
    have hd := hdef k _ hk
    simp only [defNoBoxedBool, List.all_eq_true, Bool.not_eq_true'] at hd
    obtain ⟨N, ih⟩ := ih hd
    refine SkipsAs.both fun ins => ?_
    rw [wireType_skip_struct hk (by simp)]
    refine ⟨N + 1, fun m hm suf => ?_⟩
    obtain ⟨m, rfl⟩ : ∃ k, m = k + 1 := ⟨m - 1, by omega⟩
    rw [skipFieldF, List.append_assoc]
    exact ih m (by omega) 0#16 _ suf (by decide) (by decide) (by simp [sliceInput])
  | union k name us i u v p hk hu hp ih =>
    have hd := hdef k _ hk
    simp only [defNoBoxedBool, List.all_eq_true, Bool.not_eq_true'] at hd
    refine SkipsAs.both fun ins => ?_
    rw [wireType_skip_struct hk (by simp)]
    rcases ih (hd u (List.mem_of_getElem? hu)) with ⟨_, rfl⟩ | ⟨_, ha, ft, q, rfl, h1, h2, N, hN⟩
    · refine ⟨1, fun m hm suf => ?_⟩
      obtain ⟨m, rfl⟩ : ∃ k, m = k + 1 := ⟨m - 1, by omega⟩
      rw [skipFieldF]
      exact skipStructLoop_stop cfg (fun ft => skipFieldF cfg (sliceInput cfg) m ft false) _ 0#16 _
    · refine ⟨N + 1, fun m hm suf => ?_⟩
      obtain ⟨m, rfl⟩ : ∃ k, m = k + 1 := ⟨m - 1, by omega⟩
      have hl : 0 < (fieldHeader ft u.id 0#16).length := by unfold fieldHeader; split <;> simp
      obtain ⟨rl', hh, _⟩ := readHeader_ascends cfg ft h2 (ne_zero_of_toNat h1) (rl := 0#16) ha (by decide) (q ++ ([0#8] ++ suf))
      rw [skipFieldF, List.append_assoc]
      have hsz : (sliceInput cfg).size (fieldHeader ft u.id 0#16 ++ q ++ ([0#8] ++ suf)) + 1 =
          ((sliceInput cfg).size (fieldHeader ft u.id 0#16 ++ q ++ ([0#8] ++ suf)) - 1 + 1) + 1 := by
        simp [sliceInput]; omega
      show skipStructLoop cfg (sliceInput cfg) (fun ft => skipFieldF cfg (sliceInput cfg) m ft false)
        ((sliceInput cfg).size (fieldHeader ft u.id 0#16 ++ q ++ ([0#8] ++ suf)) + 1) 0#16 _ = _
      rw [hsz]
      exact skipStructLoop_field cfg (ne_zero_of_toNat h1) hh (hN m (by omega) _) (skipStructLoop_stop cfg _ _ _ _)
  | elemsNil t => exact ⟨0, fun m _ suf => rfl⟩
  | elemsCons t v vs p q hp hq ihp ihq =>
    obtain ⟨N, ihp⟩ := ihp.1
    obtain ⟨M, ihq⟩ := ihq
    exact ⟨N + M, fun m hm suf => compl_repeat_cons (ihp m (by omega) _) (ihq m (by omega) suf)⟩
  | fieldBool b id last h =>
    intro _
    refine .inr ⟨rfl, h, boolByte b, [], by simp, by cases b <;> decide, by cases b <;> decide, SkipsAs.of_succ fun m suf => ?_⟩
    cases b <;> (rw [skipFieldF]; rfl)
  | fieldNone t id last => exact fun _ => .inl ⟨rfl, rfl⟩
  | fieldSome t v id last p hp ih => exact ih
  | fieldValue t v id last p h1 h2 h hp ih =>
    intro hbx
    have hr := wireType_range env t
    exact .inr ⟨present_of_enc hp h2, h, wireType env t, p, rfl, by omega, by omega, ih.2 (isBoolish_of_not_boxed t hbx h1 h2)⟩
  | fieldsNil last =>
    intro _
    refine ⟨0, fun m _ rl fuel suf _ _ hf => ?_⟩
    obtain ⟨fuel, rfl⟩ : ∃ k, fuel = k + 1 := ⟨fuel - 1, by simp at hf; omega⟩
    exact skipStructLoop_stop cfg _ _ _ _
  | fieldsCons f fs v vs last p q hp hq ihp ihq =>
    intro hbx
    have hbf : boxedBool f.rustTy = false := by
      have := hbx f (by simp)
      unfold Field.rustTy; split
      · exact this
      · exact this
    obtain ⟨M, ihq⟩ := ihq fun g hg => hbx g (by simp [hg])
    rcases ihp hbf with ⟨hpr, rfl⟩ | ⟨hpr, ha, ft, r, rfl, h1, h2, N, hN⟩
    · rw [hpr] at ihq
      exact ⟨M, ihq⟩
    · rw [hpr] at ihq
      refine ⟨N + M, fun m hm rl fuel suf hl0 hl hf => ?_⟩
      have hlen : 0 < (fieldHeader ft f.id last).length := by unfold fieldHeader; split <;> simp
      obtain ⟨fuel, rfl⟩ : ∃ k, fuel = k + 1 := ⟨fuel - 1, by simp at hf; omega⟩
      obtain ⟨rl', hh, hr1, hr2⟩ := readHeader_ascends cfg ft h2 (ne_zero_of_toNat h1) ha ⟨hl0, hl⟩ (r ++ (q ++ 0#8 :: suf))
      rw [List.append_assoc]
      exact skipStructLoop_field cfg (ne_zero_of_toNat h1) hh (hN m (by omega) _)
        (ihq m (by omega) rl' fuel suf hr1 hr2 (by simp at hf ⊢; omega))

end CT
