import Verif.Model.Derived
import Verif.Spec.Derived
import Verif.Props.RoundTrip
import Verif.Proofs.Protocol
/-! # C93: `==` and `clone()` of values -/
namespace CT.Props
open CT Spec

theorem isNaN_iff (x : BitVec 64) : IsNaN x ↔ f64Exp x = 2047 ∧ f64Frac x ≠ 0 := by
  unfold IsNaN f64Exp f64Frac
  omega

theorem f64_split (x : BitVec 64) : x.toNat = (if f64Neg x then 2^63 else 0) + f64Exp x * 2^52 + f64Frac x ∧ f64Exp x < 2048 ∧ f64Frac x < 2^52 := by
  unfold f64Exp f64Frac f64Neg
  have h := x.isLt
  refine ⟨?_, Nat.mod_lt _ (by decide), Nat.mod_lt _ (by decide)⟩
  rw [BitVec.msb_eq_decide]
  simp only [decide_eq_true_eq]
  split <;> omega

theorem f64Mag_lt {x y : BitVec 64} (h : f64Exp x * 2^52 + f64Frac x < f64Exp y * 2^52 + f64Frac y) : f64Mag x < f64Mag y := by
  have hx := (f64_split x).2
  have hy := (f64_split y).2
  unfold f64Mag
  rcases Nat.lt_trichotomy (f64Exp x) (f64Exp y) with he | he | he
  · have h0 : f64Exp y ≠ 0 := by omega
    rw [if_neg h0]
    have hb : 2^52 * 2^(f64Exp y - 1) ≤ (2^52 + f64Frac y) * 2^(f64Exp y - 1) := Nat.mul_le_mul_right _ (by omega)
    refine Nat.lt_of_lt_of_le ?_ hb
    split
    · have : 1 ≤ 2^(f64Exp y - 1) := Nat.one_le_two_pow
      have : 2^52 * 1 ≤ 2^52 * 2^(f64Exp y - 1) := Nat.mul_le_mul_left _ this
      omega
    · rename_i h1
      have h2 : (2^52 + f64Frac x) * 2^(f64Exp x - 1) < 2^53 * 2^(f64Exp x - 1) := Nat.mul_lt_mul_of_pos_right (by omega) (Nat.two_pow_pos _)
      have h3 : 2^53 * 2^(f64Exp x - 1) = 2^52 * 2^(f64Exp x) := by
        have : f64Exp x = (f64Exp x - 1) + 1 := by omega
        rw [this, Nat.add_sub_cancel, Nat.pow_succ 2 (f64Exp x - 1)]; omega
      rw [h3] at h2
      exact Nat.lt_of_lt_of_le h2 (Nat.mul_le_mul_left _ (Nat.pow_le_pow_right (by decide) (by omega)))
  · rw [he] at h ⊢
    split
    · omega
    · exact Nat.mul_lt_mul_of_pos_right (by omega) (Nat.two_pow_pos _)
  · exfalso
    have : (f64Exp y + 1) * 2^52 ≤ f64Exp x * 2^52 := Nat.mul_le_mul_right _ he
    omega

theorem f64Mag_inj {x y : BitVec 64} (h : f64Mag x = f64Mag y) : f64Exp x * 2^52 + f64Frac x = f64Exp y * 2^52 + f64Frac y := by
  rcases Nat.lt_trichotomy (f64Exp x * 2^52 + f64Frac x) (f64Exp y * 2^52 + f64Frac y) with h1 | h1 | h1
  · have := f64Mag_lt h1; omega
  · exact h1
  · have := f64Mag_lt h1; omega

theorem f64Mag_zero {x : BitVec 64} (h : f64Mag x = 0) : f64Exp x * 2^52 + f64Frac x = 0 := by
  have := f64Mag_inj (x := x) (y := 0#64) (h.trans (by decide))
  exact this.trans (by decide)

/-- C93: `==` on doubles: neither is NaN, and they have the same bits or are both zero (of either sign). -/
theorem C93_double (x y : BitVec 64) :
    f64Eq x y = true ↔ ¬ IsNaN x ∧ ¬ IsNaN y ∧ (x = y ∨ (x = 0#64 ∨ x = negZero) ∧ (y = 0#64 ∨ y = negZero)) := by
  have hx := f64_split x
  have hy := f64_split y
  have zero : ∀ z : BitVec 64, (z = 0#64 ∨ z = negZero) ↔ f64Exp z * 2^52 + f64Frac z = 0 := by
    intro z
    have hz := f64_split z
    constructor
    · rintro (rfl | rfl) <;> decide
    · intro h
      cases hn : f64Neg z with
      | false =>
        left; apply BitVec.eq_of_toNat_eq
        rw [hn] at hz; simp at hz ⊢; omega
      | true =>
        right; apply BitVec.eq_of_toNat_eq
        rw [hn] at hz; simp [negZero] at hz ⊢; omega
  have num : ∀ z : BitVec 64, ¬ IsNaN z → ∃ a, f64Num z = some a := by
    intro z hz
    rw [isNaN_iff] at hz
    unfold f64Num
    split
    · rw [if_pos (by omega)]; exact ⟨_, rfl⟩
    · exact ⟨_, rfl⟩
  have nan : ∀ {z : BitVec 64} {a}, f64Num z = some a → ¬ IsNaN z := by
    intro z a h hz
    rw [isNaN_iff] at hz
    rw [f64Num, if_pos hz.1, if_neg hz.2] at h
    cases h
  constructor
  · intro h
    unfold f64Eq at h
    split at h
    · rename_i a b ha hb
      have hab : a = b := by simpa using h
      subst hab
      refine ⟨nan ha, nan hb, ?_⟩
      rw [zero, zero]
      unfold f64Num at ha hb
      have bits : f64Neg x = f64Neg y → f64Exp x * 2^52 + f64Frac x = f64Exp y * 2^52 + f64Frac y → x = y := by
        intro h1 h2
        apply BitVec.eq_of_toNat_eq
        rw [hx.1, hy.1, h1]; omega
      split at ha
      · split at ha
        · split at hb
          · split at hb
            · left
              apply bits
              · rw [← ha] at hb; simpa using hb.symm
              · omega
            · cases hb
          · rw [← ha] at hb; simp at hb
        · cases ha
      · split at hb
        · split at hb
          · rw [← ha] at hb; simp at hb
          · cases hb
        · rw [← ha] at hb
          simp only [Option.some.injEq, Num.fin.injEq] at hb
          cases hnx : f64Neg x <;> cases hny : f64Neg y <;> rw [hnx, hny] at hb <;> simp only [Bool.false_eq_true, if_true, if_false] at hb
          · exact .inl (bits (by rw [hnx, hny]) (f64Mag_inj (by omega)))
          · exact .inr ⟨f64Mag_zero (by omega), f64Mag_zero (by omega)⟩
          · exact .inr ⟨f64Mag_zero (by omega), f64Mag_zero (by omega)⟩
          · exact .inl (bits (by rw [hnx, hny]) (f64Mag_inj (by omega)))
    · cases h
  · rintro ⟨h1, h2, rfl | ⟨rfl | rfl, rfl | rfl⟩⟩
    · obtain ⟨a, ha⟩ := num x h1
      unfold f64Eq
      rw [ha]; simp
    all_goals decide

/-- `0.0 == -0.0`, NaN is not equal to itself, 1.0 and 1.5 differ. -/
example : f64Eq 0#64 negZero = true ∧ IsNaN 0x7FF8000000000000#64 ∧ f64Eq 0x7FF8000000000000#64 0x7FF8000000000000#64 = false ∧
    f64Eq 0x3FF0000000000000#64 0x3FF8000000000000#64 = false ∧ f64Eq 0x3FF0000000000000#64 0x3FF0000000000000#64 = true := by decide +kernel

mutual
theorem eqv_iff : ∀ a b : Val, a.eqv b = true ↔ NoNaN a ∧ NoNaN b ∧ normal a = normal b
  | .double x, b => by
    cases b <;> simp [Val.eqv, normal]
    rename_i y
    rw [C93_double]
    simp only [NoNaN, doubles, List.mem_singleton, forall_eq]
    refine and_congr_right fun _ => and_congr_right fun _ => ?_
    have hz : (0#64 : BitVec 64) ≠ negZero := by decide
    constructor
    · rintro (rfl | ⟨rfl | rfl, rfl | rfl⟩) <;> simp
    · intro h
      by_cases hx : x = negZero <;> by_cases hy : y = negZero <;> simp only [hx, hy, if_true, if_false] at h
      · exact .inl (hx.trans hy.symm)
      · exact .inr ⟨.inr hx, .inl h.symm⟩
      · exact .inr ⟨.inl h, .inr hy⟩
      · exact .inl h
  | .list as, b => by
    cases b <;> simp [Val.eqv, normal]
    rename_i bs
    rw [eqvList_iff]; rfl
  | .struct as, b => by
    cases b <;> simp [Val.eqv, normal]
    rename_i bs
    rw [eqvList_iff]; rfl
  | .some a, b => by
    cases b <;> simp [Val.eqv, normal]
    rename_i b
    rw [eqv_iff]; rfl
  | .box a, b => by
    cases b <;> simp [Val.eqv, normal]
    rename_i b
    rw [eqv_iff]; rfl
  | .rc _ a, b => by
    cases b <;> simp [Val.eqv, normal]
    rename_i b
    rw [eqv_iff]; rfl
  | .union i a, b => by
    cases b <;> simp [Val.eqv, normal]
    rename_i j b
    rw [eqv_iff]
    simp only [NoNaN, doubles]
    constructor
    · rintro ⟨h, h1, h2, h3⟩; exact ⟨h1, h2, h, h3⟩
    · rintro ⟨h1, h2, h, h3⟩; exact ⟨h, h1, h2, h3⟩
  | .bool a, b => by cases b <;> simp [Val.eqv, normal, NoNaN, doubles]
  | .i8 a, b => by cases b <;> simp [Val.eqv, normal, NoNaN, doubles]
  | .i16 a, b => by cases b <;> simp [Val.eqv, normal, NoNaN, doubles]
  | .i32 a, b => by cases b <;> simp [Val.eqv, normal, NoNaN, doubles]
  | .i64 a, b => by cases b <;> simp [Val.eqv, normal, NoNaN, doubles]
  | .binary a, b => by cases b <;> simp [Val.eqv, normal, NoNaN, doubles]
  | .string a, b => by cases b <;> simp [Val.eqv, normal, NoNaN, doubles]
  | .encodingSet a, b => by cases b <;> simp [Val.eqv, normal, NoNaN, doubles]
  | .none, b => by cases b <;> simp [Val.eqv, normal, NoNaN, doubles]
  | .enum a, b => by cases b <;> simp [Val.eqv, normal, NoNaN, doubles]
  | .undef, b => by cases b <;> simp [Val.eqv, normal, NoNaN, doubles]
theorem eqvList_iff : ∀ as bs : List Val, Val.eqvList as bs = true ↔
    (∀ x ∈ doublesList as, ¬ IsNaN x) ∧ (∀ x ∈ doublesList bs, ¬ IsNaN x) ∧ normalList as = normalList bs
  | [], bs => by cases bs <;> simp [Val.eqvList, doublesList, normalList]
  | a :: as, bs => by
    cases bs with
    | nil => simp [Val.eqvList, normalList]
    | cons b bs =>
      rw [Val.eqvList, Bool.and_eq_true, eqv_iff a b, eqvList_iff as bs]
      simp only [NoNaN, doublesList, normalList, List.mem_append, List.cons.injEq]
      constructor
      · rintro ⟨⟨h1, h2, h3⟩, h4, h5, h6⟩
        exact ⟨fun x hx => hx.elim (h1 x) (h4 x), fun x hx => hx.elim (h2 x) (h5 x), h3, h6⟩
      · rintro ⟨h1, h2, h3, h4⟩
        exact ⟨⟨fun x hx => h1 x (.inl hx), fun x hx => h2 x (.inl hx), h3⟩, fun x hx => h1 x (.inr hx), fun x hx => h2 x (.inr hx), h4⟩
end

/-- C93: `a == b` iff no double in them is NaN and they are the same up to the sign of zeros and reference counts. -/
theorem C93_meaning (a b : Val) : a.eqv b = true ↔ NoNaN a ∧ NoNaN b ∧ normal a = normal b := eqv_iff a b

/-- C93: `==` is symmetric and transitive, and `a == a` iff no double in `a` is NaN. -/
theorem C93_equivalence :
    (∀ a b : Val, a.eqv b = b.eqv a) ∧ (∀ a b c : Val, a.eqv b = true → b.eqv c = true → a.eqv c = true) ∧
    ∀ a : Val, a.eqv a = true ↔ NoNaN a := by
  refine ⟨fun a b => ?_, fun a b c => ?_, fun a => ?_⟩
  · rw [Bool.eq_iff_iff, eqv_iff, eqv_iff]
    constructor
    · rintro ⟨h1, h2, h3⟩; exact ⟨h2, h1, h3.symm⟩
    · rintro ⟨h1, h2, h3⟩; exact ⟨h2, h1, h3.symm⟩
  · rw [eqv_iff, eqv_iff, eqv_iff]
    rintro ⟨h1, _, h3⟩ ⟨_, h5, h6⟩
    exact ⟨h1, h5, h3.trans h6⟩
  · rw [eqv_iff]
    exact ⟨fun h => h.1, fun h => ⟨h, h, rfl⟩⟩

mutual
theorem doubles_unshare : ∀ v : Val, doubles v.unshare = doubles v
  | .list vs => by simp only [Val.unshare, doubles]; exact doublesList_unshare vs
  | .struct vs => by simp only [Val.unshare, doubles]; exact doublesList_unshare vs
  | .some v => by simp only [Val.unshare, doubles]; exact doubles_unshare v
  | .box v => by simp only [Val.unshare, doubles]; exact doubles_unshare v
  | .rc _ v => by simp only [Val.unshare, doubles]; exact doubles_unshare v
  | .union _ v => by simp only [Val.unshare, doubles]; exact doubles_unshare v
  | .bool _ | .i8 _ | .i16 _ | .i32 _ | .i64 _ | .double _ | .binary _ | .string _ | .encodingSet _ | .none | .enum _ | .undef => rfl
theorem doublesList_unshare : ∀ vs : List Val, doublesList (Val.unshareList vs) = doublesList vs
  | [] => rfl
  | v :: vs => by rw [Val.unshareList, doublesList, doublesList, doubles_unshare, doublesList_unshare]
end

mutual
theorem normal_unshare : ∀ v : Val, normal v.unshare = normal v
  | .list vs => by simp only [Val.unshare, normal, normalList_unshare vs]
  | .struct vs => by simp only [Val.unshare, normal, normalList_unshare vs]
  | .some v => by simp only [Val.unshare, normal, normal_unshare v]
  | .box v => by simp only [Val.unshare, normal, normal_unshare v]
  | .rc _ v => by simp only [Val.unshare, normal, normal_unshare v]
  | .union _ v => by simp only [Val.unshare, normal, normal_unshare v]
  | .bool _ | .i8 _ | .i16 _ | .i32 _ | .i64 _ | .double _ | .binary _ | .string _ | .encodingSet _ | .none | .enum _ | .undef => rfl
theorem normalList_unshare : ∀ vs : List Val, normalList (Val.unshareList vs) = normalList vs
  | [] => rfl
  | v :: vs => by rw [Val.unshareList, normalList, normalList, normal_unshare, normalList_unshare]
end

mutual
theorem unshare_clone : ∀ v : Val, v.clone.unshare = v.unshare
  | .list vs => by simp only [Val.unshare, Val.clone, unshareList_clone vs]
  | .struct vs => by simp only [Val.unshare, Val.clone, unshareList_clone vs]
  | .some v => by simp only [Val.unshare, Val.clone, unshare_clone v]
  | .box v => by simp only [Val.unshare, Val.clone, unshare_clone v]
  | .rc _ v => by simp only [Val.unshare, Val.clone]
  | .union _ v => by simp only [Val.unshare, Val.clone, unshare_clone v]
  | .bool _ | .i8 _ | .i16 _ | .i32 _ | .i64 _ | .double _ | .binary _ | .string _ | .encodingSet _ | .none | .enum _ | .undef => rfl
theorem unshareList_clone : ∀ vs : List Val, Val.unshareList (Val.cloneList vs) = Val.unshareList vs
  | [] => rfl
  | v :: vs => by rw [Val.cloneList, Val.unshareList, Val.unshareList, unshare_clone, unshareList_clone]
end

mutual
/-- Without `-0.0` only reference counts are forgotten. -/
theorem normal_eq_unshare : ∀ v : Val, negZero ∉ doubles v → normal v = v.unshare
  | .double x => fun h => by
    rw [normal, if_neg (by simpa [doubles, eq_comm] using h)]; rfl
  | .list vs => fun h => by rw [normal, Val.unshare, normalList_eq_unshare vs h]
  | .struct vs => fun h => by rw [normal, Val.unshare, normalList_eq_unshare vs h]
  | .some v => fun h => by rw [normal, Val.unshare, normal_eq_unshare v h]
  | .box v => fun h => by rw [normal, Val.unshare, normal_eq_unshare v h]
  | .rc _ v => fun h => by rw [normal, Val.unshare, normal_eq_unshare v h]
  | .union _ v => fun h => by rw [normal, Val.unshare, normal_eq_unshare v h]
  | .bool _ | .i8 _ | .i16 _ | .i32 _ | .i64 _ | .binary _ | .string _ | .encodingSet _ | .none | .enum _ | .undef => fun _ => rfl
theorem normalList_eq_unshare : ∀ vs : List Val, negZero ∉ doublesList vs → normalList vs = Val.unshareList vs
  | [] => fun _ => rfl
  | v :: vs => fun h => by
    rw [doublesList, List.mem_append, not_or] at h
    rw [normalList, Val.unshareList, normal_eq_unshare v h.1, normalList_eq_unshare vs h.2]
end

theorem eqv_unshare (v : Val) : v.eqv v.unshare = true ↔ NoNaN v := by
  rw [eqv_iff, normal_unshare]
  unfold NoNaN
  rw [doubles_unshare]
  exact ⟨fun h => h.1, fun h => ⟨h, h, rfl⟩⟩

/-- The item without reference counts. -/
def unshareItem : EItem → EItem
  | .value t v => .value t v.unshare
  | .field t v id last => .field t v.unshare id last
  | .elems t vs => .elems t (Val.unshareList vs)
  | .fields fs vs last => .fields fs (Val.unshareList vs) last

theorem present_unshare : ∀ v : Val, present v.unshare = present v
  | .some v => by simp only [Val.unshare, present, present_unshare v]
  | .list vs => rfl
  | .struct vs => rfl
  | .box v => rfl
  | .rc _ v => rfl
  | .union _ v => rfl
  | .bool _ | .i8 _ | .i16 _ | .i32 _ | .i64 _ | .double _ | .binary _ | .string _ | .encodingSet _ | .none | .enum _ | .undef => rfl

theorem enc_unshare {env : List Def} {ok : BitVec 16 → BitVec 16 → Prop} {i : EItem} {p : Bytes} (h : Enc env ok i p) : Enc env ok (unshareItem i) p := by
  induction h with
  | list t vs p h hp ih =>
    have hl : (Val.unshareList vs).length = vs.length := by rw [unshareList_map]; simp
    have := Enc.list t (Val.unshareList vs) p (by rw [hl]; exact h) ih
    rw [hl] at this
    exact this
  | some t v p hp ih => exact .some _ _ _ ih
  | box t v p hp ih => exact .box _ _ _ ih
  | rc t b v p hp ih => exact .rc _ _ _ _ ih
  | struct k name fs vs p hk hp ih => exact .struct k name fs _ p hk ih
  | union k name us i u v p hk hu hp ih => exact .union k name us i u _ p hk hu ih
  | elemsCons t v vs p q hp hq ih1 ih2 => exact .elemsCons t _ _ p q ih1 ih2
  | fieldSome t v id last p hp ih => exact .fieldSome _ _ _ _ _ ih
  | fieldValue t v id last p h1 h2 h hp ih => exact .fieldValue t _ id last p h1 h2 h ih
  | fieldsCons f fs v vs last p q hp hq ih1 ih2 =>
    refine .fieldsCons f fs _ _ last p q ih1 ?_
    rw [present_unshare]; exact ih2
  | bool b => exact .bool b
  | i8 x => exact .i8 x
  | i16 x => exact .i16 x
  | i32 x => exact .i32 x
  | i64 x => exact .i64 x
  | double x => exact .double x
  | binary bs h => exact .binary bs h
  | string bs h => exact .string bs h
  | encodingSet m => exact .encodingSet m
  | enum k name x hk => exact .enum k name x hk
  | elemsNil t => exact .elemsNil t
  | fieldBool b id last h => exact .fieldBool b id last h
  | fieldNone t id last => exact .fieldNone t id last
  | fieldsNil last => exact .fieldsNil last

theorem cloneList_map (vs : List Val) : Val.cloneList vs = vs.map Val.clone := by
  induction vs with
  | nil => rfl
  | cons v vs ih => rw [Val.cloneList, ih]; rfl

/-- The item cloned. -/
def cloneItem : EItem → EItem
  | .value t v => .value t v.clone
  | .field t v id last => .field t v.clone id last
  | .elems t vs => .elems t (Val.cloneList vs)
  | .fields fs vs last => .fields fs (Val.cloneList vs) last

theorem present_clone : ∀ v : Val, present v.clone = present v
  | .some v => by simp only [Val.clone, present, present_clone v]
  | .list vs => rfl
  | .struct vs => rfl
  | .box v => rfl
  | .rc _ v => rfl
  | .union _ v => rfl
  | .bool _ | .i8 _ | .i16 _ | .i32 _ | .i64 _ | .double _ | .binary _ | .string _ | .encodingSet _ | .none | .enum _ | .undef => rfl

theorem enc_clone {env : List Def} {ok : BitVec 16 → BitVec 16 → Prop} {i : EItem} {p : Bytes} (h : Enc env ok i p) : Enc env ok (cloneItem i) p := by
  induction h with
  | list t vs p h hp ih =>
    have hl : (Val.cloneList vs).length = vs.length := by rw [cloneList_map]; simp
    have := Enc.list t (Val.cloneList vs) p (by rw [hl]; exact h) ih
    rw [hl] at this
    exact this
  | some t v p hp ih => exact .some _ _ _ ih
  | box t v p hp ih => exact .box _ _ _ ih
  | rc t b v p hp ih => exact .rc _ _ _ _ hp
  | struct k name fs vs p hk hp ih => exact .struct k name fs _ p hk ih
  | union k name us i u v p hk hu hp ih => exact .union k name us i u _ p hk hu ih
  | elemsCons t v vs p q hp hq ih1 ih2 => exact .elemsCons t _ _ p q ih1 ih2
  | fieldSome t v id last p hp ih => exact .fieldSome _ _ _ _ _ ih
  | fieldValue t v id last p h1 h2 h hp ih => exact .fieldValue t _ id last p h1 h2 h ih
  | fieldsCons f fs v vs last p q hp hq ih1 ih2 =>
    refine .fieldsCons f fs _ _ last p q ih1 ?_
    rw [present_clone]; exact ih2
  | bool b => exact .bool b
  | i8 x => exact .i8 x
  | i16 x => exact .i16 x
  | i32 x => exact .i32 x
  | i64 x => exact .i64 x
  | double x => exact .double x
  | binary bs h => exact .binary bs h
  | string bs h => exact .string bs h
  | encodingSet m => exact .encodingSet m
  | enum k name x hk => exact .enum k name x hk
  | elemsNil t => exact .elemsNil t
  | fieldBool b id last h => exact .fieldBool b id last h
  | fieldNone t id last => exact .fieldNone t id last
  | fieldsNil last => exact .fieldsNil last

theorem hasTy_clone {env : List Def} {v : Val} {t : Ty} (h : HasTy env v t) : HasTy env v.clone t := by
  induction h with
  | list t vs h ih =>
    rw [Val.clone, cloneList_map]
    refine .list _ _ fun w hw => ?_
    obtain ⟨v, hv, rfl⟩ := List.mem_map.1 hw
    exact ih v hv
  | some t v h ih => exact .some _ _ ih
  | box t v h ih => exact .box _ _ ih
  | rc t b v h ih => exact .rc _ _ _ h
  | struct k name fs vs hk hl h ih =>
    rw [Val.clone, cloneList_map]
    refine .struct k name fs _ hk (by simpa using hl) fun i f w hf hw => ?_
    rw [List.getElem?_map] at hw
    obtain ⟨v, hv, rfl⟩ := Option.map_eq_some_iff.1 hw
    exact ih i f v hf hv
  | union k name us i u v hk hu h ih => exact .union k name us i u _ hk hu ih
  | bool b => exact .bool b
  | i8 x => exact .i8 x
  | i16 x => exact .i16 x
  | i32 x => exact .i32 x
  | i64 x => exact .i64 x
  | double x => exact .double x
  | binary bs => exact .binary bs
  | string bs h => exact .string bs h
  | encodingSet m h => exact .encodingSet m h
  | none t => exact .none t
  | enum k name x hk => exact .enum k name x hk

theorem encode_unshare {env : List Def} {t : Ty} {v : Val} (hv : HasTy env v t) {p : Bytes} (h : encode env t v = .ok p) : encode env t v.unshare = .ok p :=
  encode_of_enc (enc_unshare (enc_of_encode hv h))

/-- C93: a clone is written as the same bytes as the original, and is equal to it iff no double in it is NaN. -/
theorem C93_clone {env : List Def} {t : Ty} {v : Val} (hv : HasTy env v t) :
    HasTy env v.clone t ∧ (∀ p, encode env t v = .ok p → encode env t v.clone = .ok p) ∧ (v.eqv v.clone = true ↔ NoNaN v) := by
  have hc := hasTy_clone hv
  refine ⟨hc, fun p hp => ?_, ?_⟩
  · exact encode_of_enc (enc_clone (enc_of_encode hv hp))
  · have h1 := eqv_iff v v.clone
    rw [← normal_unshare v.clone, unshare_clone, normal_unshare] at h1
    rw [h1]
    unfold NoNaN
    rw [← doubles_unshare v.clone, unshare_clone, doubles_unshare]
    exact ⟨fun h => h.1, fun h => ⟨h, h, rfl⟩⟩

/-- C93: what comes back from writing and reading is equal (`==`) to what was written iff no double in it is NaN. -/
theorem C93_round_trip {cfg : Cfg} (ha : AllocOk cfg) {env : List Def} (hs : schemaOk env = true) (hst : stepsOk cfg.overflowChecks env = true) {t : Ty} {v : Val}
    (hv : HasTy env v t) {bytes : Bytes} (he : encode env t v = .ok bytes) (suf : Bytes) :
    ∃ w, Reads cfg (fun I => readThrift cfg I env t) bytes suf w ∧ (v.eqv w = true ↔ NoNaN v) :=
  ⟨_, C22_round_trip ha hs hst hv he suf, eqv_unshare v⟩

/-- C93: for values without NaN and without `-0.0`, `==` is equality of the bytes written. -/
theorem C93_bytes {env : List Def} (hs : schemaOk env = true) (hst : stepsOk false env = true) {t : Ty} {v w : Val} (hv : HasTy env v t) (hw : HasTy env w t)
    (hn : ∀ x ∈ doubles v ++ doubles w, ¬ IsNaN x ∧ x ≠ negZero) {p q : Bytes} (hp : encode env t v = .ok p) (hq : encode env t w = .ok q) :
    v.eqv w = true ↔ p = q := by
  have h1 : NoNaN v := fun x hx => (hn x (List.mem_append_left _ hx)).1
  have h2 : NoNaN w := fun x hx => (hn x (List.mem_append_right _ hx)).1
  rw [eqv_iff, normal_eq_unshare v fun h => (hn _ (List.mem_append_left _ h)).2 rfl, normal_eq_unshare w fun h => (hn _ (List.mem_append_right _ h)).2 rfl]
  constructor
  · rintro ⟨_, _, h⟩
    have h3 := encode_unshare hv hp
    rw [h, encode_unshare hw hq] at h3
    cases h3; rfl
  · rintro rfl
    exact ⟨h1, h2, C25_injective hs hst hv hw hp hq⟩

/-- A bounding box of parquet.thrift with NaN bounds. -/
def nanBox : Val := .struct [.double 0x7FF8000000000000#64, .double 0#64, .double 0#64, .double 0#64, .none, .none, .none, .none]

theorem nanBox_typed : HasTy Format.parquetEnv nanBox (.named 9) := by
  refine .struct 9 _ _ _ rfl rfl fun i f v hf hv => ?_
  match i with
  | 0 | 1 | 2 | 3 => simp at hf hv; subst hf hv; exact .double _
  | 4 | 5 | 6 | 7 => simp at hf hv; subst hf hv; exact .none _
  | i + 8 => simp at hf

/-- C93, violation of the expected: a value of the parquet format that does not come back equal to itself in any build, from any input. -/
theorem C93_counterexample_nan {cfg : Cfg} (ha : AllocOk cfg) (suf : Bytes) : ∃ bytes w,
    HasTy Format.parquetEnv nanBox (.named 9) ∧ encode Format.parquetEnv (.named 9) nanBox = .ok bytes ∧
    Reads cfg (fun I => readThrift cfg I Format.parquetEnv (.named 9)) bytes suf w ∧ nanBox.eqv w = false ∧ nanBox.eqv nanBox = false := by
  have hnan : ¬ NoNaN nanBox := fun h => h 0x7FF8000000000000#64 (by simp [nanBox, doubles, doublesList]) (by decide)
  have he : encode Format.parquetEnv (.named 9) nanBox = .ok _ := encode_of_enc (ok := anyStep) (.struct 9 _ _ _ _ rfl
    (.fieldsCons _ _ _ _ _ _ _ (.fieldValue .double _ _ _ _ (by simp) (by simp) trivial (.double _))
    (.fieldsCons _ _ _ _ _ _ _ (.fieldValue .double _ _ _ _ (by simp) (by simp) trivial (.double _))
    (.fieldsCons _ _ _ _ _ _ _ (.fieldValue .double _ _ _ _ (by simp) (by simp) trivial (.double _))
    (.fieldsCons _ _ _ _ _ _ _ (.fieldValue .double _ _ _ _ (by simp) (by simp) trivial (.double _))
    (.fieldsCons _ _ _ _ _ _ _ (.fieldNone .double _ _)
    (.fieldsCons _ _ _ _ _ _ _ (.fieldNone .double _ _)
    (.fieldsCons _ _ _ _ _ _ _ (.fieldNone .double _ _)
    (.fieldsCons _ _ _ _ _ _ _ (.fieldNone .double _ _) (.fieldsNil _))))))))))
  obtain ⟨w, h1, h2⟩ := C93_round_trip ha (env := Format.parquetEnv) (by decide) (by cases cfg.overflowChecks <;> decide) nanBox_typed he suf
  refine ⟨_, w, nanBox_typed, he, h1, ?_, ?_⟩
  · rw [Bool.eq_false_iff]; exact fun h => hnan (h2.1 h)
  · rw [Bool.eq_false_iff]; exact fun h => hnan ((C93_equivalence.2.2 _).1 h)

/-- `-0.0` and `0.0` are equal and written differently: the condition of `C93_bytes` is needed. -/
theorem C93_counterexample_zero (env : List Def) :
    (Val.double negZero).eqv (.double 0#64) = true ∧ encode env .double (.double negZero) ≠ encode env .double (.double 0#64) := by
  refine ⟨by decide, ?_⟩
  rw [encode_of_enc (ok := anyStep) (.double negZero), encode_of_enc (ok := anyStep) (.double 0#64)]
  intro h
  have h1 : le64 negZero = le64 0#64 := by simpa using h
  revert h1; decide

/-- `struct Shared { 1: required Rc<String> s }`. -/
def sharedEnv : List Def := [.struct "Shared" [⟨1#16, true, "s", .rc .string⟩]]

/-- C93: cloning changes what the original can do: a value holding an `Rc` is filled again from its own encoding, but not once a clone of it exists. -/
theorem C93_counterexample_refill (ov sse : Bool) :
    let cfg : Cfg := ⟨ov, sse, fun _ => true⟩
    let v : Val := .struct [.rc false (.string [0x61#8])]
    HasTy sharedEnv v (.named 0) ∧ v.eqv v.clone = true ∧
    fillThrift cfg (sliceInput cfg) sharedEnv (.named 0) v [0x18#8, 0x01#8, 0x61#8, 0x00#8] = .ok (v, []) ∧
    fillThrift cfg (sliceInput cfg) sharedEnv (.named 0) v.clone [0x18#8, 0x01#8, 0x61#8, 0x00#8] = .error (.err .duplicateField) := by
  refine ⟨.struct 0 _ _ _ rfl rfl fun i f v hf hv => ?_, by decide, by cases ov <;> cases sse <;> rfl, by cases ov <;> cases sse <;> rfl⟩
  match i with
  | 0 => simp at hf hv; subst hf hv; exact .rc _ _ _ (.string _ rfl)
  | i + 1 => simp at hf

/-- Values meeting the conditions of `C93_bytes`. -/
example : schemaOk Format.parquetEnv = true ∧ stepsOk false Format.parquetEnv = true ∧
    (∀ x ∈ doubles (.double 0x3FF0000000000000#64) ++ doubles (.double 0#64), ¬ IsNaN x ∧ x ≠ negZero) := by
  refine ⟨by decide, by decide, fun x hx => ?_⟩
  simp only [doubles, List.mem_append, List.mem_singleton] at hx
  rcases hx with rfl | rfl <;> decide

end CT.Props
