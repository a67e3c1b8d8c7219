import Verif.Model.EnumOrder
import Verif.Props.Derived
/-! # C117: order and hash of enums -/
namespace CT.Props
open CT Spec

/-- The integer a zigzag varint stands for. -/
def wireInt (p : Bytes) : Int := if leb p % 2 = 0 then leb p / 2 else -((leb p + 1) / 2 : Nat)

theorem wireInt_varint (n : Int) : wireInt (varint (zigzag n)) = n := by
  unfold wireInt
  rw [leb_varint]
  unfold zigzag
  split <;> split <;> omega

theorem encode_enum {env : List Def} {k : Nat} {a : BitVec 32} {p : Bytes} (hv : HasTy env (.enum a) (.named k)) (h : encode env (.named k) (.enum a) = .ok p) :
    p = varint (zigzag a.toInt) := by
  cases hv with
  | enum _ name _ hk =>
    have := encode_of_enc (ok := anyStep) (.enum k name a hk)
    rw [h] at this
    injection this

theorem enumCmp_eq (a b : BitVec 32) : enumCmp a b = compare a.toInt b.toInt := by
  unfold enumCmp i32Cmp
  rw [BitVec.slt_eq_decide]
  simp only [decide_eq_true_eq, compare, compareOfLessAndEq, BitVec.toInt_inj]

/-- C117: the order of two values of an enum is the order of the integers that are on the wire for them, for all operators; so it is a total order. -/
theorem C117_order {env : List Def} {k : Nat} {a b : BitVec 32} (ha : HasTy env (.enum a) (.named k)) (hb : HasTy env (.enum b) (.named k)) {p q : Bytes}
    (hp : encode env (.named k) (.enum a) = .ok p) (hq : encode env (.named k) (.enum b) = .ok q) :
    (enumCmp a b = .lt ↔ wireInt p < wireInt q) ∧ (enumCmp a b = .gt ↔ wireInt q < wireInt p) ∧ (enumCmp a b = .eq ↔ p = q) ∧
    (enumLt a b = true ↔ wireInt p < wireInt q) ∧ (enumLe a b = true ↔ wireInt p ≤ wireInt q) ∧ (enumGt a b = true ↔ wireInt q < wireInt p) ∧
    (enumGe a b = true ↔ wireInt q ≤ wireInt p) := by
  rw [encode_enum ha hp, encode_enum hb hq, wireInt_varint, wireInt_varint]
  have hinj : varint (zigzag a.toInt) = varint (zigzag b.toInt) ↔ a.toInt = b.toInt :=
    ⟨fun h => by rw [← wireInt_varint a.toInt, h, wireInt_varint], fun h => by rw [h]⟩
  have hc : i32Cmp a b = compare a.toInt b.toInt := enumCmp_eq a b
  rw [enumCmp_eq, hinj]
  unfold enumLt enumLe enumGt enumGe enumPartialCmp
  rw [hc]
  rcases Int.lt_trichotomy a.toInt b.toInt with h | h | h
  · have e : compare a.toInt b.toInt = .lt := by simp [compare, compareOfLessAndEq, h]
    rw [e]
    refine ⟨by simp [h], by simp; omega, by simp; omega, by simp [h], by simp; omega, by simp; omega, by simp; omega⟩
  · have e : compare a.toInt b.toInt = .eq := by rw [h]; simp [compare, compareOfLessAndEq]
    rw [e, h]
    simp
  · have e : compare a.toInt b.toInt = .gt := by
      simp only [compare, compareOfLessAndEq]
      rw [if_neg (by omega), if_neg (by omega)]
    rw [e]
    refine ⟨by simp; omega, by simp [h], by simp; omega, by simp; omega, by simp; omega, by simp [h], by simp; omega⟩

/-- C117: the laws `Ord` asks for: `cmp` is total, antisymmetric and transitive, `partial_cmp` agrees with it, `max` and `min` are the larger and the smaller one. -/
theorem C117_laws :
    (∀ a b, enumCmp b a = (enumCmp a b).swap) ∧ (∀ a b c, enumCmp a b ≠ .gt → enumCmp b c ≠ .gt → enumCmp a c ≠ .gt) ∧
    (∀ a b, enumCmp a b = .eq ↔ a = b) ∧ (∀ a b, enumPartialCmp a b = some (enumCmp a b)) ∧
    (∀ a b, (enumMax a b = a ∨ enumMax a b = b) ∧ a.toInt ≤ (enumMax a b).toInt ∧ b.toInt ≤ (enumMax a b).toInt) ∧
    ∀ a b, (enumMin a b = a ∨ enumMin a b = b) ∧ (enumMin a b).toInt ≤ a.toInt ∧ (enumMin a b).toInt ≤ b.toInt := by
  have hgt : ∀ a b : BitVec 32, enumCmp a b = .gt ↔ b.toInt < a.toInt := by
    intro a b
    rw [enumCmp_eq]
    simp only [compare, compareOfLessAndEq]
    split
    · simp; omega
    · split
      · simp; omega
      · simp; omega
  refine ⟨fun a b => ?_, fun a b c => ?_, fun a b => ?_, fun _ _ => rfl, fun a b => ?_, fun a b => ?_⟩
  · rw [enumCmp_eq, enumCmp_eq]
    simp only [compare, compareOfLessAndEq]
    rcases Int.lt_trichotomy a.toInt b.toInt with h | h | h
    · rw [if_neg (by omega), if_neg (by omega), if_pos h]; rfl
    · rw [h]; simp
    · rw [if_pos h, if_neg (by omega), if_neg (by omega)]; rfl
  · rw [ne_eq, ne_eq, ne_eq, hgt, hgt, hgt]; omega
  · rw [enumCmp_eq, ← BitVec.toInt_inj]
    simp only [compare, compareOfLessAndEq]
    split
    · simp; omega
    · split
      · simp; omega
      · simp; omega
  · unfold enumMax
    by_cases h : enumCmp a b = .gt
    · rw [if_pos h]; rw [hgt] at h; exact ⟨.inl rfl, by omega, by omega⟩
    · rw [if_neg h]; rw [hgt] at h; exact ⟨.inr rfl, by omega, by omega⟩
  · unfold enumMin
    by_cases h : enumCmp a b = .gt
    · rw [if_pos h]; rw [hgt] at h; exact ⟨.inr rfl, by omega, by omega⟩
    · rw [if_neg h]; rw [hgt] at h; exact ⟨.inl rfl, by omega, by omega⟩

theorem neBytes_inj (big : Bool) {a b : BitVec 32} (h : neBytes big a = neBytes big b) : a = b := by
  have key : [a.setWidth 8, (a >>> 8).setWidth 8, (a >>> 16).setWidth 8, (a >>> 24).setWidth 8] =
      ([b.setWidth 8, (b >>> 8).setWidth 8, (b >>> 16).setWidth 8, (b >>> 24).setWidth 8] : Bytes) := by
    cases big with
    | false => exact h
    | true => exact List.reverse_inj.1 h
  simp only [List.cons.injEq, and_true] at key
  obtain ⟨h0, h1, h2, h3⟩ := key
  have conv : ∀ (x : BitVec 32), x.toNat = (x.setWidth 8).toNat + 256 * ((x >>> 8).setWidth 8).toNat + 65536 * ((x >>> 16).setWidth 8).toNat +
      16777216 * ((x >>> 24).setWidth 8).toNat := by
    intro x
    simp only [BitVec.toNat_setWidth, BitVec.toNat_ushiftRight, Nat.shiftRight_eq_div_pow]
    have := x.isLt
    omega
  apply BitVec.eq_of_toNat_eq
  rw [conv a, conv b, h0, h1, h2, h3]

/-- C117: `==`, `cmp`, the bytes fed to a hasher and the bytes written agree on which values are the same; so equal values have equal hashes, whatever the hasher, and different
values feed it different bytes. -/
theorem C117_hash {env : List Def} {k : Nat} {a b : BitVec 32} (ha : HasTy env (.enum a) (.named k)) (hb : HasTy env (.enum b) (.named k)) {p q : Bytes}
    (hp : encode env (.named k) (.enum a) = .ok p) (hq : encode env (.named k) (.enum b) = .ok q) (big : Bool) :
    ((Val.enum a).eqv (.enum b) = true ↔ p = q) ∧ (enumCmp a b = .eq ↔ p = q) ∧
    ((∀ (σ : Type) (H : Hasher σ) (s : σ), enumHash big H a s = enumHash big H b s) ↔ p = q) := by
  have h1 := (C117_order ha hb hp hq).2.2.1
  have h2 := C117_laws.2.2.1 a b
  refine ⟨?_, h1, ?_⟩
  · rw [← h1, h2]; simp [Val.eqv]
  · rw [← h1, h2]
    constructor
    · intro h
      have := h Bytes ⟨fun bs s => s ++ bs⟩ []
      exact neBytes_inj big (by simpa [enumHash] using this)
    · rintro rfl _ _ _; rfl

/-- The order is not that of the bytes, nor of the unsigned numbers: -1 is written as 1 and comes before 0, which is the default. -/
theorem C117_negative : enumCmp 0xFFFFFFFF#32 0#32 = .lt ∧ varint (zigzag (0xFFFFFFFF#32).toInt) = [1#8] ∧ varint (zigzag (0#32).toInt) = [0#8] := by
  refine ⟨by decide, ?_, ?_⟩
  · simp [zigzag, varint]
  · simp [zigzag, varint]

example : HasTy [.enum "E"] (.enum 0xFFFFFFFF#32) (.named 0) ∧ HasTy [.enum "E"] (.enum 3#32) (.named 0) ∧
    (∃ p, encode [.enum "E"] (.named 0) (.enum 0xFFFFFFFF#32) = .ok p) ∧ ∃ p, encode [.enum "E"] (.named 0) (.enum 3#32) = .ok p :=
  ⟨.enum 0 _ _ rfl, .enum 0 _ _ rfl, ⟨_, encode_of_enc (ok := anyStep) (.enum 0 _ _ rfl)⟩, _, encode_of_enc (ok := anyStep) (.enum 0 _ _ rfl)⟩

end CT.Props
