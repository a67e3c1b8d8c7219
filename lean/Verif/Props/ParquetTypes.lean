import Verif.Spec.ParquetSchema
/-! # C52, C53: types in Parquet schemas -/
namespace CT.Props
open CT Spec Schema Parquet

theorem toNat_of_toInt_pos {w : Nat} {x : BitVec w} (h : 0 ≤ x.toInt) : (x.toNat : Int) = x.toInt := by
  have h1 := BitVec.toInt_eq_toNat_cond x
  have h2 := x.isLt
  split at h1 <;> omega

/-- C52: decimals are accepted exactly with precision 1 to 127 and scale -128 to the precision, and stored unchanged. -/
theorem C52_decimal (precision scale : BitVec 32) (o : DecimalOptions) :
    DecimalOptions.tryNew precision scale = .ok o ↔ DecimalOf precision scale o := by
  unfold DecimalOptions.tryNew DecimalOf
  have e1 : (BitVec.sle precision 0 || BitVec.slt 127 precision) = true ↔ ¬ (1 ≤ precision.toInt ∧ precision.toInt ≤ 127) := by
    simp only [BitVec.sle, BitVec.slt, Bool.or_eq_true, decide_eq_true_eq, show (0 : BitVec 32).toInt = 0 from rfl, show (127 : BitVec 32).toInt = 127 from rfl]
    omega
  have e2 : (BitVec.slt scale (-128) || BitVec.slt precision scale) = true ↔ ¬ (-128 ≤ scale.toInt ∧ scale.toInt ≤ precision.toInt) := by
    simp only [BitVec.slt, Bool.or_eq_true, decide_eq_true_eq, show (-128 : BitVec 32).toInt = -128 from rfl]
    omega
  by_cases h1 : 1 ≤ precision.toInt ∧ precision.toInt ≤ 127
  · by_cases h2 : -128 ≤ scale.toInt ∧ scale.toInt ≤ precision.toInt
    · rw [if_neg (by rw [e1]; omega), if_neg (by rw [e2]; omega)]
      have hp : ((precision.truncate 8).toNat : Int) = precision.toInt := by
        rw [BitVec.truncate_eq_setWidth, BitVec.toNat_setWidth, ← toNat_of_toInt_pos (x := precision) (by omega)]
        have := toNat_of_toInt_pos (x := precision) (by omega)
        omega
      have hs : (scale.truncate 8).toInt = scale.toInt := by
        rw [BitVec.truncate_eq_setWidth, BitVec.toInt_setWidth]
        have h3 := BitVec.toInt_eq_toNat_cond scale
        have h4 := scale.isLt
        rw [Int.bmod_def]
        split at h3 <;> split <;> omega
      constructor
      · intro h
        cases h
        exact ⟨h1.1, h1.2, h2.1, h2.2, hp, hs⟩
      · rintro ⟨_, _, _, _, h5, h6⟩
        obtain ⟨p, s⟩ := o
        congr 2
        · apply BitVec.eq_of_toNat_eq; dsimp only at h5; omega
        · apply BitVec.eq_of_toInt_eq; dsimp only at h6; omega
    · rw [if_neg (by rw [e1]; omega), if_pos (by rw [e2]; omega)]
      constructor
      · intro h; cases h
      · rintro ⟨_, _, _, _, _, _⟩; omega
  · rw [if_pos (by rw [e1]; omega)]
    constructor
    · intro h; cases h
    · rintro ⟨_, _, _, _, _, _⟩; omega

/-- C52: fixed lengths are accepted exactly if positive, and stored unchanged; every other type has no length. -/
theorem C52_physical (t : BitVec 32) (len : Option (BitVec 32)) (p : PhysicalType) : PhysicalType.tryFrom t len = .ok p ↔ PhysicalOf t len p := by
  constructor
  · intro h
    unfold PhysicalType.tryFrom at h
    split at h
    · rename_i ht; subst ht; cases h; exact .boolean _
    split at h
    · rename_i ht; subst ht; cases h; exact .byteArray _
    split at h
    · rename_i ht; subst ht; cases h; exact .int32 _
    split at h
    · rename_i ht; subst ht; cases h; exact .int64 _
    split at h
    · rename_i ht; subst ht; cases h; exact .int96 _
    split at h
    · rename_i ht; subst ht; cases h; exact .float _
    split at h
    · rename_i ht; subst ht; cases h; exact .double _
    split at h
    · rename_i ht; subst ht
      split at h
      · cases h
      · split at h
        · cases h
        · rename_i hl
          cases h
          simp only [BitVec.sle, decide_eq_true_eq, show (0 : BitVec 32).toInt = 0 from rfl] at hl
          exact .fixed _ (by omega) _ (toNat_of_toInt_pos (by omega))
    · cases h
  · intro h
    cases h with
    | fixed l hl n hn =>
      unfold PhysicalType.tryFrom
      have : ¬ (BitVec.sle l 0 = true) := by simp only [BitVec.sle, decide_eq_true_eq, show (0 : BitVec 32).toInt = 0 from rfl]; omega
      rw [if_neg (by decide), if_neg (by decide), if_neg (by decide), if_neg (by decide), if_neg (by decide), if_neg (by decide), if_neg (by decide), if_pos rfl]
      dsimp only
      rw [if_neg this]
      have := toNat_of_toInt_pos (x := l) (by omega)
      rw [show l = n from BitVec.eq_of_toNat_eq (by omega)]
    | _ => rfl

/-- C52: integer widths are accepted exactly if positive as an `i8`, and stored unchanged. -/
theorem C52_integer (w : BitVec 8) (s : Bool) (o : IntegerOptions) :
    IntegerOptions.tryFrom w s = .ok o ↔ 1 ≤ w.toInt ∧ (o.bitwidth.toNat : Int) = w.toInt ∧ o.isSigned = s := by
  unfold IntegerOptions.tryFrom
  have e : BitVec.sle w 0 = true ↔ ¬ 1 ≤ w.toInt := by
    simp only [BitVec.sle, decide_eq_true_eq, show (0 : BitVec 8).toInt = 0 from rfl]; omega
  by_cases h : 1 ≤ w.toInt
  · rw [if_neg (by rw [e]; omega)]
    have hw := toNat_of_toInt_pos (x := w) (by omega)
    constructor
    · intro h'; cases h'; exact ⟨h, hw, rfl⟩
    · rintro ⟨_, h1, h2⟩
      obtain ⟨b, s'⟩ := o
      dsimp only at h1 h2
      subst h2
      rw [show w = b from BitVec.eq_of_toNat_eq (by omega)]
  · rw [if_pos (by rw [e]; omega)]
    constructor
    · intro h'; cases h'
    · rintro ⟨_, _, _⟩; omega

/-- Both ends of the decimal range, a width and a length. -/
example : DecimalOf 127 (-128) ⟨127#8, 128#8⟩ ∧ DecimalOptions.tryNew 127 (-128) = .ok ⟨127#8, 128#8⟩ ∧ PhysicalOf 7 (some 16) (.FIXED_LEN_BYTE_ARRAY 16) :=
  ⟨by unfold DecimalOf; decide, rfl, .fixed _ (by decide) _ (by decide)⟩

theorem leafLogical_iff (l : LogicalType) (a : PrimitiveLogicalType) : PrimitiveLogicalType.ofLogical l = .ok a ↔ LeafLogical l a := by
  constructor
  · intro h
    cases l with
    | DECIMAL s p =>
      cases ho : DecimalOptions.tryNew p s with
      | error e => rw [show PrimitiveLogicalType.ofLogical (.DECIMAL s p) = (DecimalOptions.tryNew p s >>= fun o => pure (.Decimal o)) from rfl, ho] at h; cases h
      | ok o =>
        rw [show PrimitiveLogicalType.ofLogical (.DECIMAL s p) = (DecimalOptions.tryNew p s >>= fun o => pure (.Decimal o)) from rfl, ho] at h
        cases h
        exact .decimal _ _ _ ((C52_decimal _ _ _).1 ho)
    | INTEGER w s =>
      cases ho : IntegerOptions.tryFrom w s with
      | error e => rw [show PrimitiveLogicalType.ofLogical (.INTEGER w s) = (IntegerOptions.tryFrom w s >>= fun o => pure (.Integer o)) from rfl, ho] at h; cases h
      | ok o =>
        rw [show PrimitiveLogicalType.ofLogical (.INTEGER w s) = (IntegerOptions.tryFrom w s >>= fun o => pure (.Integer o)) from rfl, ho] at h
        cases h
        obtain ⟨h1, h2, h3⟩ := (C52_integer _ _ _).1 ho
        obtain ⟨b, s'⟩ := o
        dsimp only at h2 h3
        subst h3
        exact .integer _ _ h1 _ h2
    | _ => cases h <;> constructor
  · intro h
    cases h with
    | decimal p s o h =>
      rw [show PrimitiveLogicalType.ofLogical (.DECIMAL s p) = (DecimalOptions.tryNew p s >>= fun o => pure (.Decimal o)) from rfl, (C52_decimal _ _ _).2 h]; rfl
    | integer w s h w' hw =>
      rw [show PrimitiveLogicalType.ofLogical (.INTEGER w s) = (IntegerOptions.tryFrom w s >>= fun o => pure (.Integer o)) from rfl,
        (C52_integer _ _ ⟨w', s⟩).2 ⟨h, hw, rfl⟩]; rfl
    | _ => rfl

theorem leafConverted_iff (c : BitVec 32) (p s : Option (BitVec 32)) (a : PrimitiveLogicalType) :
    PrimitiveLogicalType.ofConverted c p s = .ok a ↔ LeafConverted c p s a := by
  constructor
  · intro h
    unfold PrimitiveLogicalType.ofConverted at h
    by_cases hc : c = 0
    · subst hc; cases h; constructor
    rw [if_neg hc] at h; clear hc
    by_cases hc : c = 4
    · subst hc; cases h; constructor
    rw [if_neg hc] at h; clear hc
    by_cases hc : c = 6
    · subst hc; cases h; constructor
    rw [if_neg hc] at h; clear hc
    by_cases hc : c = 19
    · subst hc; cases h; constructor
    rw [if_neg hc] at h; clear hc
    by_cases hc : c = 20
    · subst hc; cases h; constructor
    rw [if_neg hc] at h; clear hc
    by_cases hc : c = 5
    · subst hc
      rw [if_pos rfl] at h
      cases p with
      | none => cases h
      | some p =>
      cases s with
      | none => cases h
      | some s =>
        dsimp only at h
        cases ho : DecimalOptions.tryNew p s with
        | error e => rw [ho] at h; cases h
        | ok o => rw [ho] at h; cases h; exact .decimal _ _ _ ((C52_decimal _ _ _).1 ho)
    rw [if_neg hc] at h; clear hc
    by_cases hc : c = 8
    · subst hc; cases h; constructor
    rw [if_neg hc] at h; clear hc
    by_cases hc : c = 7
    · subst hc; cases h; constructor
    rw [if_neg hc] at h; clear hc
    by_cases hc : c = 10
    · subst hc; cases h; constructor
    rw [if_neg hc] at h; clear hc
    by_cases hc : c = 9
    · subst hc; cases h; constructor
    rw [if_neg hc] at h; clear hc
    by_cases hc : c = 21
    · subst hc; cases h; constructor
    rw [if_neg hc] at h; clear hc
    by_cases hc : c = 15
    · subst hc; cases h; constructor
    rw [if_neg hc] at h; clear hc
    by_cases hc : c = 16
    · subst hc; cases h; constructor
    rw [if_neg hc] at h; clear hc
    by_cases hc : c = 17
    · subst hc; cases h; constructor
    rw [if_neg hc] at h; clear hc
    by_cases hc : c = 18
    · subst hc; cases h; constructor
    rw [if_neg hc] at h; clear hc
    by_cases hc : c = 11
    · subst hc; cases h; constructor
    rw [if_neg hc] at h; clear hc
    by_cases hc : c = 12
    · subst hc; cases h; constructor
    rw [if_neg hc] at h; clear hc
    by_cases hc : c = 13
    · subst hc; cases h; constructor
    rw [if_neg hc] at h; clear hc
    by_cases hc : c = 14
    · subst hc; cases h; constructor
    rw [if_neg hc] at h; clear hc
    split at h <;> cases h
  · intro h
    cases h with
    | decimal p s o h =>
      have : PrimitiveLogicalType.ofConverted 5 (some p) (some s) = (DecimalOptions.tryNew p s >>= fun o => pure (.Decimal o)) := rfl
      rw [this, (C52_decimal _ _ _).2 h]; rfl
    | _ => rfl

theorem groupLogical_iff (l : LogicalType) (a : GroupLogicalType) : GroupLogicalType.ofLogical l = .ok a ↔ GroupLogical l a := by
  constructor
  · intro h; cases l <;> cases h <;> constructor
  · intro h; cases h <;> rfl

theorem groupConverted_iff (c : BitVec 32) (a : GroupLogicalType) : GroupLogicalType.ofConverted c = .ok a ↔ GroupConverted c a := by
  constructor
  · intro h
    unfold GroupLogicalType.ofConverted at h
    iterate 3
      split at h
      · rename_i hc; subst hc; cases h; constructor
    cases h
  · intro h; cases h <;> rfl

theorem okOf_eq_some {α : Type} {x : Except PFail α} {a : α} : okOf x = some a ↔ x = .ok a := by
  cases x <;> simp [okOf]

theorem prefer_iff {α : Type} {x y r : Option α} {P Q : α → Prop} (hx : ∀ a, x = some a ↔ P a) (hy : ∀ a, y = some a ↔ Q a) :
    x.or y = r ↔ Prefer P Q r := by
  unfold Prefer
  cases x with
  | some a =>
    have ha := (hx a).1 rfl
    constructor
    · rintro rfl; exact .inl ⟨a, ha, rfl⟩
    · rintro (⟨b, hb, rfl⟩ | ⟨hn, _⟩)
      · exact (hx b).2 hb
      · exact absurd ⟨a, ha⟩ hn
  | none =>
    have hn : ¬ ∃ a, P a := fun ⟨a, ha⟩ => by cases (hx a).2 ha
    cases y with
    | some b =>
      have hb := (hy b).1 rfl
      constructor
      · rintro rfl; exact .inr ⟨hn, .inl ⟨b, hb, rfl⟩⟩
      · rintro (⟨c, hc, rfl⟩ | ⟨_, ⟨c, hc, rfl⟩ | ⟨hn', _⟩⟩)
        · exact absurd ⟨c, hc⟩ hn
        · exact (hy c).2 hc
        · exact absurd ⟨b, hb⟩ hn'
    | none =>
      have hn' : ¬ ∃ a, Q a := fun ⟨a, ha⟩ => by cases (hy a).2 ha
      constructor
      · rintro rfl; exact .inr ⟨hn, .inr ⟨hn', rfl⟩⟩
      · rintro (⟨c, hc, rfl⟩ | ⟨_, ⟨c, hc, rfl⟩ | ⟨_, rfl⟩⟩)
        · exact absurd ⟨c, hc⟩ hn
        · exact absurd ⟨c, hc⟩ hn'
        · rfl

/-- C53: the logical type of a leaf is what `logicalType` means, or else what `converted_type` means, or else absent. -/
theorem C53_leaf (e : Element) (r : Option PrimitiveLogicalType) : leafLogicalType e = r ↔ LeafType e r := by
  have h : leafLogicalType e = (e.logicalType.bind fun l => okOf (PrimitiveLogicalType.ofLogical l)).or
      (e.convertedType.bind fun ct => okOf (PrimitiveLogicalType.ofConverted ct e.precision e.scale)) := by
    unfold leafLogicalType
    dsimp only
    cases e.logicalType.bind fun l => okOf (PrimitiveLogicalType.ofLogical l) <;> rfl
  rw [h]
  refine prefer_iff (fun a => ?_) fun a => ?_
  · cases e.logicalType with
    | none => simp
    | some l => simp [okOf_eq_some, leafLogical_iff]
  · cases e.convertedType with
    | none => simp
    | some c => simp [okOf_eq_some, leafConverted_iff]

/-- C53: the same for groups. -/
theorem C53_group (e : Element) (r : Option GroupLogicalType) : groupLogicalType e = r ↔ GroupType e r := by
  have h : groupLogicalType e = (e.logicalType.bind fun l => okOf (GroupLogicalType.ofLogical l)).or
      (e.convertedType.bind fun ct => okOf (GroupLogicalType.ofConverted ct)) := by
    unfold groupLogicalType
    dsimp only
    cases e.logicalType.bind fun l => okOf (GroupLogicalType.ofLogical l) <;> rfl
  rw [h]
  refine prefer_iff (fun a => ?_) fun a => ?_
  · cases e.logicalType with
    | none => simp
    | some l => simp [okOf_eq_some, groupLogical_iff]
  · cases e.convertedType with
    | none => simp
    | some c => simp [okOf_eq_some, groupConverted_iff]

/-- An invalid decimal annotation falls back to the converted type; a group annotation on a leaf means nothing. -/
example : leafLogicalType ⟨some 1, none, none, [], none, some 17, none, none, none, some (.DECIMAL 5 0)⟩ = some (.Integer ⟨32, true⟩) ∧
    leafLogicalType ⟨some 1, none, none, [], none, some 1, none, none, none, some .LIST⟩ = none := ⟨rfl, rfl⟩

end CT.Props
