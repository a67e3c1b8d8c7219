import Verif.Props.Parquet
/-! # C43-C45: page indexes -/
namespace CT.Parquet
open Spec

/-! ## Lemmas: the columns of typed metadata -/

theorem optI64_iff {w : Val} {o : Option (BitVec 64)} : optI64 w = some o ↔ w = ofOptI64 o := by
  constructor
  · intro h
    unfold optI64 at h
    split at h
    · cases h; rfl
    · cases h; rfl
    · cases h
  · rintro rfl
    cases o <;> rfl

theorem optI32_iff {w : Val} {o : Option (BitVec 32)} : optI32 w = some o ↔ w = ofOptI32 o := by
  constructor
  · intro h
    unfold optI32 at h
    split at h
    · cases h; rfl
    · cases h; rfl
    · cases h
  · rintro rfl
    cases o <;> rfl

theorem items_iff {w : Val} {vs : List Val} : items w = some vs ↔ w = .list vs := by
  constructor
  · intro h
    unfold items at h
    split at h
    · cases h; rfl
    · cases h
  · rintro rfl; rfl

theorem indexFields_iff {c : Val} {r : IndexFields} : indexFields c = some r ↔
    getField Format.dColumnChunk "offset_index_offset" c = some (ofOptI64 r.offsetOffset) ∧
    getField Format.dColumnChunk "offset_index_length" c = some (ofOptI32 r.offsetLength) ∧
    getField Format.dColumnChunk "column_index_offset" c = some (ofOptI64 r.columnOffset) ∧
    getField Format.dColumnChunk "column_index_length" c = some (ofOptI32 r.columnLength) := by
  obtain ⟨oo, ol, co, cl⟩ := r
  simp only [indexFields, Option.bind_eq_bind, Option.bind_eq_some_iff, optI64_iff, optI32_iff, Option.pure_def, Option.some.injEq, IndexFields.mk.injEq]
  constructor
  · rintro ⟨oo', ⟨w1, h1, rfl⟩, ol', ⟨w2, h2, rfl⟩, co', ⟨w3, h3, rfl⟩, cl', ⟨w4, h4, rfl⟩, rfl, rfl, rfl, rfl⟩
    exact ⟨h1, h2, h3, h4⟩
  · rintro ⟨h1, h2, h3, h4⟩
    exact ⟨_, ⟨_, h1, rfl⟩, _, ⟨_, h2, rfl⟩, _, ⟨_, h3, rfl⟩, _, ⟨_, h4, rfl⟩, rfl, rfl, rfl, rfl⟩

theorem mapM_some_mem {α β : Type} {f : α → Option β} : ∀ {l : List α} {ys : List β}, l.mapM f = some ys →
    ∀ y, y ∈ ys ↔ ∃ x ∈ l, f x = some y
  | [], ys, h, y => by
    simp at h; subst h; simp
  | a :: l, ys, h, y => by
    rw [List.mapM_cons] at h
    simp only [Option.bind_eq_bind, Option.bind_eq_some_iff, Option.pure_def, Option.some.injEq] at h
    obtain ⟨b, hb, bs, hbs, rfl⟩ := h
    have := mapM_some_mem hbs y
    simp only [List.mem_cons, this]
    constructor
    · rintro (rfl | ⟨x, hx, hf⟩)
      · exact ⟨a, .inl rfl, hb⟩
      · exact ⟨x, .inr hx, hf⟩
    · rintro ⟨x, rfl | hx, hf⟩
      · rw [hb] at hf; cases hf; exact .inl rfl
      · exact .inr ⟨x, hx, hf⟩

theorem mapM_some_exists {α β : Type} {f : α → Option β} : ∀ {l : List α}, (∀ x ∈ l, ∃ y, f x = some y) → ∃ ys, l.mapM f = some ys
  | [], _ => ⟨[], by simp⟩
  | a :: l, h => by
    obtain ⟨b, hb⟩ := h a (by simp)
    obtain ⟨bs, hbs⟩ := mapM_some_exists (f := f) (l := l) fun x hx => h x (by simp [hx])
    exact ⟨b :: bs, by rw [List.mapM_cons]; simp [hb, hbs]⟩

theorem isColumn_iff {md : Val} {rgs : List (List IndexFields)} (h : metadataFields md = some rgs) (c : IndexFields) :
    IsColumn md c ↔ c ∈ rgs.flatten := by
  unfold metadataFields at h
  simp only [Option.bind_eq_bind, Option.bind_eq_some_iff, items_iff] at h
  obtain ⟨l, ⟨w, hw, rfl⟩, hm⟩ := h
  rw [List.mem_flatten]
  constructor
  · rintro ⟨rgs', rg, cols, cv, h1, h2, h3, h4, h5⟩
    rw [hw] at h1; cases h1
    obtain ⟨cs, hcs⟩ : ∃ cs, rowGroupFields rg = some cs := by
      cases hr : rowGroupFields rg with
      | some cs => exact ⟨cs, rfl⟩
      | none =>
        exfalso
        have : ∀ (l : List Val), rg ∈ l → l.mapM rowGroupFields ≠ some rgs := by
          intro l hl he
          obtain ⟨ys, h⟩ : ∃ ys, l.mapM rowGroupFields = some ys := ⟨_, he⟩
          clear he hm
          induction l generalizing ys with
          | nil => simp at hl
          | cons a l ih =>
            rw [List.mapM_cons] at h
            simp only [Option.bind_eq_bind, Option.bind_eq_some_iff, Option.pure_def, Option.some.injEq] at h
            obtain ⟨b, hb, bs, hbs, _⟩ := h
            rcases List.mem_cons.1 hl with rfl | hl
            · rw [hr] at hb; cases hb
            · exact ih hl bs hbs
        exact this _ h2 hm
    refine ⟨cs, (mapM_some_mem hm cs).2 ⟨rg, h2, hcs⟩, ?_⟩
    unfold rowGroupFields at hcs
    simp only [Option.bind_eq_bind, Option.bind_eq_some_iff, items_iff] at hcs
    obtain ⟨l', ⟨w', hw', rfl⟩, hm'⟩ := hcs
    rw [h3] at hw'; cases hw'
    exact (mapM_some_mem hm' c).2 ⟨cv, h4, indexFields_iff.2 h5⟩
  · rintro ⟨cs, hcs, hc⟩
    obtain ⟨rg, hrg, hf⟩ := (mapM_some_mem hm cs).1 hcs
    unfold rowGroupFields at hf
    simp only [Option.bind_eq_bind, Option.bind_eq_some_iff, items_iff] at hf
    obtain ⟨l', ⟨w', hw', rfl⟩, hm'⟩ := hf
    obtain ⟨cv, hcv, hi⟩ := (mapM_some_mem hm' c).1 hc
    exact ⟨l, rg, l', cv, hw, hrg, hw', hcv, indexFields_iff.1 hi⟩

theorem getField_typed {env : List Def} {d : Def} {name fname : String} {k i : Nat} {fs : List Field} {f : Field} {v : Val}
    (hk : env[k]? = some (.struct name fs)) (hp : fieldPos d fname = some i) (hf : fs[i]? = some f) (hv : HasTy env v (.named k)) :
    ∃ w, getField d fname v = some w ∧ HasTy env w f.rustTy := by
  cases hv with
  | enum _ _ _ hk' => rw [hk] at hk'; cases hk'
  | union _ _ _ _ _ _ hk' => rw [hk] at hk'; cases hk'
  | struct _ _ fs' vs hk' hl h =>
    rw [hk] at hk'; obtain ⟨rfl, rfl⟩ : _ ∧ _ := by simpa using hk'
    have hil := (List.getElem?_eq_some_iff.1 hf).1
    have hiv : vs[i]? = some (vs[i]'(by omega)) := List.getElem?_eq_getElem _
    exact ⟨_, by simp only [getField, hp, hiv], h i f _ hf hiv⟩

theorem typed_optI64 {env : List Def} {w : Val} (h : HasTy env w (.option .i64)) : ∃ o, w = ofOptI64 o := by
  cases h with
  | none => exact ⟨none, rfl⟩
  | some _ _ h => cases h with | i64 x => exact ⟨some x, rfl⟩

theorem typed_optI32 {env : List Def} {w : Val} (h : HasTy env w (.option .i32)) : ∃ o, w = ofOptI32 o := by
  cases h with
  | none => exact ⟨none, rfl⟩
  | some _ _ h => cases h with | i32 x => exact ⟨some x, rfl⟩

/-- The model never gets stuck on metadata of the right type. -/
theorem metadataFields_typed {md : Val} (h : HasTy Format.parquetEnv md Format.tFileMetaData) : ∃ rgs, metadataFields md = some rgs := by
  obtain ⟨w, hw, ht⟩ := getField_typed (d := Format.dFileMetaData) (fname := "row_groups") (i := 3) (f := ⟨4, true, "row_groups", .list Format.tRowGroup⟩)
    (show Format.parquetEnv[64]? = some (.struct _ _) from rfl) rfl rfl h
  change HasTy _ w (.list Format.tRowGroup) at ht
  cases ht with
  | list _ rgs hr =>
  unfold metadataFields
  rw [hw]
  refine mapM_some_exists fun rg hrg => ?_
  obtain ⟨w, hw, ht⟩ := getField_typed (d := Format.dRowGroup) (fname := "columns") (i := 0) (f := ⟨1, true, "columns", .list Format.tColumnChunk⟩)
    (show Format.parquetEnv[55]? = some (.struct _ _) from rfl) rfl rfl (hr rg hrg)
  change HasTy _ w (.list Format.tColumnChunk) at ht
  cases ht with
  | list _ cols hc =>
  unfold rowGroupFields
  rw [hw]
  refine mapM_some_exists fun c hcm => ?_
  have hk : Format.parquetEnv[54]? = some (.struct "ColumnChunk" _) := rfl
  obtain ⟨w1, h1, t1⟩ := getField_typed (d := Format.dColumnChunk) (fname := "offset_index_offset") (i := 3) (f := ⟨4, false, "offset_index_offset", .i64⟩) hk rfl rfl (hc c hcm)
  obtain ⟨w2, h2, t2⟩ := getField_typed (d := Format.dColumnChunk) (fname := "offset_index_length") (i := 4) (f := ⟨5, false, "offset_index_length", .i32⟩) hk rfl rfl (hc c hcm)
  obtain ⟨w3, h3, t3⟩ := getField_typed (d := Format.dColumnChunk) (fname := "column_index_offset") (i := 5) (f := ⟨6, false, "column_index_offset", .i64⟩) hk rfl rfl (hc c hcm)
  obtain ⟨w4, h4, t4⟩ := getField_typed (d := Format.dColumnChunk) (fname := "column_index_length") (i := 6) (f := ⟨7, false, "column_index_length", .i32⟩) hk rfl rfl (hc c hcm)
  obtain ⟨o1, rfl⟩ := typed_optI64 t1
  obtain ⟨o2, rfl⟩ := typed_optI32 t2
  obtain ⟨o3, rfl⟩ := typed_optI64 t3
  obtain ⟨o4, rfl⟩ := typed_optI32 t4
  exact ⟨⟨o1, o2, o3, o4⟩, indexFields_iff.2 ⟨h1, h2, h3, h4⟩⟩

/-! ## The range -/

theorem asUsize64_nonneg {x : BitVec 64} (h : ¬ x.toInt < 0) : (asUsize64 x : Int) = x.toInt ∧ asUsize64 x < 2 ^ 63 := by
  have := BitVec.toInt_eq_toNat_cond x
  unfold asUsize64
  split at this <;> omega

theorem asUsize32_nonneg {x : BitVec 32} (h : ¬ x.toInt < 0) : (asUsize32 x : Int) = x.toInt ∧ asUsize32 x < 2 ^ 31 := by
  have h1 := BitVec.toInt_eq_toNat_cond x
  have h2 : (x.signExtend 64).toInt = x.toInt := BitVec.toInt_signExtend_of_le (by omega)
  have h3 := BitVec.toInt_eq_toNat_cond (x.signExtend 64)
  have h4 := x.isLt
  unfold asUsize32
  split at h1 <;> split at h3 <;> omega

theorem addUsize_small (cfg : Cfg) {a b : Nat} (h : a + b < 2 ^ 64) : addUsize cfg a b = .ok (a + b) := by
  unfold addUsize
  rw [decide_eq_false (by omega), Bool.and_false, if_neg (by simp), Nat.mod_eq_of_lt h]

/-- A column with all four numbers, one of them negative. -/
def Neg (c : IndexFields) : Prop := ∃ oo ol co cl, c = ⟨some oo, some ol, some co, some cl⟩ ∧ (oo.toInt < 0 ∨ ol.toInt < 0 ∨ co.toInt < 0 ∨ cl.toInt < 0)

/-- `a..b` is one of the two ranges of a column with all four numbers. -/
def RangeOf (c : IndexFields) (a b : Int) : Prop := ∃ oo ol co cl, c = ⟨some oo, some ol, some co, some cl⟩ ∧
  ((a = oo.toInt ∧ b = oo.toInt + ol.toInt) ∨ (a = co.toInt ∧ b = co.toInt + cl.toInt))

theorem rangeLoop_spec (cfg : Cfg) : ∀ (cs : List IndexFields) (lo hi : Nat),
    ((∃ c ∈ cs, Neg c) ∧ rangeLoop cfg cs (lo, hi) = .error (.err .invalidOffset)) ∨
    ((∀ c ∈ cs, ¬ Neg c) ∧ ∃ lo' hi', rangeLoop cfg cs (lo, hi) = .ok (lo', hi') ∧
      lo' ≤ lo ∧ hi ≤ hi' ∧ (∀ c ∈ cs, ∀ a b, RangeOf c a b → (lo' : Int) ≤ a ∧ b ≤ hi') ∧
      (lo' = lo ∨ ∃ c ∈ cs, ∃ b, RangeOf c lo' b) ∧ (hi' = hi ∨ ∃ c ∈ cs, ∃ a, RangeOf c a hi'))
  | [], lo, hi => .inr ⟨by simp, lo, hi, rfl, Nat.le_refl _, Nat.le_refl _, by simp, .inl rfl, .inl rfl⟩
  | c :: cs, lo, hi => by
    by_cases hc : ∃ oo ol co cl, c = ⟨some oo, some ol, some co, some cl⟩
    · obtain ⟨oo, ol, co, cl, rfl⟩ := hc
      by_cases hn : oo.toInt < 0 ∨ ol.toInt < 0 ∨ co.toInt < 0 ∨ cl.toInt < 0
      · refine .inl ⟨⟨_, by simp, oo, ol, co, cl, rfl, hn⟩, ?_⟩
        unfold rangeLoop
        dsimp only
        rw [if_pos]
        simp only [Bool.or_eq_true, BitVec.slt, decide_eq_true_eq]
        simpa [or_assoc] using hn
      · simp only [not_or] at hn
        obtain ⟨h1, h2, h3, h4⟩ := hn
        have e1 := asUsize64_nonneg h1
        have e2 := asUsize32_nonneg h2
        have e3 := asUsize64_nonneg h3
        have e4 := asUsize32_nonneg h4
        have hstep : rangeLoop cfg (⟨some oo, some ol, some co, some cl⟩ :: cs) (lo, hi) =
            rangeLoop cfg cs (Nat.min (Nat.min lo (asUsize64 oo)) (asUsize64 co),
              Nat.max (Nat.max hi (asUsize64 oo + asUsize32 ol)) (asUsize64 co + asUsize32 cl)) := by
          conv => lhs; unfold rangeLoop
          dsimp only
          rw [if_neg, addUsize_small cfg (by omega), addUsize_small cfg (by omega)]
          · rfl
          · simp only [Bool.or_eq_true, BitVec.slt, decide_eq_true_eq, BitVec.toInt_zero]
            omega
        have hnn : ¬ Neg ⟨some oo, some ol, some co, some cl⟩ := by
          rintro ⟨_, _, _, _, he, h⟩
          cases he
          omega
        rw [hstep]
        rcases rangeLoop_spec cfg cs (Nat.min (Nat.min lo (asUsize64 oo)) (asUsize64 co))
            (Nat.max (Nat.max hi (asUsize64 oo + asUsize32 ol)) (asUsize64 co + asUsize32 cl)) with
          ⟨⟨c, hc, h⟩, he⟩ | ⟨hneg, lo', hi', he, hlo, hhi, hall, hl, hh⟩
        · exact .inl ⟨⟨c, by simp [hc], h⟩, he⟩
        · have m1 : Nat.min (Nat.min lo (asUsize64 oo)) (asUsize64 co) = min (min lo (asUsize64 oo)) (asUsize64 co) := rfl
          have m2 : Nat.max (Nat.max hi (asUsize64 oo + asUsize32 ol)) (asUsize64 co + asUsize32 cl) =
            max (max hi (asUsize64 oo + asUsize32 ol)) (asUsize64 co + asUsize32 cl) := rfl
          rw [m1] at hlo hl
          rw [m2] at hhi hh
          refine .inr ⟨?_, lo', hi', he, by omega, by omega, ?_, ?_, ?_⟩
          · intro d hd
            rcases List.mem_cons.1 hd with rfl | hd
            · exact hnn
            · exact hneg d hd
          · intro d hd a b hr
            rcases List.mem_cons.1 hd with rfl | hd
            · obtain ⟨_, _, _, _, he', h⟩ := hr
              cases he'
              omega
            · exact hall d hd a b hr
          · rcases hl with hl | ⟨d, hd, h⟩
            · rcases Nat.lt_or_ge (asUsize64 co) (min lo (asUsize64 oo)) with h | h
              · refine .inr ⟨_, by simp, co.toInt + cl.toInt, oo, ol, co, cl, rfl, .inr ⟨by omega, rfl⟩⟩
              · rcases Nat.lt_or_ge (asUsize64 oo) lo with h' | h'
                · exact .inr ⟨_, by simp, oo.toInt + ol.toInt, oo, ol, co, cl, rfl, .inl ⟨by omega, rfl⟩⟩
                · exact .inl (by omega)
            · exact .inr ⟨d, by simp [hd], h⟩
          · rcases hh with hh | ⟨d, hd, h⟩
            · rcases Nat.lt_or_ge (max hi (asUsize64 oo + asUsize32 ol)) (asUsize64 co + asUsize32 cl) with h | h
              · exact .inr ⟨_, by simp, co.toInt, oo, ol, co, cl, rfl, .inr ⟨rfl, by omega⟩⟩
              · rcases Nat.lt_or_ge hi (asUsize64 oo + asUsize32 ol) with h' | h'
                · exact .inr ⟨_, by simp, oo.toInt, oo, ol, co, cl, rfl, .inl ⟨rfl, by omega⟩⟩
                · exact .inl (by omega)
            · exact .inr ⟨d, by simp [hd], h⟩
    · have hnn : ¬ Neg c := fun ⟨oo, ol, co, cl, h, _⟩ => hc ⟨oo, ol, co, cl, h⟩
      have hnr : ∀ a b, ¬ RangeOf c a b := fun _ _ ⟨oo, ol, co, cl, h, _⟩ => hc ⟨oo, ol, co, cl, h⟩
      have hstep : rangeLoop cfg (c :: cs) (lo, hi) = rangeLoop cfg cs (lo, hi) := by
        conv => lhs; unfold rangeLoop
        split
        · exact absurd ⟨_, _, _, _, rfl⟩ hc
        · rfl
      rw [hstep]
      rcases rangeLoop_spec cfg cs lo hi with ⟨⟨d, hd, h⟩, he⟩ | ⟨hneg, lo', hi', he, hlo, hhi, hall, hl, hh⟩
      · exact .inl ⟨⟨d, by simp [hd], h⟩, he⟩
      · refine .inr ⟨?_, lo', hi', he, hlo, hhi, ?_, hl.imp id fun ⟨d, hd, h⟩ => ⟨d, by simp [hd], h⟩, hh.imp id fun ⟨d, hd, h⟩ => ⟨d, by simp [hd], h⟩⟩
        · intro d hd
          rcases List.mem_cons.1 hd with rfl | hd
          · exact hnn
          · exact hneg d hd
        · intro d hd a b hr
          rcases List.mem_cons.1 hd with rfl | hd
          · exact absurd hr (hnr a b)
          · exact hall d hd a b hr

end CT.Parquet

namespace CT.Props
open CT Spec Parquet

theorem indexRange_iff {md : Val} {a b : Int} : IndexRange md a b ↔ ∃ c, IsColumn md c ∧ RangeOf c a b := by
  constructor
  · rintro ⟨oo, ol, co, cl, h, h'⟩; exact ⟨_, h, oo, ol, co, cl, rfl, h'⟩
  · rintro ⟨_, h, oo, ol, co, cl, rfl, h'⟩; exact ⟨oo, ol, co, cl, h, h'⟩

theorem negativeIndex_iff {md : Val} : NegativeIndex md ↔ ∃ c, IsColumn md c ∧ Neg c := by
  constructor
  · rintro ⟨oo, ol, co, cl, h, h'⟩; exact ⟨_, h, oo, ol, co, cl, rfl, h'⟩
  · rintro ⟨_, h, oo, ol, co, cl, rfl, h'⟩; exact ⟨oo, ol, co, cl, h, h'⟩

/-- C43: of any file metadata, in every build, `get_page_index_range` returns
* `InvalidOffset` if a column chunk with both indexes has a negative number;
* otherwise the smallest range containing all indexes: they all lie in it, one starts where it starts, one ends where it ends;
* `None` if there is no column chunk with both indexes, or all indexes are empty and at the same place. It never panics. -/
theorem C43_outcome (cfg : Cfg) {md : Val} (hm : HasTy Format.parquetEnv md Format.tFileMetaData) :
    (NegativeIndex md ∧ getPageIndexRange cfg md = .error (.err .invalidOffset)) ∨
    (¬ NegativeIndex md ∧ ∃ lo hi : Nat, lo < hi ∧ getPageIndexRange cfg md = .ok (some (lo, hi)) ∧
      (∀ a b, IndexRange md a b → (lo : Int) ≤ a ∧ b ≤ hi) ∧ (∃ b, IndexRange md lo b) ∧ ∃ a, IndexRange md a hi) ∨
    (¬ NegativeIndex md ∧ getPageIndexRange cfg md = .ok none ∧ ∀ a b a' b', IndexRange md a b → IndexRange md a' b' → a = b ∧ a = a') := by
  obtain ⟨rgs, hr⟩ := metadataFields_typed hm
  have hcol := isColumn_iff hr
  have hget : getPageIndexRange cfg md = (do
      let (min, max) ← rangeLoop cfg rgs.flatten (2 ^ 64 - 1, 0)
      pure (if min < max then some (min, max) else none)) := by
    unfold getPageIndexRange; rw [hr]
  rcases rangeLoop_spec cfg rgs.flatten (2 ^ 64 - 1) 0 with ⟨⟨c, hc, hn⟩, he⟩ | ⟨hneg, lo, hi, he, hlo, hhi, hall, hl, hh⟩
  · refine .inl ⟨negativeIndex_iff.2 ⟨c, (hcol c).2 hc, hn⟩, ?_⟩
    rw [hget, he]; rfl
  · have hnn : ¬ NegativeIndex md := fun h => by
      obtain ⟨c, hc, hn⟩ := negativeIndex_iff.1 h
      exact hneg c ((hcol c).1 hc) hn
    have hin : ∀ a b, IndexRange md a b → (lo : Int) ≤ a ∧ b ≤ hi := fun a b h => by
      obtain ⟨c, hc, hr⟩ := indexRange_iff.1 h
      exact hall c ((hcol c).1 hc) a b hr
    have hle : ∀ a b, IndexRange md a b → a ≤ b ∧ b < 2 ^ 64 - 1 := by
      rintro a b ⟨oo, ol, co, cl, hc, h⟩
      have := fun hx => hnn ⟨oo, ol, co, cl, hc, hx⟩
      simp only [not_or, imp_false] at this
      have e1 := asUsize64_nonneg this.1
      have e2 := asUsize32_nonneg this.2.1
      have e3 := asUsize64_nonneg this.2.2.1
      have e4 := asUsize32_nonneg this.2.2.2
      omega
    have hg : getPageIndexRange cfg md = .ok (if lo < hi then some (lo, hi) else none) := by rw [hget, he]; rfl
    by_cases hlt : lo < hi
    · rw [if_pos hlt] at hg
      have hmax : ∃ a, IndexRange md a hi := by
        rcases hh with rfl | ⟨c, hc, a, hr⟩
        · omega
        · exact ⟨a, indexRange_iff.2 ⟨c, (hcol c).2 hc, hr⟩⟩
      refine .inr (.inl ⟨hnn, lo, hi, hlt, hg, hin, ?_, hmax⟩)
      rcases hl with rfl | ⟨c, hc, b, hr⟩
      · obtain ⟨a, ha⟩ := hmax
        have := hle _ _ ha
        omega
      · exact ⟨b, indexRange_iff.2 ⟨c, (hcol c).2 hc, hr⟩⟩
    · rw [if_neg hlt] at hg
      refine .inr (.inr ⟨hnn, hg, fun a b a' b' h h' => ?_⟩)
      have h1 := hin _ _ h; have h2 := hin _ _ h'; have h3 := hle _ _ h; have h4 := hle _ _ h'
      omega

/-- C43: the range as an exact condition. -/
theorem C43_some_iff (cfg : Cfg) {md : Val} (hm : HasTy Format.parquetEnv md Format.tFileMetaData) (lo hi : Nat) :
    getPageIndexRange cfg md = .ok (some (lo, hi)) ↔ ¬ NegativeIndex md ∧ lo < hi ∧
      (∀ a b, IndexRange md a b → (lo : Int) ≤ a ∧ b ≤ hi) ∧ (∃ b, IndexRange md lo b) ∧ ∃ a, IndexRange md a hi := by
  constructor
  · intro h
    rcases C43_outcome cfg hm with ⟨_, h'⟩ | ⟨hn, lo', hi', hlt, h', h1, h2, h3⟩ | ⟨_, h', _⟩
    · rw [h] at h'; cases h'
    · rw [h] at h'; cases h'; exact ⟨hn, hlt, h1, h2, h3⟩
    · rw [h] at h'; cases h'
  · rintro ⟨hn, hlt, h1, ⟨b, h2⟩, a, h3⟩
    rcases C43_outcome cfg hm with ⟨h', _⟩ | ⟨_, lo', hi', hlt', h', h1', ⟨b', h2'⟩, a', h3'⟩ | ⟨_, h', h4⟩
    · exact absurd h' hn
    · have := h1 _ _ h2'; have := h1 _ _ h3'; have := h1' _ _ h2; have := h1' _ _ h3
      obtain rfl : lo = lo' := by omega
      obtain rfl : hi = hi' := by omega
      exact h'
    · have e1 := h4 _ _ _ _ h2 h2; have e2 := h4 _ _ _ _ h3 h2; have := h4 _ _ _ _ h3 h3
      omega

/-- A `ColumnChunk` with these page index fields. -/
def chunkVal (c : IndexFields) : Val := .struct [.none, .i64 0#64, .none, ofOptI64 c.offsetOffset, ofOptI32 c.offsetLength,
  ofOptI64 c.columnOffset, ofOptI32 c.columnLength, .none, .none]

/-- `FileMetaData` with one row group with these columns. -/
def mdVal (cs : List IndexFields) : Val := .struct [.i32 1#32, .list [], .i64 0#64,
  .list [.struct [.list (cs.map chunkVal), .i64 0#64, .i64 0#64, .none, .none, .none, .none]], .none, .none, .none, .none, .none]

theorem ofOptI64_typed {env : List Def} (o : Option (BitVec 64)) : HasTy env (ofOptI64 o) (.option .i64) := by
  cases o with
  | none => exact .none _
  | some x => exact .some _ _ (.i64 x)

theorem ofOptI32_typed {env : List Def} (o : Option (BitVec 32)) : HasTy env (ofOptI32 o) (.option .i32) := by
  cases o with
  | none => exact .none _
  | some x => exact .some _ _ (.i32 x)

theorem chunkVal_typed (c : IndexFields) : HasTy Format.parquetEnv (chunkVal c) Format.tColumnChunk := by
  refine .struct _ _ _ _ rfl rfl fun i f v hf hv => ?_
  match i with
  | 0 => simp at hf hv; subst hf hv; exact .none _
  | 1 => simp at hf hv; subst hf hv; exact .i64 _
  | 2 => simp at hf hv; subst hf hv; exact .none _
  | 3 => simp at hf hv; subst hf hv; exact ofOptI64_typed _
  | 4 => simp at hf hv; subst hf hv; exact ofOptI32_typed _
  | 5 => simp at hf hv; subst hf hv; exact ofOptI64_typed _
  | 6 => simp at hf hv; subst hf hv; exact ofOptI32_typed _
  | 7 => simp at hf hv; subst hf hv; exact .none _
  | 8 => simp at hf hv; subst hf hv; exact .none _
  | i + 9 => simp at hf

theorem mdVal_typed (cs : List IndexFields) : HasTy Format.parquetEnv (mdVal cs) Format.tFileMetaData := by
  refine .struct _ _ _ _ rfl rfl fun i f v hf hv => ?_
  match i with
  | 0 => simp at hf hv; subst hf hv; exact .i32 _
  | 1 => simp at hf hv; subst hf hv; exact .list _ _ (by simp)
  | 2 => simp at hf hv; subst hf hv; exact .i64 _
  | 3 =>
    simp at hf hv; subst hf hv
    refine .list _ _ fun rg hrg => ?_
    obtain rfl := List.mem_singleton.1 hrg
    refine .struct _ _ _ _ rfl rfl fun i f v hf hv => ?_
    match i with
    | 0 =>
      simp at hf hv; subst hf hv
      refine .list _ _ fun c hc => ?_
      obtain ⟨c, _, rfl⟩ := List.mem_map.1 hc
      exact chunkVal_typed c
    | 1 => simp at hf hv; subst hf hv; exact .i64 _
    | 2 => simp at hf hv; subst hf hv; exact .i64 _
    | 3 => simp at hf hv; subst hf hv; exact .none _
    | 4 => simp at hf hv; subst hf hv; exact .none _
    | 5 => simp at hf hv; subst hf hv; exact .none _
    | 6 => simp at hf hv; subst hf hv; exact .none _
    | i + 7 => simp at hf
  | 4 => simp at hf hv; subst hf hv; exact .none _
  | 5 => simp at hf hv; subst hf hv; exact .none _
  | 6 => simp at hf hv; subst hf hv; exact .none _
  | 7 => simp at hf hv; subst hf hv; exact .none _
  | 8 => simp at hf hv; subst hf hv; exact .none _
  | i + 9 => simp at hf

/-- The hypotheses of C43 for metadata with two indexed columns and one without; the range spans all four indexes. -/
example : HasTy Format.parquetEnv (mdVal [⟨some 20, some 5, some 4, some 6⟩, ⟨none, some 1, none, none⟩, ⟨some 25, some 7, some 10, some 10⟩]) Format.tFileMetaData ∧
    getPageIndexRange ⟨true, true, fun _ => true⟩ (mdVal [⟨some 20, some 5, some 4, some 6⟩, ⟨none, some 1, none, none⟩, ⟨some 25, some 7, some 10, some 10⟩]) =
      .ok (some (4, 32)) := ⟨mdVal_typed _, rfl⟩

/-- The hypotheses of C42 for `FileMetaData { version: 1, .. }` with empty lists. -/
example : HasTy Format.parquetEnv (.struct [.i32 1#32, .list [], .i64 0#64, .list [], .none, .none, .none, .none, .none]) Format.tFileMetaData ∧
    ∃ bytes, encode Format.parquetEnv Format.tFileMetaData (.struct [.i32 1#32, .list [], .i64 0#64, .list [], .none, .none, .none, .none, .none]) = .ok bytes ∧
      bytes.length < 2 ^ 32 := by
  constructor
  · refine .struct _ _ _ _ rfl rfl fun i f v hf hv => ?_
    match i with
    | 0 => simp at hf hv; subst hf hv; exact .i32 _
    | 1 => simp at hf hv; subst hf hv; exact .list _ _ (by simp)
    | 2 => simp at hf hv; subst hf hv; exact .i64 _
    | 3 => simp at hf hv; subst hf hv; exact .list _ _ (by simp)
    | 4 => simp at hf hv; subst hf hv; exact .none _
    | 5 => simp at hf hv; subst hf hv; exact .none _
    | 6 => simp at hf hv; subst hf hv; exact .none _
    | 7 => simp at hf hv; subst hf hv; exact .none _
    | 8 => simp at hf hv; subst hf hv; exact .none _
    | i + 9 => simp at hf
  · refine ⟨_, encode_of_enc (ok := anyStep) (.struct _ _ _ _ _ rfl
      (.fieldsCons _ _ _ _ _ _ _ (.fieldValue .i32 _ _ _ _ (by simp) (by simp) trivial (.i32 _))
      (.fieldsCons _ _ _ _ _ _ _ (.fieldValue (.list _) _ _ _ _ (by simp) (by simp) trivial (.list _ _ _ (by simp) (.elemsNil _)))
      (.fieldsCons _ _ _ _ _ _ _ (.fieldValue .i64 _ _ _ _ (by simp) (by simp) trivial (.i64 _))
      (.fieldsCons _ _ _ _ _ _ _ (.fieldValue (.list _) _ _ _ _ (by simp) (by simp) trivial (.list _ _ _ (by simp) (.elemsNil _)))
      (.fieldsCons _ _ _ _ _ _ _ (.fieldNone _ _ _) (.fieldsCons _ _ _ _ _ _ _ (.fieldNone _ _ _) (.fieldsCons _ _ _ _ _ _ _ (.fieldNone _ _ _)
      (.fieldsCons _ _ _ _ _ _ _ (.fieldNone _ _ _) (.fieldsCons _ _ _ _ _ _ _ (.fieldNone _ _ _)
        (.fieldsNil _))))))))))), ?_⟩
    have hv : ∀ n, n < 128 → varint n = [BitVec.ofNat 8 n] := fun n h => by rw [varint]; simp [h]
    rw [show zigzag (1#32).toInt = 2 from rfl, show zigzag (0#64).toInt = 0 from rfl, hv 2 (by decide), hv 0 (by decide)]
    decide

/-! ## C44: the chunk -/

/-- C44: what `get_page_index_chunk` does, for every file and all metadata. -/
theorem C44_outcome (cfg : Cfg) (f : File) (md : Val) :
    (∃ e, getPageIndexRange cfg md = .error e ∧ getPageIndexChunk cfg md f = .error e) ∨
    (getPageIndexRange cfg md = .ok none ∧ getPageIndexChunk cfg md f = .ok (none, f)) ∨
    ∃ a b, getPageIndexRange cfg md = .ok (some (a, b)) ∧
      ((∃ k, Faulty f k ∧ getPageIndexChunk cfg md f = .error (.err (.io k))) ∨
       (2 ^ 63 ≤ b - a ∧ getPageIndexChunk cfg md f = .error .panic) ∨
       (b - a < 2 ^ 63 ∧ cfg.alloc (b - a) = false ∧ getPageIndexChunk cfg md f = .error .abort) ∨
       (b - a < 2 ^ 63 ∧ cfg.alloc (b - a) = true ∧ b ≤ f.data.length ∧
         ∃ f', getPageIndexChunk cfg md f = .ok (some (part f.data a (b - a), (a, b)), f')) ∨
       (b - a < 2 ^ 63 ∧ cfg.alloc (b - a) = true ∧ f.data.length < b ∧ getPageIndexChunk cfg md f = .error (.err (.io .unexpectedEof)))) := by
  have hr : ∀ e, getPageIndexRange cfg md = .error e → getPageIndexChunk cfg md f = .error e := fun e h => by
    unfold getPageIndexChunk; exact Fd.bind_error (by rw [h]; rfl)
  cases hg : getPageIndexRange cfg md with
  | error e => exact .inl ⟨e, rfl, hr e hg⟩
  | ok o =>
    cases o with
    | none =>
      refine .inr (.inl ⟨rfl, ?_⟩)
      unfold getPageIndexChunk; rw [hg]; rfl
    | some r =>
      obtain ⟨a, b⟩ := r
      refine .inr (.inr ⟨a, b, rfl, ?_⟩)
      have hlt : a < b := by
        unfold getPageIndexRange at hg
        split at hg
        · cases hg
        · rename_i rgs _
          cases hl : rangeLoop cfg rgs.flatten (2 ^ 64 - 1, 0) with
          | error e => rw [hl] at hg; cases hg
          | ok r =>
            rw [hl] at hg
            change Except.ok (if r.1 < r.2 then some (r.1, r.2) else none) = _ at hg
            split at hg
            · simp only [Except.ok.injEq, Option.some.injEq, Prod.mk.injEq] at hg; omega
            · simp at hg
      have hbody : getPageIndexChunk cfg md f =
          (seekStart a >>= fun _ => Fd.lift (withCapacity cfg (b - a)) >>= fun _ => readExactF (b - a) >>= fun buf => pure (some (buf, (a, b)))) f := by
        unfold getPageIndexChunk; rw [hg]; rfl
      have hG : Goes (seekStart a >>= fun _ => Fd.lift (withCapacity cfg (b - a)) >>= fun _ => readExactF (b - a) >>= fun buf => (pure (some (buf, (a, b))) : Fd _)) f
          fun r => (2 ^ 63 ≤ b - a ∧ r = .error .panic) ∨ (b - a < 2 ^ 63 ∧ cfg.alloc (b - a) = false ∧ r = .error .abort) ∨
            (b - a < 2 ^ 63 ∧ cfg.alloc (b - a) = true ∧ b ≤ f.data.length ∧ ∃ p, r = .ok (some (part f.data a (b - a), (a, b)), p)) ∨
            (b - a < 2 ^ 63 ∧ cfg.alloc (b - a) = true ∧ f.data.length < b ∧ r = .error (.err (.io .unexpectedEof))) := by
        refine (goes_seekTo (some a) f).bind ?_ ?_
        · intro _ f₁ hl₁ hq
          have hp : f₁.pos = a := by
            rcases hq with ⟨p, hp, hr⟩ | ⟨h, _⟩
            · cases hp; exact (Prod.mk.inj (Except.ok.inj hr)).2
            · cases h
          refine (goes_lift _ f₁).bind ?_ ?_
          · intro _ f₂ hl₂ hq
            obtain ⟨hw, hp2⟩ : withCapacity cfg (b - a) = .ok () ∧ f₂.pos = f₁.pos := by
              rcases hq with ⟨_, ha, hr⟩ | ⟨_, _, hr⟩
              · exact ⟨ha, (Prod.mk.inj (Except.ok.inj hr)).2⟩
              · cases hr
            obtain ⟨hw1, hw2⟩ : b - a < 2 ^ 63 ∧ cfg.alloc (b - a) = true := by
              unfold withCapacity ISIZE_MAX at hw
              split at hw
              · cases hw
              · split at hw
                · exact ⟨by omega, by assumption⟩
                · cases hw
            have hd : f₂.data = f.data := hl₂.1.trans hl₁.1
            refine (goes_readExact (b - a) f₂).bind ?_ ?_
            · intro buf f₃ hl₃ hq
              refine .inr (.inl ⟨_, f₃, .refl _, ?_, rfl⟩)
              rcases hq with ⟨h, hr⟩ | ⟨_, hr⟩
              · refine .inr (.inr (.inl ⟨hw1, hw2, by rw [hd, hp2, hp] at h; omega, f₃.pos, ?_⟩))
                rw [(Prod.mk.inj (Except.ok.inj hr)).1, hd, hp2, hp]
              · cases hr
            · intro e hq
              rcases hq with ⟨_, hr⟩ | ⟨h, hr⟩
              · cases hr
              · refine .inr (.inr (.inr ⟨hw1, hw2, by rw [hd, hp2, hp] at h; omega, by rw [Except.error.inj hr]⟩))
          · intro e hq
            rcases hq with ⟨_, _, hr⟩ | ⟨_, he, hr⟩
            · cases hr
            · cases hr
              unfold withCapacity ISIZE_MAX at he
              split at he
              · cases he; exact .inl ⟨by omega, rfl⟩
              · split at he
                · cases he
                · cases he; exact .inr (.inl ⟨by omega, by simp_all, rfl⟩)
        · intro e hq
          rcases hq with ⟨_, _, hr⟩ | ⟨h, _⟩
          · cases hr
          · cases h
      rw [hbody]
      rcases hG with ⟨k, hk, h⟩ | ⟨v, f', _, hq, h⟩ | ⟨e, hq, h⟩
      · exact .inl ⟨k, hk, h⟩
      · rcases hq with ⟨_, hr⟩ | ⟨_, _, hr⟩ | ⟨h1, h2, h3, p, hr⟩ | ⟨_, _, _, hr⟩
        · cases hr
        · cases hr
        · exact .inr (.inr (.inr (.inl ⟨h1, h2, h3, f', by rw [h, (Prod.mk.inj (Except.ok.inj hr)).1]⟩)))
        · cases hr
      · rcases hq with ⟨h1, hr⟩ | ⟨h1, h2, hr⟩ | ⟨_, _, _, _, hr⟩ | ⟨h1, h2, h3, hr⟩
        · exact .inr (.inl ⟨h1, by rw [h, Except.error.inj hr]⟩)
        · exact .inr (.inr (.inl ⟨h1, h2, by rw [h, Except.error.inj hr]⟩))
        · cases hr
        · exact .inr (.inr (.inr (.inr ⟨h1, h2, h3, by rw [h, Except.error.inj hr]⟩)))

/-- C44: what was fetched is the range of the file. -/
theorem C44_ok {cfg : Cfg} {f f' : File} {md : Val} {chunk : Bytes} {a b : Nat} (h : getPageIndexChunk cfg md f = .ok (some (chunk, (a, b)), f')) :
    getPageIndexRange cfg md = .ok (some (a, b)) ∧ b ≤ f.data.length ∧ chunk = part f.data a (b - a) := by
  rcases C44_outcome cfg f md with ⟨_, _, h'⟩ | ⟨_, h'⟩ | ⟨a', b', hr, ⟨_, _, h'⟩ | ⟨_, h'⟩ | ⟨_, _, h'⟩ | ⟨_, _, hb, _, h'⟩ | ⟨_, _, _, h'⟩⟩
  all_goals rw [h] at h'; cases h'
  exact ⟨hr, hb, rfl⟩

/-- C44: a range inside the file is fetched from a file that makes no trouble, however it chunks its data. -/
theorem C44_fetches {cfg : Cfg} {f : File} (hq : Quiet f) {md : Val} {a b : Nat} (hr : getPageIndexRange cfg md = .ok (some (a, b)))
    (hb : b ≤ f.data.length) (ha : cfg.alloc (b - a) = true) (hl : b - a < 2 ^ 63) :
    ∃ f', getPageIndexChunk cfg md f = .ok (some (part f.data a (b - a), (a, b)), f') := by
  rcases C44_outcome cfg f md with ⟨_, h', _⟩ | ⟨h', _⟩ | ⟨a', b', hr', h⟩
  · rw [hr] at h'; cases h'
  · rw [hr] at h'; cases h'
  · rw [hr] at hr'; cases hr'
    rcases h with ⟨k, hk, _⟩ | ⟨h', _⟩ | ⟨_, h', _⟩ | ⟨_, _, _, h⟩ | ⟨_, _, h', _⟩
    · exact absurd hk (Quiet.not_faulty hq k)
    · omega
    · rw [ha] at h'; cases h'
    · exact h
    · omega

/-- C44: whatever the file (unless it fails to seek), these metadata make it panic: the range is longer than `isize::MAX`. -/
theorem C44_panic (cfg : Cfg) (f : File) (hq : Quiet f) :
    getPageIndexChunk cfg (mdVal [⟨some 0x7fffffffffffffff#64, some 1#32, some 0#64, some 1#32⟩]) f = .error .panic := by
  have hr : getPageIndexRange cfg (mdVal [⟨some 0x7fffffffffffffff#64, some 1#32, some 0#64, some 1#32⟩]) = .ok (some (0, 2 ^ 63)) := by
    refine (C43_some_iff cfg (mdVal_typed _) _ _).2 ?_
    have hcol : ∀ c, IsColumn (mdVal [⟨some 0x7fffffffffffffff#64, some 1#32, some 0#64, some 1#32⟩]) c ↔
        c = ⟨some 0x7fffffffffffffff#64, some 1#32, some 0#64, some 1#32⟩ := fun c => by
      rw [isColumn_iff (rgs := [[⟨some 0x7fffffffffffffff#64, some 1#32, some 0#64, some 1#32⟩]]) rfl]; simp
    refine ⟨?_, by decide, ?_, ?_, ?_⟩
    · rintro ⟨oo, ol, co, cl, h, h'⟩
      cases (hcol _).1 h
      revert h'; decide
    · rintro a b ⟨oo, ol, co, cl, h, h'⟩
      cases (hcol _).1 h
      rw [show (0x7fffffffffffffff#64).toInt = 2 ^ 63 - 1 from rfl, show (1#32).toInt = 1 from rfl, show (0#64).toInt = 0 from rfl] at h'
      omega
    · exact ⟨1, _, _, _, _, (hcol _).2 rfl, .inr ⟨rfl, rfl⟩⟩
    · exact ⟨2 ^ 63 - 1, _, _, _, _, (hcol _).2 rfl, .inl ⟨rfl, rfl⟩⟩
  rcases C44_outcome cfg f (mdVal [⟨some 0x7fffffffffffffff#64, some 1#32, some 0#64, some 1#32⟩]) with ⟨_, h', _⟩ | ⟨h', _⟩ | ⟨a', b', hr', h⟩
  · rw [hr] at h'; cases h'
  · rw [hr] at h'; cases h'
  · rw [hr] at hr'; cases hr'
    rcases h with ⟨k, hk, _⟩ | ⟨_, h⟩ | ⟨h', _⟩ | ⟨h', _⟩ | ⟨h', _⟩
    · exact absurd hk (Quiet.not_faulty hq k)
    · exact h
    all_goals omega

/-! ## C63: memory requested -/

theorem Fd.bind_congr {α β : Type} {x : Fd α} {g g' : α → Fd β} {f : File} (h : ∀ a f', x f = .ok (a, f') → g a f' = g' a f') :
    (x >>= g) f = (x >>= g') f := by
  show Fd.bind x g f = Fd.bind x g' f
  unfold Fd.bind
  cases hx : x f with
  | error e => rfl
  | ok r => exact h r.1 r.2 hx

theorem seekBack_ok {n : Nat} {f f' : File} {a : Unit} (h : seekBack n f = .ok (a, f')) : n ≤ f.data.length ∧ f'.data = f.data := by
  rcases goes_seekBack n f with ⟨k, _, h'⟩ | ⟨_, f'', hl, hq, h'⟩ | ⟨_, _, h'⟩
  · rw [h] at h'; cases h'
  · rw [h] at h'; cases h'
    rcases hq with ⟨hn, _⟩ | ⟨_, hr⟩
    · exact ⟨hn, hl.1⟩
    · cases hr
  · rw [h] at h'; cases h'

theorem readExactF_data {n : Nat} {f f' : File} {bs : Bytes} (h : readExactF n f = .ok (bs, f')) : f'.data = f.data := by
  unfold readExactF at h
  split at h
  · cases h
  · cases h; rfl

/-- C63: what `get_metadata_chunk` does depends only on whether memory for at most the length of the file (minus 8) can be had: nothing else is requested. -/
theorem C63_metadata {cfg cfg' : Cfg} {f : File} (h : ∀ n, n + 8 ≤ f.data.length → cfg.alloc n = cfg'.alloc n) :
    getMetadataChunk cfg f = getMetadataChunk cfg' f := by
  unfold getMetadataChunk
  refine Fd.bind_congr fun _ f₁ h₁ => Fd.bind_congr fun footer f₂ h₂ => ?_
  dsimp only
  split
  · rfl
  · refine Fd.bind_congr fun _ f₃ h₃ => ?_
    have hd : f₂.data = f.data := (readExactF_data h₂).trans (seekBack_ok h₁).2
    have hn := (seekBack_ok h₃).1
    rw [hd] at hn
    have : withCapacity cfg (leNat (footer.take 4)) = withCapacity cfg' (leNat (footer.take 4)) := by
      unfold withCapacity; rw [h _ hn]
    rw [this]

/-- C63: `get_page_index_chunk` requests whatever the metadata say, up to the largest positive i64, even for an empty file. -/
theorem C63_page_index (n : Nat) (h0 : 0 < n) (hn : n < 2 ^ 63) {cfg : Cfg} (ha : cfg.alloc n = false) {f : File} (hq : Quiet f) :
    getPageIndexChunk cfg (mdVal [⟨some 0#64, some 1#32, some (BitVec.ofNat 64 (n - 1)), some 1#32⟩]) f = .error .abort := by
  have hN : (BitVec.ofNat 64 (n - 1)).toInt = (n : Int) - 1 := by
    rw [BitVec.toInt_eq_toNat_cond, BitVec.toNat_ofNat, Nat.mod_eq_of_lt (by omega), if_pos (by omega)]; omega
  generalize BitVec.ofNat 64 (n - 1) = co at hN
  have hr : getPageIndexRange cfg (mdVal [⟨some 0#64, some 1#32, some co, some 1#32⟩]) = .ok (some (0, n)) := by
    refine (C43_some_iff cfg (mdVal_typed _) _ _).2 ?_
    have hcol : ∀ c, IsColumn (mdVal [⟨some 0#64, some 1#32, some co, some 1#32⟩]) c ↔ c = ⟨some 0#64, some 1#32, some co, some 1#32⟩ := fun c => by
      rw [isColumn_iff (rgs := [[⟨some 0#64, some 1#32, some co, some 1#32⟩]]) rfl]; simp
    refine ⟨?_, by omega, ?_, ?_, ?_⟩
    · rintro ⟨oo, ol, co', cl, h, h'⟩
      cases (hcol _).1 h
      rw [hN, show (1#32).toInt = 1 from rfl, show (0#64).toInt = 0 from rfl] at h'
      omega
    · rintro a b ⟨oo, ol, co', cl, h, h'⟩
      cases (hcol _).1 h
      rw [hN, show (1#32).toInt = 1 from rfl, show (0#64).toInt = 0 from rfl] at h'
      omega
    · exact ⟨1, _, _, _, _, (hcol _).2 rfl, .inl ⟨rfl, rfl⟩⟩
    · exact ⟨(n : Int) - 1, _, _, _, _, (hcol _).2 rfl, .inr ⟨hN.symm, by rw [hN]; simp⟩⟩
  rcases C44_outcome cfg f (mdVal [⟨some 0#64, some 1#32, some co, some 1#32⟩]) with ⟨_, h', _⟩ | ⟨h', _⟩ | ⟨a', b', hr', h⟩
  · rw [hr] at h'; cases h'
  · rw [hr] at h'; cases h'
  · rw [hr] at hr'; cases hr'
    rw [Nat.sub_zero] at h
    rcases h with ⟨k, hk, _⟩ | ⟨_, h⟩ | ⟨_, _, h⟩ | ⟨_, h', _⟩ | ⟨_, h', _⟩
    · exact absurd hk (Quiet.not_faulty hq k)
    · omega
    · exact h
    · rw [ha] at h'; cases h'
    · rw [ha] at h'; cases h'

/-- An allocator that grants at most 100 bytes and an empty file meet the hypotheses of `C63_page_index`. -/
example : getPageIndexChunk ⟨false, true, fun n => n ≤ 100⟩ (mdVal [⟨some 0#64, some 1#32, some (BitVec.ofNat 64 (1000000000000 - 1)), some 1#32⟩]) ⟨[], 0, [], []⟩ = .error .abort :=
  C63_page_index 1000000000000 (by decide) (by decide) rfl ⟨by simp, by simp⟩

/-! ## C45: the indexes -/

theorem mapM_congr {α β : Type} {g h : α → Except PFail β} : ∀ {l : List α}, (∀ x ∈ l, g x = h x) → l.mapM g = l.mapM h
  | [], _ => rfl
  | a :: l, H => by
    rw [List.mapM_cons, List.mapM_cons, H a (by simp), mapM_congr fun x hx => H x (by simp [hx])]

theorem mapM_ok {α β : Type} {g : α → Except PFail β} {h : α → β} : ∀ {l : List α}, (∀ x ∈ l, g x = .ok (h x)) → l.mapM g = .ok (l.map h)
  | [], _ => rfl
  | a :: l, H => by
    rw [List.mapM_cons, H a (by simp), mapM_ok fun x hx => H x (by simp [hx])]; rfl

theorem mapM_error {α β : Type} {g : α → Except PFail β} : ∀ {l : List α} {e : PFail}, l.mapM g = .error e → ∃ x ∈ l, g x = .error e
  | [], e, h => by cases h
  | a :: l, e, h => by
    rw [List.mapM_cons] at h
    cases ha : g a with
    | error e' => rw [ha] at h; cases h; exact ⟨a, by simp, ha⟩
    | ok b =>
      rw [ha] at h
      cases hl : l.mapM g with
      | error e' => rw [hl] at h; cases h; obtain ⟨x, hx, h⟩ := mapM_error hl; exact ⟨x, by simp [hx], h⟩
      | ok bs => rw [hl] at h; cases h

/-- Every column with an offset index has positive lengths, and a column index or an offset index not before `a`. -/
def WellPlaced (a : Nat) (md : Val) : Prop := ∀ c, IsColumn md c → ∀ oo ol, c.offsetOffset = some oo → c.offsetLength = some ol →
  0 < ol.toInt ∧ ((∃ co cl, c.columnOffset = some co ∧ c.columnLength = some cl ∧ 0 < cl.toInt) ∨
    ((c.columnOffset = none ∨ c.columnLength = none) ∧ (a : Int) ≤ oo.toInt))

/-- Both indexes of a column, straight from the file. -/
def direct (cfg : Cfg) (file : Bytes) (c : IndexFields) : Except PFail (Option (Val × Val)) :=
  match c with
  | ⟨some oo, some ol, some co, some cl⟩ => do
    let offsetIndex ← readSlice cfg Format.tOffsetIndex (part file oo.toNat ol.toNat)
    let columnIndex ← readSlice cfg Format.tColumnIndex (part file co.toNat cl.toNat)
    pure (some (offsetIndex, columnIndex))
  | _ => .ok none

theorem relRange_ok (cfg : Cfg) {a : Nat} {o : BitVec 64} {l : BitVec 32} (ha : (a : Int) ≤ o.toInt) (hl : 0 < l.toInt) :
    relRange cfg a o l = .ok (o.toNat - a, o.toNat - a + l.toNat) ∧ (o.toNat : Int) = o.toInt ∧ (l.toNat : Int) = l.toInt := by
  have h1 := asUsize64_nonneg (x := o) (by omega)
  have h2 := asUsize32_nonneg (x := l) (by omega)
  have h3 := BitVec.toInt_eq_toNat_cond l
  have h4 : l.toNat < 2 ^ 32 := l.isLt
  have h5 : (l.toNat : Int) = l.toInt := by split at h3 <;> omega
  unfold relRange
  have hs : BitVec.sle l 0#32 = false := by
    simp only [BitVec.sle, BitVec.toInt_zero, decide_eq_false_iff_not]; omega
  unfold asUsize64 at h1
  rw [if_neg (by unfold asUsize64; omega), hs, if_neg (by simp)]
  dsimp only
  rw [addUsize_small cfg (by unfold asUsize64; omega)]
  refine ⟨?_, h1.1, h5⟩
  show Except.ok (asUsize64 o - a, asUsize64 o - a + asUsize32 l) = _
  rw [show asUsize32 l = l.toNat by omega]; rfl

theorem slice_part {file : Bytes} {a b s n : Nat} (ha : a ≤ s) (hb : s + n ≤ b) (hf : b ≤ file.length) :
    sliceRange (part file a (b - a)) (s - a, s - a + n) = .ok (part file s n) := by
  unfold sliceRange part
  rw [if_pos ⟨by dsimp only; omega, by simp only [List.length_take, List.length_drop]; omega⟩]
  congr 1
  rw [List.drop_take, List.drop_drop, List.take_take, show a + (s - a) = s by omega]
  congr 1
  omega

/-- C45: on a fetched chunk and with well placed indexes, `read_page_index` reads exactly the indexes stored in the file: the asserts
hold and no slice is out of bounds, so whatever goes wrong is a failure to decode an index. -/
theorem C45_direct {cfg : Cfg} {f f' : File} {md : Val} (hm : HasTy Format.parquetEnv md Format.tFileMetaData) {chunk : Bytes} {a b : Nat}
    (h : getPageIndexChunk cfg md f = .ok (some (chunk, (a, b)), f')) (hw : WellPlaced a md) :
    ∃ rgs, metadataFields md = some rgs ∧ readPageIndex cfg chunk a md = rgs.mapM fun cols => cols.mapM (direct cfg f.data) := by
  obtain ⟨rgs, hrgs⟩ := metadataFields_typed hm
  obtain ⟨hr, hb, rfl⟩ := C44_ok h
  obtain ⟨hneg, hlt, hin, _, _⟩ := (C43_some_iff cfg hm a b).1 hr
  refine ⟨rgs, hrgs, ?_⟩
  unfold readPageIndex; rw [hrgs]
  refine mapM_congr fun cols hcols => mapM_congr fun c hc => ?_
  have hcol : IsColumn md c := (isColumn_iff hrgs c).2 (List.mem_flatten.2 ⟨cols, hcols, hc⟩)
  have hw := hw c hcol
  obtain ⟨oo, ol, co, cl⟩ := c
  cases oo with
  | none => rfl
  | some oo =>
  cases ol with
  | none => rfl
  | some ol =>
    obtain ⟨h1, ⟨co', cl', rfl, rfl, h2⟩ | ⟨h2, h3⟩⟩ := hw oo ol rfl rfl
    · dsimp only at *
      have i1 := hin oo.toInt (oo.toInt + ol.toInt) ⟨oo, ol, co', cl', hcol, .inl ⟨rfl, rfl⟩⟩
      have i2 := hin co'.toInt (co'.toInt + cl'.toInt) ⟨oo, ol, co', cl', hcol, .inr ⟨rfl, rfl⟩⟩
      obtain ⟨r1, e1, e2⟩ := relRange_ok cfg i1.1 h1
      obtain ⟨r2, e3, e4⟩ := relRange_ok cfg i2.1 h2
      unfold readColumnIndex direct
      dsimp only
      rw [r1, r2]
      show (sliceRange _ _ >>= fun _ => _) = _
      rw [slice_part (by omega) (by omega) hb, slice_part (by omega) (by omega) hb]
      rfl
    · have : readColumnIndex cfg (part f.data a (b - a)) a ⟨some oo, some ol, co, cl⟩ = .ok none := by
        unfold readColumnIndex
        dsimp only
        rw [(relRange_ok cfg h3 h1).1]
        rcases h2 with h2 | h2
        · dsimp only at h2; subst h2; rfl
        · dsimp only at h2; subst h2; cases co <;> rfl
      rw [this]
      unfold direct
      rcases h2 with h2 | h2
      · dsimp only at h2; subst h2; rfl
      · dsimp only at h2; subst h2; cases co <;> rfl

/-- C45: end to end. If each column with both indexes has them stored, as the writer writes them, where the metadata say (there may be more
behind them), exactly these indexes are returned, in the order of the columns, and `None` for the other columns. -/
theorem C45_values {cfg : Cfg} (hal : ∀ n, cfg.alloc n = true) {f f' : File} {md : Val} (hm : HasTy Format.parquetEnv md Format.tFileMetaData) {chunk : Bytes} {a b : Nat}
    (h : getPageIndexChunk cfg md f = .ok (some (chunk, (a, b)), f')) (hw : WellPlaced a md) (ox cx : IndexFields → Val)
    (hs : ∀ oo ol co cl, Indexed md oo ol co cl →
      HasTy Format.parquetEnv (ox ⟨some oo, some ol, some co, some cl⟩) Format.tOffsetIndex ∧
      HasTy Format.parquetEnv (cx ⟨some oo, some ol, some co, some cl⟩) Format.tColumnIndex ∧
      (∃ bs suf, encode Format.parquetEnv Format.tOffsetIndex (ox ⟨some oo, some ol, some co, some cl⟩) = .ok bs ∧ part f.data oo.toNat ol.toNat = bs ++ suf) ∧
      ∃ bs suf, encode Format.parquetEnv Format.tColumnIndex (cx ⟨some oo, some ol, some co, some cl⟩) = .ok bs ∧ part f.data co.toNat cl.toNat = bs ++ suf) :
    ∃ rgs, metadataFields md = some rgs ∧ readPageIndex cfg chunk a md = .ok (rgs.map fun cols => cols.map fun c =>
      if c.offsetOffset.isSome ∧ c.offsetLength.isSome ∧ c.columnOffset.isSome ∧ c.columnLength.isSome
      then some ((ox c).unshare, (cx c).unshare) else none) := by
  obtain ⟨rgs, hrgs, hd⟩ := C45_direct hm h hw
  refine ⟨rgs, hrgs, ?_⟩
  rw [hd]
  refine mapM_ok fun cols hcols => mapM_ok fun c hc => ?_
  have hcol : IsColumn md c := (isColumn_iff hrgs c).2 (List.mem_flatten.2 ⟨cols, hcols, hc⟩)
  obtain ⟨oo, ol, co, cl⟩ := c
  cases oo with
  | none => rfl
  | some oo =>
  cases ol with
  | none => rfl
  | some ol =>
  cases co with
  | none => rfl
  | some co =>
  cases cl with
  | none => rfl
  | some cl =>
    obtain ⟨t1, t2, ⟨b1, s1, e1, p1⟩, b2, s2, e2, p2⟩ := hs oo ol co cl hcol
    have r1 := (C23_parquet_round_trip (cfg := cfg) (fun n _ => hal n) t1 e1 s1).1
    have r2 := (C23_parquet_round_trip (cfg := cfg) (fun n _ => hal n) t2 e2 s2).1
    unfold direct
    dsimp only
    rw [p1, p2]
    unfold readSlice
    rw [show readThrift cfg (sliceInput cfg) Format.parquetEnv Format.tOffsetIndex (b1 ++ s1) = _ from r1,
      show readThrift cfg (sliceInput cfg) Format.parquetEnv Format.tColumnIndex (b2 ++ s2) = _ from r2]
    rfl

/-- An empty `OffsetIndex` and an empty `ColumnIndex` (3 and 9 bytes) at position 8, and another `OffsetIndex` at position 4. -/
def sampleFile : File := ⟨[0#8, 0#8, 0#8, 0#8, 0x19#8, 0x0C#8, 0#8, 0#8, 0x19#8, 0x0C#8, 0#8,
  0x19#8, 0x01#8, 0x19#8, 0x08#8, 0x19#8, 0x08#8, 0x15#8, 0#8, 0#8], 0, [], []⟩

/-- The hypotheses of C45: a file with both indexes of one column, and a column with only an offset index inside the chunk. -/
example : let cfg : Cfg := ⟨true, true, fun _ => true⟩
    let cs : List IndexFields := [⟨some 8#64, some 3#32, some 11#64, some 9#32⟩, ⟨some 8#64, some 3#32, none, none⟩, ⟨none, none, none, none⟩]
    WellPlaced 8 (mdVal cs) ∧
    (∃ f', getPageIndexChunk cfg (mdVal cs) sampleFile = .ok (some (sampleFile.data.drop 8, (8, 20)), f')) ∧
    readPageIndex cfg (sampleFile.data.drop 8) 8 (mdVal cs) =
      .ok [[some (.struct [.list [], .none], .struct [.list [], .list [], .list [], .enum 0#32, .none, .none, .none]), none, none]] := by
  refine ⟨?_, ⟨_, rfl⟩, rfl⟩
  intro c hc oo ol h1 h2
  rw [isColumn_iff (rgs := [[_, _, _]]) rfl] at hc
  simp at hc
  rcases hc with rfl | rfl | rfl
  · cases h1; cases h2; exact ⟨by decide, .inl ⟨_, _, rfl, rfl, by decide⟩⟩
  · cases h1; cases h2; exact ⟨by decide, .inr ⟨.inl rfl, by decide⟩⟩
  · cases h1

/-- C45: an offset index without a column index may lie before the chunk: the assert fails, though all numbers are fine and all indexes are in the file. -/
theorem C45_panic_before (ov s : Bool) :
    let cfg : Cfg := ⟨ov, s, fun _ => true⟩
    let cs : List IndexFields := [⟨some 8#64, some 3#32, some 11#64, some 9#32⟩, ⟨some 4#64, some 3#32, none, none⟩]
    (∃ f', getPageIndexChunk cfg (mdVal cs) sampleFile = .ok (some (sampleFile.data.drop 8, (8, 20)), f')) ∧
    readPageIndex cfg (sampleFile.data.drop 8) 8 (mdVal cs) = .error .panic := by
  cases ov <;> cases s <;> exact ⟨⟨_, rfl⟩, rfl⟩

/-- C45: an empty offset index fails the assert. -/
theorem C45_panic_empty (cfg : Cfg) (chunk : Bytes) :
    getPageIndexRange cfg (mdVal [⟨some 8#64, some 0#32, some 8#64, some 3#32⟩]) = .ok (some (8, 11)) ∧
    readPageIndex cfg chunk 8 (mdVal [⟨some 8#64, some 0#32, some 8#64, some 3#32⟩]) = .error .panic := by
  constructor
  · cases cfg with | mk ov s al => cases ov <;> rfl
  · cases cfg with | mk ov s al => cases ov <;> rfl

end CT.Props
