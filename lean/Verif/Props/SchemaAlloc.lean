import Verif.Model.SchemaAlloc
import Verif.Props.ParquetSchema
/-!
# C73: the memory requested by the schema conversion
-/
namespace CT.Props
open CT CT.Parquet CT.Schema

mutual
/-- The numbers of children of the groups of a tree, in preorder. -/
def groupSizes : SField → List Nat
  | .group _ fs _ => fs.length :: groupSizesAll fs
  | .primitive .. => []
def groupSizesAll : List SField → List Nat
  | [] => []
  | f :: fs => groupSizes f ++ groupSizesAll fs
end

theorem childLoopCap_erase {recCap : List Element → Nat → List Nat × Except PFail (SField × List Element × Nat)}
    {rec : List Element → Nat → Except PFail (SField × List Element × Nat)} (h : ∀ es ix, (recCap es ix).2 = rec es ix) :
    ∀ n es ix, (childLoopCap recCap n es ix).2 = childLoop rec n es ix
  | 0, es, ix => rfl
  | n + 1, es, ix => by
    rw [childLoopCap, childLoop, ← h es ix]
    obtain ⟨caps, res⟩ := recCap es ix
    cases res with
    | error x => rfl
    | ok t =>
      obtain ⟨f, es', ix'⟩ := t
      dsimp only
      show _ = (childLoop rec n es' ix' >>= _)
      rw [← childLoopCap_erase h n es' ix']
      obtain ⟨caps', res'⟩ := childLoopCap recCap n es' ix'
      cases res' with
      | error x => rfl
      | ok t => rfl

theorem convertInnerCap_erase (cfg : Cfg) : ∀ (n : Nat) (es : List Element) (ix : Nat) (d r nest : BitVec 8),
    (convertInnerCap cfg n es ix d r nest).2 = convertInner cfg n es ix d r nest
  | 0, es, ix, d, r, nest => rfl
  | n + 1, [], ix, d, r, nest => rfl
  | n + 1, e :: tl, ix, d, r, nest => by
    rw [convertInnerCap, convertInner]
    dsimp only
    cases addU8 cfg d (if e.repetitionType.getD 0 = 1 then 1 else 0) with
    | error x => rfl
    | ok d' =>
      cases h2 : addU8 cfg r (if e.repetitionType.getD 0 = 2 then 1 else 0) with
      | error x => simp only [h2]; rfl
      | ok r' =>
        simp only [h2]
        show _ = (fieldFromElement e ix d' r' tl.length >>= _)
        cases fieldFromElement e ix d' r' tl.length with
        | error x => rfl
        | ok fi =>
          obtain ⟨f, ix'⟩ := fi
          cases f with
          | primitive c p l i => rfl
          | group c fs l =>
            dsimp only
            show _ = (addU8 cfg nest 1 >>= _)
            cases addU8 cfg nest 1 with
            | error x => rfl
            | ok nest' =>
              dsimp only
              show _ = (if 128 ≤ nest'.toNat then _ else _)
              by_cases hl : 128 ≤ nest'.toNat
              · rw [if_pos hl, if_pos hl]
              · rw [if_neg hl, if_neg hl]
                show _ = (childLoop _ _ _ _ >>= _)
                rw [← childLoopCap_erase (fun es ix => convertInnerCap_erase cfg n es ix d' r' nest') (asUsize32 (e.numChildren.getD 0)) tl ix']
                obtain ⟨caps', res'⟩ := childLoopCap (fun es index => convertInnerCap cfg n es index d' r' nest') (asUsize32 (e.numChildren.getD 0)) tl ix'
                cases res' with
                | error x => rfl
                | ok t => rfl

/-- C73: counting the requests changes nothing. -/
theorem C73_erase (cfg : Cfg) (es : List Element) : (convertSchemaCap cfg es).2 = convertSchema cfg es := by
  cases es with
  | nil => rfl
  | cons e es =>
    rw [convertSchema_eq, convertSchemaCap, ← convertInnerCap_erase]
    · obtain ⟨caps, res⟩ := convertInnerCap cfg maxDepth (e :: es) 0 0 0 0
      cases res with
      | error x => rfl
      | ok t => rfl
    · intro h; cases h

/-- What is known of the requests of one call with `nest` groups around. -/
def CapsOk (nest : Nat) (es : List Element) (caps : List Nat) : Except PFail (SField × List Element × Nat) → Prop
  | .error _ => caps.sum ≤ (128 - nest) * (es.length - 1)
  | .ok (f, rest, _) => caps = groupSizes f ∧ es.length = rest.length + 1 + caps.sum

theorem childLoopCap_ok {recCap : List Element → Nat → List Nat × Except PFail (SField × List Element × Nat)} {nest : Nat} (hn : nest ≤ 127)
    (h : ∀ es ix, CapsOk nest es (recCap es ix).1 (recCap es ix).2 ∧ ∀ c ∈ (recCap es ix).1, c < es.length) : ∀ n es ix,
    (∀ c ∈ (childLoopCap recCap n es ix).1, c < es.length) ∧
    match (childLoopCap recCap n es ix).2 with
    | .error _ => (childLoopCap recCap n es ix).1.sum ≤ (128 - nest) * es.length
    | .ok (fs, rest, _) => (childLoopCap recCap n es ix).1 = groupSizesAll fs ∧ fs.length = n ∧ es.length = rest.length + n + (childLoopCap recCap n es ix).1.sum
  | 0, es, ix => by simp [childLoopCap, groupSizesAll]
  | n + 1, es, ix => by
    rw [childLoopCap]
    obtain ⟨h1, h2⟩ := h es ix
    rcases hr : recCap es ix with ⟨caps, res⟩
    rw [hr] at h1 h2
    cases res with
    | error x =>
      refine ⟨h2, ?_⟩
      have h1 : caps.sum ≤ (128 - nest) * (es.length - 1) := h1
      exact Nat.le_trans h1 (Nat.mul_le_mul_left _ (Nat.sub_le _ _))
    | ok t =>
      obtain ⟨f, es', ix'⟩ := t
      obtain ⟨hf, hlen⟩ : caps = groupSizes f ∧ es.length = es'.length + 1 + caps.sum := h1
      have ih := childLoopCap_ok hn h n es' ix'
      dsimp only
      rcases hr' : childLoopCap recCap n es' ix' with ⟨caps', res'⟩
      rw [hr'] at ih
      obtain ⟨ih1, ih2⟩ := ih
      have hmem : ∀ c ∈ caps ++ caps', c < es.length := by
        intro c hc
        rcases List.mem_append.1 hc with hc | hc
        · exact h2 c hc
        · have : c < es'.length := ih1 c hc
          omega
      cases res' with
      | error x =>
        refine ⟨hmem, ?_⟩
        have ih2 : caps'.sum ≤ (128 - nest) * es'.length := ih2
        show (caps ++ caps').sum ≤ _
        rw [List.sum_append_nat, hlen, Nat.add_assoc, Nat.mul_add]
        have : 1 + caps.sum ≤ (128 - nest) * (1 + caps.sum) := Nat.le_mul_of_pos_left _ (by omega)
        omega
      | ok t =>
        obtain ⟨fs, rest, ix''⟩ := t
        obtain ⟨ih2, ih3, ih4⟩ : caps' = groupSizesAll fs ∧ fs.length = n ∧ es'.length = rest.length + n + caps'.sum := ih2
        refine ⟨hmem, ?_⟩
        show caps ++ caps' = groupSizesAll (f :: fs) ∧ (f :: fs).length = n + 1 ∧ es.length = rest.length + (n + 1) + (caps ++ caps').sum
        rw [groupSizesAll, hf, ih2, List.sum_append_nat, List.length_cons]
        rw [hf] at hlen; rw [ih2] at ih4
        refine ⟨rfl, by omega, by omega⟩

theorem addU8_ok {cfg : Cfg} {a b c : BitVec 8} (h : addU8 cfg a b = .ok c) : c = a + b := by
  unfold addU8 at h
  split at h
  · cases h
  · cases h; rfl

theorem convertInnerCap_ok (cfg : Cfg) : ∀ (n : Nat) (es : List Element) (ix : Nat) (d r nest : BitVec 8), nest.toNat ≤ 127 →
    CapsOk nest.toNat es (convertInnerCap cfg n es ix d r nest).1 (convertInnerCap cfg n es ix d r nest).2 ∧ ∀ c ∈ (convertInnerCap cfg n es ix d r nest).1, c < es.length
  | 0, es, ix, d, r, nest, hn => by simp [convertInnerCap, CapsOk]
  | n + 1, [], ix, d, r, nest, hn => by simp [convertInnerCap, CapsOk, schemaErr]
  | n + 1, e :: tl, ix, d, r, nest, hn => by
    rw [convertInnerCap]
    dsimp only
    cases addU8 cfg d (if e.repetitionType.getD 0 = 1 then 1 else 0) with
    | error x => simp [CapsOk]
    | ok d' =>
      cases h2 : addU8 cfg r (if e.repetitionType.getD 0 = 2 then 1 else 0) with
      | error x => simp [CapsOk]
      | ok r' =>
        dsimp only
        cases hfe : fieldFromElement e ix d' r' tl.length with
        | error x => simp [CapsOk]
        | ok fi =>
          obtain ⟨f, ix'⟩ := fi
          cases f with
          | primitive c p l i => simp [CapsOk, groupSizes]
          | group c fs l =>
            dsimp only
            have hsize : asUsize32 (e.numChildren.getD 0) ≤ tl.length := by
              obtain ⟨rep, _, ⟨_, _, _, _, _, h, _⟩ | ⟨k, hk, h1, h3, _⟩⟩ := fieldFromElement_ok.1 hfe
              · cases h
              · rw [hk, Option.getD_some]; have := asUsize32_pos (n := k) (by omega); omega
            have hmul : tl.length ≤ (128 - nest.toNat) * tl.length := Nat.le_mul_of_pos_left _ (by omega)
            generalize asUsize32 (e.numChildren.getD 0) = k at hsize ⊢
            cases hadd : addU8 cfg nest 1 with
            | error x => simp [CapsOk]; omega
            | ok nest' =>
              have hnest : nest'.toNat = nest.toNat + 1 := by
                rw [addU8_ok hadd, BitVec.toNat_add]; simp; omega
              dsimp only
              by_cases hl : 128 ≤ nest'.toNat
              · rw [if_pos hl]; simp [CapsOk, schemaErr]; omega
              · rw [if_neg hl]
                have ih := childLoopCap_ok (nest := nest'.toNat) (by omega) (fun es ix => convertInnerCap_ok cfg n es ix d' r' nest' (by omega)) k tl ix'
                rcases hr' : childLoopCap (fun es index => convertInnerCap cfg n es index d' r' nest') k tl ix' with ⟨caps', res'⟩
                rw [hr'] at ih
                obtain ⟨ih1, ih2⟩ := ih
                have hmem : ∀ c ∈ k :: caps', c < (e :: tl).length := by
                  intro c hc
                  rw [List.length_cons]
                  rcases List.mem_cons.1 hc with rfl | hc
                  · omega
                  · have : c < tl.length := ih1 c hc
                    omega
                cases res' with
                | error x =>
                  refine ⟨?_, hmem⟩
                  have ih2 : caps'.sum ≤ (128 - nest'.toNat) * tl.length := ih2
                  show (k :: caps').sum ≤ (128 - nest.toNat) * ((e :: tl).length - 1)
                  rw [List.sum_cons, List.length_cons, Nat.add_sub_cancel]
                  have : (128 - nest.toNat) * tl.length = tl.length + (128 - nest'.toNat) * tl.length := by
                    rw [show 128 - nest.toNat = (128 - nest'.toNat) + 1 by omega, Nat.add_mul]; omega
                  omega
                | ok t =>
                  obtain ⟨fs', rest, ix''⟩ := t
                  obtain ⟨ih2, ih3, ih4⟩ : caps' = groupSizesAll fs' ∧ fs'.length = k ∧
                    tl.length = rest.length + k + caps'.sum := ih2
                  refine ⟨?_, hmem⟩
                  show k :: caps' = groupSizes (.group c fs' l) ∧ (e :: tl).length = rest.length + 1 + (k :: caps').sum
                  rw [groupSizes, List.sum_cons, List.length_cons]
                  exact ⟨by rw [ih2, ih3], by omega⟩

/-- C73: no request for more children than there are elements, whatever the elements claim. -/
theorem C73_each (cfg : Cfg) (es : List Element) : ∀ c ∈ (convertSchemaCap cfg es).1, c < es.length := by
  cases es with
  | nil => simp [convertSchemaCap]
  | cons e es =>
    have h := (convertInnerCap_ok cfg maxDepth (e :: es) 0 0 0 0 (by simp)).2
    rw [convertSchemaCap]
    · rcases hr : convertInnerCap cfg maxDepth (e :: es) 0 0 0 0 with ⟨caps, res⟩
      rw [hr] at h
      cases res with
      | error x => exact h
      | ok t => exact h
    · intro h; cases h

/-- C73: all requests together are at most 128 for each element behind the first, also if the conversion fails. -/
theorem C73_total (cfg : Cfg) (es : List Element) : (convertSchemaCap cfg es).1.sum ≤ 128 * (es.length - 1) := by
  cases es with
  | nil => simp [convertSchemaCap]
  | cons e es =>
    have h := (convertInnerCap_ok cfg maxDepth (e :: es) 0 0 0 0 (by simp)).1
    rw [convertSchemaCap]
    · rcases hr : convertInnerCap cfg maxDepth (e :: es) 0 0 0 0 with ⟨caps, res⟩
      rw [hr] at h
      cases res with
      | error x => exact h
      | ok t =>
        obtain ⟨f, rest, ix⟩ := t
        obtain ⟨_, h⟩ : caps = groupSizes f ∧ (e :: es).length = rest.length + 1 + caps.sum := h
        show caps.sum ≤ _
        rw [h]; omega
    · intro h; cases h

/-- C73: if it succeeds, exactly the children are requested: no vector grows and no space is left over. -/
theorem C73_exact {cfg : Cfg} {es : List Element} {root : SField} (h : convertSchema cfg es = .ok root) :
    (convertSchemaCap cfg es).1 = groupSizes root ∧ (convertSchemaCap cfg es).1.sum + 1 = es.length := by
  have he := C73_erase cfg es
  rw [h] at he
  cases es with
  | nil => cases he
  | cons e es =>
    have h := (convertInnerCap_ok cfg maxDepth (e :: es) 0 0 0 0 (by simp)).1
    rw [convertSchemaCap] at he ⊢
    · rcases hr : convertInnerCap cfg maxDepth (e :: es) 0 0 0 0 with ⟨caps, res⟩
      rw [hr] at h he
      cases res with
      | error x => cases he
      | ok t =>
        obtain ⟨f, rest, ix⟩ := t
        obtain ⟨h1, h2⟩ : caps = groupSizes f ∧ (e :: es).length = rest.length + 1 + caps.sum := h
        dsimp only at he ⊢
        split at he
        · cases he
        · rename_i hrest
          split at he
          · cases he
          · cases he
            have : rest = [] := Decidable.of_not_not hrest
            subst this
            exact ⟨h1, by rw [h2]; simp; omega⟩
    · intro h; cases h
    · intro h; cases h

/-- Groups each claiming all elements behind them: 3 + 2 + 1 children are requested for 4 elements before the last one is found to be missing its own. -/
example (cfg : Cfg) :
    let e (n : BitVec 32) : Element := ⟨none, none, none, [], some n, none, none, none, none, none⟩
    convertSchemaCap cfg [e 3, e 2, e 1, e 1] = ([3, 2, 1], .error (.err (.schema "Invalid number of children"))) ∧
    convertSchema cfg sampleElements = .ok sampleTree := by
  refine ⟨?_, sample_converts cfg⟩
  obtain ⟨o, s, a⟩ := cfg
  cases o <;> rfl

end CT.Props
