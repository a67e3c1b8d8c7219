import Verif.Proofs.ParquetSchema
/-! # C46-C51, C53, C64, C65: conversion of Parquet schemas -/
namespace CT.Props
open CT Spec Schema Parquet

theorem convertInner_indep (cfg cfg' : Cfg) : ∀ (n m : Nat) (es : List Element) (ix : Nat) (d r nest : BitVec 8),
    d.toNat ≤ nest.toNat → r.toNat ≤ nest.toNat → nest.toNat ≤ 127 → 128 ≤ n + nest.toNat → 128 ≤ m + nest.toNat →
    convertInner cfg n es ix d r nest = convertInner cfg' m es ix d r nest
  | 0, _, _, _, _, _, _, _, _, _, _, _ => by omega
  | _ + 1, 0, _, _, _, _, _, _, _, _, _, _ => by omega
  | n + 1, m + 1, es, ix, d, r, nest, hd, hr, hn, h1, h2 => by
    cases es with
    | nil => rfl
    | cons e tl =>
      rw [convertInner_step cfg n e tl ix d r nest hd hr hn, convertInner_step cfg' m e tl ix d r nest hd hr hn]
      by_cases hlt : 127 ≤ nest.toNat
      · simp only [if_pos hlt]
      · have hnest := (addU8_small cfg (a := nest) (b := 1) (by simp; omega)).2
        have h3 := addU8_small cfg (a := d) (b := if e.repetitionType.getD 0 = 1 then 1 else 0) (by split <;> simp <;> omega)
        have h4 := addU8_small cfg (a := r) (b := if e.repetitionType.getD 0 = 2 then 1 else 0) (by split <;> simp <;> omega)
        have h5 : (if e.repetitionType.getD 0 = 1 then 1 else 0 : BitVec 8).toNat ≤ 1 := by split <;> simp
        have h6 : (if e.repetitionType.getD 0 = 2 then 1 else 0 : BitVec 8).toNat ≤ 1 := by split <;> simp
        have h7 : (1 : BitVec 8).toNat = 1 := rfl
        have : (fun es index => convertInner cfg n es index (d + if e.repetitionType.getD 0 = 1 then 1 else 0)
            (r + if e.repetitionType.getD 0 = 2 then 1 else 0) (nest + 1)) =
            (fun es index => convertInner cfg' m es index (d + if e.repetitionType.getD 0 = 1 then 1 else 0)
            (r + if e.repetitionType.getD 0 = 2 then 1 else 0) (nest + 1)) := by
          funext es ix
          refine convertInner_indep cfg cfg' n m es ix _ _ _ ?_ ?_ ?_ ?_ ?_ <;> omega
        rw [this]

theorem convertSchema_eq (cfg : Cfg) (e : Element) (es : List Element) : convertSchema cfg (e :: es) =
    match convertInner cfg maxDepth (e :: es) 0 0 0 0 with
    | .error x => .error x
    | .ok (root, remainder, _) =>
      if remainder ≠ [] then schemaErr "Trailing schema elements after root group"
      else if root.common.repetition ≠ .Required then schemaErr "Root element must have repetition type required"
      else .ok root := by
  unfold convertSchema
  dsimp only
  cases convertInner cfg maxDepth (e :: es) 0 0 0 0 with
  | error x => rfl
  | ok t => rfl

/-- The conversion of the whole list. -/
theorem inner_top (cfg : Cfg) (es : List Element) (f : SField) (rest : List Element) (ix' : Nat) :
    convertInner cfg maxDepth es 0 0 0 0 = .ok (f, rest, ix') ↔ From 0 0 0 es 0 f rest ix' :=
  convertInner_iff cfg maxDepth es 0 0 0 0 f rest ix' (by simp) (by simp) (by simp) (by simp [maxDepth])

/-- The right definition and repetition levels everywhere in the tree. -/
def LevelsOk (root : SField) : Prop := ∀ path g, Reach root path g → g.common.defLevel.toNat = optionals path ∧ g.common.repLevel.toNat = repeateds path

/-- Leaves numbered from 0 in preorder. -/
def IndexesOk (root : SField) : Prop := indexes root = (List.range (indexes root).length).map (BitVec.ofNat 32)

/-- C46, C47, C48, C49 together: `convert_schema` returns a tree exactly if the elements are its preorder, it has the right levels and
leaf indexes, no path with more than 127 groups, and a required root. -/
theorem C46_iff (cfg : Cfg) (es : List Element) (root : SField) : convertSchema cfg es = .ok root ↔
    Flat root es ∧ LevelsOk root ∧ IndexesOk root ∧ height root ≤ 127 ∧ root.common.repetition = .Required := by
  have hlev : LevelsFrom 0 0 root ↔ LevelsOk root := by unfold LevelsFrom LevelsOk; simp
  cases es with
  | nil =>
    constructor
    · intro h; cases h
    · rintro ⟨h, _⟩; have := flat_pos h; simp at this
  | cons e es =>
    rw [convertSchema_eq]
    constructor
    · intro h
      split at h
      · cases h
      · rename_i root' rem ix' hc
        split at h
        · cases h
        · rename_i hrem
          split at h
          · cases h
          · rename_i hrep
            cases h
            obtain ⟨pre, he, hf, hl, hi, _, hh⟩ := (inner_top cfg _ _ _ _).1 hc
            obtain rfl : rem = [] := by simpa using hrem
            rw [List.append_nil] at he
            refine ⟨he ▸ hf, hlev.1 hl, ?_, by omega, by simpa using hrep⟩
            unfold IndexesOk; rw [List.range_eq_range']; exact hi
    · rintro ⟨hf, hl, hi, hh, hr⟩
      unfold IndexesOk at hi; rw [List.range_eq_range'] at hi
      rw [(inner_top cfg _ root [] (0 + (indexes root).length)).2 ⟨_, by simp, hf, hlev.2 hl, hi, rfl, by omega⟩]
      simp [hr]

/-! ## C46: flattening -/

/-- The element of a leaf. -/
def leafElement (c : Common) (p : PhysicalType) (l : Option PrimitiveLogicalType) : Element :=
  { type_ := some (match p with
      | .BOOLEAN => 0 | .INT32 => 1 | .INT64 => 2 | .INT96 => 3 | .FLOAT => 4 | .DOUBLE => 5 | .BYTE_ARRAY => 6 | .FIXED_LEN_BYTE_ARRAY _ => 7)
    typeLength := match p with | .FIXED_LEN_BYTE_ARRAY n => some n | _ => none
    repetitionType := some (match c.repetition with | .Required => 0 | .Optional => 1 | .Repeated => 2)
    name := c.name
    numChildren := none
    convertedType := if l = some .Interval then some 21 else none
    scale := none
    precision := none
    fieldId := c.fieldId
    logicalType := match l with
      | none => none
      | some .String => some .STRING
      | some .Enum => some .ENUM
      | some (.Decimal o) => some (.DECIMAL (o.scale.signExtend 32) (o.precision.setWidth 32))
      | some .Date => some .DATE
      | some (.Time o) => some (.TIME o.isAdjustedToUtc o.timeUnit)
      | some (.Timestamp o) => some (.TIMESTAMP o.isAdjustedToUtc o.timeUnit)
      | some .Interval => none
      | some (.Integer o) => some (.INTEGER o.bitwidth o.isSigned)
      | some .Unknown => some .UNKNOWN
      | some .Json => some .JSON
      | some .Bson => some .BSON
      | some .UUID => some .UUID
      | some .Float16 => some .FLOAT16
      | some .Geometry => some .GEOMETRY
      | some .Geography => some .GEOGRAPHY }

/-- The element of a group with `n` children. -/
def groupElement (c : Common) (n : Nat) (l : Option GroupLogicalType) : Element :=
  { type_ := none
    typeLength := none
    repetitionType := some (match c.repetition with | .Required => 0 | .Optional => 1 | .Repeated => 2)
    name := c.name
    numChildren := some (BitVec.ofNat 32 n)
    convertedType := if l = some .MapKeyValue then some 2 else none
    scale := none
    precision := none
    fieldId := c.fieldId
    logicalType := match l with
      | none => none
      | some .List => some .LIST
      | some .Map => some .MAP
      | some .MapKeyValue => none
      | some (.Variant v) => some (.VARIANT v) }

mutual
/-- The elements of a tree, in preorder. -/
def flatten : SField → List Element
  | .primitive c p l _ => [leafElement c p l]
  | .group c fs l => groupElement c fs.length l :: flattenAll fs
def flattenAll : List SField → List Element
  | [] => []
  | f :: fs => flatten f ++ flattenAll fs
end

/-- A leaf whose numbers the format can express. -/
def LeafValid (p : PhysicalType) (l : Option PrimitiveLogicalType) : Prop :=
  (∀ n, p = .FIXED_LEN_BYTE_ARRAY n → 0 < n.toInt) ∧
  (∀ o, l = some (.Decimal o) → 1 ≤ o.precision.toNat ∧ o.precision.toNat ≤ 127 ∧ o.scale.toInt ≤ o.precision.toNat) ∧
  ∀ o, l = some (.Integer o) → 1 ≤ o.bitwidth.toNat ∧ o.bitwidth.toNat ≤ 127

/-- A tree whose leaves are valid and whose groups have between 1 and 2^31-1 children. -/
inductive Valid : SField → Prop
  | primitive (c p l i) (h : LeafValid p l) : Valid (.primitive c p l i)
  | group (c fs l) (h0 : fs ≠ []) (hl : fs.length < 2 ^ 31) (h : ∀ f ∈ fs, Valid f) : Valid (.group c fs l)

theorem flat_leafElement {c : Common} {p : PhysicalType} {l : Option PrimitiveLogicalType} (i : BitVec 32) (h : LeafValid p l) :
    Flat (.primitive c p l i) [leafElement c p l] := by
  obtain ⟨h1, h2, h3⟩ := h
  refine .primitive _ _ _ _ _ _ rfl ⟨rfl, rfl, ?_⟩ rfl ?_ ?_
  · unfold leafElement; cases c.repetition <;> constructor
  · cases p with
    | FIXED_LEN_BYTE_ARRAY n => exact .fixed _ (h1 n rfl) _ (toNat_of_toInt_pos (by have := h1 n rfl; omega))
    | _ => constructor
  · refine (C53_leaf _ _).1 ?_
    have hlt : ∀ lt x, l = some x → (leafElement c p l).logicalType = some lt → LeafLogical lt x → leafLogicalType (leafElement c p l) = l := by
      intro lt x hl h h'
      unfold leafLogicalType
      rw [h]
      rw [show (some lt : Option LogicalType).bind (fun l => okOf (PrimitiveLogicalType.ofLogical l)) = some x from okOf_eq_some.2 ((leafLogical_iff _ _).2 h')]
      rw [hl]
    cases l with
    | none => rfl
    | some x =>
      cases x with
      | Interval => rfl
      | Decimal o =>
        refine hlt _ _ rfl rfl (.decimal _ _ _ ?_)
        have := h2 o rfl
        have e1 : (o.precision.setWidth 32).toInt = o.precision.toNat := by
          rw [BitVec.toInt_eq_toNat_cond, BitVec.toNat_setWidth, Nat.mod_eq_of_lt (by have := o.precision.isLt; omega), if_pos (by omega)]
        have e2 : (o.scale.signExtend 32).toInt = o.scale.toInt := BitVec.toInt_signExtend_of_le (by omega)
        have e3 : -128 ≤ o.scale.toInt := by have := BitVec.le_toInt o.scale; omega
        unfold DecimalOf
        rw [e1, e2]
        omega
      | Integer o =>
        have := h3 o rfl
        have e : o.bitwidth.toInt = o.bitwidth.toNat := by rw [BitVec.toInt_eq_toNat_cond, if_pos (by omega)]
        exact hlt _ _ rfl rfl (.integer _ _ (by omega) _ e.symm)
      | String => exact hlt _ _ rfl rfl .string
      | Enum => exact hlt _ _ rfl rfl .enum
      | Date => exact hlt _ _ rfl rfl .date
      | Time o => exact hlt _ _ rfl rfl (.time _ _)
      | Timestamp o => exact hlt _ _ rfl rfl (.timestamp _ _)
      | Unknown => exact hlt _ _ rfl rfl .unknown
      | Json => exact hlt _ _ rfl rfl .json
      | Bson => exact hlt _ _ rfl rfl .bson
      | UUID => exact hlt _ _ rfl rfl .uuid
      | Float16 => exact hlt _ _ rfl rfl .float16
      | Geometry => exact hlt _ _ rfl rfl .geometry
      | Geography => exact hlt _ _ rfl rfl .geography

theorem flattenAll_flats : ∀ (fs : List SField), (∀ f ∈ fs, Flat f (flatten f)) → Flats fs (flattenAll fs)
  | [], _ => by rw [flattenAll]; exact .nil
  | f :: fs, h => by rw [flattenAll]; exact .cons _ _ _ _ (h f (by simp)) (flattenAll_flats fs fun g hg => h g (by simp [hg]))

/-- C46: the elements `flatten` gives are the preorder of the tree. -/
theorem flatten_flat {f : SField} (h : Valid f) : Flat f (flatten f) := by
  induction h with
  | primitive c p l i h => rw [flatten]; exact flat_leafElement i h
  | group c fs l h0 hl h ih =>
    rw [flatten]
    refine .group _ _ (BitVec.ofNat 32 fs.length) _ _ _ rfl ?_ h0 ⟨rfl, rfl, ?_⟩ ?_ (flattenAll_flats fs ih)
    · rw [BitVec.toInt_eq_toNat_cond, BitVec.toNat_ofNat, Nat.mod_eq_of_lt (by omega), if_pos (by omega)]
    · unfold groupElement; cases c.repetition <;> constructor
    · refine (C53_group _ _).1 ?_
      cases l with
      | none => rfl
      | some x => cases x <;> rfl

/-- C46: flattening a tree and converting gives the tree back. -/
theorem C46_round_trip (cfg : Cfg) {f : SField} (hv : Valid f) (hl : LevelsOk f) (hi : IndexesOk f) (hh : height f ≤ 127) (hr : f.common.repetition = .Required) :
    convertSchema cfg (flatten f) = .ok f :=
  (C46_iff cfg _ _).2 ⟨flatten_flat hv, hl, hi, hh, hr⟩

theorem leafLogical_valid {l : LogicalType} {x : PrimitiveLogicalType} (h : LeafLogical l x) {p : PhysicalType} (hp : ∀ n, p = .FIXED_LEN_BYTE_ARRAY n → 0 < n.toInt) :
    LeafValid p (some x) := by
  refine ⟨hp, ?_, ?_⟩
  · intro o ho
    cases h <;> cases ho
    rename_i h
    obtain ⟨h1, h2, h3, h4, h5, h6⟩ := h
    omega
  · intro o ho
    cases h <;> cases ho
    rename_i w s h w' hw
    have := BitVec.toInt_lt (x := w)
    dsimp only
    omega

theorem leafConverted_valid {c : BitVec 32} {pr sc : Option (BitVec 32)} {x : PrimitiveLogicalType} (h : LeafConverted c pr sc x) {p : PhysicalType}
    (hp : ∀ n, p = .FIXED_LEN_BYTE_ARRAY n → 0 < n.toInt) : LeafValid p (some x) := by
  refine ⟨hp, ?_, ?_⟩
  · intro o ho
    cases h <;> cases ho
    rename_i h
    obtain ⟨h1, h2, h3, h4, h5, h6⟩ := h
    omega
  · intro o ho
    cases h <;> cases ho <;> decide

theorem physical_fixed {t : BitVec 32} {len : Option (BitVec 32)} {p : PhysicalType} (hp : PhysicalOf t len p) : ∀ n, p = .FIXED_LEN_BYTE_ARRAY n → 0 < n.toInt := by
  intro n hn
  cases hp <;> cases hn
  rename_i len h hh
  have := toNat_of_toInt_pos (x := len) (by omega)
  rw [show n = len from BitVec.eq_of_toNat_eq (by omega)]; exact h

mutual
/-- Only valid trees have a preorder. -/
theorem flat_valid : ∀ {f : SField} {es : List Element}, Flat f es → Valid f
  | _, _, .primitive e c t p l i h0 hc ht hp hl => by
    refine .primitive _ _ _ _ ?_
    have hfix : ∀ n, p = .FIXED_LEN_BYTE_ARRAY n → 0 < n.toInt := by
      exact physical_fixed hp
    rcases hl with ⟨x, ⟨lt, _, h⟩, rfl⟩ | ⟨_, ⟨x, ⟨ct, _, h⟩, rfl⟩ | ⟨_, rfl⟩⟩
    · exact leafLogical_valid h hfix
    · exact leafConverted_valid h hfix
    · exact ⟨hfix, by simp, by simp⟩
  | _, _, .group e c n fs l es hn h h0 hc hl hs => by
    refine .group _ _ _ h0 ?_ (flats_valid hs)
    have := BitVec.toInt_lt (x := n)
    omega
theorem flats_valid : ∀ {fs : List SField} {es : List Element}, Flats fs es → ∀ f ∈ fs, Valid f
  | _, _, .nil => by simp
  | _, _, .cons f fs es es' h hs => by
    intro g hg
    rcases List.mem_cons.1 hg with hg | hg
    · rw [hg]; exact flat_valid h
    · exact flats_valid hs g hg
end

/-- C46: every tree that ever results can be flattened and converted again. -/
theorem C46_stable (cfg : Cfg) {es : List Element} {root : SField} (h : convertSchema cfg es = .ok root) : Valid root ∧ convertSchema cfg (flatten root) = .ok root := by
  obtain ⟨hf, hl, hi, hh, hr⟩ := (C46_iff cfg _ _).1 h
  exact ⟨flat_valid hf, C46_round_trip cfg (flat_valid hf) hl hi hh hr⟩

/-- A schema with a nested optional group, a repeated and a required leaf. -/
def sampleElements : List Element :=
  [⟨none, none, none, [0x72#8], some 2, none, none, none, none, none⟩,
   ⟨none, none, some 1, [0x61#8], some 1, some 3, none, none, none, none⟩,
   ⟨some 1, none, some 2, [0x62#8], none, none, none, none, some 7, none⟩,
   ⟨some 7, some 16, some 0, [0x63#8], none, none, none, none, none, some .UUID⟩]

/-- What becomes of it. -/
def sampleTree : SField := .group ⟨[0x72#8], none, .Required, 0, 0⟩
  [.group ⟨[0x61#8], none, .Optional, 1, 0⟩ [.primitive ⟨[0x62#8], some 7, .Repeated, 1, 1⟩ .INT32 none 0] (some .List),
   .primitive ⟨[0x63#8], none, .Required, 0, 0⟩ (.FIXED_LEN_BYTE_ARRAY 16) (some .UUID) 1] none

theorem sample_converts (cfg : Cfg) : convertSchema cfg sampleElements = .ok sampleTree := by
  obtain ⟨ov, s, al⟩ := cfg
  cases ov <;> rfl

/-- The hypotheses of `C46_round_trip` hold for the sample. -/
example (cfg : Cfg) : Valid sampleTree ∧ LevelsOk sampleTree ∧ IndexesOk sampleTree ∧ height sampleTree ≤ 127 ∧ sampleTree.common.repetition = .Required :=
  ⟨(C46_stable cfg (sample_converts cfg)).1, ((C46_iff cfg _ _).1 (sample_converts cfg)).2⟩

/-! ## C47, C64: levels -/

/-- C47: each field's definition (repetition) level is the number of optional (repeated) fields on its path, itself included. -/
theorem C47_levels {cfg : Cfg} {es : List Element} {root : SField} (h : convertSchema cfg es = .ok root) {path : List SField} {g : SField} (hr : Reach root path g) :
    g.common.defLevel.toNat = optionals path ∧ g.common.repLevel.toNat = repeateds path :=
  ((C46_iff cfg _ _).1 h).2.1 path g hr

/-- The largest definition level according to the Parquet format (Encodings.md, README.md "Nested Encoding"): optional and repeated fields count. -/
def standardDefLevel (path : List SField) : Nat := path.countP fun f => f.common.repetition != .Required

/-- C64: the definition level falls short of that of the format by the number of repeated fields. -/
theorem C64_short {cfg : Cfg} {es : List Element} {root : SField} (h : convertSchema cfg es = .ok root) {path : List SField} {g : SField} (hr : Reach root path g) :
    standardDefLevel path = g.common.defLevel.toNat + g.common.repLevel.toNat := by
  obtain ⟨h1, h2⟩ := C47_levels h hr
  rw [h1, h2]
  clear h1 h2 hr h
  unfold standardDefLevel optionals repeateds
  induction path with
  | nil => rfl
  | cons f p ih =>
    rw [List.countP_cons, List.countP_cons, List.countP_cons, ih]
    cases f.common.repetition <;> simp <;> omega

/-- C64: so it is right exactly for fields without repeated ones on their path. -/
theorem C64_iff {cfg : Cfg} {es : List Element} {root : SField} (h : convertSchema cfg es = .ok root) {path : List SField} {g : SField} (hr : Reach root path g) :
    g.common.defLevel.toNat = standardDefLevel path ↔ ∀ f ∈ path, f.common.repetition ≠ .Repeated := by
  rw [C64_short h hr, (C47_levels h hr).2]
  unfold repeateds
  constructor
  · intro h f hf hrep
    have : 0 < path.countP fun f => f.common.repetition == .Repeated := List.countP_pos_iff.2 ⟨f, hf, by simp [hrep]⟩
    omega
  · intro h
    have : path.countP (fun f => f.common.repetition == .Repeated) = 0 := List.countP_eq_zero.2 fun f hf => by simpa using h f hf
    omega

/-- C64: the repeated leaf of the sample gets definition level 1 instead of 2. -/
theorem C64_counterexample (cfg : Cfg) : ∃ root path g, convertSchema cfg sampleElements = .ok root ∧ Reach root path g ∧
    g.common.defLevel.toNat = 1 ∧ standardDefLevel path = 2 :=
  ⟨sampleTree, _, _, sample_converts cfg, .child _ _ _ _ _ _ (List.mem_cons_self) (.child _ _ _ _ _ _ (List.mem_cons_self) (.here _)), rfl, rfl⟩

/-! ## C48: indexes -/

/-- A leaf element. -/
def isLeaf (e : Element) : Bool := e.numChildren.getD 0 == 0

mutual
theorem flat_leaves : ∀ {f : SField} {es : List Element}, Flat f es → (indexes f).length = es.countP isLeaf
  | _, _, .primitive e c t p l i h0 hc ht hp hl => by
    have : isLeaf e = true := by unfold isLeaf; rw [h0]; rfl
    simp [indexes, this]
  | _, _, .group e c n fs l es hn h h0 hc hl hs => by
    have := flats_leaves hs
    have hpos : 0 < fs.length := List.length_pos_iff.2 h0
    have hne : ¬ n = 0 := fun hz => by rw [hz] at h; change (0 : Int) = _ at h; omega
    rw [indexes, List.countP_cons, this]
    have : isLeaf e = false := by unfold isLeaf; rw [hn]; simpa using hne
    simp [this]
theorem flats_leaves : ∀ {fs : List SField} {es : List Element}, Flats fs es → (indexesAll fs).length = es.countP isLeaf
  | _, _, .nil => by simp [indexesAll]
  | _, _, .cons f fs es es' h hs => by
    rw [indexesAll, List.length_append, List.countP_append, flat_leaves h, flats_leaves hs]
end

/-- C48: there are as many leaves as elements without children; they carry the indexes 0, 1, 2, … in preorder. -/
theorem C48_indexes {cfg : Cfg} {es : List Element} {root : SField} (h : convertSchema cfg es = .ok root) :
    indexes root = (List.range (es.countP isLeaf)).map (BitVec.ofNat 32) := by
  obtain ⟨hf, _, hi, _⟩ := (C46_iff cfg _ _).1 h
  have := hi
  unfold IndexesOk at this
  rw [flat_leaves hf] at this
  exact this

/-- C48: unwrapped, if there are at most 2^32 elements. -/
theorem C48_distinct {cfg : Cfg} {es : List Element} (hlen : es.length ≤ 2 ^ 32) {root : SField} (h : convertSchema cfg es = .ok root) :
    (indexes root).map BitVec.toNat = List.range (es.countP isLeaf) := by
  rw [C48_indexes h, List.map_map]
  conv => rhs; rw [← List.map_id (List.range (es.countP isLeaf))]
  apply List.map_congr_left
  intro n hn
  have h1 := List.mem_range.1 hn
  have h2 : es.countP isLeaf ≤ es.length := List.countP_le_length
  show (BitVec.ofNat 32 n).toNat = n
  rw [BitVec.toNat_ofNat, Nat.mod_eq_of_lt (by omega)]

/-! ## C49: depth and overflow -/

/-- C49: neither overflow checks nor anything else of the build makes a difference: the 8-bit counters never overflow. -/
theorem C49_no_overflow (cfg cfg' : Cfg) (es : List Element) : convertSchema cfg es = convertSchema cfg' es := by
  cases es with
  | nil => rfl
  | cons e es =>
    rw [convertSchema_eq, convertSchema_eq, convertInner_indep cfg cfg' maxDepth maxDepth (e :: es) 0 0 0 0 (by simp) (by simp) (by simp) (by simp [maxDepth]) (by simp [maxDepth])]

/-- C49: 128 nested calls are always enough, whatever the elements. -/
theorem C49_depth (cfg : Cfg) (es : List Element) (n : Nat) (hn : 128 ≤ n) : convertInner cfg n es 0 0 0 0 = convertInner cfg 128 es 0 0 0 0 :=
  convertInner_indep cfg cfg n 128 es 0 0 0 0 (by simp) (by simp) (by simp) (by simp; omega) (by simp)

/-- C49, C50: all failures are ordinary errors: no panic, no endless recursion. -/
theorem C50_only_errors (cfg : Cfg) (es : List Element) :
    (∃ root, convertSchema cfg es = .ok root) ∨ (∃ msg, convertSchema cfg es = .error (.err (.schema msg))) ∨
    ∃ id, convertSchema cfg es = .error (.err (.unknownType id)) := by
  cases es with
  | nil => exact .inr (.inl ⟨_, rfl⟩)
  | cons e es =>
    rw [convertSchema_eq]
    cases hc : convertInner cfg maxDepth (e :: es) 0 0 0 0 with
    | error x =>
      rcases convertInner_error cfg maxDepth _ _ _ _ _ _ (by simp) (by simp) (by simp) (by simp [maxDepth]) hc with ⟨m, rfl⟩ | ⟨id, rfl⟩
      · exact .inr (.inl ⟨m, rfl⟩)
      · exact .inr (.inr ⟨id, rfl⟩)
    | ok t =>
      obtain ⟨root, rem, ix⟩ := t
      dsimp only
      split
      · exact .inr (.inl ⟨_, rfl⟩)
      · split
        · exact .inr (.inl ⟨_, rfl⟩)
        · exact .inl ⟨_, rfl⟩

mutual
/-- A preorder can be numbered. -/
theorem flat_relabel : ∀ {f : SField} {es : List Element}, Flat f es → ∀ (d r ix : Nat), d + height f < 255 → r + height f < 255 →
    ∃ f', Flat f' es ∧ LevelsFrom d r f' ∧ indexes f' = (List.range' ix (indexes f').length).map (BitVec.ofNat 32) ∧ height f' = height f ∧
      f'.common.repetition = f.common.repetition
  | _, _, .primitive e c t p l i h0 hc ht hp hl, d, r, ix, hd, hr => by
    have h1 : optOf c.repetition ≤ 1 ∧ repOf c.repetition ≤ 1 := by cases c.repetition <;> decide
    refine ⟨.primitive { c with defLevel := BitVec.ofNat 8 (d + optOf c.repetition), repLevel := BitVec.ofNat 8 (r + repOf c.repetition) } p l (BitVec.ofNat 32 ix),
      .primitive e _ t p l _ h0 ⟨hc.1, hc.2.1, hc.2.2⟩ ht hp hl, levelsFrom_primitive.2 ⟨?_, ?_⟩, by simp [indexes], rfl, rfl⟩
    · simp only [height] at hd
      show (BitVec.ofNat 8 (d + optOf c.repetition)).toNat = d + optOf c.repetition
      rw [BitVec.toNat_ofNat]; omega
    · simp only [height] at hr
      show (BitVec.ofNat 8 (r + repOf c.repetition)).toNat = r + repOf c.repetition
      rw [BitVec.toNat_ofNat]; omega
  | _, _, .group e c n fs l es hn h h0 hc hl hs, d, r, ix, hd, hr => by
    have h1 : optOf c.repetition ≤ 1 ∧ repOf c.repetition ≤ 1 := by cases c.repetition <;> decide
    simp only [height] at hd hr
    obtain ⟨fs', h1', h2, h3, h4, h5⟩ := flats_relabel hs (d + optOf c.repetition) (r + repOf c.repetition) ix (by omega) (by omega)
    refine ⟨.group { c with defLevel := BitVec.ofNat 8 (d + optOf c.repetition), repLevel := BitVec.ofNat 8 (r + repOf c.repetition) } fs' l,
      .group e _ n fs' l es hn (by rw [h5]; exact h) (fun h => h0 (List.length_eq_zero_iff.1 (by rw [← h5, h]; rfl))) ⟨hc.1, hc.2.1, hc.2.2⟩ hl h1',
      levelsFrom_group.2 ⟨?_, ?_, h2⟩, by simpa [indexes] using h3, by simp [height, h4], rfl⟩
    · show (BitVec.ofNat 8 (d + optOf c.repetition)).toNat = d + optOf c.repetition
      rw [BitVec.toNat_ofNat]; omega
    · show (BitVec.ofNat 8 (r + repOf c.repetition)).toNat = r + repOf c.repetition
      rw [BitVec.toNat_ofNat]; omega
theorem flats_relabel : ∀ {fs : List SField} {es : List Element}, Flats fs es → ∀ (d r ix : Nat), d + heightAll fs < 255 → r + heightAll fs < 255 →
    ∃ fs', Flats fs' es ∧ (∀ f ∈ fs', LevelsFrom d r f) ∧ indexesAll fs' = (List.range' ix (indexesAll fs').length).map (BitVec.ofNat 32) ∧ heightAll fs' = heightAll fs ∧
      fs'.length = fs.length
  | _, _, .nil, d, r, ix, hd, hr => ⟨[], .nil, by simp, by simp [indexesAll], rfl, rfl⟩
  | _, _, .cons f fs es es' h hs, d, r, ix, hd, hr => by
    simp only [heightAll] at hd hr
    obtain ⟨f', a1, a2, a3, a4, _⟩ := flat_relabel h d r ix (by omega) (by omega)
    obtain ⟨fs', b1, b2, b3, b4, b5⟩ := flats_relabel hs d r (ix + (indexes f').length) (by omega) (by omega)
    refine ⟨f' :: fs', .cons _ _ _ _ a1 b1, ?_, ?_, by simp [heightAll, a4, b4], by simp [b5]⟩
    · intro g hg
      rcases List.mem_cons.1 hg with rfl | hg
      · exact a2
      · exact b2 g hg
    · simp only [indexesAll, List.length_append]
      rw [← List.range'_append, List.map_append, Nat.one_mul, ← a3, ← b3]
end

/-- C46, C49: a list of elements is accepted exactly if it is the preorder of some tree with at most 127 groups on a path and a required root. -/
theorem C46_accepted (cfg : Cfg) (es : List Element) : (∃ root, convertSchema cfg es = .ok root) ↔
    ∃ f, Flat f es ∧ height f ≤ 127 ∧ f.common.repetition = .Required := by
  constructor
  · rintro ⟨root, h⟩
    obtain ⟨h1, _, _, h2, h3⟩ := (C46_iff cfg _ _).1 h
    exact ⟨root, h1, h2, h3⟩
  · rintro ⟨f, h1, h2, h3⟩
    obtain ⟨f', a1, a2, a3, a4, a5⟩ := flat_relabel h1 0 0 0 (by omega) (by omega)
    refine ⟨f', (C46_iff cfg _ _).2 ⟨a1, fun p g hr => ?_, ?_, by omega, by rw [a5]; exact h3⟩⟩
    · have := a2 p g hr; simpa using this
    · unfold IndexesOk; rw [List.range_eq_range']; exact a3

/-- The inner conversion accepts a preorder that is not too deep. -/
theorem inner_accepts (cfg : Cfg) {f : SField} {es : List Element} (hf : Flat f es) (n : Nat) (rest : List Element) (ix : Nat) (d r nest : BitVec 8)
    (hd : d.toNat ≤ nest.toNat) (hr : r.toNat ≤ nest.toNat) (hn : nest.toNat + height f ≤ 127) (hfuel : 128 ≤ n + nest.toNat) :
    ∃ f' ix', convertInner cfg n (es ++ rest) ix d r nest = .ok (f', rest, ix') := by
  obtain ⟨f', a1, a2, a3, a4, _⟩ := flat_relabel hf d.toNat r.toNat ix (by omega) (by omega)
  exact ⟨f', ix + (indexes f').length, (convertInner_iff cfg n _ ix d r nest f' rest _ hd hr (by omega) hfuel).2 ⟨es, rfl, a1, a2, a3, rfl, by omega⟩⟩

mutual
theorem flat_too_deep (cfg : Cfg) : ∀ {f : SField} {es : List Element}, Flat f es → ∀ (n : Nat) (rest : List Element) (ix : Nat) (d r nest : BitVec 8),
    d.toNat ≤ nest.toNat → r.toNat ≤ nest.toNat → nest.toNat ≤ 127 → 128 ≤ n + nest.toNat → 127 < nest.toNat + height f →
    convertInner cfg n (es ++ rest) ix d r nest = schemaErr "Schema is too deeply nested"
  | _, _, .primitive .., n, rest, ix, d, r, nest, hd, hr, hn, hfuel, hh => by simp only [height] at hh; omega
  | _, _, .group e c k fs l es hk hlen hne hc hl hs, 0, rest, ix, d, r, nest, hd, hr, hn, hfuel, hh => by omega
  | _, _, .group e c k fs l es hk hlen hne hc hl hs, n + 1, rest, ix, d, r, nest, hd, hr, hn, hfuel, hh => by
    simp only [height] at hh
    rw [List.cons_append, convertInner_step cfg n e _ ix d r nest hd hr hn]
    have hle := flats_length hs
    have hpos : 0 < fs.length := List.length_pos_iff.2 hne
    rw [fieldFromElement_ok.2 ⟨_, hc.2.2, .inr ⟨k, hk, by omega, by simp; omega, rfl, rfl⟩⟩]
    dsimp only
    by_cases hlt : 127 ≤ nest.toNat
    · rw [if_pos hlt]
    · rw [if_neg hlt]
      have hku : asUsize32 (e.numChildren.getD 0) = fs.length := by
        rw [hk, Option.getD_some]; have := asUsize32_pos (n := k) (by omega); omega
      have hnest := (addU8_small cfg (a := nest) (b := 1) (by simp; omega)).2
      have h3 := addU8_small cfg (a := d) (b := if e.repetitionType.getD 0 = 1 then 1 else 0) (by split <;> simp <;> omega)
      have h4 := addU8_small cfg (a := r) (b := if e.repetitionType.getD 0 = 2 then 1 else 0) (by split <;> simp <;> omega)
      have h5 : (if e.repetitionType.getD 0 = 1 then 1 else 0 : BitVec 8).toNat ≤ 1 := by split <;> simp
      have h6 : (if e.repetitionType.getD 0 = 2 then 1 else 0 : BitVec 8).toNat ≤ 1 := by split <;> simp
      have h7 : (1 : BitVec 8).toNat = 1 := rfl
      rw [hku, flats_too_deep cfg hs n rest ix _ _ _ (by omega) (by omega) (by omega) (by omega) (by omega)]
      rfl
theorem flats_too_deep (cfg : Cfg) : ∀ {fs : List SField} {es : List Element}, Flats fs es → ∀ (n : Nat) (rest : List Element) (ix : Nat) (d r nest : BitVec 8),
    d.toNat ≤ nest.toNat → r.toNat ≤ nest.toNat → nest.toNat ≤ 127 → 128 ≤ n + nest.toNat → 127 < nest.toNat + heightAll fs →
    childLoop (fun es index => convertInner cfg n es index d r nest) fs.length (es ++ rest) ix = schemaErr "Schema is too deeply nested"
  | _, _, .nil, n, rest, ix, d, r, nest, hd, hr, hn, hfuel, hh => by simp only [heightAll] at hh; omega
  | _, _, .cons f fs es es' h hs, n, rest, ix, d, r, nest, hd, hr, hn, hfuel, hh => by
    simp only [heightAll] at hh
    rw [List.length_cons, childLoop, List.append_assoc]
    by_cases hf : 127 < nest.toNat + height f
    · rw [flat_too_deep cfg h n (es' ++ rest) ix d r nest hd hr hn hfuel hf]; rfl
    · obtain ⟨f', ix', hc⟩ := inner_accepts cfg h n (es' ++ rest) ix d r nest hd hr (by omega) hfuel
      rw [hc]
      show (childLoop _ _ _ _ >>= _) = _
      rw [flats_too_deep cfg hs n rest ix' d r nest hd hr hn hfuel (by omega)]; rfl
end

/-- C49: deeper trees, however well-formed, are rejected for that reason. -/
theorem C49_too_deep (cfg : Cfg) {f : SField} {es : List Element} (hf : Flat f es) (hh : 127 < height f) :
    convertSchema cfg es = .error (.err (.schema "Schema is too deeply nested")) := by
  have := flat_too_deep cfg hf maxDepth [] 0 0 0 0 (by simp) (by simp) (by simp) (by simp [maxDepth]) (by simpa using hh)
  rw [List.append_nil] at this
  cases es with
  | nil => have := flat_pos hf; simp at this
  | cons e es => rw [convertSchema_eq, this]; rfl

/-- `n` nested groups around a leaf. -/
def tower : Nat → SField
  | 0 => .primitive ⟨[], none, .Required, 0, 0⟩ .INT32 none 0
  | n + 1 => .group ⟨[], none, .Required, 0, 0⟩ [tower n] none

theorem tower_height : ∀ n, height (tower n) = n
  | 0 => rfl
  | n + 1 => by simp [tower, height, heightAll, tower_height n]

theorem tower_valid : ∀ n, Valid (tower n)
  | 0 => .primitive _ _ _ _ ⟨by simp, by simp, by simp⟩
  | n + 1 => .group _ _ _ (by simp) (by simp) (by simpa using tower_valid n)

/-- Exactly at the limit: 127 nested groups are accepted, 128 are not. -/
example (cfg : Cfg) : (∃ root, convertSchema cfg (flatten (tower 127)) = .ok root) ∧
    convertSchema cfg (flatten (tower 128)) = .error (.err (.schema "Schema is too deeply nested")) :=
  ⟨(C46_accepted cfg _).2 ⟨_, flatten_flat (tower_valid 127), by rw [tower_height]; omega, rfl⟩,
   C49_too_deep cfg (flatten_flat (tower_valid 128)) (by rw [tower_height]; omega)⟩

/-! ## C50: malformed lists -/

/-- An element that is never acceptable: unknown repetition, negative number of children, or a leaf without a valid physical type. -/
def BadElement (e : Element) : Prop :=
  (∃ rt, e.repetitionType = some rt ∧ rt ≠ 0 ∧ rt ≠ 1 ∧ rt ≠ 2) ∨
  (∃ n, e.numChildren = some n ∧ n.toInt < 0) ∨
  (e.numChildren.getD 0 = 0 ∧ ¬ ∃ t p, e.type_ = some t ∧ PhysicalOf t e.typeLength p)

theorem repetitionOf_good {e : Element} {rep : Repetition} (h : RepetitionOf e.repetitionType rep) : ¬ ∃ rt, e.repetitionType = some rt ∧ rt ≠ 0 ∧ rt ≠ 1 ∧ rt ≠ 2 := by
  rintro ⟨rt, h1, h2, h3, h4⟩
  rw [h1] at h
  cases h
  · exact h2 rfl
  · exact h3 rfl
  · exact h4 rfl

mutual
theorem flat_good : ∀ {f : SField} {es : List Element}, Flat f es → ∀ e ∈ es, ¬ BadElement e
  | _, _, .primitive e c t p l i h0 hc ht hp hl, e', he => by
    obtain rfl := List.mem_singleton.1 he
    rintro (h | ⟨n, hn, h⟩ | ⟨_, h⟩)
    · exact repetitionOf_good hc.2.2 h
    · rw [hn] at h0; change n = 0 at h0; subst h0; revert h; decide
    · exact h ⟨t, p, ht, hp⟩
  | _, _, .group e c n fs l es hn h h0 hc hl hs, e', he => by
    rcases List.mem_cons.1 he with rfl | he
    · have hpos : 0 < fs.length := List.length_pos_iff.2 h0
      rintro (h' | ⟨n', hn', h'⟩ | ⟨h', _⟩)
      · exact repetitionOf_good hc.2.2 h'
      · rw [hn] at hn'; cases hn'; omega
      · rw [hn] at h'; change n = 0 at h'; subst h'; change (0 : Int) = _ at h; omega
    · exact flats_good hs e' he
theorem flats_good : ∀ {fs : List SField} {es : List Element}, Flats fs es → ∀ e ∈ es, ¬ BadElement e
  | _, _, .nil, e', he => by simp at he
  | _, _, .cons f fs es es' h hs, e', he => by
    rcases List.mem_append.1 he with he | he
    · exact flat_good h e' he
    · exact flats_good hs e' he
end

/-- C50: one bad element anywhere makes the whole list an error. -/
theorem C50_bad_element (cfg : Cfg) {es : List Element} {e : Element} (he : e ∈ es) (hb : BadElement e) :
    (∃ msg, convertSchema cfg es = .error (.err (.schema msg))) ∨ ∃ id, convertSchema cfg es = .error (.err (.unknownType id)) := by
  rcases C50_only_errors cfg es with ⟨root, h⟩ | h
  · exact absurd hb (flat_good ((C46_iff cfg _ _).1 h).1 e he)
  · exact h

/-- C50: the empty list. -/
theorem C50_empty (cfg : Cfg) : convertSchema cfg [] = .error (.err (.schema "Empty schema")) := rfl

/-- C50: anything behind a complete schema. -/
theorem C50_trailing (cfg : Cfg) {es : List Element} {root : SField} (h : convertSchema cfg es = .ok root) (e : Element) (more : List Element) :
    convertSchema cfg (es ++ e :: more) = .error (.err (.schema "Trailing schema elements after root group")) := by
  obtain ⟨hf, _, _, hh, _⟩ := (C46_iff cfg _ _).1 h
  obtain ⟨f', ix', hc⟩ := inner_accepts cfg hf maxDepth (e :: more) 0 0 0 0 (by simp) (by simp) (by simpa using hh) (by simp [maxDepth])
  cases es with
  | nil => cases h
  | cons e' es =>
    rw [List.cons_append, convertSchema_eq]
    rw [List.cons_append] at hc
    rw [hc]; rfl

/-- C50: a truncated schema. -/
theorem C50_truncated (cfg : Cfg) {es more : List Element} {root : SField} (h : convertSchema cfg (es ++ more) = .ok root) (hne : more ≠ []) :
    (∃ msg, convertSchema cfg es = .error (.err (.schema msg))) ∨ ∃ id, convertSchema cfg es = .error (.err (.unknownType id)) := by
  rcases C50_only_errors cfg es with ⟨root', h'⟩ | h'
  · cases more with
    | nil => exact absurd rfl hne
    | cons e more => rw [C50_trailing cfg h' e more] at h; cases h
  · exact h'

/-- C50: an optional or repeated root. -/
theorem C50_root (cfg : Cfg) {es : List Element} {f : SField} (hf : Flat f es) (hh : height f ≤ 127) (hr : f.common.repetition ≠ .Required) :
    convertSchema cfg es = .error (.err (.schema "Root element must have repetition type required")) := by
  obtain ⟨f', a1, a2, a3, a4, a5⟩ := flat_relabel hf 0 0 0 (by omega) (by omega)
  have := (inner_top cfg es f' [] (0 + (indexes f').length)).2 ⟨es, by simp, a1, a2, a3, rfl, by omega⟩
  cases es with
  | nil => have := flat_pos hf; simp at this
  | cons e es =>
    rw [convertSchema_eq, this]
    dsimp only
    rw [if_neg (by simp), if_pos (by rw [a5]; exact hr)]
    rfl

/-- The number of children an element declares. -/
def childCount (e : Element) : Int := match e.numChildren with | none => 0 | some n => n.toInt

mutual
theorem flat_count : ∀ {f : SField} {es : List Element}, Flat f es → (es.map childCount).sum + 1 = es.length
  | _, _, .primitive e c t p l i h0 hc ht hp hl => by
    have : childCount e = 0 := by
      unfold childCount
      cases hn : e.numChildren with
      | none => rfl
      | some n => rw [hn] at h0; change n = 0 at h0; subst h0; rfl
    simp [this]
  | _, _, .group e c n fs l es hn h h0 hc hl hs => by
    have := flats_count hs
    have hc : childCount e = fs.length := by unfold childCount; rw [hn]; exact h
    simp only [List.map_cons, List.sum_cons, List.length_cons, hc]
    omega
theorem flats_count : ∀ {fs : List SField} {es : List Element}, Flats fs es → (es.map childCount).sum + fs.length = es.length
  | _, _, .nil => by simp
  | _, _, .cons f fs es es' h hs => by
    have h1 := flat_count h
    have h2 := flats_count hs
    simp only [List.map_append, List.sum_append, List.length_append, List.length_cons]
    omega
end

/-- C50: the numbers of children must add up to the number of elements minus one. -/
theorem C50_count (cfg : Cfg) {es : List Element} (h : (es.map childCount).sum + 1 ≠ es.length) :
    (∃ msg, convertSchema cfg es = .error (.err (.schema msg))) ∨ ∃ id, convertSchema cfg es = .error (.err (.unknownType id)) := by
  rcases C50_only_errors cfg es with ⟨root, h'⟩ | h'
  · exact absurd (flat_count ((C46_iff cfg _ _).1 h').1) h
  · exact h'

/-- Bad elements of the three kinds, and a list with a wrong count. -/
example : BadElement ⟨some 1, none, some 3, [], none, none, none, none, none, none⟩ ∧
    BadElement ⟨none, none, none, [], some (-1), none, none, none, none, none⟩ ∧
    BadElement ⟨none, none, none, [], some 0, none, none, none, none, none⟩ ∧
    ([⟨none, none, none, [], some 5, none, none, none, none, none⟩].map childCount).sum + 1 ≠ (1 : Int) :=
  ⟨.inl ⟨3, rfl, by decide, by decide, by decide⟩, .inr (.inl ⟨_, rfl, by decide⟩), .inr (.inr ⟨rfl, fun ⟨_, _, h, _⟩ => by cases h⟩), by decide⟩

/-! ## C51: paths -/

/-- `g` is reached from `f` by taking, at each group, the first child with the next name. -/
inductive Follows : SField → List Bytes → SField → Prop
  | here (f) : Follows f [] f
  | step (c l pre f post name names g) (hpre : ∀ x ∈ pre, x.common.name ≠ name) (hf : f.common.name = name) (h : Follows f names g) :
      Follows (.group c (pre ++ f :: post) l) (name :: names) g

/-- C51: `find_field_by_path` finds exactly that field. -/
theorem C51_find : ∀ (names : List Bytes) (f g : SField), findFieldByPath f names = some g ↔ Follows f names g
  | [], f, g => by
    rw [findFieldByPath]
    constructor
    · intro h; cases h; exact .here _
    · intro h; cases h; rfl
  | name :: names, .primitive c p l i, g => by
    rw [findFieldByPath]
    constructor
    · intro h; cases h
    · intro h; cases h
  | name :: names, .group c fs l, g => by
    rw [findFieldByPath]
    constructor
    · intro h
      cases hf : fs.find? fun child => child.common.name == name with
      | none => rw [hf] at h; cases h
      | some f =>
        rw [hf] at h
        obtain ⟨hn, pre, post, rfl, hpre⟩ := List.find?_eq_some_iff_append.1 hf
        exact .step _ _ _ _ _ _ _ _ (fun x hx => by simpa using hpre x hx) (by simpa using hn) ((C51_find names f g).1 h)
    · intro h
      cases h with
      | step _ _ pre f post _ _ _ hpre hf h =>
        rw [List.find?_eq_some_iff_append.2 ⟨by simpa using hf, pre, post, rfl, fun x hx => by simpa using hpre x hx⟩]
        exact (C51_find names f g).2 h

/-- Siblings have different names, everywhere. -/
inductive Distinct : SField → Prop
  | primitive (c p l i) : Distinct (.primitive c p l i)
  | group (c fs l) (hn : (fs.map fun f => f.common.name).Nodup) (h : ∀ f ∈ fs, Distinct f) : Distinct (.group c fs l)

/-- C51: if siblings have different names, each field is found by the names on its path (without the root). -/
theorem C51_every_field {f g : SField} (hd : Distinct f) {path : List SField} (hr : Reach f path g) :
    findFieldByPath f (path.tail.map fun f => f.common.name) = some g := by
  refine (C51_find _ _ _).2 ?_
  induction hr with
  | here => exact .here _
  | child c fs l f p g hm h ih =>
    cases hd with
    | group _ _ _ hn hd =>
    obtain ⟨pre, post, rfl⟩ := List.append_of_mem hm
    rw [List.map_append, List.map_cons] at hn
    have hpre : ∀ x ∈ pre, x.common.name ≠ f.common.name := by
      intro x hx he
      have := (List.nodup_append.1 hn).2.2 x.common.name (List.mem_map_of_mem hx) f.common.name (by simp)
      exact this he
    cases h with
    | here => exact .step _ _ _ _ _ _ _ _ hpre rfl (ih (hd f (by simp)))
    | child c' fs' l' f' p' g' hm' h' => exact .step _ _ _ _ _ _ _ _ hpre rfl (ih (hd _ (by simp)))

/-- The repeated leaf of the sample, by its path. -/
example : Distinct sampleTree ∧ (findFieldByPath sampleTree [[0x61#8], [0x62#8]]).map (fun f => f.common.fieldId) = some (some 7) := by
  refine ⟨.group _ _ _ (by decide) fun f hf => ?_, by simp [sampleTree, findFieldByPath, SField.common]⟩
  rcases List.mem_cons.1 hf with rfl | hf
  · exact .group _ _ _ (by decide) fun f hf => by obtain rfl := List.mem_singleton.1 hf; exact .primitive _ _ _ _
  · obtain rfl := List.mem_singleton.1 hf; exact .primitive _ _ _ _

/-! ## C53: annotations never matter for success -/

/-- The element without annotations. -/
def bare (e : Element) : Element := { e with logicalType := none, convertedType := none, precision := none, scale := none }

mutual
/-- The tree without logical types. -/
def bareField : SField → SField
  | .primitive c p _ i => .primitive c p none i
  | .group c fs _ => .group c (bareFields fs) none
def bareFields : List SField → List SField
  | [] => []
  | f :: fs => bareField f :: bareFields fs
end

theorem bareField_common (f : SField) : (bareField f).common = f.common := by
  cases f <;> simp [bareField, SField.common]

theorem fieldFromElement_bare (e : Element) (ix : Nat) (d r : BitVec 8) (rem : Nat) :
    fieldFromElement (bare e) ix d r rem = (fieldFromElement e ix d r rem).map fun t => (bareField t.1, t.2) := by
  unfold fieldFromElement
  show (Repetition.ofElement e.repetitionType >>= _) = _
  cases Repetition.ofElement e.repetitionType with
  | error x => rfl
  | ok rep =>
    show (if e.numChildren.getD 0 = 0 then _ else if _ then _ else _) = Except.map _ (if e.numChildren.getD 0 = 0 then _ else if _ then _ else _)
    by_cases h : e.numChildren.getD 0 = 0
    · rw [if_pos h, if_pos h]
      show (match e.type_ with | none => _ | some t => _) = _
      cases e.type_ with
      | none => rfl
      | some t =>
        show (PhysicalType.tryFrom t e.typeLength >>= _) = Except.map _ (PhysicalType.tryFrom t e.typeLength >>= _)
        cases PhysicalType.tryFrom t e.typeLength with
        | error x => rfl
        | ok p => simp [Except.map, bareField, leafLogicalType, bare, bind, Except.bind, pure, Except.pure]
    · rw [if_neg h, if_neg h]
      show (if (BitVec.slt (e.numChildren.getD 0) 0 || decide (rem < asUsize32 (e.numChildren.getD 0))) = true then _ else _) = _
      split
      · rfl
      · simp [Except.map, bareField, bareFields, groupLogicalType, bare, pure, Except.pure]

theorem childLoop_bare {rec : List Element → Nat → Except PFail (SField × List Element × Nat)}
    (h : ∀ es ix, rec (es.map bare) ix = (rec es ix).map fun t => (bareField t.1, t.2.1.map bare, t.2.2)) :
    ∀ (n : Nat) (es : List Element) (ix : Nat), childLoop rec n (es.map bare) ix = (childLoop rec n es ix).map fun t => (bareFields t.1, t.2.1.map bare, t.2.2)
  | 0, es, ix => by simp [childLoop, Except.map, bareFields]
  | n + 1, es, ix => by
    rw [childLoop, childLoop, h es ix]
    cases rec es ix with
    | error x => rfl
    | ok t =>
      obtain ⟨f, mid, ixm⟩ := t
      show (childLoop rec n (mid.map bare) ixm >>= _) = Except.map _ (childLoop rec n mid ixm >>= _)
      rw [childLoop_bare h n mid ixm]
      cases childLoop rec n mid ixm with
      | error x => rfl
      | ok t => simp [Except.map, bareFields, bind, Except.bind, pure, Except.pure]

theorem convertInner_bare (cfg : Cfg) : ∀ (n : Nat) (es : List Element) (ix : Nat) (d r nest : BitVec 8),
    convertInner cfg n (es.map bare) ix d r nest = (convertInner cfg n es ix d r nest).map fun t => (bareField t.1, t.2.1.map bare, t.2.2)
  | 0, es, ix, d, r, nest => by rfl
  | n + 1, [], ix, d, r, nest => by rfl
  | n + 1, e :: es, ix, d, r, nest => by
    rw [List.map_cons, convertInner, convertInner]
    dsimp only
    show (addU8 cfg d (if e.repetitionType.getD 0 = 1 then 1 else 0) >>= _) = Except.map _ (addU8 cfg d (if e.repetitionType.getD 0 = 1 then 1 else 0) >>= _)
    cases addU8 cfg d (if e.repetitionType.getD 0 = 1 then 1 else 0) with
    | error x => rfl
    | ok D =>
      show (addU8 cfg r (if e.repetitionType.getD 0 = 2 then 1 else 0) >>= _) = Except.map _ (addU8 cfg r (if e.repetitionType.getD 0 = 2 then 1 else 0) >>= _)
      cases addU8 cfg r (if e.repetitionType.getD 0 = 2 then 1 else 0) with
      | error x => rfl
      | ok R =>
        show (fieldFromElement (bare e) ix D R (es.map bare).length >>= _) = Except.map _ (fieldFromElement e ix D R es.length >>= _)
        rw [fieldFromElement_bare, List.length_map]
        cases fieldFromElement e ix D R es.length with
        | error x => rfl
        | ok t =>
          obtain ⟨f, ix'⟩ := t
          cases f with
          | primitive c p l i => simp [Except.map, bareField, bind, Except.bind, pure, Except.pure]
          | group c fs l =>
            simp only [Except.map, bareField, bind, Except.bind]
            cases addU8 cfg nest 1 with
            | error x => rfl
            | ok N =>
              dsimp only
              by_cases hN : 128 ≤ N.toNat
              · rw [if_pos hN, if_pos hN]; rfl
              · rw [if_neg hN, if_neg hN]
                have := childLoop_bare (rec := fun es index => convertInner cfg n es index D R N) (fun es ix => convertInner_bare cfg n es ix D R N)
                  (asUsize32 (e.numChildren.getD 0)) es ix'
                rw [show (bare e).numChildren = e.numChildren from rfl, this]
                cases childLoop (fun es index => convertInner cfg n es index D R N) (asUsize32 (e.numChildren.getD 0)) es ix' with
                | error x => rfl
                | ok t => simp [Except.map, bareField, pure, Except.pure]

/-- C53: leaving out all annotations gives the same tree without logical types, or the same error: no annotation, known or unknown, makes the conversion fail
or succeed or changes anything else. -/
theorem C53_annotations (cfg : Cfg) (es : List Element) : convertSchema cfg (es.map bare) = (convertSchema cfg es).map bareField := by
  cases es with
  | nil => rfl
  | cons e es =>
    rw [List.map_cons, convertSchema_eq, convertSchema_eq, ← List.map_cons, convertInner_bare]
    cases convertInner cfg maxDepth (e :: es) 0 0 0 0 with
    | error x => rfl
    | ok t =>
      obtain ⟨f, rest, ix⟩ := t
      dsimp only [Except.map]
      rw [bareField_common]
      by_cases h1 : rest = []
      · subst h1
        by_cases h2 : f.common.repetition = .Required
        · simp [h2]
        · simp [h2, schemaErr]
      · simp [h1, schemaErr]

end CT.Props
