import Verif.Proofs.PqLogical
/-!
# `field_from_schema_element`, run
-/
namespace CT.Pq
open CT CT.Parquet CT.Schema
open CT.Rs (Name ITy BinOp)

/-- What the code sees of a `SchemaElement`. -/
structure IsElement (v : V) (e : Element) (lt : Option Val) : Prop where
  type_ : fieldOf v (n! "type_") = some (optV (enumV (n! "Type")) e.type_)
  typeLength : fieldOf v (n! "type_length") = some (optV i32V e.typeLength)
  repetitionType : fieldOf v (n! "repetition_type") = some (optV (enumV (n! "FieldRepetitionType")) e.repetitionType)
  name : fieldOf v (n! "name") = some (.base (.bytes e.name))
  numChildren : fieldOf v (n! "num_children") = some (optV i32V e.numChildren)
  convertedType : fieldOf v (n! "converted_type") = some (optV (enumV (n! "ConvertedType")) e.convertedType)
  scale : fieldOf v (n! "scale") = some (optV i32V e.scale)
  precision : fieldOf v (n! "precision") = some (optV i32V e.precision)
  fieldId : fieldOf v (n! "field_id") = some (optV i32V e.fieldId)
  logicalType : fieldOf v (n! "logicalType") = some (optV (.obj (.named 33)) lt)
  shape : match lt with
    | none => e.logicalType = none
    | some x => ∃ l, e.logicalType = some l ∧ LogicalShape x l
  typeName : typeName v = nameAt 34
  plain : ∀ x fr, putBack (.path [x]) v fr = fr

/-- schema.rs:494-496 -/
@[reducible] def leafFirst : Expr := .semi (.iteLet (.con [(n! "Some")] [.name (n! "lt")]) (.method (.field (.path [(n! "element")]) (n! "logicalType")) (n! "as_ref") []) (.block [.semi (.assign (.path [(n! "logical_type")]) (.method (.call [(n! "PrimitiveLogicalType"), (n! "try_from_logical_type")] [.path [(n! "lt")]]) (n! "ok") []))]) none)
/-- schema.rs:497-507 -/
@[reducible] def leafSecond : Expr := .semi (.ite (.method (.path [(n! "logical_type")]) (n! "is_none") []) (.block [.iteLet (.con [(n! "Some")] [.name (n! "ct")]) (.method (.field (.path [(n! "element")]) (n! "converted_type")) (n! "as_ref") []) (.block [.semi (.assign (.path [(n! "logical_type")]) (.method (.call [(n! "PrimitiveLogicalType"), (n! "try_from_converted_type")] [.path [(n! "ct")], .field (.path [(n! "element")]) (n! "precision"), .field (.path [(n! "element")]) (n! "scale"), .field (.path [(n! "element")]) (n! "type_length")]) (n! "ok") []))]) none]) none)
/-- schema.rs:522-524 -/
@[reducible] def groupFirst : Expr := .semi (.iteLet (.con [(n! "Some")] [.name (n! "lt")]) (.method (.field (.path [(n! "element")]) (n! "logicalType")) (n! "as_ref") []) (.block [.semi (.assign (.path [(n! "logical_type")]) (.method (.call [(n! "GroupLogicalType"), (n! "try_from")] [.path [(n! "lt")]]) (n! "ok") []))]) none)
/-- schema.rs:525-529 -/
@[reducible] def groupSecond : Expr := .semi (.ite (.method (.path [(n! "logical_type")]) (n! "is_none") []) (.block [.iteLet (.con [(n! "Some")] [.name (n! "ct")]) (.method (.field (.path [(n! "element")]) (n! "converted_type")) (n! "as_ref") []) (.block [.semi (.assign (.path [(n! "logical_type")]) (.method (.call [(n! "GroupLogicalType"), (n! "try_from")] [.path [(n! "ct")]]) (n! "ok") []))]) none]) none)
/-- schema.rs:479 -/
@[reducible] def fieldIdExpr : Expr := .method (.field (.path [(n! "element")]) (n! "field_id")) (n! "map") [.path [(n! "FieldId"), (n! "from")]]

section
variable (cfg : Cfg) (cap : Nat → Except PFail Unit)

/-- The parameters. -/
@[reducible] def fieldParams (v ix dl rl rem : V) : Scope :=
  [(n! "element", v), (n! "index", ix), (n! "def_level", dl), (n! "rep_level", rl), (n! "remaining_elements", rem)]

theorem run_fieldIdExpr {v : V} {e : Element} {lt : Option Val} (h : IsElement v e lt) (r ix dl rl rem : V) (n : Nat) (w : World) :
    eval cfg cap schemaProg (n + 20) fieldIdExpr [[(n! "repetition", r)], fieldParams v ix dl rl rem] w =
      .val (optV fieldIdV e.fieldId) [[(n! "repetition", r)], fieldParams v ix dl rl rem] w := by
  have hf := h.fieldId
  unfold fieldIdExpr fieldParams
  rcases hi : e.fieldId with _ | x
  · rw [hi] at hf; simp only [optV] at hf
    pq_simp [↓hf, optV, Option.isSome_some]
  · rw [hi] at hf; simp only [optV, i32V] at hf
    have hx := run_fieldId cfg cap x
    unfold i32V at hx
    pq_simp [↓hf, optV, ↓hx, Option.isSome_some]

/-- The frame while the logical type is found. -/
@[reducible] def logicalFrame (l : V) (sc : Scope) (nc c r v ix dl rl rem : V) : Frame :=
  [(n! "logical_type", l) :: sc, [(n! "num_children", nc), (n! "common", c), (n! "repetition", r)], fieldParams v ix dl rl rem]

theorem run_leafFirst {v : V} {e : Element} {lt : Option Val} (h : IsElement v e lt) (p t nc c r ix dl rl rem : V) (n : Nat) (w : World) :
    eval cfg cap schemaProg (n + 54) leafFirst (logicalFrame (.con [n! "None"] []) [(n! "physical_type", p), (n! "type_", t)] nc c r v ix dl rl rem) w =
      .val .unit (logicalFrame (optV leafTypeV (e.logicalType.bind fun l => okOf (PrimitiveLogicalType.ofLogical l))) [(n! "physical_type", p), (n! "type_", t)] nc c r v ix dl rl rem) w := by
  unfold leafFirst logicalFrame fieldParams
  rcases lt with _ | x
  · have hf : fieldOf v (n! "logicalType") = some V.none := h.logicalType
    have hs : e.logicalType = none := h.shape
    rw [hs]
    pq_simp [↓hf, optV, Option.bind_none]
  · have hf : fieldOf v (n! "logicalType") = some (V.some (.obj (.named 33) x)) := h.logicalType
    have hs : ∃ l, e.logicalType = some l ∧ LogicalShape x l := h.shape
    obtain ⟨l, hl, hs⟩ := hs
    rw [hl, Option.bind_some]
    obtain ⟨u, hu, hg⟩ := run_leafLogical cfg cap hs
    cases ho : PrimitiveLogicalType.ofLogical l with
    | ok o =>
      rw [ho] at hg; cases hg
      pq_simp [↓hf, optV, ↓hu, okOf]
    | error e =>
      rw [ho] at hg; obtain ⟨k, vs, rfl, he⟩ := hg
      pq_simp [↓hf, optV, ↓hu, okOf]

theorem run_groupFirst {v : V} {e : Element} {lt : Option Val} (h : IsElement v e lt) (nc c r ix dl rl rem : V) (n : Nat) (w : World) :
    eval cfg cap schemaProg (n + 54) groupFirst (logicalFrame (.con [n! "None"] []) [] nc c r v ix dl rl rem) w =
      .val .unit (logicalFrame (optV groupTypeV (e.logicalType.bind fun l => okOf (GroupLogicalType.ofLogical l))) [] nc c r v ix dl rl rem) w := by
  unfold groupFirst logicalFrame fieldParams
  rcases lt with _ | x
  · have hf : fieldOf v (n! "logicalType") = some V.none := h.logicalType
    have hs : e.logicalType = none := h.shape
    rw [hs]
    pq_simp [↓hf, optV, Option.bind_none]
  · have hf : fieldOf v (n! "logicalType") = some (V.some (.obj (.named 33) x)) := h.logicalType
    have hs : ∃ l, e.logicalType = some l ∧ LogicalShape x l := h.shape
    obtain ⟨l, hl, hs⟩ := hs
    rw [hl, Option.bind_some]
    obtain ⟨u, hu, hg⟩ := run_groupLogical cfg cap hs
    cases ho : GroupLogicalType.ofLogical l with
    | ok o =>
      rw [ho] at hg; cases hg
      pq_simp [↓hf, optV, ↓hu, okOf]
    | error e =>
      rw [ho] at hg; obtain ⟨k, vs, rfl, he⟩ := hg
      pq_simp [↓hf, optV, ↓hu, okOf]

theorem run_leafSecond {v : V} {e : Element} {lt : Option Val} (h : IsElement v e lt) (l : Option PrimitiveLogicalType) (p t nc c r ix dl rl rem : V) (n : Nat) (w : World) :
    eval cfg cap schemaProg (n + 54) leafSecond (logicalFrame (optV leafTypeV l) [(n! "physical_type", p), (n! "type_", t)] nc c r v ix dl rl rem) w =
      .val .unit (logicalFrame (optV leafTypeV (match l with
        | some l => some l
        | none => e.convertedType.bind fun ct => okOf (PrimitiveLogicalType.ofConverted ct e.precision e.scale))) [(n! "physical_type", p), (n! "type_", t)] nc c r v ix dl rl rem) w := by
  have hf := h.convertedType
  have hp := h.precision
  have hs := h.scale
  have hl := h.typeLength
  unfold leafSecond logicalFrame fieldParams
  rcases l with _ | l
  · rcases hc : e.convertedType with _ | ct
    · rw [hc] at hf; simp only [optV] at hf
      simp only [optV, Option.bind_none, V.none]
      pq_simp [↓hf]
    · rw [hc] at hf; simp only [optV, enumV] at hf
      rw [Option.bind_some]
      obtain ⟨u, hu, hg⟩ := run_converted cfg cap ct e.precision e.scale (optV i32V e.typeLength)
      unfold enumV at hu
      cases ho : PrimitiveLogicalType.ofConverted ct e.precision e.scale with
      | ok o =>
        rw [ho] at hg; cases hg
        simp only [optV, okOf, V.none, V.some]
        pq_simp [↓hf, ↓hp, ↓hs, ↓hl, ↓hu, okOf]
      | error e =>
        rw [ho] at hg; obtain ⟨k, vs, rfl, he⟩ := hg
        simp only [optV, okOf, V.none]
        pq_simp [↓hf, ↓hp, ↓hs, ↓hl, ↓hu, okOf]
  · simp only [optV, V.some]
    pq_simp []

theorem run_groupSecond {v : V} {e : Element} {lt : Option Val} (h : IsElement v e lt) (l : Option GroupLogicalType) (nc c r ix dl rl rem : V) (n : Nat) (w : World) :
    eval cfg cap schemaProg (n + 54) groupSecond (logicalFrame (optV groupTypeV l) [] nc c r v ix dl rl rem) w =
      .val .unit (logicalFrame (optV groupTypeV (match l with
        | some l => some l
        | none => e.convertedType.bind fun ct => okOf (GroupLogicalType.ofConverted ct))) [] nc c r v ix dl rl rem) w := by
  have hf := h.convertedType
  unfold groupSecond logicalFrame fieldParams
  rcases l with _ | l
  · rcases hc : e.convertedType with _ | ct
    · rw [hc] at hf; simp only [optV] at hf
      simp only [optV, Option.bind_none, V.none]
      pq_simp [↓hf]
    · rw [hc] at hf; simp only [optV, enumV] at hf
      rw [Option.bind_some]
      obtain ⟨u, hu, hg⟩ := run_groupConverted cfg cap ct
      unfold enumV at hu
      cases ho : GroupLogicalType.ofConverted ct with
      | ok o =>
        rw [ho] at hg; cases hg
        simp only [optV, okOf, V.none, V.some]
        pq_simp [↓hf, ↓hu, okOf]
      | error e =>
        rw [ho] at hg; obtain ⟨k, vs, rfl, he⟩ := hg
        simp only [optV, okOf, V.none]
        pq_simp [↓hf, ↓hu, okOf]
  · simp only [optV, V.some]
    pq_simp []

/-- schema.rs:472-476 -/
@[reducible] def repetitionExpr : Expr := .method (.try (.method (.method (.field (.path [(n! "element")]) (n! "repetition_type")) (n! "map") [.lambda (n! "rt") (.call [(n! "RepetitionType"), (n! "try_from")] [.ref false (.path [(n! "rt")])])]) (n! "transpose") [])) (n! "unwrap_or") [.path [(n! "RepetitionType"), (n! "Required")]]

theorem run_repetitionExpr {v : V} {e : Element} {lt : Option Val} (h : IsElement v e lt) (ix dl rl rem : V) :
    (∃ r, Repetition.ofElement e.repetitionType = .ok r ∧ ∀ n w, eval cfg cap schemaProg (n + 30) repetitionExpr [[], fieldParams v ix dl rl rem] w =
      .val (repetitionV r) [[], fieldParams v ix dl rl rem] w) ∨
    (∃ k vs, Repetition.ofElement e.repetitionType = .error (errorOf (.con [n! "ParquetError", k] vs)) ∧
      ∀ n w, eval cfg cap schemaProg (n + 30) repetitionExpr [[], fieldParams v ix dl rl rem] w =
      .ret (.con [n! "Err"] [.con [n! "ParquetError", k] vs]) [[], fieldParams v ix dl rl rem] w) := by
  have hf := h.repetitionType
  rcases hr : e.repetitionType with _ | t
  · rw [hr] at hf; simp only [optV] at hf
    refine .inl ⟨.Required, rfl, fun n w => ?_⟩
    pq_simp [↓hf, Option.isSome_none]
    rfl
  · rw [hr] at hf; simp only [optV, enumV] at hf
    obtain ⟨u, hu, hg⟩ := run_repetition cfg cap t
    unfold enumV at hu
    cases ho : Repetition.tryFrom t with
    | ok r =>
      rw [ho] at hg; cases hg
      refine .inl ⟨r, ho, fun n w => ?_⟩
      pq_simp [↓hf, ↓hu]
    | error x =>
      rw [ho] at hg; obtain ⟨k, vs, rfl, rfl⟩ := hg
      refine .inr ⟨k, vs, ho, fun n w => ?_⟩
      pq_simp [↓hf, ↓hu]

/-- The arguments of the function. -/
@[reducible] def fieldArgs (v : V) (ix : BitVec 64) (dl rl : BitVec 8) (rem : BitVec 64) : List V :=
  [v, .ref (.base (.usize ix)), .base (.u8 dl), .base (.u8 rl), .base (.usize rem)]

/-- The capacities requested for an element. -/
def fieldCaps (e : Element) : SField → List Nat
  | .group .. => [asUsize32 (e.numChildren.getD 0)]
  | .primitive .. => []

theorem fieldFromElement_error {e : Element} {i : Nat} {dl rl : BitVec 8} {rem : Nat} {x : PFail} (h : Repetition.ofElement e.repetitionType = .error x) :
    fieldFromElement e i dl rl rem = .error x := by
  unfold fieldFromElement; rw [h]; rfl

theorem fieldFromElement_leaf {e : Element} {i : Nat} {dl rl : BitVec 8} {rem : Nat} {r : Repetition} (h : Repetition.ofElement e.repetitionType = .ok r)
    (hn : e.numChildren.getD 0 = 0) : fieldFromElement e i dl rl rem = match e.type_ with
      | none => schemaErr "Missing physical type for SchemaElement without children"
      | some t => (PhysicalType.tryFrom t e.typeLength).bind fun p => .ok (.primitive ⟨e.name, e.fieldId, r, dl, rl⟩ p (leafLogicalType e) (BitVec.ofNat 32 i), i + 1) := by
  unfold fieldFromElement; rw [h, hn]; rfl

theorem fieldFromElement_inner {e : Element} {i : Nat} {dl rl : BitVec 8} {rem : Nat} {r : Repetition} (h : Repetition.ofElement e.repetitionType = .ok r)
    {x : BitVec 32} (hx : e.numChildren = some x) (hn : x ≠ 0) : fieldFromElement e i dl rl rem =
      if x.slt 0 || decide (rem < asUsize32 x) then schemaErr "Invalid number of children" else .ok (.group ⟨e.name, e.fieldId, r, dl, rl⟩ [] (groupLogicalType e), i) := by
  unfold fieldFromElement; rw [h, hx]
  exact if_neg hn

set_option maxHeartbeats 4000000 in
theorem run_field {v : V} {e : Element} {lt : Option Val} (h : IsElement v e lt) (ix rem : BitVec 64) (dl rl : BitVec 8) (hix : ix.toNat + 1 < 2 ^ 64) :
    (∃ f i, fieldFromElement e ix.toNat dl rl rem.toNat = .ok (f, i) ∧ (∀ k ∈ fieldCaps e f, cap k = .ok ()) ∧ ∀ n w, runFn (eval cfg cap schemaProg (n + 70)) pq_field_from_schema_element (fieldArgs v ix dl rl rem) w =
      .ret (.ok (fieldV f)) (fieldArgs v (BitVec.ofNat 64 i) dl rl rem) { w with caps := w.caps ++ fieldCaps e f }) ∨
    (∃ k vs, fieldFromElement e ix.toNat dl rl rem.toNat = .error (errorOf (.con [n! "ParquetError", k] vs)) ∧
      ∀ n w, runFn (eval cfg cap schemaProg (n + 70)) pq_field_from_schema_element (fieldArgs v ix dl rl rem) w =
      .ret (.err (.con [n! "ParquetError", k] vs)) (fieldArgs v ix dl rl rem) w) ∨
    (∃ c l i x, fieldFromElement e ix.toNat dl rl rem.toNat = .ok (.group c [] l, i) ∧ cap (asUsize32 (e.numChildren.getD 0)) = .error x ∧
      ∀ n w, runFn (eval cfg cap schemaProg (n + 70)) pq_field_from_schema_element (fieldArgs v ix dl rl rem) w =
      .fail x { w with caps := w.caps ++ [asUsize32 (e.numChildren.getD 0)] }) := by
  have hname := h.name
  have htype := h.type_
  have hlen := h.typeLength
  have hnc := h.numChildren
  have hid := fun r ix dl rl rem n w => run_fieldIdExpr cfg cap h r ix dl rl rem n w
  have hl1 := fun p t nc c r ix dl rl rem n w => run_leafFirst cfg cap h p t nc c r ix dl rl rem n w
  have hl2 := fun l p t nc c r ix dl rl rem n w => run_leafSecond cfg cap h l p t nc c r ix dl rl rem n w
  have hg1 := fun nc c r ix dl rl rem n w => run_groupFirst cfg cap h nc c r ix dl rl rem n w
  have hg2 := fun l nc c r ix dl rl rem n w => run_groupSecond cfg cap h l nc c r ix dl rl rem n w
  rcases run_repetitionExpr cfg cap h (.ref (.base (.usize ix))) (.base (.u8 dl)) (.base (.u8 rl)) (.base (.usize rem)) with ⟨r, hr, hre⟩ | ⟨k, vs, hr, hre⟩
  · have hadd : ¬ 2 ^ 64 ≤ ix.toNat + (BitVec.ofNat 64 1).toNat := by simp; omega
    have hinc : BitVec.ofNat 64 (ix.toNat + 1) = ix + BitVec.ofNat 64 1 := by apply BitVec.eq_of_toNat_eq; simp
    rcases hnum : e.numChildren with _ | x
    · rw [hnum] at hnc; simp only [optV] at hnc
      have hm := fieldFromElement_leaf (i := ix.toNat) (dl := dl) (rl := rl) (rem := rem.toNat) hr (by rw [hnum]; rfl)
      rcases ht : e.type_ with _ | t
      · rw [ht] at hm htype; simp only [optV] at htype
        refine .inr (.inl ⟨n! "Schema", [.str (n! "Missing physical type for SchemaElement without children")], hm, fun n w => ?_⟩)
        conv => lhs; unfold runFn
        pq_simp [pq_field_from_schema_element, ↓hre, ↓hid, ↓hname, ↓hnc, ↓htype, beq_self_eq_true]
      · rw [ht] at hm htype; dsimp only at hm; simp only [optV, enumV] at htype
        obtain ⟨u, hu, hg⟩ := run_physical cfg cap t e.typeLength
        unfold enumV at hu
        cases ho : PhysicalType.tryFrom t e.typeLength with
        | ok p =>
          rw [ho] at hg hm; cases hg
          refine .inl ⟨_, _, hm, nofun, fun n w => ?_⟩
          conv => lhs; unfold runFn
          pq_simp [pq_field_from_schema_element, ↓hre, ↓hid, ↓hname, ↓hnc, ↓htype, ↓hlen, ↓hu, ↓hl1, ↓hl2, hadd, decide_false, Bool.and_false, beq_self_eq_true]
          simp only [fieldV, commonV, leafLogicalType, fieldCaps, List.append_nil, BitVec.ofNat_toNat, hinc]
          rfl
        | error x =>
          rw [ho] at hg hm; obtain ⟨k, vs, rfl, rfl⟩ := hg
          refine .inr (.inl ⟨k, vs, hm, fun n w => ?_⟩)
          conv => lhs; unfold runFn
          pq_simp [pq_field_from_schema_element, ↓hre, ↓hid, ↓hname, ↓hnc, ↓htype, ↓hlen, ↓hu, beq_self_eq_true]
    · rw [hnum] at hnc; simp only [optV, i32V] at hnc
      by_cases hx : x = 0#32
      · subst hx
        have hm := fieldFromElement_leaf (i := ix.toNat) (dl := dl) (rl := rl) (rem := rem.toNat) hr (by rw [hnum]; rfl)
        rcases ht : e.type_ with _ | t
        · rw [ht] at hm htype; simp only [optV] at htype
          refine .inr (.inl ⟨n! "Schema", [.str (n! "Missing physical type for SchemaElement without children")], hm, fun n w => ?_⟩)
          conv => lhs; unfold runFn
          pq_simp [pq_field_from_schema_element, ↓hre, ↓hid, ↓hname, ↓hnc, ↓htype, beq_self_eq_true]
        · rw [ht] at hm htype; dsimp only at hm; simp only [optV, enumV] at htype
          obtain ⟨u, hu, hg⟩ := run_physical cfg cap t e.typeLength
          unfold enumV at hu
          cases ho : PhysicalType.tryFrom t e.typeLength with
          | ok p =>
            rw [ho] at hg hm; cases hg
            refine .inl ⟨_, _, hm, nofun, fun n w => ?_⟩
            conv => lhs; unfold runFn
            pq_simp [pq_field_from_schema_element, ↓hre, ↓hid, ↓hname, ↓hnc, ↓htype, ↓hlen, ↓hu, ↓hl1, ↓hl2, hadd, decide_false, Bool.and_false, beq_self_eq_true]
            simp only [fieldV, commonV, leafLogicalType, fieldCaps, List.append_nil, BitVec.ofNat_toNat, hinc]
            rfl
          | error x =>
            rw [ho] at hg hm; obtain ⟨k, vs, rfl, rfl⟩ := hg
            refine .inr (.inl ⟨k, vs, hm, fun n w => ?_⟩)
            conv => lhs; unfold runFn
            pq_simp [pq_field_from_schema_element, ↓hre, ↓hid, ↓hname, ↓hnc, ↓htype, ↓hlen, ↓hu, beq_self_eq_true]
      · have hm := fieldFromElement_inner (i := ix.toNat) (dl := dl) (rl := rl) (rem := rem.toNat) hr hnum hx
        have hx' : (x == BitVec.ofNat 32 0) = false := beq_false_of_ne hx
        have es : decide (x.toInt < (BitVec.ofNat 32 0).toInt) = x.slt 0 := rfl
        cases hs : x.slt 0
        · by_cases hr' : rem.toNat < (x.signExtend 64).toNat
          · rw [hs, show decide (rem.toNat < asUsize32 x) = true from decide_eq_true hr'] at hm
            refine .inr (.inl ⟨n! "Schema", [.str (n! "Invalid number of children")], hm, fun n w => ?_⟩)
            conv => lhs; unfold runFn
            pq_simp [pq_field_from_schema_element, ↓hre, ↓hid, ↓hname, ↓hnc, hx', es, hs, hr', decide_true]
          · rw [hs, show decide (rem.toNat < asUsize32 x) = false from decide_eq_false hr'] at hm
            cases hcap : cap (BitVec.signExtend 64 x).toNat with
            | error y =>
              refine .inr (.inr ⟨_, _, _, y, hm, hcap, fun n w => ?_⟩)
              conv => lhs; unfold runFn
              pq_simp [pq_field_from_schema_element, ↓hre, ↓hid, ↓hname, ↓hnc, hx', es, hs, hr', decide_false, ↓hg1, ↓hg2, hcap]
              rfl
            | ok y =>
              refine .inl ⟨_, _, hm, fun k hk => ?_, fun n w => ?_⟩
              · rw [fieldCaps, hnum] at hk
                rw [List.mem_singleton.1 hk]
                exact hcap
              conv => lhs; unfold runFn
              pq_simp [pq_field_from_schema_element, ↓hre, ↓hid, ↓hname, ↓hnc, hx', es, hs, hr', decide_false, ↓hg1, ↓hg2, hcap]
              simp only [fieldV, fieldVs, commonV, groupLogicalType, fieldCaps, BitVec.ofNat_toNat, BitVec.setWidth_eq, hnum, Option.getD_some, asUsize32]
              rfl
        · rw [hs] at hm
          refine .inr (.inl ⟨n! "Schema", [.str (n! "Invalid number of children")], hm, fun n w => ?_⟩)
          conv => lhs; unfold runFn
          pq_simp [pq_field_from_schema_element, ↓hre, ↓hid, ↓hname, ↓hnc, hx', es, hs]
  · refine .inr (.inl ⟨k, vs, fieldFromElement_error hr, fun n w => ?_⟩)
    conv => lhs; unfold runFn
    pq_simp [pq_field_from_schema_element, ↓hre]

end

end CT.Pq
