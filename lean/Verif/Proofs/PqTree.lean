import Verif.Proofs.PqInner
/-!
# `convert_schema` and the functions of `SchemaField`, run
-/
namespace CT.Pq
open CT CT.Parquet CT.Schema CT.Props CT.Spec
open CT.Rs (Name ITy BinOp)

/-! ## The elements of a file -/

/-- The value of an optional enum. -/
def ofOptEnum : Option (BitVec 32) → Val
  | none => .none
  | some x => .some (.enum x)

theorem of_optEnum {w : Val} {o : Option (BitVec 32)} (h : optEnum w = some o) : w = ofOptEnum o := by
  unfold optEnum at h
  split at h <;> cases h <;> rfl

section
variable (a b c d e f g i j k : Val)
theorem element_type_ : fieldOf (.obj Format.tSchemaElement (.struct [a, b, c, d, e, f, g, i, j, k])) (n! "type_") = some (wrap (.option (.named 0)) a) := (rfl)
theorem element_type_length : fieldOf (.obj Format.tSchemaElement (.struct [a, b, c, d, e, f, g, i, j, k])) (n! "type_length") = some (wrap (.option .i32) b) := (rfl)
theorem element_repetition_type : fieldOf (.obj Format.tSchemaElement (.struct [a, b, c, d, e, f, g, i, j, k])) (n! "repetition_type") = some (wrap (.option (.named 2)) c) := (rfl)
theorem element_name : fieldOf (.obj Format.tSchemaElement (.struct [a, b, c, d, e, f, g, i, j, k])) (n! "name") = some (wrap .string d) := (rfl)
theorem element_num_children : fieldOf (.obj Format.tSchemaElement (.struct [a, b, c, d, e, f, g, i, j, k])) (n! "num_children") = some (wrap (.option .i32) e) := (rfl)
theorem element_converted_type : fieldOf (.obj Format.tSchemaElement (.struct [a, b, c, d, e, f, g, i, j, k])) (n! "converted_type") = some (wrap (.option (.named 1)) f) := (rfl)
theorem element_scale : fieldOf (.obj Format.tSchemaElement (.struct [a, b, c, d, e, f, g, i, j, k])) (n! "scale") = some (wrap (.option .i32) g) := (rfl)
theorem element_precision : fieldOf (.obj Format.tSchemaElement (.struct [a, b, c, d, e, f, g, i, j, k])) (n! "precision") = some (wrap (.option .i32) i) := (rfl)
theorem element_field_id : fieldOf (.obj Format.tSchemaElement (.struct [a, b, c, d, e, f, g, i, j, k])) (n! "field_id") = some (wrap (.option .i32) j) := (rfl)
theorem element_logicalType : fieldOf (.obj Format.tSchemaElement (.struct [a, b, c, d, e, f, g, i, j, k])) (n! "logicalType") = some (wrap (.option Format.tLogicalType) k) := (rfl)
end

theorem wrap_type (o : Option (BitVec 32)) : wrap (.option (.named 0)) (ofOptEnum o) = optV (enumV (n! "Type")) o := by cases o <;> rfl
theorem wrap_converted (o : Option (BitVec 32)) : wrap (.option (.named 1)) (ofOptEnum o) = optV (enumV (n! "ConvertedType")) o := by cases o <;> rfl
theorem wrap_repetition (o : Option (BitVec 32)) : wrap (.option (.named 2)) (ofOptEnum o) = optV (enumV (n! "FieldRepetitionType")) o := by cases o <;> rfl
theorem wrap_i32 (o : Option (BitVec 32)) : wrap (.option .i32) (ofOptI32 o) = optV i32V o := by cases o <;> rfl

theorem elementOfVal_struct (a b c d e f g i j k : Val) : elementOfVal (.struct [a, b, c, d, e, f, g, i, j, k]) =
      ((optEnum a).bind fun a => (optI32 b).bind fun b => (optEnum c).bind fun c => (stringOfVal d).bind fun d => (optI32 e).bind fun e =>
      (optEnum f).bind fun f => (optI32 g).bind fun g => (optI32 i).bind fun i => (optI32 j).bind fun j => (optLogicalType k).bind fun k =>
      some (⟨a, b, c, d, e, f, g, i, j, k⟩ : Element)) := (rfl)

theorem isElement_typed {w : Val} {e : Element} (h : HasTy Format.parquetEnv w Format.tSchemaElement) (he : elementOfVal w = some e) :
    ∃ lt, IsElement (.obj Format.tSchemaElement w) e lt := by
  obtain ⟨vs, rfl, hl, h⟩ := typed_struct (show Format.parquetEnv[34]? = some (.struct _ _) from rfl) h
  match vs, hl with
  | [a, b, c, d, e', f, g, i, j, k], _ =>
    have hk := h 9 _ k rfl rfl
    change HasTy _ k (.option Format.tLogicalType) at hk
    obtain ⟨a', ha⟩ := typed_optEnum rfl (h 0 _ a rfl rfl)
    obtain ⟨b', rfl⟩ := typed_optI32 (h 1 _ b rfl rfl)
    obtain ⟨c', hc⟩ := typed_optEnum rfl (h 2 _ c rfl rfl)
    have hd := h 3 _ d rfl rfl
    change HasTy _ d .string at hd
    obtain ⟨d', rfl⟩ : ∃ d', d = .string d' := by cases hd; exact ⟨_, rfl⟩
    obtain ⟨e', rfl⟩ := typed_optI32 (h 4 _ e' rfl rfl)
    obtain ⟨f', hf⟩ := typed_optEnum rfl (h 5 _ f rfl rfl)
    obtain ⟨g', rfl⟩ := typed_optI32 (h 6 _ g rfl rfl)
    obtain ⟨i', rfl⟩ := typed_optI32 (h 7 _ i rfl rfl)
    obtain ⟨j', rfl⟩ := typed_optI32 (h 8 _ j rfl rfl)
    obtain ⟨lt, l, hlt, hol, hshape⟩ : ∃ lt l, wrap (.option Format.tLogicalType) k = optV (.obj (.named 33)) lt ∧ optLogicalType k = some l ∧
        (match lt with | none => l = none | some x => ∃ l', l = some l' ∧ LogicalShape x l') := by
      cases hk with
      | none => exact ⟨none, none, rfl, rfl, rfl⟩
      | some _ v hv =>
        obtain ⟨l, hl⟩ := typed_logical hv
        refine ⟨some v, some l, ?_, by simp only [optLogicalType, hl]; rfl, l, rfl, logical_shape hv hl⟩
        obtain ⟨n, u, rfl⟩ : ∃ n u, v = .union n u := by
          cases hv with
          | union => exact ⟨_, _, rfl⟩
          | struct _ _ _ _ hk' => cases hk'
          | enum _ _ _ hk' => cases hk'
        rfl
    have := of_optEnum ha; subst this
    have := of_optEnum hc; subst this
    have := of_optEnum hf; subst this
    rw [elementOfVal_struct, ha, hc, hf, hol] at he
    simp only [optI32_of, Option.bind_some, stringOfVal, Option.some.injEq] at he
    subst he
    exact ⟨lt, {
      type_ := by rw [element_type_, wrap_type]
      typeLength := by rw [element_type_length, wrap_i32]
      repetitionType := by rw [element_repetition_type, wrap_repetition]
      name := by rw [element_name]; rfl
      numChildren := by rw [element_num_children, wrap_i32]
      convertedType := by rw [element_converted_type, wrap_converted]
      scale := by rw [element_scale, wrap_i32]
      precision := by rw [element_precision, wrap_i32]
      fieldId := by rw [element_field_id, wrap_i32]
      logicalType := by rw [element_logicalType, hlt]
      shape := by cases lt <;> exact hshape
      typeName := rfl
      plain := fun _ _ => rfl }⟩

theorem elements_typed : ∀ {ws : List Val} {es : List Element}, (∀ w ∈ ws, HasTy Format.parquetEnv w Format.tSchemaElement) → ws.mapM elementOfVal = some es →
    Elements (ws.map (.obj Format.tSchemaElement)) es
  | [], es, _, he => by
    cases he
    exact .nil
  | w :: ws, es, h, he => by
    rw [List.mapM_cons] at he
    cases hw : elementOfVal w with
    | none => rw [hw] at he; cases he
    | some e =>
      cases hws : ws.mapM elementOfVal with
      | none => rw [hw, hws] at he; cases he
      | some es' =>
        rw [hw, hws] at he; cases he
        obtain ⟨lt, hlt⟩ := isElement_typed (h w (List.mem_cons_self ..)) hw
        exact .cons hlt (elements_typed (fun x hx => h x (List.mem_cons_of_mem _ hx)) hws)

section
variable (cfg : Cfg) (cap : Nat → Except PFail Unit)

/-! ## The functions of `SchemaField` -/

theorem run_common (f : SField) (n : Nat) (w : World) :
    runFn (eval cfg cap schemaProg (n + 12)) pq_SchemaField_common [fieldV f] w = .ret (commonV f.common) [fieldV f] w := by
  cases f <;> simp only [fieldV] <;> conv => lhs; unfold runFn
  all_goals pq_simp [pq_SchemaField_common]
  all_goals rfl

theorem typeName_fieldV (f : SField) : typeName (fieldV f) = n! "SchemaField" := by cases f <;> rfl

theorem plain_fieldV (f : SField) (x : Name) (fr : Frame) : putBack (.path [x]) (fieldV f) fr = fr := by cases f <;> rfl

theorem run_name (f : SField) (n : Nat) (w : World) :
    runFn (eval cfg cap schemaProg (n + 20)) pq_SchemaField_name [fieldV f] w = .ret (.base (.bytes f.common.name)) [fieldV f] w := by
  have hc := fun n w => run_common cfg cap f n w
  have ht := typeName_fieldV f
  have hp := plain_fieldV f
  conv => lhs; unfold runFn
  pq_simp [pq_SchemaField_name, ↓hc, ↓ht, ↓hp, commonV]

theorem run_definitionLevel (f : SField) (n : Nat) (w : World) :
    runFn (eval cfg cap schemaProg (n + 20)) pq_SchemaField_definition_level [fieldV f] w = .ret (.base (.u8 f.common.defLevel)) [fieldV f] w := by
  have hc := fun n w => run_common cfg cap f n w
  have ht := typeName_fieldV f
  have hp := plain_fieldV f
  conv => lhs; unfold runFn
  pq_simp [pq_SchemaField_definition_level, ↓hc, ↓ht, ↓hp, commonV]

theorem run_repetitionLevel (f : SField) (n : Nat) (w : World) :
    runFn (eval cfg cap schemaProg (n + 20)) pq_SchemaField_repetition_level [fieldV f] w = .ret (.base (.u8 f.common.repLevel)) [fieldV f] w := by
  have hc := fun n w => run_common cfg cap f n w
  have ht := typeName_fieldV f
  have hp := plain_fieldV f
  conv => lhs; unfold runFn
  pq_simp [pq_SchemaField_repetition_level, ↓hc, ↓ht, ↓hp, commonV]

theorem run_isOptional (f : SField) (n : Nat) (w : World) :
    runFn (eval cfg cap schemaProg (n + 20)) pq_SchemaField_is_optional [fieldV f] w = .ret (.base (.bool (decide (f.common.repetition = .Optional)))) [fieldV f] w := by
  have hc := fun n w => run_common cfg cap f n w
  have ht := typeName_fieldV f
  have hp := plain_fieldV f
  conv => lhs; unfold runFn
  cases hr : f.common.repetition <;> simp only [commonV, hr, repetitionV] at hc <;> pq_simp [pq_SchemaField_is_optional, ↓hc, ↓ht, ↓hp]
  all_goals rfl

/-! ## `find_field_by_path` -/

/-- The closure given to `find`, schema.rs:429 -/
@[reducible] def findLambda : Expr := .bin .eq (.method (.path [n! "child"]) (n! "name") []) (.deref (.path [n! "name"]))

/-- Where the closures are made. -/
@[reducible] def findFrame (f x : V) (name : Bytes) (rest path : V) : Frame :=
  [[(n! "field", f)], [], [(n! "name", .base (.bytes name)), (n! "remainder", rest)], [], [(n! "self", x), (n! "path", path)]]

theorem run_findOne (g : SField) (fv x : V) (name : Bytes) (rest path : V) (n : Nat) (fr : Frame) (w : World) :
    evApply cfg cap schemaProg (eval cfg cap schemaProg (n + 30)) (.lambda (n! "child") findLambda (findFrame fv x name rest path)) (fieldV g) fr w =
      .val (.base (.bool (g.common.name == name))) fr w := by
  have hc := fun n w => run_name cfg cap g n w
  have ht := typeName_fieldV g
  have hp := plain_fieldV g
  pq_simp [↓hc, ↓ht, ↓hp]

theorem run_findAll (fv x : V) (name : Bytes) (rest path : V) (n : Nat) (fr : Frame) (w : World) : ∀ fs : List SField,
    evFind cfg cap schemaProg (eval cfg cap schemaProg (n + 30)) (.lambda (n! "child") findLambda (findFrame fv x name rest path)) (fieldVs fs) fr w =
      .val (optV fieldV (fs.find? fun g => g.common.name == name)) fr w
  | [] => rfl
  | g :: fs => by
    rw [fieldVs, evFind, run_findOne cfg cap g fv x name rest path n fr w, List.find?_cons]
    cases g.common.name == name
    · exact run_findAll fv x name rest path n fr w fs
    · rfl

theorem run_find : ∀ (p : List Bytes) (f : SField) (N : Nat) (w : World), 60 * (p.length + 1) ≤ N →
    runFn (eval cfg cap schemaProg N) pq_SchemaField_find_field_by_path [fieldV f, pathV p] w =
      .ret (optV fieldV (findFieldByPath f p)) [fieldV f, pathV p] w
  | [], f, N, w, hN => by
    obtain ⟨n, rfl⟩ : ∃ n, N = n + 60 := ⟨N - 60, by omega⟩
    rw [findFieldByPath]
    conv => lhs; unfold runFn
    pq_simp [pq_SchemaField_find_field_by_path, pathV, List.map_nil, optV]
  | b :: p, f, N, w, hN => by
    rw [List.length_cons] at hN
    obtain ⟨n, rfl⟩ : ∃ n, N = n + 60 := ⟨N - 60, by omega⟩
    have hp := plain_fieldV f
    cases f with
    | primitive =>
      rw [findFieldByPath]
      conv => lhs; unfold runFn
      simp only [fieldV]
      pq_simp [pq_SchemaField_find_field_by_path, pathV, List.map_cons, optV]
    | group c fs l =>
      rw [findFieldByPath]
      simp only [fieldV]
      have ha := fun fv x name rest path n fr w => run_findAll cfg cap fv x name rest path n fr w fs
      cases hf : fs.find? (fun g => g.common.name == b) with
      | none =>
        conv => lhs; unfold runFn
        pq_simp [pq_SchemaField_find_field_by_path, pathV, List.map_cons, optV, ↓ha, hf]
      | some g =>
        have ih := fun N w h => run_find p g N w h
        have hN' : ∀ i, 60 * (p.length + 1) ≤ n + i := fun i => by omega
        have hp := plain_fieldV g
        have ht := typeName_fieldV g
        simp only [pathV] at ih
        conv => lhs; unfold runFn pq_SchemaField_find_field_by_path
        pq_simp [pathV, List.map_cons, optV, ↓ha, hf, ↓ih, hN', ↓hp, ↓ht]

/-! ## `convert_schema` -/

theorem withMemory_schema {cfg : Cfg} {cap : Nat → Except PFail Unit} (e : Element) (es : List Element) : withMemory cap (convertSchemaCap cfg (e :: es)) =
    match withMemory cap (convertInnerCap cfg maxDepth (e :: es) 0 0 0 0) with
    | (caps, .error x) => (caps, .error x)
    | (caps, .ok (root, remainder, _)) =>
      (caps, if remainder ≠ [] then schemaErr "Trailing schema elements after root group"
        else if root.common.repetition ≠ .Required then schemaErr "Root element must have repetition type required"
        else .ok root) := by
  rw [convertSchemaCap]
  rcases convertInnerCap cfg maxDepth (e :: es) 0 0 0 0 with ⟨caps, x | ⟨f, es', i⟩⟩ <;> cases h : (granted cap caps).2 <;> simp only [withMemory, h]
  intro h0; cases h0


theorem common_repetition (f : SField) : fieldOf (commonV f.common) (n! "repetition") = some (repetitionV f.common.repetition) := rfl

set_option maxHeartbeats 2000000 in
/-- What a run of `convert_schema` gives. -/
theorem run_convertSchema {vs : List V} {es : List Element} (h : Elements vs es) {L : Nat} (hL : es.length ≤ L) (hl : L < 2 ^ 64) {F : Nat} (hF : maxDepth * (L + 150) ≤ F) :
    match withMemory cap (convertSchemaCap cfg es) with
    | (caps, .ok f) => ∀ N w, F + 50 ≤ N →
        runFn (eval cfg cap schemaProg N) pq_convert_schema [.vec vs] w = .ret (.ok (fieldV f)) [.vec vs] { w with caps := w.caps ++ caps }
    | (caps, .error x) =>
      (∃ q us, x = errorOf (.con [n! "ParquetError", q] us) ∧ (∀ k ∈ caps, cap k = .ok ()) ∧ ∀ N w, F + 50 ≤ N →
        runFn (eval cfg cap schemaProg N) pq_convert_schema [.vec vs] w = .ret (.err (.con [n! "ParquetError", q] us)) [.vec vs] { w with caps := w.caps ++ caps }) ∨
      (x = .panic ∨ ∃ k ∈ caps, cap k = .error x) ∧ ∀ N w, F + 50 ≤ N → runFn (eval cfg cap schemaProg N) pq_convert_schema [.vec vs] w = .fail x { w with caps := w.caps ++ caps } := by
  cases h with
  | nil =>
    rw [show withMemory cap (convertSchemaCap cfg []) = ([], schemaErr "Empty schema") from rfl]
    refine .inl ⟨n! "Schema", [.str (n! "Empty schema")], rfl, nofun, fun N w hN => ?_⟩
    obtain ⟨n, rfl⟩ : ∃ n, N = n + 50 := ⟨N - 50, by omega⟩
    conv => lhs; unfold runFn
    pq_simp [pq_convert_schema]
    rfl
  | @cons v e lt vs es h hes =>
    rw [withMemory_schema]
    have hin := run_inner cfg cap L maxDepth (v :: vs) (e :: es) 0#64 0#8 0#8 0#8 (.cons h hes) hL (by rw [show BitVec.toNat 0#64 = 0 from rfl]; omega) (by simp) (by simp [maxDepth])
    have hempty : (v :: vs).isEmpty = false := rfl
    change InnerRun _ _ _ _ _ _ _ _ _ (withMemory cap (convertInnerCap cfg maxDepth (e :: es) 0 0 0 0)) at hin
    have hlit : ∀ ev w, runFn ev pq_convert_schema_inner [.vec (v :: vs), .ref (.base (.lit 0)), .base (.lit 0), .base (.lit 0), .base (.lit 0)] w =
      runFn ev pq_convert_schema_inner (innerArgs (.vec (v :: vs)) 0#64 0#8 0#8 0#8) w := fun _ _ => rfl
    have hne : ∀ p q : List Name, binV cfg .ne (.con p []) (.con q []) = .ok (.base (.bool (p != q))) := fun _ _ => rfl
    rcases hc : withMemory cap (convertInnerCap cfg maxDepth (e :: es) 0 0 0 0) with ⟨caps, x | ⟨f, es', i⟩⟩
    · rw [hc] at hin
      rcases hin with ⟨q, us, j, hx, hg, hin⟩ | ⟨hx, hin⟩
      · refine .inl ⟨q, us, hx, hg, fun N w hN => ?_⟩
        obtain ⟨n, rfl⟩ : ∃ n, N = n + 50 := ⟨N - 50, by omega⟩
        have hN' : ∀ i, F ≤ n + i := fun i => by omega
        have hin' := fun N w (h : F ≤ N) => (hlit (eval cfg cap schemaProg N) w).trans (hin N w (Nat.le_trans hF h))
        conv => lhs; unfold runFn
        pq_simp [pq_convert_schema, ↓hin',  hN', hempty, List.isEmpty_nil, List.isEmpty_cons, Bool.not_true, Bool.not_false, Option.isSome_none, bne_self_eq_false, bne, beq_self_eq_true, ↓hne]
      · refine .inr ⟨hx, fun N w hN => ?_⟩
        obtain ⟨n, rfl⟩ : ∃ n, N = n + 50 := ⟨N - 50, by omega⟩
        have hN' : ∀ i, F ≤ n + i := fun i => by omega
        have hin' := fun N w (h : F ≤ N) => (hlit (eval cfg cap schemaProg N) w).trans (hin N w (Nat.le_trans hF h))
        conv => lhs; unfold runFn
        pq_simp [pq_convert_schema, ↓hin',  hN', hempty, List.isEmpty_nil, List.isEmpty_cons, Bool.not_true, Bool.not_false, Option.isSome_none, bne_self_eq_false, bne, beq_self_eq_true, ↓hne]
    · rw [hc] at hin
      obtain ⟨vs', hes', _, hg, hin⟩ := hin
      have hco := fun n w => run_common cfg cap f n w
      have ht := typeName_fieldV f
      have hp := plain_fieldV f
      have hr := common_repetition f
      cases hes' with
      | cons h' hs' =>
        dsimp only
        rw [if_pos (by simp)]
        refine .inl ⟨n! "Schema", [.str (n! "Trailing schema elements after root group")], rfl, hg, fun N w hN => ?_⟩
        obtain ⟨n, rfl⟩ : ∃ n, N = n + 50 := ⟨N - 50, by omega⟩
        have hN' : ∀ i, F ≤ n + i := fun i => by omega
        have hin' := fun N w (h : F ≤ N) => (hlit (eval cfg cap schemaProg N) w).trans (hin N w (Nat.le_trans hF h))
        conv => lhs; unfold runFn
        pq_simp [pq_convert_schema, ↓hin',  hN', hempty, List.isEmpty_nil, List.isEmpty_cons, Bool.not_true, Bool.not_false, Option.isSome_none, bne_self_eq_false, bne, beq_self_eq_true, ↓hne]
      | nil =>
        dsimp only
        rw [if_neg (by simp)]
        cases hq : f.common.repetition
        · rw [if_neg (by simp)]
          intro N w hN
          obtain ⟨n, rfl⟩ : ∃ n, N = n + 50 := ⟨N - 50, by omega⟩
          have hN' : ∀ i, F ≤ n + i := fun i => by omega
          simp only [hq, repetitionV] at hr
          have hin' := fun N w (h : F ≤ N) => (hlit (eval cfg cap schemaProg N) w).trans (hin N w (Nat.le_trans hF h))
          conv => lhs; unfold runFn
          pq_simp [pq_convert_schema, ↓hin',  hN', hempty, List.isEmpty_nil, List.isEmpty_cons, Bool.not_true, Bool.not_false, Option.isSome_none, bne_self_eq_false, bne, beq_self_eq_true, ↓hne, ↓hco, ↓ht, ↓hp, ↓hr]
        all_goals
          rw [if_pos (by simp)]
          refine .inl ⟨n! "Schema", [.str (n! "Root element must have repetition type required")], rfl, hg, fun N w hN => ?_⟩
          obtain ⟨n, rfl⟩ : ∃ n, N = n + 50 := ⟨N - 50, by omega⟩
          have hN' : ∀ i, F ≤ n + i := fun i => by omega
          simp only [hq, repetitionV] at hr
          have hin' := fun N w (h : F ≤ N) => (hlit (eval cfg cap schemaProg N) w).trans (hin N w (Nat.le_trans hF h))
          conv => lhs; unfold runFn
          pq_simp [pq_convert_schema, ↓hin',  hN', hempty, List.isEmpty_nil, List.isEmpty_cons, Bool.not_true, Bool.not_false, Option.isSome_none, bne_self_eq_false, bne, beq_self_eq_true, ↓hne, ↓hco, ↓ht, ↓hp, ↓hr]
          rfl

end
end CT.Pq
