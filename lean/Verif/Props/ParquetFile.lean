import Verif.Props.PageIndex
import Verif.Props.ParquetSchema
import Verif.Props.Reading
import Verif.Props.Size
/-! # C65: the schema of a whole file -/
namespace CT.Props
open CT Spec Schema Parquet

/-! ## Values and elements -/

def ofOptEnum : Option (BitVec 32) → Val
  | none => .none
  | some x => .some (.enum x)

def timeUnitVal : TimeUnit → Val
  | .MILLIS => .union 0 (.struct [])
  | .MICROS => .union 1 (.struct [])
  | .NANOS => .union 2 (.struct [])

/-- A logical type as it is stored. -/
def logicalVal : LogicalType → Val
  | .STRING => .union 0 (.struct [])
  | .MAP => .union 1 (.struct [])
  | .LIST => .union 2 (.struct [])
  | .ENUM => .union 3 (.struct [])
  | .DECIMAL scale precision => .union 4 (.struct [.i32 scale, .i32 precision])
  | .DATE => .union 5 (.struct [])
  | .TIME utc u => .union 6 (.struct [.bool utc, timeUnitVal u])
  | .TIMESTAMP utc u => .union 7 (.struct [.bool utc, timeUnitVal u])
  | .INTEGER w s => .union 8 (.struct [.i8 w, .bool s])
  | .UNKNOWN => .union 9 (.struct [])
  | .JSON => .union 10 (.struct [])
  | .BSON => .union 11 (.struct [])
  | .UUID => .union 12 (.struct [])
  | .FLOAT16 => .union 13 (.struct [])
  | .VARIANT none => .union 14 (.struct [.none])
  | .VARIANT (some v) => .union 14 (.struct [.some (.i8 v)])
  | .GEOMETRY => .union 15 (.struct [.none])
  | .GEOGRAPHY => .union 16 (.struct [.none, .none])

def ofOptLogical : Option LogicalType → Val
  | none => .none
  | some l => .some (logicalVal l)

/-- An element as it is stored. -/
def elementVal (e : Element) : Val :=
  .struct [ofOptEnum e.type_, ofOptI32 e.typeLength, ofOptEnum e.repetitionType, .string e.name, ofOptI32 e.numChildren, ofOptEnum e.convertedType,
    ofOptI32 e.scale, ofOptI32 e.precision, ofOptI32 e.fieldId, ofOptLogical e.logicalType]

theorem optEnum_of (o : Option (BitVec 32)) : optEnum (ofOptEnum o) = some o := by cases o <;> rfl
theorem optI32_of (o : Option (BitVec 32)) : optI32 (ofOptI32 o) = some o := by cases o <;> rfl
theorem timeUnit_of (u : TimeUnit) : timeUnitOfVal (timeUnitVal u) = some u := by cases u <;> rfl

theorem logical_of (l : LogicalType) : logicalTypeOfVal (logicalVal l) = some l := by
  cases l with
  | TIME a u => simp [logicalVal, logicalTypeOfVal, timeUnit_of]
  | TIMESTAMP a u => simp [logicalVal, logicalTypeOfVal, timeUnit_of]
  | VARIANT v => cases v <;> rfl
  | _ => rfl

theorem optLogical_of (l : Option LogicalType) : optLogicalType (ofOptLogical l) = some l := by
  cases l with
  | none => rfl
  | some l => simp [ofOptLogical, optLogicalType, logical_of]

theorem elementOf_val (e : Element) : elementOfVal (elementVal e) = some e := by
  have h : elementOfVal (elementVal e) = ((optEnum (ofOptEnum e.type_)).bind fun a => (optI32 (ofOptI32 e.typeLength)).bind fun b =>
      (optEnum (ofOptEnum e.repetitionType)).bind fun c => (some e.name).bind fun d => (optI32 (ofOptI32 e.numChildren)).bind fun f =>
      (optEnum (ofOptEnum e.convertedType)).bind fun g => (optI32 (ofOptI32 e.scale)).bind fun h => (optI32 (ofOptI32 e.precision)).bind fun i =>
      (optI32 (ofOptI32 e.fieldId)).bind fun j => (optLogicalType (ofOptLogical e.logicalType)).bind fun k =>
      some (⟨a, b, c, d, f, g, h, i, j, k⟩ : Element)) := rfl
  rw [h]
  simp only [optEnum_of, optI32_of, optLogical_of, Option.bind_some]

theorem struct_nil_typed {k : Nat} {name : String} (hk : Format.parquetEnv[k]? = some (.struct name [])) : HasTy Format.parquetEnv (.struct []) (.named k) :=
  .struct _ _ _ _ hk rfl fun i f v hf _ => by simp at hf

theorem timeUnitVal_typed (u : TimeUnit) : HasTy Format.parquetEnv (timeUnitVal u) Format.tTimeUnit := by
  cases u <;> exact .union _ _ _ _ _ _ rfl rfl (struct_nil_typed rfl)

theorem logicalVal_typed (l : LogicalType) : HasTy Format.parquetEnv (logicalVal l) Format.tLogicalType := by
  cases l with
  | DECIMAL scale precision =>
    refine .union _ _ _ _ _ _ rfl rfl (.struct _ _ _ _ rfl rfl fun i f v hf hv => ?_)
    match i with
    | 0 => simp at hf hv; subst hf hv; exact .i32 _
    | 1 => simp at hf hv; subst hf hv; exact .i32 _
    | i + 2 => simp at hf
  | TIME utc u =>
    refine .union _ _ _ _ _ _ rfl rfl (.struct _ _ _ _ rfl rfl fun i f v hf hv => ?_)
    match i with
    | 0 => simp at hf hv; subst hf hv; exact .bool _
    | 1 => simp at hf hv; subst hf hv; exact timeUnitVal_typed u
    | i + 2 => simp at hf
  | TIMESTAMP utc u =>
    refine .union _ _ _ _ _ _ rfl rfl (.struct _ _ _ _ rfl rfl fun i f v hf hv => ?_)
    match i with
    | 0 => simp at hf hv; subst hf hv; exact .bool _
    | 1 => simp at hf hv; subst hf hv; exact timeUnitVal_typed u
    | i + 2 => simp at hf
  | INTEGER w s =>
    refine .union _ _ _ _ _ _ rfl rfl (.struct _ _ _ _ rfl rfl fun i f v hf hv => ?_)
    match i with
    | 0 => simp at hf hv; subst hf hv; exact .i8 _
    | 1 => simp at hf hv; subst hf hv; exact .bool _
    | i + 2 => simp at hf
  | VARIANT v =>
    cases v with
    | none =>
      refine .union _ _ _ _ _ _ rfl rfl (.struct _ _ _ _ rfl rfl fun i f v hf hv => ?_)
      match i with
      | 0 => simp at hf hv; subst hf hv; exact .none _
      | i + 1 => simp at hf
    | some x =>
      refine .union _ _ _ _ _ _ rfl rfl (.struct _ _ _ _ rfl rfl fun i f v hf hv => ?_)
      match i with
      | 0 => simp at hf hv; subst hf hv; exact .some _ _ (.i8 _)
      | i + 1 => simp at hf
  | GEOMETRY =>
    refine .union _ _ _ _ _ _ rfl rfl (.struct _ _ _ _ rfl rfl fun i f v hf hv => ?_)
    match i with
    | 0 => simp at hf hv; subst hf hv; exact .none _
    | i + 1 => simp at hf
  | GEOGRAPHY =>
    refine .union _ _ _ _ _ _ rfl rfl (.struct _ _ _ _ rfl rfl fun i f v hf hv => ?_)
    match i with
    | 0 => simp at hf hv; subst hf hv; exact .none _
    | 1 => simp at hf hv; subst hf hv; exact .none _
    | i + 2 => simp at hf
  | _ => exact .union _ _ _ _ _ _ rfl rfl (struct_nil_typed rfl)

theorem ofOptEnum_typed {k : Nat} {name : String} (hk : Format.parquetEnv[k]? = some (.enum name)) (o : Option (BitVec 32)) :
    HasTy Format.parquetEnv (ofOptEnum o) (.option (.named k)) := by
  cases o with
  | none => exact .none _
  | some x => exact .some _ _ (.enum _ _ _ hk)

theorem elementVal_typed (e : Element) (hn : utf8Valid e.name = true) : HasTy Format.parquetEnv (elementVal e) Format.tSchemaElement := by
  refine .struct _ _ _ _ rfl rfl fun i f v hf hv => ?_
  match i with
  | 0 => simp at hf hv; subst hf hv; exact ofOptEnum_typed rfl _
  | 1 => simp at hf hv; subst hf hv; exact ofOptI32_typed _
  | 2 => simp at hf hv; subst hf hv; exact ofOptEnum_typed rfl _
  | 3 => simp at hf hv; subst hf hv; exact .string _ hn
  | 4 => simp at hf hv; subst hf hv; exact ofOptI32_typed _
  | 5 => simp at hf hv; subst hf hv; exact ofOptEnum_typed rfl _
  | 6 => simp at hf hv; subst hf hv; exact ofOptI32_typed _
  | 7 => simp at hf hv; subst hf hv; exact ofOptI32_typed _
  | 8 => simp at hf hv; subst hf hv; exact ofOptI32_typed _
  | 9 =>
    simp at hf hv; subst hf hv
    show HasTy _ (ofOptLogical e.logicalType) (.option Format.tLogicalType)
    cases e.logicalType with
    | none => exact .none _
    | some l => exact .some _ _ (logicalVal_typed l)
  | i + 10 => simp at hf

/-! ## Typed values are elements -/

theorem typed_optEnum {env : List Def} {k : Nat} {name : String} (hk : env[k]? = some (.enum name)) {w : Val} (h : HasTy env w (.option (.named k))) : ∃ o, optEnum w = some o := by
  cases h with
  | none => exact ⟨none, rfl⟩
  | some _ _ h =>
    cases h with
    | enum _ _ x => exact ⟨some x, rfl⟩
    | struct _ _ _ _ hk' => rw [hk] at hk'; cases hk'
    | union _ _ _ _ _ _ hk' => rw [hk] at hk'; cases hk'

theorem typed_union {env : List Def} {k : Nat} {name : String} {us : List Variant} (hk : env[k]? = some (.union name us)) {w : Val} (h : HasTy env w (.named k)) :
    ∃ i u v, w = .union i v ∧ us[i]? = some u ∧ HasTy env v u.ty := by
  cases h with
  | enum _ _ _ hk' => rw [hk] at hk'; cases hk'
  | struct _ _ _ _ hk' => rw [hk] at hk'; cases hk'
  | union _ _ us' i u v hk' hu h =>
    rw [hk] at hk'; obtain ⟨rfl, rfl⟩ : _ ∧ _ := by simpa using hk'
    exact ⟨i, u, v, rfl, hu, h⟩

theorem typed_struct {env : List Def} {k : Nat} {name : String} {fs : List Field} (hk : env[k]? = some (.struct name fs)) {w : Val} (h : HasTy env w (.named k)) :
    ∃ vs, w = .struct vs ∧ vs.length = fs.length ∧ ∀ (i : Nat) (f : Field) (v : Val), fs[i]? = some f → vs[i]? = some v → HasTy env v f.rustTy := by
  cases h with
  | enum _ _ _ hk' => rw [hk] at hk'; cases hk'
  | union _ _ _ _ _ _ hk' => rw [hk] at hk'; cases hk'
  | struct _ _ fs' vs hk' hl h =>
    rw [hk] at hk'; obtain ⟨rfl, rfl⟩ : _ ∧ _ := by simpa using hk'
    exact ⟨vs, rfl, hl, h⟩

theorem typed_struct1 {env : List Def} {k : Nat} {name : String} {a : Field} (hk : env[k]? = some (.struct name [a])) {w : Val} (h : HasTy env w (.named k)) :
    ∃ x, w = .struct [x] ∧ HasTy env x a.rustTy := by
  obtain ⟨vs, rfl, hl, h⟩ := typed_struct hk h
  match vs, hl with
  | [x], _ => exact ⟨x, rfl, h 0 a x rfl rfl⟩

theorem typed_struct2 {env : List Def} {k : Nat} {name : String} {a b : Field} (hk : env[k]? = some (.struct name [a, b])) {w : Val} (h : HasTy env w (.named k)) :
    ∃ x y, w = .struct [x, y] ∧ HasTy env x a.rustTy ∧ HasTy env y b.rustTy := by
  obtain ⟨vs, rfl, hl, h⟩ := typed_struct hk h
  match vs, hl with
  | [x, y], _ => exact ⟨x, y, rfl, h 0 a x rfl rfl, h 1 b y rfl rfl⟩

theorem typed_timeUnit {w : Val} (h : HasTy Format.parquetEnv w Format.tTimeUnit) : ∃ u, timeUnitOfVal w = some u := by
  obtain ⟨i, u, v, rfl, hu, _⟩ := typed_union (show Format.parquetEnv[24]? = some (.union _ _) from rfl) h
  match i with
  | 0 => exact ⟨_, rfl⟩
  | 1 => exact ⟨_, rfl⟩
  | 2 => exact ⟨_, rfl⟩
  | i + 3 => simp at hu

theorem typed_logical {w : Val} (h : HasTy Format.parquetEnv w Format.tLogicalType) : ∃ l, logicalTypeOfVal w = some l := by
  obtain ⟨i, u, v, rfl, hu, ht⟩ := typed_union (show Format.parquetEnv[33]? = some (.union _ _) from rfl) h
  match i with
  | 0 => exact ⟨_, rfl⟩
  | 1 => exact ⟨_, rfl⟩
  | 2 => exact ⟨_, rfl⟩
  | 3 => exact ⟨_, rfl⟩
  | 4 =>
    simp at hu; subst hu
    obtain ⟨x, y, rfl, hx, hy⟩ := typed_struct2 (show Format.parquetEnv[20]? = some (.struct _ [_, _]) from rfl) ht
    cases hx; cases hy; exact ⟨_, rfl⟩
  | 5 => exact ⟨_, rfl⟩
  | 6 =>
    simp at hu; subst hu
    obtain ⟨x, y, rfl, hx, hy⟩ := typed_struct2 (show Format.parquetEnv[26]? = some (.struct _ [_, _]) from rfl) ht
    obtain ⟨u, hu⟩ := typed_timeUnit hy
    cases hx; exact ⟨_, by simp only [logicalTypeOfVal, hu]; rfl⟩
  | 7 =>
    simp at hu; subst hu
    obtain ⟨x, y, rfl, hx, hy⟩ := typed_struct2 (show Format.parquetEnv[25]? = some (.struct _ [_, _]) from rfl) ht
    obtain ⟨u, hu⟩ := typed_timeUnit hy
    cases hx; exact ⟨_, by simp only [logicalTypeOfVal, hu]; rfl⟩
  | 8 =>
    simp at hu; subst hu
    obtain ⟨x, y, rfl, hx, hy⟩ := typed_struct2 (show Format.parquetEnv[27]? = some (.struct _ [_, _]) from rfl) ht
    cases hx; cases hy; exact ⟨_, rfl⟩
  | 9 => exact ⟨_, rfl⟩
  | 10 => exact ⟨_, rfl⟩
  | 11 => exact ⟨_, rfl⟩
  | 12 => exact ⟨_, rfl⟩
  | 13 => exact ⟨_, rfl⟩
  | 14 =>
    simp at hu; subst hu
    obtain ⟨x, rfl, hx⟩ := typed_struct1 (show Format.parquetEnv[30]? = some (.struct _ [_]) from rfl) ht
    cases hx with
    | none => exact ⟨_, rfl⟩
    | some _ _ h => cases h; exact ⟨_, rfl⟩
  | 15 => exact ⟨_, rfl⟩
  | 16 => exact ⟨_, rfl⟩
  | i + 17 => simp at hu

theorem typed_element {w : Val} (h : HasTy Format.parquetEnv w Format.tSchemaElement) : ∃ e, elementOfVal w = some e := by
  obtain ⟨vs, rfl, hl, h⟩ := typed_struct (show Format.parquetEnv[34]? = some (.struct _ _) from rfl) h
  match vs, hl with
  | [a, b, c, d, e, f, g, i, j, k], _ =>
    obtain ⟨a', ha⟩ := typed_optEnum rfl (h 0 _ a rfl rfl)
    obtain ⟨b', rfl⟩ := typed_optI32 (h 1 _ b rfl rfl)
    obtain ⟨c', hc⟩ := typed_optEnum rfl (h 2 _ c rfl rfl)
    obtain ⟨d', hd⟩ : ∃ n, stringOfVal d = some n := by
      have := h 3 _ d rfl rfl
      change HasTy _ d .string at this
      cases this; exact ⟨_, rfl⟩
    obtain ⟨e', rfl⟩ := typed_optI32 (h 4 _ e rfl rfl)
    obtain ⟨f', hf⟩ := typed_optEnum rfl (h 5 _ f rfl rfl)
    obtain ⟨g', rfl⟩ := typed_optI32 (h 6 _ g rfl rfl)
    obtain ⟨i', rfl⟩ := typed_optI32 (h 7 _ i rfl rfl)
    obtain ⟨j', rfl⟩ := typed_optI32 (h 8 _ j rfl rfl)
    obtain ⟨k', hk⟩ : ∃ l, optLogicalType k = some l := by
      have := h 9 _ k rfl rfl
      change HasTy _ k (.option Format.tLogicalType) at this
      cases this with
      | none => exact ⟨_, rfl⟩
      | some _ v h => obtain ⟨l, hl⟩ := typed_logical h; exact ⟨_, by simp only [optLogicalType, hl]; rfl⟩
    refine ⟨⟨a', b', c', d', e', f', g', i', j', k'⟩, ?_⟩
    have : elementOfVal (.struct [a, ofOptI32 b', c, d, ofOptI32 e', f, ofOptI32 g', ofOptI32 i', ofOptI32 j', k]) =
      ((optEnum a).bind fun a => (optI32 (ofOptI32 b')).bind fun b =>
      (optEnum c).bind fun c => (stringOfVal d).bind fun d => (optI32 (ofOptI32 e')).bind fun f' =>
      (optEnum f).bind fun g => (optI32 (ofOptI32 g')).bind fun h => (optI32 (ofOptI32 i')).bind fun i =>
      (optI32 (ofOptI32 j')).bind fun j => (optLogicalType k).bind fun k =>
      some (⟨a, b, c, d, f', g, h, i, j, k⟩ : Element)) := rfl
    rw [this, ha, hc, hd, hf, hk]
    simp only [optI32_of, Option.bind_some]

/-- Metadata of the right type has schema elements. -/
theorem schemaOfVal_typed {md : Val} (h : HasTy Format.parquetEnv md Format.tFileMetaData) : ∃ es, schemaOfVal md = some es := by
  obtain ⟨w, hw, ht⟩ := getField_typed (d := Format.dFileMetaData) (fname := "schema") (i := 1) (f := ⟨2, true, "schema", .list Format.tSchemaElement⟩)
    (show Format.parquetEnv[64]? = some (.struct _ _) from rfl) rfl rfl h
  change HasTy _ w (.list Format.tSchemaElement) at ht
  cases ht with
  | list _ es he =>
  obtain ⟨ys, hy⟩ := mapM_some_exists (f := elementOfVal) (l := es) fun e hm => typed_element (he e hm)
  exact ⟨ys, by unfold schemaOfVal; rw [hw]; exact hy⟩

/-- C65: the schema of any file: an error of one of the three steps, or the tree of the elements the file holds. In particular nothing panics that does not
already panic while reading the metadata. -/
theorem C65_outcome (cfg : Cfg) (f : File) :
    (∃ x, getMetadataChunk cfg f = .error x ∧ schemaOfFile cfg f = .error x) ∨
    ∃ mb f', getMetadataChunk cfg f = .ok (mb, f') ∧
      ((∃ x, readThrift cfg (sliceInput cfg) Format.parquetEnv Format.tFileMetaData mb = .error x ∧ schemaOfFile cfg f = .error (.ofFail x)) ∨
       ∃ fmd rest es, readThrift cfg (sliceInput cfg) Format.parquetEnv Format.tFileMetaData mb = .ok (fmd, rest) ∧ schemaOfVal fmd = some es ∧
        ((∃ root, convertSchema cfg es = .ok root ∧ schemaOfFile cfg f = .ok (fmd, root)) ∨
         (∃ msg, schemaOfFile cfg f = .error (.err (.schema msg))) ∨ ∃ id, schemaOfFile cfg f = .error (.err (.unknownType id)))) := by
  unfold schemaOfFile
  cases h1 : getMetadataChunk cfg f with
  | error x => exact .inl ⟨x, rfl, rfl⟩
  | ok t =>
    obtain ⟨mb, f'⟩ := t
    refine .inr ⟨mb, f', rfl, ?_⟩
    dsimp only
    cases h2 : readThrift cfg (sliceInput cfg) Format.parquetEnv Format.tFileMetaData mb with
    | error x => exact .inl ⟨x, rfl, rfl⟩
    | ok t =>
      obtain ⟨fmd, rest⟩ := t
      have ht : HasTy Format.parquetEnv fmd Format.tFileMetaData := by
        exact C35_typed (cfg := cfg) (by decide) (by decide) (.inl ⟨_, _, h2⟩)
      obtain ⟨es, he⟩ := schemaOfVal_typed ht
      refine .inr ⟨fmd, rest, es, rfl, he, ?_⟩
      dsimp only
      rw [he]
      dsimp only
      rcases C50_only_errors cfg es with ⟨root, h⟩ | ⟨m, h⟩ | ⟨id, h⟩
      · exact .inl ⟨root, h, by rw [h]; rfl⟩
      · exact .inr (.inl ⟨m, by rw [h]; rfl⟩)
      · exact .inr (.inr ⟨id, by rw [h]; rfl⟩)

/-- `FileMetaData` with this schema and no rows. -/
def schemaMd (es : List Element) : Val := .struct [.i32 1#32, .list (es.map elementVal), .i64 0#64, .list [], .none, .none, .none, .none, .none]

theorem schemaMd_typed {es : List Element} (h : ∀ e ∈ es, utf8Valid e.name = true) : HasTy Format.parquetEnv (schemaMd es) Format.tFileMetaData := by
  refine .struct _ _ _ _ rfl rfl fun i f v hf hv => ?_
  match i with
  | 0 => simp at hf hv; subst hf hv; exact .i32 _
  | 1 =>
    simp at hf hv; subst hf hv
    refine .list _ _ fun x hx => ?_
    obtain ⟨e, he, rfl⟩ := List.mem_map.1 hx
    exact elementVal_typed e (h e he)
  | 2 => simp at hf hv; subst hf hv; exact .i64 _
  | 3 => simp at hf hv; subst hf hv; exact .list _ _ (by simp)
  | 4 => simp at hf hv; subst hf hv; exact .none _
  | 5 => simp at hf hv; subst hf hv; exact .none _
  | 6 => simp at hf hv; subst hf hv; exact .none _
  | 7 => simp at hf hv; subst hf hv; exact .none _
  | 8 => simp at hf hv; subst hf hv; exact .none _
  | i + 9 => simp at hf

theorem mapM_elementVal : ∀ es : List Element, (es.map elementVal).mapM elementOfVal = some es
  | [] => rfl
  | e :: es => by rw [List.map_cons, List.mapM_cons, elementOf_val, mapM_elementVal es]; rfl

/-- The elements come back out of the metadata. -/
theorem schemaOf_md (es : List Element) : schemaOfVal (schemaMd es) = some es := by
  unfold schemaOfVal
  have : (getField Format.dFileMetaData "schema" (schemaMd es)).bind items = some (es.map elementVal) := rfl
  rw [this]
  exact mapM_elementVal es

theorem unshare_elementVal (e : Element) : (elementVal e).unshare = elementVal e := by
  have h1 : ∀ o, (ofOptEnum o).unshare = ofOptEnum o := by intro o; cases o <;> simp [ofOptEnum, Val.unshare]
  have h2 : ∀ o, (ofOptI32 o).unshare = ofOptI32 o := by intro o; cases o <;> simp [ofOptI32, Val.unshare]
  have h3 : ∀ u, (timeUnitVal u).unshare = timeUnitVal u := by intro u; cases u <;> simp [timeUnitVal, Val.unshare, Val.unshareList]
  have h4 : ∀ l, (logicalVal l).unshare = logicalVal l := by
    intro l
    cases l with
    | VARIANT v => cases v <;> simp [logicalVal, Val.unshare, Val.unshareList]
    | _ => simp [logicalVal, Val.unshare, Val.unshareList, h3]
  have h5 : ∀ o, (ofOptLogical o).unshare = ofOptLogical o := by intro o; cases o <;> simp [ofOptLogical, Val.unshare, h4]
  simp [elementVal, Val.unshare, Val.unshareList, h1, h2, h5]

theorem unshare_schemaMd (es : List Element) : (schemaMd es).unshare = schemaMd es := by
  have : Val.unshareList (es.map elementVal) = es.map elementVal := by
    induction es with
    | nil => simp [Val.unshareList]
    | cons e es ih => simp [Val.unshareList, ih, unshare_elementVal]
  simp [schemaMd, Val.unshare, Val.unshareList, this]

/-! ## Elements can be written -/

/-- Something is written for the field, whatever precedes it. -/
def FieldEnc (t : Ty) (v : Val) : Prop := ∀ id last, ∃ p, Enc Format.parquetEnv anyStep (.field t v id last) p

/-- Something is written for the value. -/
def ValueEnc (t : Ty) (v : Val) : Prop := ∃ p, Enc Format.parquetEnv anyStep (.value t v) p

theorem FieldEnc.value {t : Ty} {v : Val} (h1 : t ≠ .bool) (h2 : ∀ t', t ≠ .option t') (h : ValueEnc t v) : FieldEnc t v := by
  obtain ⟨p, hp⟩ := h
  exact fun id last => ⟨_, .fieldValue _ _ _ _ _ h1 h2 trivial hp⟩

theorem FieldEnc.bool (b : Bool) : FieldEnc .bool (.bool b) := fun _ _ => ⟨_, .fieldBool _ _ _ trivial⟩

theorem FieldEnc.none (t : Ty) : FieldEnc (.option t) .none := fun _ _ => ⟨_, .fieldNone _ _ _⟩

theorem FieldEnc.some {t : Ty} {v : Val} (h : FieldEnc t v) : FieldEnc (.option t) (.some v) := fun id last =>
  let ⟨p, hp⟩ := h id last; ⟨p, .fieldSome _ _ _ _ _ hp⟩

/-- All fields can be written. -/
inductive FieldsEnc : List Field → List Val → Prop
  | nil : FieldsEnc [] []
  | cons {f fs v vs} (h : FieldEnc f.rustTy v) (hs : FieldsEnc fs vs) : FieldsEnc (f :: fs) (v :: vs)

theorem FieldsEnc.enc {fs : List Field} {vs : List Val} (h : FieldsEnc fs vs) : ∀ last, ∃ p, Enc Format.parquetEnv anyStep (.fields fs vs last) p := by
  induction h with
  | nil => exact fun _ => ⟨_, .fieldsNil _⟩
  | cons h hs ih =>
    intro last
    obtain ⟨p, hp⟩ := h _ last
    obtain ⟨q, hq⟩ := ih _
    exact ⟨_, .fieldsCons _ _ _ _ _ _ _ hp hq⟩

theorem ValueEnc.struct {k : Nat} {name : String} {fs : List Field} (hk : Format.parquetEnv[k]? = some (.struct name fs)) {vs : List Val} (h : FieldsEnc fs vs) :
    ValueEnc (.named k) (.struct vs) :=
  let ⟨_, hp⟩ := h.enc 0#16; ⟨_, .struct _ _ _ _ _ hk hp⟩

theorem ValueEnc.union {k : Nat} {name : String} {us : List Variant} (hk : Format.parquetEnv[k]? = some (.union name us)) {i : Nat} {u : Variant} (hu : us[i]? = some u)
    {v : Val} (h : FieldEnc u.ty v) : ValueEnc (.named k) (.union i v) :=
  let ⟨_, hp⟩ := h u.id 0#16; ⟨_, .union _ _ _ _ _ _ _ hk hu hp⟩

theorem i32_enc (o : Option (BitVec 32)) : FieldEnc (.option .i32) (ofOptI32 o) := by
  cases o with
  | none => exact .none _
  | some x => exact .some (.value (by simp) (by simp) ⟨_, .i32 x⟩)

theorem enum_enc {k : Nat} {name : String} (hk : Format.parquetEnv[k]? = some (.enum name)) (o : Option (BitVec 32)) : FieldEnc (.option (.named k)) (ofOptEnum o) := by
  cases o with
  | none => exact .none _
  | some x => exact .some (.value (by simp) (by simp) ⟨_, .enum _ _ x hk⟩)

theorem nil_enc {k : Nat} {name : String} (hk : Format.parquetEnv[k]? = some (.struct name [])) : FieldEnc (.named k) (.struct []) :=
  .value (by simp) (by simp) (.struct hk .nil)

theorem timeUnit_enc (u : TimeUnit) : FieldEnc Format.tTimeUnit (timeUnitVal u) := by
  cases u <;> exact .value (by simp) (by simp) (.union rfl rfl (nil_enc rfl))

theorem logical_enc (l : LogicalType) : ValueEnc Format.tLogicalType (logicalVal l) := by
  have hi : ∀ x, FieldEnc .i32 (.i32 x) := fun x => .value (by simp) (by simp) ⟨_, .i32 x⟩
  have h8 : ∀ x, FieldEnc .i8 (.i8 x) := fun x => .value (by simp) (by simp) ⟨_, .i8 x⟩
  cases l with
  | DECIMAL s p => refine .union rfl rfl (.value (by simp) (by simp) (.struct rfl ?_)); exact .cons (hi s) (.cons (hi p) .nil)
  | TIME a u => refine .union rfl rfl (.value (by simp) (by simp) (.struct rfl ?_)); exact .cons (.bool a) (.cons (timeUnit_enc u) .nil)
  | TIMESTAMP a u => refine .union rfl rfl (.value (by simp) (by simp) (.struct rfl ?_)); exact .cons (.bool a) (.cons (timeUnit_enc u) .nil)
  | INTEGER w s => refine .union rfl rfl (.value (by simp) (by simp) (.struct rfl ?_)); exact .cons (h8 w) (.cons (.bool s) .nil)
  | VARIANT v =>
    cases v with
    | none => refine .union rfl rfl (.value (by simp) (by simp) (.struct rfl ?_)); exact .cons (.none _) .nil
    | some x => refine .union rfl rfl (.value (by simp) (by simp) (.struct rfl ?_)); exact .cons (.some (h8 x)) .nil
  | GEOMETRY => refine .union rfl rfl (.value (by simp) (by simp) (.struct rfl ?_)); exact .cons (.none _) .nil
  | GEOGRAPHY => refine .union rfl rfl (.value (by simp) (by simp) (.struct rfl ?_)); exact .cons (.none _) (.cons (.none _) .nil)
  | _ => exact .union rfl rfl (nil_enc rfl)

theorem element_enc (e : Element) (hn : e.name.length ≤ 16777216) : ValueEnc Format.tSchemaElement (elementVal e) := by
  refine .struct rfl ?_
  refine (.cons (enum_enc rfl _) (.cons (i32_enc _) (.cons (enum_enc rfl _) (.cons (.value (by simp [Field.rustTy]) (by simp [Field.rustTy]) ⟨_, .string _ hn⟩)
    (.cons (i32_enc _) (.cons (enum_enc rfl _) (.cons (i32_enc _) (.cons (i32_enc _) (.cons (i32_enc _) (.cons ?_ .nil))))))))))
  show FieldEnc (.option Format.tLogicalType) (ofOptLogical e.logicalType)
  cases e.logicalType with
  | none => exact .none _
  | some l => exact .some (.value (by simp) (by simp) (logical_enc l))

theorem elems_enc : ∀ es : List Element, (∀ e ∈ es, e.name.length ≤ 16777216) → ∃ p, Enc Format.parquetEnv anyStep (.elems Format.tSchemaElement (es.map elementVal)) p
  | [], _ => ⟨_, .elemsNil _⟩
  | e :: es, h => by
    obtain ⟨p, hp⟩ := element_enc e (h e (by simp))
    obtain ⟨q, hq⟩ := elems_enc es fun e he => h e (by simp [he])
    exact ⟨_, .elemsCons _ _ _ _ _ hp hq⟩

theorem schemaMd_enc {es : List Element} (hn : ∀ e ∈ es, e.name.length ≤ 16777216) (hl : es.length ≤ 10000000) : ValueEnc Format.tFileMetaData (schemaMd es) := by
  obtain ⟨p, hp⟩ := elems_enc es hn
  refine .struct rfl ?_
  refine (.cons (.value (by simp [Field.rustTy]) (by simp [Field.rustTy]) ⟨_, .i32 _⟩)
    (.cons (.value (by simp [Field.rustTy]) (by simp [Field.rustTy]) ⟨_, .list _ _ _ (by simpa using hl) hp⟩)
    (.cons (.value (by simp [Field.rustTy]) (by simp [Field.rustTy]) ⟨_, .i64 _⟩)
    (.cons (.value (by simp [Field.rustTy]) (by simp [Field.rustTy]) ⟨_, .list _ _ _ (by simp) (.elemsNil _)⟩)
    (.cons (.none _) (.cons (.none _) (.cons (.none _) (.cons (.none _) (.cons (.none _) .nil)))))))))

theorem maxSize_element (e : Element) : maxSize (elementVal e) ≤ 150 + e.name.length := by
  have h1 : ∀ o, (if present (ofOptEnum o) = true then 4 + maxSize (ofOptEnum o) else 0) ≤ 9 := by intro o; cases o <;> simp [ofOptEnum, maxSize, present]
  have h2 : ∀ o, (if present (ofOptI32 o) = true then 4 + maxSize (ofOptI32 o) else 0) ≤ 9 := by intro o; cases o <;> simp [ofOptI32, maxSize, present]
  have h3 : ∀ u, maxSize (timeUnitVal u) ≤ 6 ∧ present (timeUnitVal u) = true := by intro u; cases u <;> simp [timeUnitVal, maxSize, present, maxFields]
  have h4 : ∀ l, maxSize (logicalVal l) ≤ 50 ∧ present (logicalVal l) = true := by
    intro l
    cases l with
    | VARIANT v => cases v <;> simp [logicalVal, maxSize, present, maxFields]
    | TIME a u => have := h3 u; simp [logicalVal, maxSize, present, maxFields, this.2]; omega
    | TIMESTAMP a u => have := h3 u; simp [logicalVal, maxSize, present, maxFields, this.2]; omega
    | _ => simp [logicalVal, maxSize, present, maxFields]
  have h5 : ∀ o, (if present (ofOptLogical o) = true then 4 + maxSize (ofOptLogical o) else 0) ≤ 54 := by
    intro o
    cases o with
    | none => simp [ofOptLogical, present]
    | some l => have := h4 l; simp [ofOptLogical, present, maxSize, this.2]; omega
  have a1 := h1 e.type_
  have a2 := h2 e.typeLength
  have a3 := h1 e.repetitionType
  have a4 := h2 e.numChildren
  have a5 := h1 e.convertedType
  have a6 := h2 e.scale
  have a7 := h2 e.precision
  have a8 := h2 e.fieldId
  have a9 := h5 e.logicalType
  have a10 : (if present (.string e.name) = true then 4 + maxSize (.string e.name) else 0) = 8 + e.name.length := by simp [present, maxSize]; omega
  rw [elementVal, maxSize, maxFields, maxFields, maxFields, maxFields, maxFields, maxFields, maxFields, maxFields, maxFields, maxFields, maxFields, a10]
  omega

theorem maxSize_schemaMd (es : List Element) : maxSize (schemaMd es) ≤ (es.map fun e => 150 + e.name.length).sum + 50 := by
  have : maxSizes (es.map elementVal) ≤ (es.map fun e => 150 + e.name.length).sum := by
    induction es with
    | nil => simp [maxSizes]
    | cons e es ih =>
      have := maxSize_element e
      simp only [List.map_cons, maxSizes, List.sum_cons]; omega
  simp [schemaMd, maxSize, maxFields, present, maxSizes]
  omega

/-- C65: up to 10,000,000 elements with names of up to 16 MiB can be stored: the metadata is written, the file with its footer is recognised,
and the schema of the file is that of the elements. -/
theorem C65_stored {cfg : Cfg} (ha : ∀ n, cfg.alloc n = true) {es : List Element} (hn : ∀ e ∈ es, utf8Valid e.name = true ∧ e.name.length ≤ 16777216)
    (hl : es.length ≤ 10000000) (ht : (es.map fun e => 150 + e.name.length).sum + 50 < 2 ^ 32) :
    ∃ bytes, encode Format.parquetEnv Format.tFileMetaData (schemaMd es) = .ok bytes ∧
      ∀ (pre : Bytes) (f : File), Quiet f → f.data = pre ++ footer bytes → schemaOfFile cfg f = (convertSchema cfg es).map fun root => (schemaMd es, root) := by
  obtain ⟨bytes, hp⟩ := schemaMd_enc (fun e he => (hn e he).2) hl
  have he := encode_of_enc hp
  have hty := schemaMd_typed fun e he => (hn e he).1
  refine ⟨bytes, he, fun pre f hq hf => ?_⟩
  have hsz := C66_size hty he
  have := maxSize_schemaMd es
  obtain ⟨chunk, f', h1, h2⟩ := C42_file ha hty he (by omega) pre hq hf
  rw [unshare_schemaMd] at h2
  unfold schemaOfFile
  rw [h1]
  dsimp only
  rw [h2]
  dsimp only
  rw [schemaOf_md]

/-- C65: a schema tree survives a file: flatten it, write the metadata and the footer, and the file has that schema. -/
theorem C65_round_trip {cfg : Cfg} (ha : ∀ n, cfg.alloc n = true) {root : SField} (hv : Valid root) (hlev : LevelsOk root) (hi : IndexesOk root)
    (hh : height root ≤ 127) (hr : root.common.repetition = .Required) (hn : ∀ e ∈ flatten root, utf8Valid e.name = true ∧ e.name.length ≤ 16777216)
    (hl : (flatten root).length ≤ 10000000) (ht : ((flatten root).map fun e => 150 + e.name.length).sum + 50 < 2 ^ 32) :
    ∃ bytes, encode Format.parquetEnv Format.tFileMetaData (schemaMd (flatten root)) = .ok bytes ∧
      ∀ (pre : Bytes) (f : File), Quiet f → f.data = pre ++ footer bytes → schemaOfFile cfg f = .ok (schemaMd (flatten root), root) := by
  obtain ⟨bytes, he, h⟩ := C65_stored ha hn hl ht
  refine ⟨bytes, he, fun pre f hq hf => ?_⟩
  rw [h pre f hq hf, C46_round_trip cfg hv hlev hi hh hr]; rfl

/-- The sample meets the conditions on names and sizes (and the others, by the example at `C46_stable`). -/
example : (∀ e ∈ flatten sampleTree, utf8Valid e.name = true ∧ e.name.length ≤ 16777216) ∧ (flatten sampleTree).length ≤ 10000000 ∧
    ((flatten sampleTree).map fun e => 150 + e.name.length).sum + 50 < 2 ^ 32 := by
  have : flatten sampleTree = [groupElement ⟨[0x72#8], none, .Required, 0, 0⟩ 2 none, groupElement ⟨[0x61#8], none, .Optional, 1, 0⟩ 1 (some .List),
      leafElement ⟨[0x62#8], some 7, .Repeated, 1, 1⟩ .INT32 none, leafElement ⟨[0x63#8], none, .Required, 0, 0⟩ (.FIXED_LEN_BYTE_ARRAY 16) (some .UUID)] := by
    simp [sampleTree, flatten, flattenAll]
  rw [this]
  refine ⟨?_, by simp, by simp [groupElement, leafElement]⟩
  simp [groupElement, leafElement]
  decide

end CT.Props
