import Verif.Proofs.PqConvert
import Verif.Props.ParquetFile
/-!
# The conversions of parquet/src/bin/schema.rs, run: logical types
-/
namespace CT.Pq
open CT CT.Parquet CT.Schema CT.Props
open CT.Rs (Name ITy BinOp)

/-- The values of type `TimeUnit`. -/
inductive UnitShape : Val → TimeUnit → Prop
  | millis (x : Val) : UnitShape (.union 0 x) .MILLIS
  | micros (x : Val) : UnitShape (.union 1 x) .MICROS
  | nanos (x : Val) : UnitShape (.union 2 x) .NANOS

theorem unit_shape {w : Val} {u : TimeUnit} (h : HasTy Format.parquetEnv w Format.tTimeUnit) (hu : timeUnitOfVal w = some u) : UnitShape w u := by
  obtain ⟨i, u', v, rfl, hi, _⟩ := typed_union (show Format.parquetEnv[24]? = some (.union _ _) from rfl) h
  match i with
  | 0 => cases hu; exact .millis _
  | 1 => cases hu; exact .micros _
  | 2 => cases hu; exact .nanos _
  | i + 3 => simp at hi

/-- The values of type `LogicalType`. -/
inductive LogicalShape : Val → LogicalType → Prop
  | STRING_ (x : Val) : LogicalShape (.union 0 x) .STRING
  | MAP_ (x : Val) : LogicalShape (.union 1 x) .MAP
  | LIST_ (x : Val) : LogicalShape (.union 2 x) .LIST
  | ENUM_ (x : Val) : LogicalShape (.union 3 x) .ENUM
  | DATE_ (x : Val) : LogicalShape (.union 5 x) .DATE
  | UNKNOWN_ (x : Val) : LogicalShape (.union 9 x) .UNKNOWN
  | JSON_ (x : Val) : LogicalShape (.union 10 x) .JSON
  | BSON_ (x : Val) : LogicalShape (.union 11 x) .BSON
  | UUID_ (x : Val) : LogicalShape (.union 12 x) .UUID
  | FLOAT16_ (x : Val) : LogicalShape (.union 13 x) .FLOAT16
  | DECIMAL_ (s p : BitVec 32) : LogicalShape (.union 4 (.struct [.i32 s, .i32 p])) (.DECIMAL s p)
  | TIME_ (b : Bool) (x : Val) (u : TimeUnit) (h : UnitShape x u) : LogicalShape (.union 6 (.struct [.bool b, x])) (.TIME b u)
  | TIMESTAMP_ (b : Bool) (x : Val) (u : TimeUnit) (h : UnitShape x u) : LogicalShape (.union 7 (.struct [.bool b, x])) (.TIMESTAMP b u)
  | INTEGER_ (x : BitVec 8) (b : Bool) : LogicalShape (.union 8 (.struct [.i8 x, .bool b])) (.INTEGER x b)
  | VARIANT_none : LogicalShape (.union 14 (.struct [.none])) (.VARIANT none)
  | VARIANT_some (x : BitVec 8) : LogicalShape (.union 14 (.struct [.some (.i8 x)])) (.VARIANT (some x))
  | GEOMETRY_ (x : Val) : LogicalShape (.union 15 (.struct [x])) .GEOMETRY
  | GEOGRAPHY_ (x y : Val) : LogicalShape (.union 16 (.struct [x, y])) .GEOGRAPHY

theorem logical_shape {w : Val} {l : LogicalType} (h : HasTy Format.parquetEnv w Format.tLogicalType) (hl : logicalTypeOfVal w = some l) : LogicalShape w l := by
  obtain ⟨i, u, v, rfl, hu, ht⟩ := typed_union (show Format.parquetEnv[33]? = some (.union _ _) from rfl) h
  match i with
  | 0 => cases hl; exact .STRING_ _
  | 1 => cases hl; exact .MAP_ _
  | 2 => cases hl; exact .LIST_ _
  | 3 => cases hl; exact .ENUM_ _
  | 4 =>
    simp at hu; subst hu
    obtain ⟨x, y, rfl, hx, hy⟩ := typed_struct2 (show Format.parquetEnv[20]? = some (.struct _ [_, _]) from rfl) ht
    cases hx; cases hy; cases hl; exact .DECIMAL_ _ _
  | 5 => cases hl; exact .DATE_ _
  | 6 =>
    simp at hu; subst hu
    obtain ⟨x, y, rfl, hx, hy⟩ := typed_struct2 (show Format.parquetEnv[26]? = some (.struct _ [_, _]) from rfl) ht
    obtain ⟨u, hu⟩ := typed_timeUnit hy
    cases hx
    simp only [logicalTypeOfVal, hu, Option.map_some] at hl
    cases hl
    exact .TIME_ _ _ _ (unit_shape hy hu)
  | 7 =>
    simp at hu; subst hu
    obtain ⟨x, y, rfl, hx, hy⟩ := typed_struct2 (show Format.parquetEnv[25]? = some (.struct _ [_, _]) from rfl) ht
    obtain ⟨u, hu⟩ := typed_timeUnit hy
    cases hx
    simp only [logicalTypeOfVal, hu, Option.map_some] at hl
    cases hl
    exact .TIMESTAMP_ _ _ _ (unit_shape hy hu)
  | 8 =>
    simp at hu; subst hu
    obtain ⟨x, y, rfl, hx, hy⟩ := typed_struct2 (show Format.parquetEnv[27]? = some (.struct _ [_, _]) from rfl) ht
    cases hx; cases hy; cases hl; exact .INTEGER_ _ _
  | 9 => cases hl; exact .UNKNOWN_ _
  | 10 => cases hl; exact .JSON_ _
  | 11 => cases hl; exact .BSON_ _
  | 12 => cases hl; exact .UUID_ _
  | 13 => cases hl; exact .FLOAT16_ _
  | 14 =>
    simp at hu; subst hu
    obtain ⟨x, rfl, hx⟩ := typed_struct1 (show Format.parquetEnv[30]? = some (.struct _ [_]) from rfl) ht
    cases hx with
    | none => cases hl; exact .VARIANT_none
    | some _ _ h => cases h; cases hl; exact .VARIANT_some _
  | 15 =>
    simp at hu; subst hu
    obtain ⟨x, rfl, hx⟩ := typed_struct1 (show Format.parquetEnv[31]? = some (.struct _ [_]) from rfl) ht
    cases hl; exact .GEOMETRY_ _
  | 16 =>
    simp at hu; subst hu
    obtain ⟨x, y, rfl, hx, hy⟩ := typed_struct2 (show Format.parquetEnv[32]? = some (.struct _ [_, _]) from rfl) ht
    cases hl; exact .GEOGRAPHY_ _ _
  | i + 17 => simp at hu

section
variable (cfg : Cfg) (cap : Nat → Except PFail Unit)

theorem run_unit {x : Val} {u : TimeUnit} (h : UnitShape x u) :
    ∀ n w, runFn (eval cfg cap schemaProg (n + 14)) pq_SchemaTimeUnit_from_TimeUnit [.obj (.named 24) x] w = .ret (unitV u) [.obj (.named 24) x] w := by
  intro n w
  cases h <;> pq_simp [pq_SchemaTimeUnit_from_TimeUnit, unitV, Option.isSome_none]

theorem run_time (b : Bool) {x : Val} {u : TimeUnit} (h : UnitShape x u) :
    ∀ n w, runFn (eval cfg cap schemaProg (n + 24)) pq_TimeOptions_from_TimeType [.obj (.named 26) (.struct [.bool b, x])] w = .ret (timeV ⟨b, u⟩) [.obj (.named 26) (.struct [.bool b, x])] w := by
  intro n w
  have hu := run_unit cfg cap h
  have hf : fieldOf (.obj (.named 26) (.struct [.bool b, x])) (n! "unit") = some (.obj (.named 24) x) := by cases h <;> rfl
  conv => lhs; unfold runFn
  pq_simp [pq_TimeOptions_from_TimeType, timeV, ↓hf, ↓hu]

theorem run_timestamp (b : Bool) {x : Val} {u : TimeUnit} (h : UnitShape x u) :
    ∀ n w, runFn (eval cfg cap schemaProg (n + 24)) pq_TimeOptions_from_TimestampType [.obj (.named 25) (.struct [.bool b, x])] w = .ret (timeV ⟨b, u⟩) [.obj (.named 25) (.struct [.bool b, x])] w := by
  intro n w
  have hu := run_unit cfg cap h
  have hf : fieldOf (.obj (.named 25) (.struct [.bool b, x])) (n! "unit") = some (.obj (.named 24) x) := by cases h <;> rfl
  conv => lhs; unfold runFn
  pq_simp [pq_TimeOptions_from_TimestampType, timeV, ↓hf, ↓hu]

set_option maxHeartbeats 4000000 in
theorem run_logical {x : Val} {l : LogicalType} (h : LogicalShape x l) :
    ∃ v, (∀ n w, runFn (eval cfg cap schemaProg (n + 36)) pq_PrimitiveLogicalType_try_from_LogicalType [.obj (.named 33) x] w = .ret v [.obj (.named 33) x] w) ∧ Gives leafTypeV (PrimitiveLogicalType.ofLogical l) v := by
  cases h with
  | DECIMAL_ s p =>
    obtain ⟨v, hv, hg⟩ := run_decimal cfg cap (d := .obj (.named 20) (.struct [.i32 s, .i32 p])) (p := p) (s := s) rfl rfl
    show ∃ v, _ ∧ Gives leafTypeV (Except.bind (DecimalOptions.tryNew p s) fun o => .ok (.Decimal o)) v
    cases ho : DecimalOptions.tryNew p s with
    | ok o =>
      rw [ho] at hg; cases hg
      exact ⟨_, fun n w => by conv => lhs; unfold runFn
                              pq_simp [pq_PrimitiveLogicalType_try_from_LogicalType, ↓hv, decimalV, leafTypeV], rfl⟩
    | error e =>
      rw [ho] at hg; obtain ⟨k, vs, rfl, he⟩ := hg
      exact ⟨_, fun n w => by conv => lhs; unfold runFn
                              pq_simp [pq_PrimitiveLogicalType_try_from_LogicalType, ↓hv], ⟨_, _, rfl, he⟩⟩
  | INTEGER_ x b =>
    obtain ⟨v, hv, hg⟩ := run_integer cfg cap x b
    show ∃ v, _ ∧ Gives leafTypeV (Except.bind (IntegerOptions.tryFrom x b) fun o => .ok (.Integer o)) v
    cases ho : IntegerOptions.tryFrom x b with
    | ok o =>
      rw [ho] at hg; cases hg
      exact ⟨_, fun n w => by conv => lhs; unfold runFn
                              pq_simp [pq_PrimitiveLogicalType_try_from_LogicalType, ↓hv, integerV, leafTypeV], rfl⟩
    | error e =>
      rw [ho] at hg; obtain ⟨k, vs, rfl, he⟩ := hg
      exact ⟨_, fun n w => by conv => lhs; unfold runFn
                              pq_simp [pq_PrimitiveLogicalType_try_from_LogicalType, ↓hv], ⟨_, _, rfl, he⟩⟩
  | TIME_ b x u h =>
    have hv := run_time cfg cap b h
    exact ⟨_, fun n w => by conv => lhs; unfold runFn
                            pq_simp [pq_PrimitiveLogicalType_try_from_LogicalType, ↓hv]; rfl, rfl⟩
  | TIMESTAMP_ b x u h =>
    have hv := run_timestamp cfg cap b h
    exact ⟨_, fun n w => by conv => lhs; unfold runFn
                            pq_simp [pq_PrimitiveLogicalType_try_from_LogicalType, ↓hv]; rfl, rfl⟩
  | STRING_ x => exact ⟨_, fun n w => by pq_simp [pq_PrimitiveLogicalType_try_from_LogicalType]; rfl, rfl⟩
  | MAP_ x => exact ⟨_, fun n w => by pq_simp [pq_PrimitiveLogicalType_try_from_LogicalType]; rfl, ⟨_, _, rfl, rfl⟩⟩
  | LIST_ x => exact ⟨_, fun n w => by pq_simp [pq_PrimitiveLogicalType_try_from_LogicalType]; rfl, ⟨_, _, rfl, rfl⟩⟩
  | ENUM_ x => exact ⟨_, fun n w => by pq_simp [pq_PrimitiveLogicalType_try_from_LogicalType]; rfl, rfl⟩
  | DATE_ x => exact ⟨_, fun n w => by pq_simp [pq_PrimitiveLogicalType_try_from_LogicalType]; rfl, rfl⟩
  | UNKNOWN_ x => exact ⟨_, fun n w => by pq_simp [pq_PrimitiveLogicalType_try_from_LogicalType]; rfl, rfl⟩
  | JSON_ x => exact ⟨_, fun n w => by pq_simp [pq_PrimitiveLogicalType_try_from_LogicalType]; rfl, rfl⟩
  | BSON_ x => exact ⟨_, fun n w => by pq_simp [pq_PrimitiveLogicalType_try_from_LogicalType]; rfl, rfl⟩
  | UUID_ x => exact ⟨_, fun n w => by pq_simp [pq_PrimitiveLogicalType_try_from_LogicalType]; rfl, rfl⟩
  | FLOAT16_ x => exact ⟨_, fun n w => by pq_simp [pq_PrimitiveLogicalType_try_from_LogicalType]; rfl, rfl⟩
  | VARIANT_none => exact ⟨_, fun n w => by pq_simp [pq_PrimitiveLogicalType_try_from_LogicalType]; rfl, ⟨_, _, rfl, rfl⟩⟩
  | VARIANT_some x => exact ⟨_, fun n w => by pq_simp [pq_PrimitiveLogicalType_try_from_LogicalType]; rfl, ⟨_, _, rfl, rfl⟩⟩
  | GEOMETRY_ x => exact ⟨_, fun n w => by pq_simp [pq_PrimitiveLogicalType_try_from_LogicalType]; rfl, rfl⟩
  | GEOGRAPHY_ x y => exact ⟨_, fun n w => by pq_simp [pq_PrimitiveLogicalType_try_from_LogicalType]; rfl, rfl⟩

theorem run_leafLogical {x : Val} {l : LogicalType} (h : LogicalShape x l) :
    ∃ v, (∀ n w, runFn (eval cfg cap schemaProg (n + 42)) pq_PrimitiveLogicalType_try_from_logical_type [.obj (.named 33) x] w = .ret v [.obj (.named 33) x] w) ∧ Gives leafTypeV (PrimitiveLogicalType.ofLogical l) v := by
  obtain ⟨v, hv, hg⟩ := run_logical cfg cap h
  refine ⟨v, fun n w => ?_, hg⟩
  conv => lhs; unfold runFn
  pq_simp [pq_PrimitiveLogicalType_try_from_logical_type, ↓hv]

set_option maxHeartbeats 4000000 in
theorem run_groupLogical {x : Val} {l : LogicalType} (h : LogicalShape x l) :
    ∃ v, (∀ n w, runFn (eval cfg cap schemaProg (n + 14)) pq_GroupLogicalType_try_from_LogicalType [.obj (.named 33) x] w = .ret v [.obj (.named 33) x] w) ∧ Gives groupTypeV (GroupLogicalType.ofLogical l) v := by
  cases h with
  | STRING_ x => exact ⟨_, fun n w => by pq_simp [pq_GroupLogicalType_try_from_LogicalType]; rfl, ⟨_, _, rfl, rfl⟩⟩
  | MAP_ x => exact ⟨_, fun n w => by pq_simp [pq_GroupLogicalType_try_from_LogicalType]; rfl, rfl⟩
  | LIST_ x => exact ⟨_, fun n w => by pq_simp [pq_GroupLogicalType_try_from_LogicalType]; rfl, rfl⟩
  | ENUM_ x => exact ⟨_, fun n w => by pq_simp [pq_GroupLogicalType_try_from_LogicalType]; rfl, ⟨_, _, rfl, rfl⟩⟩
  | DATE_ x => exact ⟨_, fun n w => by pq_simp [pq_GroupLogicalType_try_from_LogicalType]; rfl, ⟨_, _, rfl, rfl⟩⟩
  | UNKNOWN_ x => exact ⟨_, fun n w => by pq_simp [pq_GroupLogicalType_try_from_LogicalType]; rfl, ⟨_, _, rfl, rfl⟩⟩
  | JSON_ x => exact ⟨_, fun n w => by pq_simp [pq_GroupLogicalType_try_from_LogicalType]; rfl, ⟨_, _, rfl, rfl⟩⟩
  | BSON_ x => exact ⟨_, fun n w => by pq_simp [pq_GroupLogicalType_try_from_LogicalType]; rfl, ⟨_, _, rfl, rfl⟩⟩
  | UUID_ x => exact ⟨_, fun n w => by pq_simp [pq_GroupLogicalType_try_from_LogicalType]; rfl, ⟨_, _, rfl, rfl⟩⟩
  | FLOAT16_ x => exact ⟨_, fun n w => by pq_simp [pq_GroupLogicalType_try_from_LogicalType]; rfl, ⟨_, _, rfl, rfl⟩⟩
  | DECIMAL_ s p => exact ⟨_, fun n w => by pq_simp [pq_GroupLogicalType_try_from_LogicalType]; rfl, ⟨_, _, rfl, rfl⟩⟩
  | TIME_ b x u h => exact ⟨_, fun n w => by pq_simp [pq_GroupLogicalType_try_from_LogicalType]; rfl, ⟨_, _, rfl, rfl⟩⟩
  | TIMESTAMP_ b x u h => exact ⟨_, fun n w => by pq_simp [pq_GroupLogicalType_try_from_LogicalType]; rfl, ⟨_, _, rfl, rfl⟩⟩
  | INTEGER_ x b => exact ⟨_, fun n w => by pq_simp [pq_GroupLogicalType_try_from_LogicalType]; rfl, ⟨_, _, rfl, rfl⟩⟩
  | GEOMETRY_ x => exact ⟨_, fun n w => by pq_simp [pq_GroupLogicalType_try_from_LogicalType]; rfl, ⟨_, _, rfl, rfl⟩⟩
  | GEOGRAPHY_ x y => exact ⟨_, fun n w => by pq_simp [pq_GroupLogicalType_try_from_LogicalType]; rfl, ⟨_, _, rfl, rfl⟩⟩
  | VARIANT_none => exact ⟨_, fun n w => by pq_simp [pq_GroupLogicalType_try_from_LogicalType]; rfl, rfl⟩
  | VARIANT_some x => exact ⟨_, fun n w => by pq_simp [pq_GroupLogicalType_try_from_LogicalType]; rfl, rfl⟩

theorem run_fieldId (x : BitVec 32) :
    ∀ n w, runFn (eval cfg cap schemaProg (n + 14)) pq_FieldId_from_i32 [i32V x] w = .ret (fieldIdV x) [i32V x] w := by
  intro n w
  pq_simp [pq_FieldId_from_i32, fieldIdV, i32V]

end

end CT.Pq
