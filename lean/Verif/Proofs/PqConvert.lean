import Verif.Proofs.PqSchema
/-!
# The conversions of parquet/src/bin/schema.rs, run: types
-/
namespace CT.Pq
open CT CT.Parquet CT.Schema
open CT.Rs (Name ITy BinOp)

/-- The value of a `Result<_, ParquetError>`. -/
def Gives {α : Type} (f : α → V) (r : Except PFail α) (v : V) : Prop :=
  match r with
  | .ok a => v = .ok (f a)
  | .error e => ∃ k vs, v = .err (.con [n! "ParquetError", k] vs) ∧ errorOf (.con [n! "ParquetError", k] vs) = e

/-- An `i32` -/
def i32V (x : BitVec 32) : V := .base (.i32 x)

/-- A value of a generated enum. -/
def enumV (t : Name) (x : BitVec 32) : V := .con [t] [.base (.i32 x)]

@[pq] theorem wrap_struct (k : Nat) (vs : List Val) : wrap (.named k) (.struct vs) = .obj (.named k) (.struct vs) := (rfl)
@[pq] theorem wrap_union (k i : Nat) (v : Val) : wrap (.named k) (.union i v) = .obj (.named k) (.union i v) := (rfl)

@[pq ↓] theorem deref_con (p : List Name) (vs : List V) : V.deref (.con p vs) = .con p vs := (rfl)

@[pq ↓ high] theorem evArms_const (P : Prog) (path : List Name) (t : Name) (ev : Expr → Frame → World → Out) (e b : Expr)
    (arms : List (Pat × Expr)) (x : BitVec 32) (fr : Frame) (w : World) :
    evArms P ev e ((.const path, b) :: arms) (.con [t] [.base (.i32 x)]) fr w =
      match enumConst P.enums path with
      | Option.some (t', k) =>
        if t = t' then
          if x = BitVec.ofNat 32 k then leaveArm e (.const path) (.con [t] [.base (.i32 x)]) (ev b ([] :: fr) w) else evArms P ev e arms (.con [t] [.base (.i32 x)]) fr w
        else evArms P ev e arms (.con [t] [.base (.i32 x)]) fr w
      | Option.none => evArms P ev e arms (.con [t] [.base (.i32 x)]) fr w := by
  have hc : isConst P.enums path (.con [t] [.base (.i32 x)]) = match enumConst P.enums path with
      | Option.some (t', k) => [t] == [t'] && x == BitVec.ofNat 32 k
      | Option.none => false := by
    unfold isConst
    dsimp only
    cases enumConst P.enums path with
    | none => dsimp only; exact Bool.and_false _
    | some r => rfl
  show (match (if isConst P.enums path (.con [t] [.base (.i32 x)]) = true then some ([] : Scope) else none) with
    | Option.some l => leaveArm e (.const path) (.con [t] [.base (.i32 x)]) (ev b (l :: fr) w)
    | Option.none => evArms P ev e arms (.con [t] [.base (.i32 x)]) fr w) = _
  rw [hc]
  rcases enumConst P.enums path with _ | ⟨t', k⟩
  · rfl
  · dsimp only
    by_cases ht : t = t'
    · subst ht
      by_cases hx : x = BitVec.ofNat 32 k
      · subst hx; simp
      · simp [hx]
    · simp [ht]

section
variable (cfg : Cfg) (cap : Nat → Except PFail Unit)

theorem run_physical (t : BitVec 32) (len : Option (BitVec 32)) :
    ∃ v, (∀ n w, runFn (eval cfg cap schemaProg (n + 14)) pq_PhysicalType_try_from_schema_element [enumV (n! "Type") t, optV i32V len] w = .ret v [enumV (n! "Type") t, optV i32V len] w) ∧ Gives physicalV (PhysicalType.tryFrom t len) v := by
  unfold enumV
  by_cases h0 : t = 0#32
  · subst h0
    exact ⟨_, fun n w => by pq_simp [pq_PhysicalType_try_from_schema_element, optV, BitVec.reduceEq]; rfl, rfl⟩
  by_cases h6 : t = 6#32
  · subst h6
    exact ⟨_, fun n w => by pq_simp [pq_PhysicalType_try_from_schema_element, optV, BitVec.reduceEq]; rfl, rfl⟩
  by_cases h1 : t = 1#32
  · subst h1
    exact ⟨_, fun n w => by pq_simp [pq_PhysicalType_try_from_schema_element, optV, BitVec.reduceEq]; rfl, rfl⟩
  by_cases h2 : t = 2#32
  · subst h2
    exact ⟨_, fun n w => by pq_simp [pq_PhysicalType_try_from_schema_element, optV, BitVec.reduceEq]; rfl, rfl⟩
  by_cases h3 : t = 3#32
  · subst h3
    exact ⟨_, fun n w => by pq_simp [pq_PhysicalType_try_from_schema_element, optV, BitVec.reduceEq]; rfl, rfl⟩
  by_cases h4 : t = 4#32
  · subst h4
    exact ⟨_, fun n w => by pq_simp [pq_PhysicalType_try_from_schema_element, optV, BitVec.reduceEq]; rfl, rfl⟩
  by_cases h5 : t = 5#32
  · subst h5
    exact ⟨_, fun n w => by pq_simp [pq_PhysicalType_try_from_schema_element, optV, BitVec.reduceEq]; rfl, rfl⟩
  by_cases h7 : t = 7#32
  · subst h7
    rcases len with _ | len
    · exact ⟨_, fun n w => by pq_simp [pq_PhysicalType_try_from_schema_element, optV, BitVec.reduceEq]; rfl, ⟨_, _, rfl, rfl⟩⟩
    have e : decide (len.toInt ≤ (BitVec.ofNat 32 0).toInt) = len.sle 0#32 := rfl
    show ∃ v, _ ∧ Gives physicalV (if len.sle 0#32 = true then schemaErr "Invalid length for FIXED_LEN_BYTE_ARRAY type" else .ok (.FIXED_LEN_BYTE_ARRAY len)) v
    cases hl : len.sle 0#32
    · exact ⟨_, fun n w => by pq_simp [pq_PhysicalType_try_from_schema_element, optV, i32V, BitVec.reduceEq, e, hl, BitVec.signExtend_eq]; rfl, rfl⟩
    · exact ⟨_, fun n w => by pq_simp [pq_PhysicalType_try_from_schema_element, optV, i32V, BitVec.reduceEq, e, hl]; rfl, ⟨_, _, rfl, rfl⟩⟩
  have hm : PhysicalType.tryFrom t len = .error (.err (.unknownType t)) := ((if_neg h0).trans ((if_neg h6).trans ((if_neg h1).trans ((if_neg h2).trans ((if_neg h3).trans ((if_neg h4).trans ((if_neg h5).trans (if_neg h7))))))))
  rw [hm]
  exact ⟨_, fun n w => by pq_simp [pq_PhysicalType_try_from_schema_element, optV, h0, h6, h1, h2, h3, h4, h5, h7]; rfl, ⟨_, _, rfl, rfl⟩⟩

theorem run_try_new (p s : BitVec 32) :
    ∃ v, (∀ n w, runFn (eval cfg cap schemaProg (n + 14)) pq_DecimalOptions_try_new [i32V p, i32V s] w = .ret v [i32V p, i32V s] w) ∧ Gives decimalV (DecimalOptions.tryNew p s) v := by
  have e1 : decide (p.toInt ≤ (BitVec.ofNat 32 0).toInt) = p.sle 0#32 := rfl
  have e2 : decide ((BitVec.ofNat 32 127).toInt < p.toInt) = (127#32).slt p := rfl
  have e3 : decide (s.toInt < (-BitVec.ofNat 32 128).toInt) = s.slt (-128#32) := rfl
  have e4 : decide (p.toInt < s.toInt) = p.slt s := rfl
  show ∃ v, _ ∧ Gives decimalV (if (p.sle 0#32 || (127#32).slt p) = true then schemaErr "Invalid precision for Decimal type"
    else if (s.slt (-128#32) || p.slt s) = true then schemaErr "Invalid scale for Decimal type" else .ok ⟨p.truncate 8, s.truncate 8⟩) v
  have ht : ∀ x : BitVec 32, x.signExtend 8 = x.truncate 8 := fun x => BitVec.signExtend_eq_setWidth_of_le x (by decide)
  cases b1 : p.sle 0#32
  · cases b2 : (127#32).slt p
    · cases b3 : s.slt (-128#32)
      · cases b4 : p.slt s
        · exact ⟨_, fun n w => by pq_simp [pq_DecimalOptions_try_new, i32V, e1, e2, e3, e4, b1, b2, b3, b4, ht]; rfl, rfl⟩
        · exact ⟨_, fun n w => by pq_simp [pq_DecimalOptions_try_new, i32V, e1, e2, e3, e4, b1, b2, b3, b4]; rfl, ⟨_, _, rfl, rfl⟩⟩
      · exact ⟨_, fun n w => by pq_simp [pq_DecimalOptions_try_new, i32V, e1, e2, e3, e4, b1, b2, b3]; rfl, ⟨_, _, rfl, rfl⟩⟩
    · exact ⟨_, fun n w => by pq_simp [pq_DecimalOptions_try_new, i32V, e1, e2, e3, e4, b1, b2]; rfl, ⟨_, _, rfl, rfl⟩⟩
  · exact ⟨_, fun n w => by pq_simp [pq_DecimalOptions_try_new, i32V, e1, e2, e3, e4, b1]; rfl, ⟨_, _, rfl, rfl⟩⟩

theorem run_decimal {d : V} {p s : BitVec 32} (hp : fieldOf d (n! "precision") = some (i32V p)) (hs : fieldOf d (n! "scale") = some (i32V s)) :
    ∃ v, (∀ n w, runFn (eval cfg cap schemaProg (n + 18)) pq_DecimalOptions_try_from_DecimalType [d] w = .ret v [d] w) ∧ Gives decimalV (DecimalOptions.tryNew p s) v := by
  obtain ⟨v, hv, hg⟩ := run_try_new cfg cap p s
  refine ⟨v, fun n w => ?_, hg⟩
  conv => lhs; unfold runFn
  pq_simp [pq_DecimalOptions_try_from_DecimalType, ↓hp, ↓hs, ↓hv]

theorem run_integer (x : BitVec 8) (b : Bool) :
    ∃ v, (∀ n w, runFn (eval cfg cap schemaProg (n + 14)) pq_IntegerOptions_try_from_IntType [.obj (.named 27) (.struct [.i8 x, .bool b])] w = .ret v [.obj (.named 27) (.struct [.i8 x, .bool b])] w) ∧ Gives integerV (IntegerOptions.tryFrom x b) v := by
  have e : decide (x.toInt ≤ (BitVec.ofNat 8 0).toInt) = x.sle 0#8 := rfl
  show ∃ v, _ ∧ Gives integerV (if x.sle 0#8 = true then schemaErr "Invalid bitwidth for Integer type" else .ok ⟨x, b⟩) v
  cases hx : x.sle 0#8
  · exact ⟨_, fun n w => by pq_simp [pq_IntegerOptions_try_from_IntType, e, hx, BitVec.signExtend_eq]; rfl, rfl⟩
  · exact ⟨_, fun n w => by pq_simp [pq_IntegerOptions_try_from_IntType, e, hx]; rfl, ⟨_, _, rfl, rfl⟩⟩

theorem run_repetition (t : BitVec 32) :
    ∃ v, (∀ n w, runFn (eval cfg cap schemaProg (n + 14)) pq_RepetitionType_try_from_FieldRepetitionType [enumV (n! "FieldRepetitionType") t] w = .ret v [enumV (n! "FieldRepetitionType") t] w) ∧ Gives repetitionV (Repetition.tryFrom t) v := by
  unfold enumV
  by_cases h0 : t = 0#32
  · subst h0
    exact ⟨_, fun n w => by pq_simp [pq_RepetitionType_try_from_FieldRepetitionType, BitVec.reduceEq]; rfl, rfl⟩
  by_cases h1 : t = 1#32
  · subst h1
    exact ⟨_, fun n w => by pq_simp [pq_RepetitionType_try_from_FieldRepetitionType, BitVec.reduceEq]; rfl, rfl⟩
  by_cases h2 : t = 2#32
  · subst h2
    exact ⟨_, fun n w => by pq_simp [pq_RepetitionType_try_from_FieldRepetitionType, BitVec.reduceEq]; rfl, rfl⟩
  have hm : Repetition.tryFrom t = .error (.err (.unknownType t)) := ((if_neg h0).trans ((if_neg h1).trans (if_neg h2)))
  rw [hm]
  exact ⟨_, fun n w => by pq_simp [pq_RepetitionType_try_from_FieldRepetitionType, h0, h1, h2]; rfl, ⟨_, _, rfl, rfl⟩⟩

theorem run_groupConverted (t : BitVec 32) :
    ∃ v, (∀ n w, runFn (eval cfg cap schemaProg (n + 14)) pq_GroupLogicalType_try_from_ConvertedType [enumV (n! "ConvertedType") t] w = .ret v [enumV (n! "ConvertedType") t] w) ∧ Gives groupTypeV (GroupLogicalType.ofConverted t) v := by
  unfold enumV
  by_cases h1 : t = 1#32
  · subst h1
    exact ⟨_, fun n w => by pq_simp [pq_GroupLogicalType_try_from_ConvertedType, BitVec.reduceEq]; rfl, rfl⟩
  by_cases h3 : t = 3#32
  · subst h3
    exact ⟨_, fun n w => by pq_simp [pq_GroupLogicalType_try_from_ConvertedType, BitVec.reduceEq]; rfl, rfl⟩
  by_cases h2 : t = 2#32
  · subst h2
    exact ⟨_, fun n w => by pq_simp [pq_GroupLogicalType_try_from_ConvertedType, BitVec.reduceEq]; rfl, rfl⟩
  have hm : GroupLogicalType.ofConverted t = schemaErr "Unsupported converted type for group" := ((if_neg h1).trans ((if_neg h3).trans (if_neg h2)))
  rw [hm]
  exact ⟨_, fun n w => by pq_simp [pq_GroupLogicalType_try_from_ConvertedType, h1, h3, h2]; rfl, ⟨_, _, rfl, rfl⟩⟩

set_option maxHeartbeats 4000000 in
theorem run_converted (t : BitVec 32) (precision scale : Option (BitVec 32)) (len : V) :
    ∃ v, (∀ n w, runFn (eval cfg cap schemaProg (n + 30)) pq_PrimitiveLogicalType_try_from_converted_type [enumV (n! "ConvertedType") t, optV i32V precision, optV i32V scale, len] w = .ret v [enumV (n! "ConvertedType") t, optV i32V precision, optV i32V scale, len] w) ∧ Gives leafTypeV (PrimitiveLogicalType.ofConverted t precision scale) v := by
  unfold enumV
  by_cases h0 : t = 0#32
  · subst h0
    exact ⟨_, fun n w => by pq_simp [pq_PrimitiveLogicalType_try_from_converted_type, BitVec.reduceEq]; rfl, rfl⟩
  by_cases h4 : t = 4#32
  · subst h4
    exact ⟨_, fun n w => by pq_simp [pq_PrimitiveLogicalType_try_from_converted_type, BitVec.reduceEq]; rfl, rfl⟩
  by_cases h6 : t = 6#32
  · subst h6
    exact ⟨_, fun n w => by pq_simp [pq_PrimitiveLogicalType_try_from_converted_type, BitVec.reduceEq]; rfl, rfl⟩
  by_cases h19 : t = 19#32
  · subst h19
    exact ⟨_, fun n w => by pq_simp [pq_PrimitiveLogicalType_try_from_converted_type, BitVec.reduceEq]; rfl, rfl⟩
  by_cases h20 : t = 20#32
  · subst h20
    exact ⟨_, fun n w => by pq_simp [pq_PrimitiveLogicalType_try_from_converted_type, BitVec.reduceEq]; rfl, rfl⟩
  by_cases h5 : t = 5#32
  · subst h5
    rcases precision with _ | p
    · exact ⟨_, fun n w => by pq_simp [pq_PrimitiveLogicalType_try_from_converted_type, optV, BitVec.reduceEq]; rfl, ⟨_, _, rfl, rfl⟩⟩
    rcases scale with _ | s
    · exact ⟨_, fun n w => by pq_simp [pq_PrimitiveLogicalType_try_from_converted_type, optV, BitVec.reduceEq]; rfl, ⟨_, _, rfl, rfl⟩⟩
    obtain ⟨v, hv, hg⟩ := run_decimal cfg cap (d := .record [n! "DecimalType"] [(n! "precision", i32V p), (n! "scale", i32V s)]) (p := p) (s := s) rfl rfl
    show ∃ v, _ ∧ Gives leafTypeV (Except.bind (DecimalOptions.tryNew p s) fun o => .ok (.Decimal o)) v
    cases ho : DecimalOptions.tryNew p s with
    | ok o =>
      rw [ho] at hg; cases hg
      exact ⟨_, fun n w => by conv => lhs; unfold runFn
                              pq_simp [pq_PrimitiveLogicalType_try_from_converted_type, optV, BitVec.reduceEq, ↓hv, decimalV, leafTypeV], rfl⟩
    | error e =>
      rw [ho] at hg; obtain ⟨k, vs, rfl, he⟩ := hg
      exact ⟨_, fun n w => by conv => lhs; unfold runFn
                              pq_simp [pq_PrimitiveLogicalType_try_from_converted_type, optV, BitVec.reduceEq, ↓hv], ⟨_, _, rfl, he⟩⟩
  by_cases h8 : t = 8#32
  · subst h8
    exact ⟨_, fun n w => by pq_simp [pq_PrimitiveLogicalType_try_from_converted_type, BitVec.reduceEq]; rfl, rfl⟩
  by_cases h7 : t = 7#32
  · subst h7
    exact ⟨_, fun n w => by pq_simp [pq_PrimitiveLogicalType_try_from_converted_type, BitVec.reduceEq]; rfl, rfl⟩
  by_cases h10 : t = 10#32
  · subst h10
    exact ⟨_, fun n w => by pq_simp [pq_PrimitiveLogicalType_try_from_converted_type, BitVec.reduceEq]; rfl, rfl⟩
  by_cases h9 : t = 9#32
  · subst h9
    exact ⟨_, fun n w => by pq_simp [pq_PrimitiveLogicalType_try_from_converted_type, BitVec.reduceEq]; rfl, rfl⟩
  by_cases h21 : t = 21#32
  · subst h21
    exact ⟨_, fun n w => by pq_simp [pq_PrimitiveLogicalType_try_from_converted_type, BitVec.reduceEq]; rfl, rfl⟩
  by_cases h15 : t = 15#32
  · subst h15
    exact ⟨_, fun n w => by pq_simp [pq_PrimitiveLogicalType_try_from_converted_type, BitVec.reduceEq]; rfl, rfl⟩
  by_cases h16 : t = 16#32
  · subst h16
    exact ⟨_, fun n w => by pq_simp [pq_PrimitiveLogicalType_try_from_converted_type, BitVec.reduceEq]; rfl, rfl⟩
  by_cases h17 : t = 17#32
  · subst h17
    exact ⟨_, fun n w => by pq_simp [pq_PrimitiveLogicalType_try_from_converted_type, BitVec.reduceEq]; rfl, rfl⟩
  by_cases h18 : t = 18#32
  · subst h18
    exact ⟨_, fun n w => by pq_simp [pq_PrimitiveLogicalType_try_from_converted_type, BitVec.reduceEq]; rfl, rfl⟩
  by_cases h11 : t = 11#32
  · subst h11
    exact ⟨_, fun n w => by pq_simp [pq_PrimitiveLogicalType_try_from_converted_type, BitVec.reduceEq]; rfl, rfl⟩
  by_cases h12 : t = 12#32
  · subst h12
    exact ⟨_, fun n w => by pq_simp [pq_PrimitiveLogicalType_try_from_converted_type, BitVec.reduceEq]; rfl, rfl⟩
  by_cases h13 : t = 13#32
  · subst h13
    exact ⟨_, fun n w => by pq_simp [pq_PrimitiveLogicalType_try_from_converted_type, BitVec.reduceEq]; rfl, rfl⟩
  by_cases h14 : t = 14#32
  · subst h14
    exact ⟨_, fun n w => by pq_simp [pq_PrimitiveLogicalType_try_from_converted_type, BitVec.reduceEq]; rfl, rfl⟩
  by_cases h1 : t = 1#32
  · subst h1
    exact ⟨_, fun n w => by pq_simp [pq_PrimitiveLogicalType_try_from_converted_type, BitVec.reduceEq, beq_self_eq_true, Bool.true_and, beq_iff_eq]; rfl, ⟨_, _, rfl, rfl⟩⟩
  by_cases h3 : t = 3#32
  · subst h3
    exact ⟨_, fun n w => by pq_simp [pq_PrimitiveLogicalType_try_from_converted_type, BitVec.reduceEq, beq_self_eq_true, Bool.true_and, beq_iff_eq]; rfl, ⟨_, _, rfl, rfl⟩⟩
  have hm : PrimitiveLogicalType.ofConverted t precision scale = .error (.err (.unknownType t)) := ((if_neg h0).trans ((if_neg h4).trans ((if_neg h6).trans ((if_neg h19).trans ((if_neg h20).trans ((if_neg h5).trans ((if_neg h8).trans ((if_neg h7).trans ((if_neg h10).trans ((if_neg h9).trans ((if_neg h21).trans ((if_neg h15).trans ((if_neg h16).trans ((if_neg h17).trans ((if_neg h18).trans ((if_neg h11).trans ((if_neg h12).trans ((if_neg h13).trans ((if_neg h14).trans (if_neg (fun h => h.elim h1 h3)))))))))))))))))))))
  rw [hm]
  exact ⟨_, fun n w => by pq_simp [pq_PrimitiveLogicalType_try_from_converted_type, h0, h4, h6, h19, h20, h5, h8, h7, h10, h9, h21, h15, h16, h17, h18, h11, h12, h13, h14, h1, h3, beq_self_eq_true, Bool.true_and, beq_iff_eq]; rfl, ⟨_, _, rfl, rfl⟩⟩

end

end CT.Pq
