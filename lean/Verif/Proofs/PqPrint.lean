import Verif.Proofs.PqTree
import Verif.Spec.ParquetSchema
/-!
# The printing functions of parquet/src/bin/schema.rs, run
-/
namespace CT.Pq
open CT CT.Parquet CT.Schema CT.Spec
open CT.Rs (Name ITy BinOp)

attribute [pq] evPrint evItem evItems formatted formattedBy itemOf printed numberBytes evDisplay evWriteStr evWriteFmt evFmt libResult libChunk libRead libOpen

/-! ## What is found in the program -/

@[pq] theorem sc_fn_print_indent : assoc schemaProg.fns (n! "print_indent") = some pq_print_indent := (rfl)
@[pq] theorem sc_fn_pretty_print_schema : assoc schemaProg.fns (n! "pretty_print_schema") = some pq_pretty_print_schema := (rfl)
@[pq] theorem sc_fn_get_metadata_chunk : assoc schemaProg.fns (n! "get_metadata_chunk") = none := (rfl)
@[pq] theorem sc_impl_Formatter (f s : Name) : implFn (n! "Formatter") f s schemaProg.impls = none := (rfl)
@[pq] theorem sc_impl_File (f s : Name) : implFn (n! "File") f s schemaProg.impls = none := (rfl)
@[pq] theorem sc_impl_FileMetaData (f s : Name) : implFn (n! "FileMetaData") f s schemaProg.impls = none := (rfl)
@[pq] theorem sc_impl_CompactThriftInputSlice (f s : Name) : implFn (n! "CompactThriftInputSlice") f s schemaProg.impls = none := (rfl)
@[pq] theorem fmt_RepetitionType : fmtFn (n! "Display") (n! "RepetitionType") schemaProg.impls = some pq_RepetitionType_fmt := (rfl)
@[pq] theorem fmt_IntegerOptions : fmtFn (n! "Debug") (n! "IntegerOptions") schemaProg.impls = some pq_IntegerOptions_fmt := (rfl)
@[pq] theorem fmt_char : fmtFn (n! "Display") (n! "char") schemaProg.impls = none := (rfl)
@[pq] theorem fmt_PhysicalType : fmtFn (n! "Debug") (n! "PhysicalType") schemaProg.impls = none := (rfl)
@[pq] theorem fmt_SchemaTimeUnit : fmtFn (n! "Debug") (n! "SchemaTimeUnit") schemaProg.impls = none := (rfl)
@[pq] theorem fmt_TimeOptions : fmtFn (n! "Debug") (n! "TimeOptions") schemaProg.impls = none := (rfl)
@[pq] theorem fmt_DecimalOptions : fmtFn (n! "Debug") (n! "DecimalOptions") schemaProg.impls = none := (rfl)
@[pq] theorem fmt_PrimitiveLogicalType : fmtFn (n! "Debug") (n! "PrimitiveLogicalType") schemaProg.impls = none := (rfl)
@[pq] theorem fmt_GroupLogicalType : fmtFn (n! "Debug") (n! "GroupLogicalType") schemaProg.impls = none := (rfl)
@[pq] theorem fmt_Some : fmtFn (n! "Debug") (n! "Some") schemaProg.impls = none := (rfl)
@[pq] theorem fmt_None : fmtFn (n! "Debug") (n! "None") schemaProg.impls = none := (rfl)

/-! ## The format strings -/

@[pq] theorem format_indent : formatOf (n! "  ") = some [.text (ascii! "  ")] := (rfl)
@[pq] theorem format_group : formatOf (n! "{} group {}") = some [.next false, .text (ascii! " group "), .next false] := (rfl)
@[pq] theorem format_logical : formatOf (n! " ({logical_type:?})") = some [.text (ascii! " ("), .var (n! "logical_type") true, .text (ascii! ")")] := (rfl)
@[pq] theorem format_begin : formatOf (n! " {{") = some [.text (ascii! " {")] := (rfl)
@[pq] theorem format_end : formatOf (n! "}}") = some [.text (ascii! "}")] := (rfl)
@[pq] theorem format_leaf : formatOf (n! "{} {:?} {}") = some [.next false, .text (ascii! " "), .next true, .text (ascii! " "), .next false] := (rfl)
@[pq] theorem format_semicolon : formatOf 59 = some [.text (ascii! ";")] := (rfl)
@[pq] theorem format_integer : formatOf (n! "{}{}") = some [.next false, .next false] := (rfl)
@[pq] theorem format_version : formatOf (n! "version: {}") = some [.text (ascii! "version: "), .next false] := (rfl)
@[pq] theorem format_rows : formatOf (n! "num of rows: {}") = some [.text (ascii! "num of rows: "), .next false] := (rfl)
@[pq] theorem format_created : formatOf (n! "created by: {created_by}") = some [.text (ascii! "created by: "), .var (n! "created_by") false] := (rfl)

/-! ## Output -/

@[pq] theorem print_print (w : World) (a b : Bytes) : (w.print a).print b = w.print (a ++ b) := by
  simp only [World.print, List.append_assoc]

theorem print_nil (w : World) : w.print [] = w := by
  simp only [World.print, List.append_nil]

section
variable (cfg : Cfg) (cap : Nat → Except PFail Unit)

theorem fmt_repetition (r : Repetition) (n : Nat) (w : World) :
    runFn (eval cfg cap schemaProg (n + 12)) pq_RepetitionType_fmt [repetitionV r, .con [n! "Formatter"] []] w =
      .ret (.ok .unit) [repetitionV r, .con [n! "Formatter"] []] (w.print r.display) := by
  cases r <;> simp only [repetitionV] <;> conv => lhs; unfold runFn
  all_goals pq_simp [pq_RepetitionType_fmt]
  all_goals rfl

theorem display_repetition (r : Repetition) (n : Nat) (fr : Frame) (w : World) :
    evDisplay schemaProg (eval cfg cap schemaProg (n + 12)) (repetitionV r) fr w = .val .unit fr (w.print r.display) := by
  have h := fmt_repetition cfg cap r n w
  cases r <;> simp only [repetitionV] at h ⊢ <;> pq_simp [↓h]

theorem fmt_integer (o : IntegerOptions) (n : Nat) (w : World) :
    runFn (eval cfg cap schemaProg (n + 12)) pq_IntegerOptions_fmt [integerV o, .con [n! "Formatter"] []] w =
      .ret (.ok .unit) [integerV o, .con [n! "Formatter"] []] (w.print o.debug) := by
  obtain ⟨b, s⟩ := o
  cases s <;> simp only [integerV] <;> conv => lhs; unfold runFn
  all_goals pq_simp [pq_IntegerOptions_fmt]
  all_goals rfl

/-- What a derived `Debug` prints. -/
def Prints (n : Nat) (v : V) (bs : Bytes) : Prop :=
  ∀ fr w, evDebug schemaProg (eval cfg cap schemaProg (n + 12)) v fr w = .val .unit fr (w.print bs)

variable (n : Nat)

theorem debug_integer (o : IntegerOptions) : Prints cfg cap n (integerV o) o.debug := by
  intro fr w
  have h := fmt_integer cfg cap o n w
  simp only [integerV] at h ⊢
  simp only [evDebug, List.headD]
  pq_simp [↓h]

/-- One step of a derived `Debug`. -/
macro "debug_simp" "[" ls:Lean.Parser.Tactic.simpLemma,* "]" : tactic =>
  `(tactic| (pq_simp [evDebug, evTupleDebug, evMoreDebug, evStructDebug, evFieldDebug, List.headD, List.getLastD, List.getLast, List.append_assoc, $ls,*]))

theorem debug_physical (p : PhysicalType) : Prints cfg cap n (physicalV p) p.debug := by
  intro fr w
  cases p <;> simp only [physicalV] <;> debug_simp [] <;> rfl

theorem debug_unit (u : TimeUnit) : Prints cfg cap n (unitV u) u.debug := by
  intro fr w
  cases u <;> simp only [unitV] <;> debug_simp [] <;> rfl

theorem debug_time (o : TimeOptions) : Prints cfg cap n (timeV o) o.debug := by
  intro fr w
  have h := debug_unit cfg cap n o.timeUnit
  simp only [timeV]
  debug_simp [↓h _ _]
  simp only [TimeOptions.debug, List.append_assoc]
  rfl

theorem debug_decimal (o : DecimalOptions) : Prints cfg cap n (decimalV o) o.debug := by
  intro fr w
  simp only [decimalV]
  debug_simp []
  simp only [DecimalOptions.debug, List.append_assoc]
  rfl

theorem debug_leafType (l : PrimitiveLogicalType) : Prints cfg cap n (leafTypeV l) l.debug := by
  intro fr w
  cases l with
  | Decimal o =>
    have h := debug_decimal cfg cap n o
    simp only [leafTypeV]
    debug_simp [↓h _ _]
    simp only [PrimitiveLogicalType.debug, List.append_assoc]
    rfl
  | Time o =>
    have h := debug_time cfg cap n o
    simp only [leafTypeV]
    debug_simp [↓h _ _]
    simp only [PrimitiveLogicalType.debug, List.append_assoc]
    rfl
  | Timestamp o =>
    have h := debug_time cfg cap n o
    simp only [leafTypeV]
    debug_simp [↓h _ _]
    simp only [PrimitiveLogicalType.debug, List.append_assoc]
    rfl
  | Integer o =>
    have h := debug_integer cfg cap n o
    simp only [leafTypeV]
    debug_simp [↓h _ _]
    simp only [PrimitiveLogicalType.debug, List.append_assoc]
    rfl
  | _ => simp only [leafTypeV]; debug_simp []; rfl

theorem debug_groupType (l : GroupLogicalType) : Prints cfg cap n (groupTypeV l) l.debug := by
  intro fr w
  cases l with
  | Variant v =>
    cases v with
    | none => simp only [groupTypeV, optV]; debug_simp []; rfl
    | some x =>
      simp only [groupTypeV, optV]
      debug_simp []
      simp only [GroupLogicalType.debug, List.append_assoc]
      rfl
  | _ => simp only [groupTypeV]; debug_simp []; rfl

/-! ## The functions -/

theorem each_indent (n : Nat) (b : Expr) (hb : b = .block [.semi (.mac (n! "print") [.str (n! "  ")])]) (fr : Frame) : ∀ (vs : List V) (w : World),
    evEach schemaProg (eval cfg cap schemaProg (n + 12)) .wild b vs fr w = .val .unit fr (w.print (printIndent vs.length))
  | [], w => by rw [evEach, List.length_nil, printIndent, print_nil]
  | v :: vs, w => by
    have ih := fun w => each_indent n b hb fr vs w
    subst hb
    rw [evEach, List.length_cons, printIndent]
    pq_simp [↓ih]

theorem run_indent (k : BitVec 64) (n : Nat) (w : World) :
    runFn (eval cfg cap schemaProg (n + 20)) pq_print_indent [.base (.usize k)] w = .ret .unit [.base (.usize k)] (w.print (printIndent k.toNat)) := by
  have h := fun fr vs w => each_indent cfg cap (n + 6) _ rfl fr vs w
  conv => lhs; unfold runFn
  pq_simp [pq_print_indent]
  unfold eachAt
  pq_simp [evFor, ↓h, List.length_map, List.length_range', Nat.sub_zero]

theorem of_addIndent (k : BitVec 64) (hk : k.toNat + 1 < 2 ^ 64) (fr : Frame) (w : World) :
    Out.of (binV cfg .add (.base (.usize k)) (.base (.lit 1))) fr w = .val (.base (.usize (k + 1))) fr w := by
  show Out.of (Except.map V.base (if cfg.overflowChecks && decide (2 ^ 64 ≤ k.toNat + (1#64).toNat) then .error .panic else .ok (.usize (k + 1)))) fr w = _
  rw [show decide (2 ^ 64 ≤ k.toNat + (1#64).toNat) = false from decide_eq_false (by rw [show (1#64).toNat = 1 from rfl]; omega), Bool.and_false]
  rfl

/-- The body of the loop, schema.rs:629-631 -/
@[reducible] def childPrint : Expr :=
  .block [.semi (.call [n! "pretty_print_schema"] [.path [n! "child"], .bin .add (.path [n! "indent"]) (.lit 1 none)])]

/-- The scopes in the loop. -/
@[reducible] def printFrame (g f : V) (k : BitVec 64) : Frame :=
  [[], [(n! "field", g)], [], [(n! "field", f), (n! "indent", .base (.usize k))]]

theorem display_name (bs : Bytes) (fr : Frame) (w : World) (ev : Expr → Frame → World → Out) :
    evDisplay schemaProg ev (.base (.bytes bs)) fr w = .val .unit fr (w.print bs) := rfl

mutual
theorem run_pretty : ∀ (f : SField) (k : BitVec 64) (N : Nat) (w : World), 60 * (height f + 1) ≤ N → k.toNat + height f < 2 ^ 64 →
    runFn (eval cfg cap schemaProg N) pq_pretty_print_schema [fieldV f, .base (.usize k)] w =
      .ret .unit [fieldV f, .base (.usize k)] (w.print (prettyPrint f k.toNat))
  | .primitive c p l i, k, N, w, hN, _ => by
    simp only [height] at hN
    obtain ⟨n, rfl⟩ : ∃ n, N = n + 60 := ⟨N - 60, by omega⟩
    have hi := fun n w => run_indent cfg cap k n w
    have hr := fun n fr w => display_repetition cfg cap c.repetition n fr w
    have hp := fun n fr w => debug_physical cfg cap n p fr w
    rw [prettyPrint]
    simp only [fieldV, commonV]
    conv => lhs; unfold runFn
    cases l with
    | none =>
      pq_simp [pq_pretty_print_schema, ↓hi, ↓hr, ↓hp, ↓display_name, optV, List.append_assoc, printLogical]
      rfl
    | some l =>
      have hl := fun n fr w => debug_leafType cfg cap n l fr w
      pq_simp [pq_pretty_print_schema, ↓hi, ↓hr, ↓hp, ↓hl, ↓display_name, optV, List.append_assoc, printLogical]
      rfl
  | .group c fs l, k, N, w, hN, hk => by
    simp only [height] at hN hk
    obtain ⟨n, rfl⟩ : ∃ n, N = n + 60 := ⟨N - 60, by omega⟩
    have hi := fun n w => run_indent cfg cap k n w
    have hr := fun n fr w => display_repetition cfg cap c.repetition n fr w
    have hc := fun g f N w h => each_pretty fs g f k N w h (by omega)
    have hN' : 60 * heightAll fs + 80 ≤ n + 55 := by omega
    rw [prettyPrint]
    simp only [fieldV, commonV]
    conv => lhs; unfold runFn pq_pretty_print_schema
    cases l with
    | none =>
      pq_simp [↓hi, ↓hr, ↓hc, hN', ↓display_name, optV, List.append_assoc, printLogical]
      rfl
    | some l =>
      have hl := fun n fr w => debug_groupType cfg cap n l fr w
      pq_simp [↓hi, ↓hr, ↓hc, hN', ↓hl, ↓display_name, optV, List.append_assoc, printLogical]
      rfl
theorem each_pretty : ∀ (fs : List SField) (g f : V) (k : BitVec 64) (N : Nat) (w : World), 60 * heightAll fs + 80 ≤ N → k.toNat + heightAll fs + 1 < 2 ^ 64 →
    eachAt cfg cap schemaProg N (.name (n! "child")) childPrint (.vec (fieldVs fs)) (printFrame g f k) w =
      .val .unit (printFrame g f k) (w.print (prettyPrintAll fs (k.toNat + 1)))
  | [], g, f, k, N, w, _, _ => by
    rw [fieldVs, prettyPrintAll, print_nil]
    rfl
  | a :: fs, g, f, k, N, w, hN, hk => by
    simp only [heightAll] at hN hk
    have hm := Nat.le_max_left (height a) (heightAll fs)
    have hm' := Nat.le_max_right (height a) (heightAll fs)
    obtain ⟨n, rfl⟩ : ∃ n, N = n + 20 := ⟨N - 20, by omega⟩
    have hk1 : (k + 1).toNat = k.toNat + 1 := by
      rw [BitVec.toNat_add, show BitVec.toNat (1 : BitVec 64) = 1 from rfl, Nat.mod_eq_of_lt (by omega)]
    have ha := fun N w h => run_pretty a (k + 1) N w h (by omega)
    have ih := fun w => each_pretty fs g f k (n + 20) w (by omega) (by omega)
    have hN' : ∀ i, 60 * (height a + 1) ≤ n + i := fun i => by omega
    have hadd := of_addIndent cfg k (by omega)
    have hp := plain_fieldV a
    rw [hk1] at ha
    show Out.bind (Out.leave (eval cfg cap schemaProg (n + 20) childPrint ([(n! "child", fieldV a)] :: printFrame g f k) w))
      (fun _ fr w => eachAt cfg cap schemaProg (n + 20) (.name (n! "child")) childPrint (.vec (fieldVs fs)) fr w) = _
    rw [prettyPrintAll, ← print_print, ← ih]
    pq_simp [↓ha, hN', ↓hadd, ↓hp]
end

end

end CT.Pq
