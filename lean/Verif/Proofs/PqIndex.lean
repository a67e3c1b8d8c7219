import Verif.Proofs.PqLib
/-!
# The page index of parquet/src/lib.rs, run
-/
namespace CT.Pq
open CT CT.Parquet
open CT.Rs (Name ITy BinOp)

/-- The body of the loop over columns, lib.rs:65-75. -/
@[reducible] def columnBody : Expr :=
  .block [.iteLet (.tuple [.con [(n! "Some")] [.name (n! "oo")], .con
  [(n! "Some")] [.name (n! "ol")], .con [(n! "Some")] [.name (n! "co")], .con [(n! "Some")] [.name (n! "cl")]]) (.tuple [.field (.path [(n! "c")]) (n!
  "offset_index_offset"), .field (.path [(n! "c")]) (n! "offset_index_length"), .field (.path [(n! "c")]) (n! "column_index_offset"), .field (.path
  [(n! "c")]) (n! "column_index_length")]) (.block [.semi (.ite (.or (.or (.or (.bin .lt (.path [(n! "oo")]) (.lit 0 none)) (.bin .lt (.path [(n!
  "ol")]) (.lit 0 none))) (.bin .lt (.path [(n! "co")]) (.lit 0 none))) (.bin .lt (.path [(n! "cl")]) (.lit 0 none))) (.block [.semi (.ret (some
  (.call [(n! "Err")] [.path [(n! "ParquetError"), (n! "InvalidOffset")]])))]) none), .semi (.assign (.path [(n! "min")]) (.method (.path [(n!
  "min")]) (n! "min") [.cast (.path [(n! "oo")]) (some .usize)])), .semi (.assign (.path [(n! "max")]) (.method (.path [(n! "max")]) (n! "max") [.bin
  .add (.cast (.path [(n! "oo")]) (some .usize)) (.cast (.path [(n! "ol")]) (some .usize))])), .semi (.assign (.path [(n! "min")]) (.method (.path
  [(n! "min")]) (n! "min") [.cast (.path [(n! "co")]) (some .usize)])), .semi (.assign (.path [(n! "max")]) (.method (.path [(n! "max")]) (n! "max")
  [.bin .add (.cast (.path [(n! "co")]) (some .usize)) (.cast (.path [(n! "cl")]) (some .usize))]))]) none]

/-- The body of the loop over row groups, lib.rs:64-76. -/
@[reducible] def groupBody : Expr :=
  .block [.for (.name (n! "c")) (.ref false (.field (.path [(n! "rg")]) (n! "columns"))) columnBody]

/-- The closure of lib.rs:107-136. -/
@[reducible] def columnClosure : Expr :=
  .block [.bind (.name (n!
  "offset_index_range")) (.iteLet (.tuple [.con [(n! "Some")] [.name (n! "offset")], .con [(n! "Some")] [.name (n! "length")]]) (.tuple [.field (.path
  [(n! "cc")]) (n! "offset_index_offset"), .field (.path [(n! "cc")]) (n! "offset_index_length")]) (.block [.semi (.mac (n! "assert") [.bin .ge (.cast
  (.path [(n! "offset")]) (some .usize)) (.path [(n! "chunk_offset")])]), .semi (.mac (n! "assert") [.bin .gt (.path [(n! "length")]) (.lit 0 none)]),
  .bind (.name (n! "start")) (.bin .sub (.cast (.path [(n! "offset")]) (some .usize)) (.path [(n! "chunk_offset")])), .range (some (.path [(n!
  "start")])) (some (.bin .add (.path [(n! "start")]) (.cast (.path [(n! "length")]) (some .usize))))]) (some (.block [.ret (some (.call [(n! "Ok")]
  [.path [(n! "None")]]))]))), .bind (.name (n! "column_index_range")) (.iteLet (.tuple [.con [(n! "Some")] [.name (n! "offset")], .con [(n! "Some")]
  [.name (n! "length")]]) (.tuple [.field (.path [(n! "cc")]) (n! "column_index_offset"), .field (.path [(n! "cc")]) (n! "column_index_length")])
  (.block [.semi (.mac (n! "assert") [.bin .ge (.cast (.path [(n! "offset")]) (some .usize)) (.path [(n! "chunk_offset")])]), .semi (.mac (n!
  "assert") [.bin .gt (.path [(n! "length")]) (.lit 0 none)]), .bind (.name (n! "start")) (.bin .sub (.cast (.path [(n! "offset")]) (some .usize))
  (.path [(n! "chunk_offset")])), .range (some (.path [(n! "start")])) (some (.bin .add (.path [(n! "start")]) (.cast (.path [(n! "length")]) (some
  .usize))))]) (some (.block [.ret (some (.call [(n! "Ok")] [.path [(n! "None")]]))]))), .bind (.name (n! "res")) (.call [(n! "Ok")] [.call [(n!
  "Some")] [.tuple [.call [(n! "OffsetIndex"), (n! "default")] [], .call [(n! "ColumnIndex"), (n! "default")] []]]]), .semi (.select (.ref true (.path
  [(n! "res")])) [(.con [(n! "Ok")] [.con [(n! "Some")] [.tuple [.name (n! "offset_index"), .name (n! "column_index")]]], .block [.semi (.try (.method
  (.path [(n! "offset_index")]) (n! "fill_thrift") [.ref true (.call [(n! "CompactThriftInputSlice"), (n! "new")] [.ref false (.index (.path [(n!
  "chunk")]) (.path [(n! "offset_index_range")]))])])), .semi (.try (.method (.path [(n! "column_index")]) (n! "fill_thrift") [.ref true (.call [(n!
  "CompactThriftInputSlice"), (n! "new")] [.ref false (.index (.path [(n! "chunk")]) (.path [(n! "column_index_range")]))])]))]), (.wild, .block
  [.call [(n! "unreachable_unchecked")] []])]), .path [(n! "res")]]

/-- The closure of lib.rs:141-143. -/
@[reducible] def groupClosure : Expr :=
  .block [.call [(n!
  "read_page_index_for_column_chunk")] [.path [(n! "chunk")], .path [(n! "chunk_offset")], .ref false (.field (.path [(n! "rg")]) (n! "columns"))]]

/-! ## Fields -/

/-- An `Option<i64>` -/
def opt64 : Option (BitVec 64) → V
  | none => .none
  | some x => .some (.base (.i64 x))

/-- An `Option<i32>` -/
def opt32 : Option (BitVec 32) → V
  | none => .none
  | some x => .some (.base (.i32 x))

theorem wrap_opt64 {v : Val} {o : Option (BitVec 64)} (h : optI64 v = some o) : wrap (.option .i64) v = opt64 o := by
  unfold optI64 at h
  split at h
  · cases h; rfl
  · cases h; rfl
  · cases h

theorem wrap_opt32 {v : Val} {o : Option (BitVec 32)} (h : optI32 v = some o) : wrap (.option .i32) v = opt32 o := by
  unfold optI32 at h
  split at h
  · cases h; rfl
  · cases h; rfl
  · cases h

theorem column_values {c : Val} {f : IndexFields} (h : indexFields c = some f) : ∃ vs, c = .struct vs ∧
    fieldAt 54 vs (n! "offset_index_offset") = some (opt64 f.offsetOffset) ∧ fieldAt 54 vs (n! "offset_index_length") = some (opt32 f.offsetLength) ∧
    fieldAt 54 vs (n! "column_index_offset") = some (opt64 f.columnOffset) ∧ fieldAt 54 vs (n! "column_index_length") = some (opt32 f.columnLength) := by
  cases c with
  | struct vs =>
    refine ⟨vs, rfl, ?_⟩
    rcases vs with _ | ⟨a0, _ | ⟨a1, _ | ⟨a2, _ | ⟨a3, _ | ⟨a4, _ | ⟨a5, _ | ⟨a6, vs⟩⟩⟩⟩⟩⟩⟩
    · cases h
    · cases h
    · cases h
    · cases h
    · change (optI64 a3).bind (fun _ => none) = _ at h
      cases h' : optI64 a3 <;> rw [h'] at h <;> cases h
    · change (optI64 a3).bind (fun _ => (optI32 a4).bind (fun _ => none)) = _ at h
      cases h' : optI64 a3 <;> rw [h'] at h
      · cases h
      cases h'' : optI32 a4 <;> rw [h''] at h <;> cases h
    · change (optI64 a3).bind (fun _ => (optI32 a4).bind (fun _ => (optI64 a5).bind fun _ => none)) = _ at h
      cases h' : optI64 a3 <;> rw [h'] at h
      · cases h
      cases h'' : optI32 a4 <;> rw [h''] at h
      · cases h
      cases h'' : optI64 a5 <;> rw [h''] at h <;> cases h
    · change (optI64 a3).bind (fun a => (optI32 a4).bind (fun b => (optI64 a5).bind fun c => (optI32 a6).bind fun d => some (IndexFields.mk a b c d))) = _ at h
      cases h1 : optI64 a3 <;> rw [h1] at h
      · cases h
      cases h2 : optI32 a4 <;> rw [h2] at h
      · cases h
      cases h3 : optI64 a5 <;> rw [h3] at h
      · cases h
      cases h4 : optI32 a6 <;> rw [h4] at h
      · cases h
      cases h
      rw [← wrap_opt64 h1, ← wrap_opt32 h2, ← wrap_opt64 h3, ← wrap_opt32 h4]
      exact ⟨rfl, rfl, rfl, rfl⟩
  | _ => cases h

theorem group_values {rg : Val} {fs : List IndexFields} (h : rowGroupFields rg = some fs) : ∃ (vs cols : List Val), rg = .struct vs ∧
    fieldAt 55 vs (n! "columns") = some (.vec (cols.map (wrap (.named 54)))) ∧ cols.mapM indexFields = some fs := by
  cases rg with
  | struct vs =>
    rcases vs with _ | ⟨a0, vs⟩
    · cases h
    · change (items a0).bind (fun cols => cols.mapM indexFields) = _ at h
      cases a0 with
      | list cols => exact ⟨_, cols, rfl, rfl, h⟩
      | _ => cases h
  | _ => cases h

theorem metadata_values {md : Val} {rgs : List (List IndexFields)} (h : metadataFields md = some rgs) : ∃ (vs groups : List Val), md = .struct vs ∧
    fieldAt 64 vs (n! "row_groups") = some (.vec (groups.map (wrap (.named 55)))) ∧ groups.mapM rowGroupFields = some rgs := by
  cases md with
  | struct vs =>
    rcases vs with _ | ⟨a0, _ | ⟨a1, _ | ⟨a2, _ | ⟨a3, vs⟩⟩⟩⟩
    · cases h
    · cases h
    · cases h
    · cases h
    · change (items a3).bind (fun groups => groups.mapM rowGroupFields) = _ at h
      cases a3 with
      | list groups => exact ⟨_, groups, rfl, rfl, h⟩
      | _ => cases h
  | _ => cases h

/-! ## get_page_index_range -/

/-- The value of `Err(ParquetError::InvalidOffset)` -/
def invalidOffset : V := .err (.con [n! "ParquetError", n! "InvalidOffset"] [])

/-- How the loops of `get_page_index_range` end. -/
def Ends (F : BitVec 64 → BitVec 64 → Frame) (w : World) (r : Except PFail (Nat × Nat)) (o : Out) : Prop :=
  ∃ m M, (r = .ok (BitVec.toNat m, BitVec.toNat M) ∧ o = .val .unit (F m M) w) ∨
    (r = .error (.err .invalidOffset) ∧ o = .ret invalidOffset (F m M) w) ∨
    (r = .error .panic ∧ o = .fail .panic w)

theorem eachAt_nil (cfg : Cfg) (capacity : Nat → Except PFail Unit) (P : Prog) (n : Nat) (p : Pat) (b : Expr) (fr : Frame) (w : World) :
    eachAt cfg capacity P n p b (.vec []) fr w = .val .unit fr w := rfl

theorem eachAt_cons (cfg : Cfg) (capacity : Nat → Except PFail Unit) (P : Prog) (n : Nat) (x : Name) (b : Expr) (v : V) (vs : List V) (fr : Frame) (w : World) :
    eachAt cfg capacity P n (.name x) b (.vec (v :: vs)) fr w =
      ((eval cfg capacity P n b ([(x, v)] :: fr) w).leave).bind fun _ fr w => eachAt cfg capacity P n (.name x) b (.vec vs) fr w := rfl

/-- The frame in the loop over columns. -/
def rangeFrame (rg : V) (rest : Frame) (m M : BitVec 64) : Frame := [] :: [(n! "rg", rg)] :: [(n! "max", .base (.usize M)), (n! "min", .base (.usize m))] :: rest

section
variable (cfg : Cfg) (n : Nat) (w : World)

/-- The checked addition of the text is that of the model. -/
theorem addUsize_cases (a b : BitVec 64) :
    ((cfg.overflowChecks && decide (2 ^ 64 ≤ a.toNat + b.toNat)) = true ∧ addUsize cfg a.toNat b.toNat = .error .panic) ∨
    ((cfg.overflowChecks && decide (2 ^ 64 ≤ a.toNat + b.toNat)) = false ∧ addUsize cfg a.toNat b.toNat = .ok (a + b).toNat) := by
  unfold addUsize
  cases h : cfg.overflowChecks && decide (2 ^ 64 ≤ a.toNat + b.toNat)
  · exact .inr ⟨rfl, by rw [BitVec.toNat_add]; rfl⟩
  · exact .inl ⟨rfl, rfl⟩

/-- `x.min(y)` -/
def minW (x y : BitVec 64) : BitVec 64 := if x.toNat ≤ y.toNat then x else y

/-- `x.max(y)` -/
def maxW (x y : BitVec 64) : BitVec 64 := if x.toNat ≤ y.toNat then y else x

theorem minW_toNat (x y : BitVec 64) : (minW x y).toNat = Nat.min x.toNat y.toNat := by
  unfold minW; show _ = min _ _; split <;> omega

theorem maxW_toNat (x y : BitVec 64) : (maxW x y).toNat = Nat.max x.toNat y.toNat := by
  unfold maxW; show _ = max _ _; split <;> omega

theorem column_round {c : Val} {f : IndexFields} (h : indexFields c = some f) (rg : V) (rest : Frame) (m M : BitVec 64) :
    Ends (rangeFrame rg rest) w (rangeLoop cfg [f] (m.toNat, M.toNat))
      (eval cfg (withCapacity cfg) libProg (n + 12) columnBody ([(n! "c", wrap (.named 54) c)] :: rangeFrame rg rest m M) w).leave := by
  obtain ⟨vs, rfl, h1, h2, h3, h4⟩ := column_values h
  have hw : wrap (.named 54) (.struct vs) = .obj (.named 54) (.struct vs) := rfl
  have skip : rangeLoop cfg [f] (m.toNat, M.toNat) = .ok (m.toNat, M.toNat) →
      (eval cfg (withCapacity cfg) libProg (n + 12) columnBody ([(n! "c", wrap (.named 54) (.struct vs))] :: rangeFrame rg rest m M) w).leave =
        .val .unit (rangeFrame rg rest m M) w →
      Ends (rangeFrame rg rest) w (rangeLoop cfg [f] (m.toNat, M.toNat))
      (eval cfg (withCapacity cfg) libProg (n + 12) columnBody ([(n! "c", wrap (.named 54) (.struct vs))] :: rangeFrame rg rest m M) w).leave :=
    fun h h' => ⟨m, M, .inl ⟨h, h'⟩⟩
  rcases f with ⟨_ | oo, ol, co, cl⟩
  · refine skip rfl ?_
    pq_simp [rangeFrame, columnBody, hw, h1, h2, h3, h4, opt64]
  rcases ol with _ | ol
  · refine skip rfl ?_
    pq_simp [rangeFrame, columnBody, hw, h1, h2, h3, h4, opt64, opt32]
  rcases co with _ | co
  · refine skip rfl ?_
    pq_simp [rangeFrame, columnBody, hw, h1, h2, h3, h4, opt64, opt32]
  rcases cl with _ | cl
  · refine skip rfl ?_
    pq_simp [rangeFrame, columnBody, hw, h1, h2, h3, h4, opt64, opt32]
  have e1 : decide (oo.toInt < (BitVec.ofNat 64 0).toInt) = oo.slt 0#64 := rfl
  have e2 : decide (ol.toInt < (BitVec.ofNat 32 0).toInt) = ol.slt 0#32 := rfl
  have e3 : decide (co.toInt < (BitVec.ofNat 64 0).toInt) = co.slt 0#64 := rfl
  have e4 : decide (cl.toInt < (BitVec.ofNat 32 0).toInt) = cl.slt 0#32 := rfl
  clear skip
  unfold rangeLoop
  rcases b1 : oo.slt 0#64
  rcases b2 : ol.slt 0#32
  rcases b3 : co.slt 0#64
  rcases b4 : cl.slt 0#32
  · dsimp only
    rw [if_neg (by simp [b1, b2, b3, b4])]
    show Ends _ _ (Except.bind (addUsize cfg oo.toNat (ol.signExtend 64).toNat) fun oEnd =>
      Except.bind (addUsize cfg co.toNat (cl.signExtend 64).toNat) fun cEnd => .ok (Nat.min (Nat.min m.toNat oo.toNat) co.toNat, Nat.max (Nat.max M.toNat oEnd) cEnd)) _
    rcases addUsize_cases cfg oo (ol.signExtend 64) with ⟨a1, a2⟩ | ⟨a1, a2⟩
    · refine ⟨m, M, .inr (.inr ⟨by rw [a2]; rfl, ?_⟩)⟩
      pq_simp [rangeFrame, columnBody, hw, h1, h2, h3, h4, opt64, opt32, e1, e2, e3, e4, b1, b2, b3, b4, BitVec.signExtend_eq, a1]
    rcases addUsize_cases cfg co (cl.signExtend 64) with ⟨c1, c2⟩ | ⟨c1, c2⟩
    · refine ⟨m, M, .inr (.inr ⟨by rw [a2, c2]; rfl, ?_⟩)⟩
      pq_simp [rangeFrame, columnBody, hw, h1, h2, h3, h4, opt64, opt32, e1, e2, e3, e4, b1, b2, b3, b4, BitVec.signExtend_eq, a1, c1]
    · refine ⟨minW (minW m oo) co, maxW (maxW M (oo + ol.signExtend 64)) (co + cl.signExtend 64), .inl ⟨by rw [a2, c2, minW_toNat, minW_toNat, maxW_toNat, maxW_toNat]; rfl, ?_⟩⟩
      pq_simp [rangeFrame, columnBody, hw, h1, h2, h3, h4, opt64, opt32, e1, e2, e3, e4, b1, b2, b3, b4, BitVec.signExtend_eq, a1, c1]
      rfl
  · refine ⟨m, M, .inr (.inl ⟨by simp [b4], ?_⟩)⟩
    pq_simp [rangeFrame, columnBody, hw, h1, h2, h3, h4, opt64, opt32, e1, e2, e3, e4, b1, b2, b3, b4]
    rfl
  · refine ⟨m, M, .inr (.inl ⟨by simp [b3], ?_⟩)⟩
    pq_simp [rangeFrame, columnBody, hw, h1, h2, h3, h4, opt64, opt32, e1, e2, e3, e4, b1, b2, b3]
    rfl
  · refine ⟨m, M, .inr (.inl ⟨by simp [b2], ?_⟩)⟩
    pq_simp [rangeFrame, columnBody, hw, h1, h2, h3, h4, opt64, opt32, e1, e2, e3, e4, b1, b2]
    rfl
  · refine ⟨m, M, .inr (.inl ⟨by simp [b1], ?_⟩)⟩
    pq_simp [rangeFrame, columnBody, hw, h1, h2, h3, h4, opt64, opt32, e1, e2, e3, e4, b1]
    rfl

theorem Ends.bind {F : BitVec 64 → BitVec 64 → Frame} {w : World} {r : Except PFail (Nat × Nat)} {o : Out} {g : Nat × Nat → Except PFail (Nat × Nat)} {k : V → Frame → World → Out}
    (h : Ends F w r o) (hk : ∀ m M, Ends F w (g (BitVec.toNat m, BitVec.toNat M)) (k .unit (F m M) w)) : Ends F w (r.bind g) (o.bind k) := by
  obtain ⟨m, M, ⟨rfl, rfl⟩ | ⟨rfl, rfl⟩ | ⟨rfl, rfl⟩⟩ := h
  · exact hk m M
  · exact ⟨m, M, .inr (.inl ⟨rfl, rfl⟩)⟩
  · exact ⟨m, M, .inr (.inr ⟨rfl, rfl⟩)⟩

theorem Ends.leave {F : BitVec 64 → BitVec 64 → Frame} {w : World} {r : Except PFail (Nat × Nat)} {o : Out} (h : Ends F w r o) : Ends (fun m M => (F m M).tail) w r o.leave := by
  obtain ⟨m, M, ⟨rfl, rfl⟩ | ⟨rfl, rfl⟩ | ⟨rfl, rfl⟩⟩ := h
  · exact ⟨m, M, .inl ⟨rfl, rfl⟩⟩
  · exact ⟨m, M, .inr (.inl ⟨rfl, rfl⟩)⟩
  · exact ⟨m, M, .inr (.inr ⟨rfl, rfl⟩)⟩

theorem rangeLoop_bind (xs ys : List IndexFields) : ∀ st, rangeLoop cfg (xs ++ ys) st = (rangeLoop cfg xs st).bind (rangeLoop cfg ys) := by
  induction xs with
  | nil => intro st; rfl
  | cons c cs ih =>
    rintro ⟨m, M⟩
    simp only [List.cons_append, rangeLoop]
    split
    · split
      · rfl
      · show Except.bind _ _ = Except.bind (Except.bind _ _) _
        cases addUsize cfg (asUsize64 _) (asUsize32 _) with
        | error => rfl
        | ok =>
          show Except.bind _ _ = Except.bind (Except.bind _ _) _
          cases addUsize cfg (asUsize64 _) (asUsize32 _) with
          | error => rfl
          | ok => exact ih _
    · exact ih _

theorem columns_loop (rg : V) (rest : Frame) : ∀ (cols : List Val) (fs : List IndexFields), cols.mapM indexFields = some fs → ∀ m M,
    Ends (rangeFrame rg rest) w (rangeLoop cfg fs (BitVec.toNat m, BitVec.toNat M))
      (eachAt cfg (withCapacity cfg) libProg (n + 12) (.name (n! "c")) columnBody (.vec (cols.map (wrap (.named 54)))) (rangeFrame rg rest m M) w)
  | [], fs, h, m, M => by cases h; exact ⟨m, M, .inl ⟨rfl, rfl⟩⟩
  | c :: cols, fs, h, m, M => by
    rw [List.mapM_cons] at h
    cases hc : indexFields c with
    | none => rw [hc] at h; cases h
    | some f =>
      cases hcs : cols.mapM indexFields with
      | none => rw [hc, hcs] at h; cases h
      | some fs' =>
        rw [hc, hcs] at h
        cases h
        rw [show f :: fs' = [f] ++ fs' from rfl, rangeLoop_bind, List.map_cons, eachAt_cons]
        exact (column_round cfg n w hc rg rest m M).bind fun m M => columns_loop rg rest cols fs' hcs m M

/-- The frame in the loop over row groups. -/
def groupFrame (rest : Frame) (m M : BitVec 64) : Frame := [(n! "max", .base (.usize M)), (n! "min", .base (.usize m))] :: rest

theorem group_round {rg : Val} {fs : List IndexFields} (h : rowGroupFields rg = some fs) (rest : Frame) (m M : BitVec 64) :
    Ends (groupFrame rest) w (rangeLoop cfg fs (m.toNat, M.toNat))
      (eval cfg (withCapacity cfg) libProg (n + 15) groupBody ([(n! "rg", wrap (.named 55) rg)] :: groupFrame rest m M) w).leave := by
  obtain ⟨vs, cols, rfl, h1, h2⟩ := group_values h
  have hw : wrap (.named 55) (.struct vs) = .obj (.named 55) (.struct vs) := rfl
  have := (columns_loop cfg (n + 1) w (wrap (.named 55) (.struct vs)) rest cols fs h2 m M).leave.leave
  have e : eval cfg (withCapacity cfg) libProg (n + 15) groupBody ([(n! "rg", wrap (.named 55) (.struct vs))] :: groupFrame rest m M) w =
      (eachAt cfg (withCapacity cfg) libProg (n + 13) (.name (n! "c")) columnBody (.vec (cols.map (wrap (.named 54))))
        (rangeFrame (wrap (.named 55) (.struct vs)) rest m M) w).leave := by
    pq_simp [groupBody, groupFrame, hw, h1]
    rfl
  rw [e]
  exact this

theorem groups_loop (rest : Frame) : ∀ (groups : List Val) (rgs : List (List IndexFields)), groups.mapM rowGroupFields = some rgs → ∀ m M,
    Ends (groupFrame rest) w (rangeLoop cfg rgs.flatten (BitVec.toNat m, BitVec.toNat M))
      (eachAt cfg (withCapacity cfg) libProg (n + 15) (.name (n! "rg")) groupBody (.vec (groups.map (wrap (.named 55)))) (groupFrame rest m M) w)
  | [], fs, h, m, M => by cases h; exact ⟨m, M, .inl ⟨rfl, rfl⟩⟩
  | c :: cols, fs, h, m, M => by
    rw [List.mapM_cons] at h
    cases hc : rowGroupFields c with
    | none => rw [hc] at h; cases h
    | some f =>
      cases hcs : cols.mapM rowGroupFields with
      | none => rw [hc, hcs] at h; cases h
      | some fs' =>
        rw [hc, hcs] at h
        cases h
        rw [List.flatten_cons, rangeLoop_bind, List.map_cons, eachAt_cons]
        exact (group_round cfg n w hc rest m M).bind fun m M => groups_loop rest cols fs' hcs m M

/-- What `get_page_index_range` returns. -/
theorem run_range {md : Val} {rgs : List (List IndexFields)} (h : metadataFields md = some rgs) :
    (∃ r, getPageIndexRange cfg md = .ok r ∧ (∀ a b, r = some (a, b) → a < 2 ^ 64 ∧ b < 2 ^ 64) ∧ runFn (eval cfg (withCapacity cfg) libProg (n + 20)) pq_get_page_index_range [.obj (.named 64) md] w = .ret (.ok (rangeV r)) [.obj (.named 64) md] w) ∨
    (getPageIndexRange cfg md = .error (.err .invalidOffset) ∧ runFn (eval cfg (withCapacity cfg) libProg (n + 20)) pq_get_page_index_range [.obj (.named 64) md] w = .ret invalidOffset [.obj (.named 64) md] w) ∨
    (getPageIndexRange cfg md = .error .panic ∧ runFn (eval cfg (withCapacity cfg) libProg (n + 20)) pq_get_page_index_range [.obj (.named 64) md] w = .fail .panic w) := by
  obtain ⟨vs, groups, rfl, h1, h2⟩ := metadata_values h
  unfold getPageIndexRange
  rw [h]
  obtain ⟨m, M, h⟩ := groups_loop cfg (n + 2) w [[(n! "file_metadata", .obj (.named 64) (.struct vs))]] groups rgs h2 (BitVec.ofNat 64 (2 ^ 64 - 1)) 0#64
  unfold groupFrame groupBody columnBody at h
  simp only [Nat.add_assoc, Nat.reduceAdd] at h
  rw [show (BitVec.toNat (BitVec.ofNat 64 (2 ^ 64 - 1)), BitVec.toNat 0#64) = (2 ^ 64 - 1, 0) from rfl] at h
  dsimp only
  show (∃ r, Except.bind _ _ = _ ∧ _) ∨ (Except.bind _ _ = _ ∧ _) ∨ (Except.bind _ _ = _ ∧ _)
  rcases h with ⟨h, h'⟩ | ⟨h, h'⟩ | ⟨h, h'⟩
  · rw [h]
    refine .inl ⟨_, rfl, ?_, ?_⟩
    · intro a b hab
      split at hab <;> cases hab
      exact ⟨m.isLt, M.isLt⟩
    by_cases hlt : m.toNat < M.toNat
    · rw [if_pos hlt]
      have hd : decide (m.toNat < M.toNat) = true := decide_eq_true hlt
      pq_simp [pq_get_page_index_range, h1, h', hd, rangeV, BitVec.ofNat_toNat, BitVec.setWidth_eq]
    · rw [if_neg hlt]
      have hd : decide (m.toNat < M.toNat) = false := decide_eq_false hlt
      pq_simp [pq_get_page_index_range, h1, h', hd, rangeV]
  · rw [h]
    refine .inr (.inl ⟨rfl, ?_⟩)
    pq_simp [pq_get_page_index_range, h1, h', invalidOffset]
  · rw [h]
    refine .inr (.inr ⟨rfl, ?_⟩)
    pq_simp [pq_get_page_index_range, h1, h']

theorem run_chunk {md : Val} {rgs : List (List IndexFields)} (h : metadataFields md = some rgs) :
    asFd (runFn (eval cfg (withCapacity cfg) libProg (n + 30)) pq_get_page_index_chunk [.file, .obj (.named 64) md] w) =
      (getPageIndexChunk cfg md w.file).map fun (r, f) => (chunkV r, f) := by
  unfold getPageIndexChunk
  simp only [bind, Fd.bind, Fd.lift]
  rcases run_range cfg (n + 6) w h with ⟨r, h1, hr, h2⟩ | ⟨h1, h2⟩ | ⟨h1, h2⟩ <;> simp only [Nat.add_assoc, Nat.reduceAdd] at h2
  · rw [h1]
    dsimp only
    rcases r with _ | ⟨a, b⟩
    · conv => lhs; unfold runFn
      pq_simp [pq_get_page_index_chunk, ↓h2, rangeV]
      rfl
    · obtain ⟨ha, hb⟩ := hr a b rfl
      have ea : (BitVec.ofNat 64 a).toNat = a := by rw [BitVec.toNat_ofNat]; omega
      have eb : (BitVec.ofNat 64 b).toNat = b := by rw [BitVec.toNat_ofNat]; omega
      have ec : (BitVec.ofNat 64 (b - a)).toNat = b - a := by rw [BitVec.toNat_ofNat]; omega
      rcases h3 : seekStart a w.file with e | ⟨_, f1⟩
      · obtain ⟨k, rfl⟩ := seekTo_error h3
        conv => lhs; unfold runFn
        pq_simp [pq_get_page_index_chunk, ↓h2, rangeV, Fd.bind, Fd.lift, BitVec.setWidth_eq, ea, h3, pq_ParquetError_from_IOError]
        rfl
      · rcases h4 : withCapacity cfg (b - a) with e | _
        · conv => lhs; unfold runFn
          pq_simp [pq_get_page_index_chunk, ↓h2, rangeV, Fd.bind, Fd.lift, BitVec.setWidth_eq, ea, eb, ec, h3, h4]
          rfl
        · rcases h5 : readExactF (b - a) f1 with e | ⟨buf, f2⟩
          · obtain ⟨k, rfl⟩ := readExactF_error h5
            conv => lhs; unfold runFn
            pq_simp [pq_get_page_index_chunk, ↓h2, rangeV, Fd.bind, Fd.lift, BitVec.setWidth_eq, ea, eb, ec, h3, h4, h5, List.length_replicate, pq_ParquetError_from_IOError]
            rfl
          · conv => lhs; unfold runFn
            pq_simp [pq_get_page_index_chunk, ↓h2, rangeV, Fd.bind, Fd.lift, BitVec.setWidth_eq, ea, eb, ec, h3, h4, h5, List.length_replicate]
            rfl
  · rw [h1]
    conv => lhs; unfold runFn
    pq_simp [pq_get_page_index_chunk, ↓h2, invalidOffset]
    rfl
  · rw [h1]
    conv => lhs; unfold runFn
    pq_simp [pq_get_page_index_chunk, ↓h2]
    rfl

/-! ## read_page_index -/

@[pq] theorem index_OffsetIndex : indexOf (n! "OffsetIndex") = some 59 := (rfl)
@[pq] theorem index_ColumnIndex : indexOf (n! "ColumnIndex") = some 60 := (rfl)

theorem relRange_cases (off oo : BitVec 64) (ol : BitVec 32) :
    (decide (off.toNat ≤ oo.toNat) = false ∧ relRange cfg off.toNat oo ol = .error .panic) ∨
    (decide (off.toNat ≤ oo.toNat) = true ∧ decide ((BitVec.ofNat 32 0).toInt < ol.toInt) = false ∧ relRange cfg off.toNat oo ol = .error .panic) ∨
    (decide (off.toNat ≤ oo.toNat) = true ∧ decide ((BitVec.ofNat 32 0).toInt < ol.toInt) = true ∧ decide (oo.toNat < off.toNat) = false ∧
      (cfg.overflowChecks && decide (2 ^ 64 ≤ (oo - off).toNat + (ol.signExtend 64).toNat)) = true ∧ relRange cfg off.toNat oo ol = .error .panic) ∨
    (decide (off.toNat ≤ oo.toNat) = true ∧ decide ((BitVec.ofNat 32 0).toInt < ol.toInt) = true ∧ decide (oo.toNat < off.toNat) = false ∧
      (cfg.overflowChecks && decide (2 ^ 64 ≤ (oo - off).toNat + (ol.signExtend 64).toNat)) = false ∧
      relRange cfg off.toNat oo ol = .ok ((oo - off).toNat, (oo - off + ol.signExtend 64).toNat)) := by
  unfold relRange
  by_cases h1 : off.toNat ≤ oo.toNat
  · rw [if_neg (show ¬ asUsize64 oo < off.toNat by unfold asUsize64; omega)]
    by_cases h2 : (BitVec.ofNat 32 0).toInt < ol.toInt
    · rw [if_neg (by simp only [BitVec.sle, decide_eq_true_eq]; omega)]
      have hs : asUsize64 oo - off.toNat = (oo - off).toNat := by
        rw [BitVec.toNat_sub_of_le (BitVec.le_def.mpr h1)]; rfl
      have h3 : ¬ oo.toNat < off.toNat := by omega
      show _ ∨ _ ∨ (_ ∧ _ ∧ _ ∧ _ ∧ Except.bind _ _ = _) ∨ (_ ∧ _ ∧ _ ∧ _ ∧ Except.bind _ _ = _)
      rw [hs]
      rcases addUsize_cases cfg (oo - off) (ol.signExtend 64) with ⟨a1, a2⟩ | ⟨a1, a2⟩
      · exact .inr (.inr (.inl ⟨decide_eq_true h1, decide_eq_true h2, decide_eq_false h3, a1, by unfold asUsize32; rw [a2]; rfl⟩))
      · exact .inr (.inr (.inr ⟨decide_eq_true h1, decide_eq_true h2, decide_eq_false h3, a1, by unfold asUsize32; rw [a2]; rfl⟩))
    · rw [if_pos (by simp only [BitVec.sle, decide_eq_true_eq]; omega)]
      exact .inr (.inl ⟨decide_eq_true h1, decide_eq_false h2, rfl⟩)
  · rw [if_pos (show asUsize64 oo < off.toNat by unfold asUsize64; omega)]
    exact .inl ⟨decide_eq_false h1, rfl⟩

theorem sliceRange_cases (chunk : Bytes) (a b : Nat) :
    (sliced chunk a b = .error .panic ∧ sliceRange chunk (a, b) = .error .panic) ∨ ∃ bs, sliced chunk a b = .ok bs ∧ sliceRange chunk (a, b) = .ok bs := by
  unfold sliced sliceRange
  by_cases h : a ≤ b ∧ b ≤ chunk.length
  · exact .inr ⟨_, if_pos h, if_pos h⟩
  · exact .inl ⟨if_neg h, if_neg h⟩

/-- A result of code that can only return thrift errors. -/
def outE {α : Type} (g : α → V) (r : Except PFail α) (fr : Frame) (w : World) : Out :=
  match r with
  | .ok a => .val (.ok (g a)) fr w
  | .error (.err (.thrift e)) => .val (.err (.con [n! "ParquetError", n! "Thrift"] [V.thrift e])) fr w
  | .error f => .fail f w

/-- The variables of `read_page_index_for_column_chunk` -/
def columnFrame (chunk : Bytes) (off : BitVec 64) (cols : V) : Frame :=
  [[], [(n! "chunk", .base (.bytes chunk)), (n! "chunk_offset", .base (.usize off)), (n! "column_chunks", cols)]]

theorem column_closure {c : Val} {f : IndexFields} (h : indexFields c = some f) (chunk : Bytes) (off : BitVec 64) (cols : V) (fr : Frame) :
    applied (eval cfg (withCapacity cfg) libProg (n + 30) columnClosure ([(n! "cc", wrap (.named 54) c)] :: columnFrame chunk off cols) w) fr =
      outE pairV (readColumnIndex cfg chunk off.toNat f) fr w := by
  obtain ⟨vs, rfl, h1, h2, h3, h4⟩ := column_values h
  have hw : wrap (.named 54) (.struct vs) = .obj (.named 54) (.struct vs) := rfl
  unfold readColumnIndex
  rcases f with ⟨_ | oo, ol, co, cl⟩
  · pq_simp [columnFrame, columnClosure, hw, h1, h2, h3, h4, opt64]
    rfl
  rcases ol with _ | ol
  · pq_simp [columnFrame, columnClosure, hw, h1, h2, h3, h4, opt64, opt32]
    rfl
  dsimp only
  show _ = outE pairV (Except.bind _ _) fr w
  rcases relRange_cases cfg off oo ol with ⟨r1, r5⟩ | ⟨r1, r2, r5⟩ | ⟨r1, r2, r3, r4, r5⟩ | ⟨r1, r2, r3, r4, r5⟩ <;> rw [r5]
  · pq_simp [columnFrame, columnClosure, hw, h1, h2, h3, h4, opt64, opt32, BitVec.signExtend_eq, r1]
    rfl
  · pq_simp [columnFrame, columnClosure, hw, h1, h2, h3, h4, opt64, opt32, BitVec.signExtend_eq, r1, r2]
    rfl
  · pq_simp [columnFrame, columnClosure, hw, h1, h2, h3, h4, opt64, opt32, BitVec.signExtend_eq, r1, r2, r3, r4, Bool.and_false]
    rfl
  rcases co with _ | co
  · pq_simp [columnFrame, columnClosure, hw, h1, h2, h3, h4, opt64, opt32, BitVec.signExtend_eq, r1, r2, r3, r4, Bool.and_false]
    rfl
  rcases cl with _ | cl
  · pq_simp [columnFrame, columnClosure, hw, h1, h2, h3, h4, opt64, opt32, BitVec.signExtend_eq, r1, r2, r3, r4, Bool.and_false]
    rfl
  show _ = outE pairV (Except.bind (relRange cfg off.toNat co cl) _) fr w
  rcases relRange_cases cfg off co cl with ⟨c1, c5⟩ | ⟨c1, c2, c5⟩ | ⟨c1, c2, c3, c4, c5⟩ | ⟨c1, c2, c3, c4, c5⟩ <;> rw [c5]
  · pq_simp [columnFrame, columnClosure, hw, h1, h2, h3, h4, opt64, opt32, BitVec.signExtend_eq, r1, r2, r3, r4, Bool.and_false, c1]
    rfl
  · pq_simp [columnFrame, columnClosure, hw, h1, h2, h3, h4, opt64, opt32, BitVec.signExtend_eq, r1, r2, r3, r4, Bool.and_false, c1, c2]
    rfl
  · pq_simp [columnFrame, columnClosure, hw, h1, h2, h3, h4, opt64, opt32, BitVec.signExtend_eq, r1, r2, r3, r4, Bool.and_false, c1, c2, c3, c4]
    rfl
  show _ = outE pairV (Except.bind (sliceRange chunk ((oo - off).toNat, (oo - off + ol.signExtend 64).toNat)) _) fr w
  rcases sliceRange_cases chunk (oo - off).toNat (oo - off + ol.signExtend 64).toNat with ⟨s1, s2⟩ | ⟨ob, s1, s2⟩ <;> rw [s2]
  · pq_simp [columnFrame, columnClosure, hw, h1, h2, h3, h4, opt64, opt32, BitVec.signExtend_eq, r1, r2, r3, r4, Bool.and_false, c1, c2, c3, c4, s1]
    rfl
  show _ = outE pairV (Except.bind (readSlice cfg (.named 59) ob) _) fr w
  rcases hf : fillThrift cfg (sliceInput cfg) Format.parquetEnv (.named 59) (dflt Format.parquetEnv (.named 59)) ob with e | ⟨v, rest⟩
  · have hr : readSlice cfg (.named 59) ob = .error (.ofFail e) := by unfold readSlice readThrift; rw [hf]
    rw [hr]
    cases e <;> (pq_simp [columnFrame, columnClosure, hw, h1, h2, h3, h4, opt64, opt32, BitVec.signExtend_eq, r1, r2, r3, r4, Bool.and_false, c1, c2, c3, c4, s1, hf, pq_ParquetError_from_ThriftError]; rfl)
  have hr : readSlice cfg (.named 59) ob = .ok v := by unfold readSlice readThrift; rw [hf]
  rw [hr]
  show _ = outE pairV (Except.bind (sliceRange chunk ((co - off).toNat, (co - off + cl.signExtend 64).toNat)) _) fr w
  rcases sliceRange_cases chunk (co - off).toNat (co - off + cl.signExtend 64).toNat with ⟨t1, t2⟩ | ⟨cb, t1, t2⟩ <;> rw [t2]
  · pq_simp [columnFrame, columnClosure, hw, h1, h2, h3, h4, opt64, opt32, BitVec.signExtend_eq, r1, r2, r3, r4, Bool.and_false, c1, c2, c3, c4, s1, hf, t1]
    rfl
  show _ = outE pairV (Except.bind (readSlice cfg (.named 60) cb) _) fr w
  rcases hg : fillThrift cfg (sliceInput cfg) Format.parquetEnv (.named 60) (dflt Format.parquetEnv (.named 60)) cb with e | ⟨u, rest⟩
  · have hr : readSlice cfg (.named 60) cb = .error (.ofFail e) := by unfold readSlice readThrift; rw [hg]
    rw [hr]
    cases e <;> (pq_simp [columnFrame, columnClosure, hw, h1, h2, h3, h4, opt64, opt32, BitVec.signExtend_eq, r1, r2, r3, r4, Bool.and_false, c1, c2, c3, c4, s1, hf, t1, hg, pq_ParquetError_from_ThriftError]; rfl)
  have hr : readSlice cfg (.named 60) cb = .ok u := by unfold readSlice readThrift; rw [hg]
  rw [hr]
  pq_simp [columnFrame, columnClosure, hw, h1, h2, h3, h4, opt64, opt32, BitVec.signExtend_eq, r1, r2, r3, r4, Bool.and_false, c1, c2, c3, c4, s1, hf, t1, hg]
  rfl

theorem collect_loop {α β : Type} (g : α → V) (x : Name) (b : Expr) (fr' fr : Frame) (read : β → Except PFail α) (val : Val → V) (get : Val → Option β)
    (hround : ∀ c f, get c = some f → applied (eval cfg (withCapacity cfg) libProg n b ([(x, val c)] :: fr') w) fr = outE g (read f) fr w) :
    ∀ (cs : List Val) (fs : List β), cs.mapM get = some fs → ∀ acc,
    evCollect cfg (withCapacity cfg) libProg (eval cfg (withCapacity cfg) libProg n) (.lambda x b fr') (cs.map val) acc fr w =
      outE (fun rs => .vec (acc ++ rs.map g)) (fs.mapM read) fr w
  | [], fs, h, acc => by cases h; simp [evCollect, outE, List.mapM_nil, pure, Except.pure]
  | c :: cs, fs, h, acc => by
    rw [List.mapM_cons] at h
    cases hc : get c with
    | none => rw [hc] at h; cases h
    | some f =>
      cases hcs : cs.mapM get with
      | none => rw [hc, hcs] at h; cases h
      | some fs' =>
        rw [hc, hcs] at h
        cases h
        rw [List.map_cons, List.mapM_cons]
        show ((applied (eval cfg (withCapacity cfg) libProg n b ([(x, val c)] :: fr') w) fr).bind _) = outE _ (Except.bind (read f) _) fr w
        rw [hround c f hc]
        cases hr : read f with
        | ok r =>
          show evCollect _ _ _ _ _ _ (acc ++ [g r]) fr w = outE _ (Except.bind (fs'.mapM read) _) fr w
          rw [collect_loop g x b fr' fr read val get hround cs fs' hcs]
          cases fs'.mapM read with
          | ok rs => simp only [outE, Except.bind, pure, Except.pure, List.append_assoc, List.map_cons, List.cons_append, List.nil_append]
          | error e => rcases e with e | _ | _ | _ | _ | _ <;> try rfl
                       cases e <;> rfl
        | error e =>
          rcases e with e | _ | _ | _ | _ | _ <;> try rfl
          cases e <;> rfl

theorem run_columns (chunk : Bytes) (off : BitVec 64) {cols : List Val} {fs : List IndexFields} (h : cols.mapM indexFields = some fs) (fr : Frame) (es : List Expr)
    (hes : es = [.path [n! "chunk"], .path [n! "chunk_offset"], .ref false (.field (.path [n! "rg"]) (n! "columns"))]) :
    called es (runFn (eval cfg (withCapacity cfg) libProg (n + 35)) pq_read_page_index_for_column_chunk
        [.base (.bytes chunk), .base (.usize off), .vec (cols.map (wrap (.named 54)))] w) fr =
      outE groupV (fs.mapM (readColumnIndex cfg chunk off.toNat)) fr w := by
  have hl := collect_loop cfg (n + 33) w pairV (n! "cc") columnClosure (columnFrame chunk off (.vec (cols.map (wrap (.named 54))))) (columnFrame chunk off (.vec (cols.map (wrap (.named 54)))))
    (readColumnIndex cfg chunk off.toNat) (wrap (.named 54)) indexFields
    (fun c f hc => column_closure cfg (n + 3) w hc chunk off _ _) cols fs h []
  simp only [columnFrame, columnClosure] at hl
  subst hes
  unfold runFn
  pq_simp [pq_read_page_index_for_column_chunk, hl]
  cases fs.mapM (readColumnIndex cfg chunk off.toNat) with
  | ok rs => rfl
  | error e =>
    rcases e with e | _ | _ | _ | _ | _ <;> try rfl
    cases e <;> rfl

theorem group_closure {c : Val} {fs : List IndexFields} (h : rowGroupFields c = some fs) (chunk : Bytes) (off : BitVec 64) (md : V) (fr : Frame) :
    applied (eval cfg (withCapacity cfg) libProg (n + 40) groupClosure ([(n! "rg", wrap (.named 55) c)] ::
        [[], [(n! "chunk", .base (.bytes chunk)), (n! "chunk_offset", .base (.usize off)), (n! "file_metadata", md)]]) w) fr =
      outE groupV (fs.mapM (readColumnIndex cfg chunk off.toNat)) fr w := by
  obtain ⟨vs, cols, rfl, h1, h2⟩ := group_values h
  have hw : wrap (.named 55) (.struct vs) = .obj (.named 55) (.struct vs) := rfl
  have hr := fun fr => run_columns cfg (n + 3) w chunk off h2 fr _ rfl
  simp only [Nat.add_assoc, Nat.reduceAdd] at hr
  pq_simp [groupClosure, hw, h1, ↓hr]
  cases fs.mapM (readColumnIndex cfg chunk off.toNat) with
  | ok rs => rfl
  | error e =>
    rcases e with e | _ | _ | _ | _ | _ <;> try rfl
    cases e <;> rfl

theorem run_index (chunk : Bytes) (off : BitVec 64) {md : Val} {rgs : List (List IndexFields)} (h : metadataFields md = some rgs) :
    asFd (runFn (eval cfg (withCapacity cfg) libProg (n + 50)) pq_read_page_index [.base (.bytes chunk), .base (.usize off), .obj (.named 64) md] w) =
      (readPageIndex cfg chunk off.toNat md).map fun r => (.vec (r.map groupV), w.file) := by
  obtain ⟨vs, groups, rfl, h1, h2⟩ := metadata_values h
  unfold readPageIndex
  rw [h]
  have hl := collect_loop cfg (n + 48) w groupV (n! "rg") groupClosure
    [[], [(n! "chunk", .base (.bytes chunk)), (n! "chunk_offset", .base (.usize off)), (n! "file_metadata", .obj (.named 64) (.struct vs))]]
    [[], [(n! "chunk", .base (.bytes chunk)), (n! "chunk_offset", .base (.usize off)), (n! "file_metadata", .obj (.named 64) (.struct vs))]]
    (fun fs => fs.mapM (readColumnIndex cfg chunk off.toNat)) (wrap (.named 55)) rowGroupFields
    (fun c f hc => group_closure cfg (n + 8) w hc chunk off _ _) groups rgs h2 []
  simp only [groupClosure] at hl
  unfold runFn
  pq_simp [pq_read_page_index, h1, hl]
  cases rgs.mapM (fun fs => fs.mapM (readColumnIndex cfg chunk off.toNat)) with
  | ok rs => rfl
  | error e =>
    rcases e with e | _ | _ | _ | _ | _ <;> try rfl
    cases e <;> rfl
end

end CT.Pq
