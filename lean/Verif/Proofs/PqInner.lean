import Verif.Proofs.PqField
import Verif.Proofs.Refused
import Verif.Props.SchemaAlloc
/-!
# `convert_schema_inner`, run
-/
namespace CT.Pq
open CT CT.Parquet CT.Schema
open CT.Spec (granted withMemory withMemory_nil withMemory_cons_ok withMemory_cons_error withMemory_loop withMemory_all)
open CT.Rs (Name ITy BinOp)

/-- The values are the elements. -/
inductive Elements : List V → List Element → Prop
  | nil : Elements [] []
  | cons {v : V} {e : Element} {lt : Option Val} {vs : List V} {es : List Element} (h : IsElement v e lt) (hs : Elements vs es) : Elements (v :: vs) (e :: es)

theorem Elements.length {vs : List V} {es : List Element} (h : Elements vs es) : vs.length = es.length := by
  induction h with
  | nil => rfl
  | cons _ _ ih => simp [ih]

/-- schema.rs:555-557 -/
@[reducible] def rootRepetition : Expr := .method (.field (.path [(n! "root_element")]) (n! "repetition_type")) (n! "unwrap_or") [.path [(n! "FieldRepetitionType"), (n! "REQUIRED")]]
/-- schema.rs:559 -/
@[reducible] def defExpr : Expr := .bin .add (.path [(n! "def_level")]) (.cast (.bin .eq (.path [(n! "repetition_type")]) (.path [(n! "FieldRepetitionType"), (n! "OPTIONAL")])) (some .u8))
/-- schema.rs:560 -/
@[reducible] def repExpr : Expr := .bin .add (.path [(n! "rep_level")]) (.cast (.bin .eq (.path [(n! "repetition_type")]) (.path [(n! "FieldRepetitionType"), (n! "REPEATED")])) (some .u8))
/-- schema.rs:577 -/
@[reducible] def childrenExpr : Expr := .cast (.method (.field (.path [(n! "root_element")]) (n! "num_children")) (n! "unwrap_or") [.lit 0 none]) (some .usize)
/-- schema.rs:580 -/
@[reducible] def childCond : Expr := .bin .lt (.path [(n! "i")]) (.path [(n! "num_children")])
/-- schema.rs:580-586 -/
@[reducible] def childBody : Expr := .block [.bind (.tuple [.name (n! "child_field"), .name (n! "remainder")]) (.try (.call [(n! "convert_schema_inner")] [.path [(n! "remainder_elements")], .path [(n! "index")], .path [(n! "def_level")], .path [(n! "rep_level")], .path [(n! "nesting")]])), .semi (.assign (.path [(n! "remainder_elements")]) (.path [(n! "remainder")])), .semi (.method (.path [(n! "children")]) (n! "push") [.path [(n! "child_field")]]), .semi (.assignOp .add (.path [(n! "i")]) (.lit 1 none))]

/-- The parameters. -/
@[reducible] def innerParams (elements : V) (ix : BitVec 64) (dl rl nest : BitVec 8) : Scope :=
  [(n! "elements", elements), (n! "index", .ref (.base (.usize ix))), (n! "def_level", .base (.u8 dl)), (n! "rep_level", .base (.u8 rl)), (n! "nesting", .base (.u8 nest))]

section
variable (cfg : Cfg) (cap : Nat → Except PFail Unit)

theorem run_rootRepetition {v : V} {e : Element} {lt : Option Val} (h : IsElement v e lt) (rest : V) (ps : Scope) (n : Nat) (w : World) :
    eval cfg cap schemaProg (n + 20) rootRepetition [[(n! "remainder_elements", rest), (n! "root_element", v)], ps] w =
      .val (.con [n! "FieldRepetitionType"] [.base (.i32 (e.repetitionType.getD 0))]) [[(n! "remainder_elements", rest), (n! "root_element", v)], ps] w := by
  have hf := h.repetitionType
  rcases hr : e.repetitionType with _ | t
  · rw [hr] at hf; simp only [optV] at hf
    pq_simp [↓hf]
    rfl
  · rw [hr] at hf; simp only [optV, enumV] at hf
    pq_simp [↓hf]
    rfl

theorem of_addU8 (a b : BitVec 8) (fr : Frame) (w : World) :
    Out.of (binV cfg .add (.base (.u8 a)) (.base (.u8 b))) fr w = match addU8 cfg a b with
      | .ok c => .val (.base (.u8 c)) fr w
      | .error x => .fail x w := by
  unfold addU8
  show Out.of (Except.map V.base (if cfg.overflowChecks && decide (2 ^ 8 ≤ a.toNat + b.toNat) then .error .panic else .ok (.u8 (a + b)))) fr w = _
  cases cfg.overflowChecks && decide (2 ^ 8 ≤ a.toNat + b.toNat) <;> rfl

theorem run_defExpr (t : BitVec 32) (rest v : V) (el : V) (ix : BitVec 64) (dl rl nest : BitVec 8) (n : Nat) (w : World) :
    eval cfg cap schemaProg (n + 20) defExpr [[(n! "repetition_type", .con [n! "FieldRepetitionType"] [.base (.i32 t)]), (n! "remainder_elements", rest), (n! "root_element", v)], innerParams el ix dl rl nest] w =
      match addU8 cfg dl (if t = 1 then 1 else 0) with
      | .ok c => .val (.base (.u8 c)) [[(n! "repetition_type", .con [n! "FieldRepetitionType"] [.base (.i32 t)]), (n! "remainder_elements", rest), (n! "root_element", v)], innerParams el ix dl rl nest] w
      | .error x => .fail x w := by
  have ha := fun b => of_addU8 cfg dl b
  by_cases ht : t = 1#32
  · subst ht
    pq_simp [↓ha, beq_self_eq_true]
    rfl
  · have ht' : (t == 1#32) = false := beq_false_of_ne ht
    pq_simp [↓ha, ht']
    rw [if_neg (show ¬ t = 1 from ht)]
    rfl

theorem run_repExpr (t : BitVec 32) (rest v : V) (el : V) (ix : BitVec 64) (d dl rl nest : BitVec 8) (n : Nat) (w : World) :
    eval cfg cap schemaProg (n + 20) repExpr [[(n! "def_level", .base (.u8 d)), (n! "repetition_type", .con [n! "FieldRepetitionType"] [.base (.i32 t)]), (n! "remainder_elements", rest), (n! "root_element", v)], innerParams el ix dl rl nest] w =
      match addU8 cfg rl (if t = 2 then 1 else 0) with
      | .ok c => .val (.base (.u8 c)) [[(n! "def_level", .base (.u8 d)), (n! "repetition_type", .con [n! "FieldRepetitionType"] [.base (.i32 t)]), (n! "remainder_elements", rest), (n! "root_element", v)], innerParams el ix dl rl nest] w
      | .error x => .fail x w := by
  have ha := fun b => of_addU8 cfg rl b
  by_cases ht : t = 2#32
  · subst ht
    pq_simp [↓ha, beq_self_eq_true]
    rfl
  · have ht' : (t == 2#32) = false := beq_false_of_ne ht
    pq_simp [↓ha, ht']
    rw [if_neg (show ¬ t = 2 from ht)]
    rfl

/-- The scopes in the loop over the children. -/
@[reducible] def loopFrame (v el cur : V) (t : BitVec 32) (d0 r0 n0 d r nest : BitVec 8) (count : BitVec 64) (k : Nat) (cs vs : List V) (ix : BitVec 64) : Frame :=
  [[(n! "i", .base (.lit k)), (n! "num_children", .base (.usize count)), (n! "nesting", .base (.u8 nest))],
   [(n! "children", .ref (.vec cs))],
   [(n! "current", cur), (n! "rep_level", .base (.u8 r)), (n! "def_level", .base (.u8 d)), (n! "repetition_type", .con [n! "FieldRepetitionType"] [.base (.i32 t)]), (n! "remainder_elements", .vec vs), (n! "root_element", v)],
   innerParams el ix d0 r0 n0]

/-- The arguments of `convert_schema_inner`. -/
@[reducible] def innerArgs (el : V) (ix : BitVec 64) (dl rl nest : BitVec 8) : List V := [el, .ref (.base (.usize ix)), .base (.u8 dl), .base (.u8 rl), .base (.u8 nest)]

section
variable {v el cur : V} {t : BitVec 32} {d0 r0 n0 d r nest : BitVec 8} {count : BitVec 64} {k : Nat} {cs vs : List V} {ix : BitVec 64}

theorem run_childCond (n : Nat) (w : World) (hk : k ≤ count.toNat) :
    eval cfg cap schemaProg (n + 10) childCond (loopFrame v el cur t d0 r0 n0 d r nest count k cs vs ix) w =
      .val (.base (.bool (decide (k < count.toNat)))) (loopFrame v el cur t d0 r0 n0 d r nest count k cs vs ix) w := by
  have hk' : k % 2 ^ 64 = k := Nat.mod_eq_of_lt (by omega)
  pq_simp [BitVec.toNat_ofNat, hk']

theorem run_childBody_ok {F : Nat} {f : V} {vs' : List V} {j : BitVec 64} {caps : List Nat}
    (hc : ∀ N w, F ≤ N → runFn (eval cfg cap schemaProg N) pq_convert_schema_inner (innerArgs (.vec vs) ix d r nest) w =
      .ret (.ok (.tuple [f, .vec vs'])) (innerArgs (.vec vs) j d r nest) { w with caps := w.caps ++ caps })
    (n : Nat) (hn : F ≤ n) (w : World) :
    eval cfg cap schemaProg (n + 40) childBody (loopFrame v el cur t d0 r0 n0 d r nest count k cs vs ix) w =
      .val .unit (loopFrame v el cur t d0 r0 n0 d r nest count (k + 1) (cs ++ [f]) vs' j) { w with caps := w.caps ++ caps } := by
  have hN : ∀ i, F ≤ n + i := fun i => by omega
  pq_simp [↓hc, hN]

theorem run_childBody_err {F : Nat} {q : Name} {us : List V} {j : BitVec 64} {caps : List Nat}
    (hc : ∀ N w, F ≤ N → runFn (eval cfg cap schemaProg N) pq_convert_schema_inner (innerArgs (.vec vs) ix d r nest) w =
      .ret (.err (.con [n! "ParquetError", q] us)) (innerArgs (.vec vs) j d r nest) { w with caps := w.caps ++ caps })
    (n : Nat) (hn : F ≤ n) (w : World) :
    eval cfg cap schemaProg (n + 40) childBody (loopFrame v el cur t d0 r0 n0 d r nest count k cs vs ix) w =
      .ret (.err (.con [n! "ParquetError", q] us)) (loopFrame v el cur t d0 r0 n0 d r nest count k cs vs j) { w with caps := w.caps ++ caps } := by
  have hN : ∀ i, F ≤ n + i := fun i => by omega
  pq_simp [↓hc, hN]

theorem run_childBody_fail {F : Nat} {x : PFail} {caps : List Nat}
    (hc : ∀ N w, F ≤ N → runFn (eval cfg cap schemaProg N) pq_convert_schema_inner (innerArgs (.vec vs) ix d r nest) w =
      .fail x { w with caps := w.caps ++ caps })
    (n : Nat) (hn : F ≤ n) (w : World) :
    eval cfg cap schemaProg (n + 40) childBody (loopFrame v el cur t d0 r0 n0 d r nest count k cs vs ix) w =
      .fail x { w with caps := w.caps ++ caps } := by
  have hN : ∀ i, F ≤ n + i := fun i => by omega
  pq_simp [↓hc, hN]

/-- What a run of `convert_schema_inner` gives, from `F` levels on. -/
def InnerRun (F : Nat) (vs : List V) (es : List Element) (ix : BitVec 64) (d r nest : BitVec 8) (o : List Nat × Except PFail (SField × List Element × Nat)) : Prop :=
  match o with
  | (caps, .ok (f, es', i)) => ∃ vs', Elements vs' es' ∧ (i + es'.length ≤ ix.toNat + es.length ∧ es'.length ≤ es.length) ∧ (∀ k ∈ caps, cap k = .ok ()) ∧ ∀ N w, F ≤ N →
      runFn (eval cfg cap schemaProg N) pq_convert_schema_inner (innerArgs (.vec vs) ix d r nest) w =
        .ret (.ok (.tuple [fieldV f, .vec vs'])) (innerArgs (.vec vs) (BitVec.ofNat 64 i) d r nest) { w with caps := w.caps ++ caps }
  | (caps, .error x) =>
    (∃ q us j, x = errorOf (.con [n! "ParquetError", q] us) ∧ (∀ k ∈ caps, cap k = .ok ()) ∧ ∀ N w, F ≤ N →
      runFn (eval cfg cap schemaProg N) pq_convert_schema_inner (innerArgs (.vec vs) ix d r nest) w =
        .ret (.err (.con [n! "ParquetError", q] us)) (innerArgs (.vec vs) j d r nest) { w with caps := w.caps ++ caps }) ∨
    (x = .panic ∨ ∃ k ∈ caps, cap k = .error x) ∧ ∀ N w, F ≤ N → runFn (eval cfg cap schemaProg N) pq_convert_schema_inner (innerArgs (.vec vs) ix d r nest) w = .fail x { w with caps := w.caps ++ caps }

/-- What the loop gives. -/
def LoopRun (F : Nat) (v el cur : V) (t : BitVec 32) (d0 r0 n0 d r nest : BitVec 8) (count : BitVec 64) (k : Nat) (cs vs : List V) (es : List Element) (ix : BitVec 64)
    (o : List Nat × Except PFail (List SField × List Element × Nat)) : Prop :=
  match o with
  | (caps, .ok (fs, es', i)) => ∃ vs', Elements vs' es' ∧ (i + es'.length ≤ ix.toNat + es.length ∧ es'.length ≤ es.length) ∧ (∀ k ∈ caps, cap k = .ok ()) ∧ ∀ N w, F ≤ N →
      eval cfg cap schemaProg N (.while childCond childBody) (loopFrame v el cur t d0 r0 n0 d r nest count k cs vs ix) w =
        .val .unit (loopFrame v el cur t d0 r0 n0 d r nest count count.toNat (cs ++ fieldVs fs) vs' (BitVec.ofNat 64 i)) { w with caps := w.caps ++ caps }
  | (caps, .error x) =>
    (∃ q us k' cs' vs' j, x = errorOf (.con [n! "ParquetError", q] us) ∧ (∀ k ∈ caps, cap k = .ok ()) ∧ ∀ N w, F ≤ N →
      eval cfg cap schemaProg N (.while childCond childBody) (loopFrame v el cur t d0 r0 n0 d r nest count k cs vs ix) w =
        .ret (.err (.con [n! "ParquetError", q] us)) (loopFrame v el cur t d0 r0 n0 d r nest count k' cs' vs' j) { w with caps := w.caps ++ caps }) ∨
    (x = .panic ∨ ∃ k ∈ caps, cap k = .error x) ∧ ∀ N w, F ≤ N → eval cfg cap schemaProg N (.while childCond childBody) (loopFrame v el cur t d0 r0 n0 d r nest count k cs vs ix) w = .fail x { w with caps := w.caps ++ caps }

theorem run_loop {F L : Nat} {d r nest : BitVec 8} {rec : List Element → Nat → List Nat × Except PFail (SField × List Element × Nat)}
    (ih : ∀ vs es ix, Elements vs es → es.length ≤ L → ix.toNat + es.length < 2 ^ 64 → InnerRun cfg cap F vs es ix d r nest (rec es ix.toNat))
    (v el cur : V) (t : BitVec 32) (d0 r0 n0 : BitVec 8) (count : BitVec 64) :
    ∀ (m k : Nat) (cs vs : List V) (es : List Element) (ix : BitVec 64), k + m = count.toNat → Elements vs es → es.length ≤ L → ix.toNat + es.length < 2 ^ 64 →
      LoopRun cfg cap (F + 50 + m) v el cur t d0 r0 n0 d r nest count k cs vs es ix (childLoopCap rec m es ix.toNat)
  | 0, k, cs, vs, es, ix, hk, hes, hL, hix => by
    refine ⟨vs, hes, ⟨Nat.le_refl _, Nat.le_refl _⟩, nofun, fun N w hN => ?_⟩
    obtain ⟨n, rfl⟩ : ∃ n, N = n + 11 := ⟨N - 11, by omega⟩
    rw [show n + 11 = (n + 10) + 1 from rfl, eval_while, run_childCond cfg cap n w (by omega)]
    have : ¬ k < count.toNat := by omega
    rw [decide_eq_false this]
    have hk : k = count.toNat := by omega
    subst hk
    simp only [Out.bind, whileAt, evWhile, fieldVs, List.append_nil, BitVec.ofNat_toNat, BitVec.setWidth_eq]
  | m + 1, k, cs, vs, es, ix, hk, hes, hL, hix => by
    have h := ih vs es ix hes hL hix
    have hlt : k < count.toNat := by omega
    have step : ∀ n w, eval cfg cap schemaProg (n + 41) (.while childCond childBody) (loopFrame v el cur t d0 r0 n0 d r nest count k cs vs ix) w =
        (eval cfg cap schemaProg (n + 40) childBody (loopFrame v el cur t d0 r0 n0 d r nest count k cs vs ix) w).bind fun _ fr w => eval cfg cap schemaProg (n + 40) (.while childCond childBody) fr w := by
      intro n w
      rw [show n + 41 = (n + 40) + 1 from rfl, eval_while, show n + 40 = (n + 30) + 10 from rfl, run_childCond cfg cap (n + 30) w (by omega), decide_eq_true hlt]
      rfl
    rw [childLoopCap]
    rcases hr : rec es ix.toNat with ⟨caps, x | ⟨f, es', i⟩⟩
    · rw [hr] at h
      rcases h with ⟨q, us, j, hx, hg, h⟩ | ⟨hx, h⟩
      · refine .inl ⟨q, us, k, cs, vs, j, hx, hg, fun N w hN => ?_⟩
        obtain ⟨n, rfl⟩ : ∃ n, N = n + 41 := ⟨N - 41, by omega⟩
        rw [step, run_childBody_err cfg cap h n (by omega)]
        rfl
      · refine .inr ⟨hx, fun N w hN => ?_⟩
        obtain ⟨n, rfl⟩ : ∃ n, N = n + 41 := ⟨N - 41, by omega⟩
        rw [step, run_childBody_fail cfg cap h n (by omega)]
        rfl
    · rw [hr] at h
      obtain ⟨vs', hes', hb, hg, h⟩ := h
      have hi : (BitVec.ofNat 64 i).toNat = i := by rw [BitVec.toNat_ofNat]; exact Nat.mod_eq_of_lt (by omega)
      have hrest := run_loop ih v el cur t d0 r0 n0 count m (k + 1) (cs ++ [fieldV f]) vs' es' (BitVec.ofNat 64 i) (by omega) hes' (by omega) (by rw [hi]; omega)
      rw [hi] at hrest
      have hgo : ∀ n w, F ≤ n → eval cfg cap schemaProg (n + 41) (.while childCond childBody) (loopFrame v el cur t d0 r0 n0 d r nest count k cs vs ix) w =
          eval cfg cap schemaProg (n + 40) (.while childCond childBody) (loopFrame v el cur t d0 r0 n0 d r nest count (k + 1) (cs ++ [fieldV f]) vs' (BitVec.ofNat 64 i)) { w with caps := w.caps ++ caps } := by
        intro n w hn
        rw [step, run_childBody_ok cfg cap h n hn]
        rfl
      dsimp only
      rcases hc : childLoopCap rec m es' i with ⟨caps', x | ⟨fs, es'', i'⟩⟩
      · rw [hc] at hrest
        rcases hrest with ⟨q, us, k', cs', vs', j, hx, hg', hrest⟩ | ⟨hx, hrest⟩
        · refine .inl ⟨q, us, k', cs', vs', j, hx, fun k hk => (List.mem_append.1 hk).elim (hg k) (hg' k), fun N w hN => ?_⟩
          obtain ⟨n, rfl⟩ : ∃ n, N = n + 41 := ⟨N - 41, by omega⟩
          rw [hgo n w (by omega), hrest _ _ (by omega)]
          simp only [List.append_assoc]
        · refine .inr ⟨hx.imp_right fun ⟨k, hk, h⟩ => ⟨k, List.mem_append_right _ hk, h⟩, fun N w hN => ?_⟩
          obtain ⟨n, rfl⟩ : ∃ n, N = n + 41 := ⟨N - 41, by omega⟩
          rw [hgo n w (by omega), hrest _ _ (by omega)]
          simp only [List.append_assoc]
      · rw [hc] at hrest
        obtain ⟨vs'', hes'', hb', hg', hrest⟩ := hrest
        refine ⟨vs'', hes'', by rw [hi] at hb'; omega, fun k hk => (List.mem_append.1 hk).elim (hg k) (hg' k), fun N w hN => ?_⟩
        obtain ⟨n, rfl⟩ : ∃ n, N = n + 41 := ⟨N - 41, by omega⟩
        rw [hgo n w (by omega), hrest _ _ (by omega)]
        simp only [List.append_assoc, fieldVs, List.cons_append, List.nil_append]

theorem fieldFromElement_group {e : Element} {i j : Nat} {dl rl : BitVec 8} {rem : Nat} {c : Common} {ch : List SField} {l : Option GroupLogicalType}
    (h : fieldFromElement e i dl rl rem = .ok (.group c ch l, j)) : ch = [] ∧ j = i ∧ asUsize32 (e.numChildren.getD 0) ≤ rem := by
  unfold fieldFromElement at h
  cases hr : Repetition.ofElement e.repetitionType with
  | error x => rw [hr] at h; cases h
  | ok r =>
    rw [hr] at h
    by_cases h0 : e.numChildren.getD 0 = 0
    · simp only [bind, Except.bind, h0, if_true, pure, Except.pure] at h
      cases ho : e.type_ with
      | none => simp only [ho] at h; cases h
      | some t =>
        simp only [ho] at h
        cases ht : PhysicalType.tryFrom t e.typeLength with
        | error x => simp only [ht] at h; cases h
        | ok p => simp only [ht] at h; cases h
    · simp only [bind, Except.bind, h0, if_false, pure, Except.pure] at h
      split at h
      · cases h
      · rename_i hc
        simp only [Bool.or_eq_true, decide_eq_true_eq, not_or, Nat.not_lt] at hc
        cases h
        exact ⟨rfl, rfl, hc.2⟩

theorem fieldFromElement_primitive {e : Element} {i j : Nat} {dl rl : BitVec 8} {rem : Nat} {c : Common} {p : PhysicalType} {l : Option PrimitiveLogicalType} {k : BitVec 32}
    (h : fieldFromElement e i dl rl rem = .ok (.primitive c p l k, j)) : j = i + 1 := by
  unfold fieldFromElement at h
  cases hr : Repetition.ofElement e.repetitionType with
  | error x => rw [hr] at h; cases h
  | ok r =>
    rw [hr] at h
    by_cases h0 : e.numChildren.getD 0 = 0
    · simp only [bind, Except.bind, h0, if_true, pure, Except.pure] at h
      cases ho : e.type_ with
      | none => simp only [ho] at h; cases h
      | some t =>
        simp only [ho] at h
        cases ht : PhysicalType.tryFrom t e.typeLength with
        | error x => simp only [ht] at h; cases h
        | ok p => simp only [ht] at h; cases h; rfl
    · simp only [bind, Except.bind, h0, if_false, pure, Except.pure] at h
      split at h <;> cases h

theorem run_childrenExpr {v : V} {e : Element} {lt : Option Val} (h : IsElement v e lt) (el cur : V) (cs : List V) (t : BitVec 32) (d0 r0 n0 d r nest : BitVec 8) (vs : List V) (ix : BitVec 64) (n : Nat) (w : World) :
    eval cfg cap schemaProg (n + 20) childrenExpr [[(n! "nesting", .base (.u8 nest))], [(n! "children", .ref (.vec cs))],
   [(n! "current", cur), (n! "rep_level", .base (.u8 r)), (n! "def_level", .base (.u8 d)), (n! "repetition_type", .con [n! "FieldRepetitionType"] [.base (.i32 t)]), (n! "remainder_elements", .vec vs), (n! "root_element", v)],
   innerParams el ix d0 r0 n0] w = .val (.base (.usize (BitVec.ofNat 64 (asUsize32 (e.numChildren.getD 0))))) [[(n! "nesting", .base (.u8 nest))], [(n! "children", .ref (.vec cs))],
   [(n! "current", cur), (n! "rep_level", .base (.u8 r)), (n! "def_level", .base (.u8 d)), (n! "repetition_type", .con [n! "FieldRepetitionType"] [.base (.i32 t)]), (n! "remainder_elements", .vec vs), (n! "root_element", v)],
   innerParams el ix d0 r0 n0] w := by
  have hf := h.numChildren
  rcases hr : e.numChildren with _ | x
  · rw [hr] at hf; simp only [optV] at hf
    pq_simp [↓hf]
    rfl
  · rw [hr] at hf; simp only [optV, i32V] at hf
    pq_simp [↓hf]
    simp [asUsize32]

theorem addU8_panic {cfg : Cfg} {a b : BitVec 8} {x : PFail} (h : addU8 cfg a b = .error x) : x = .panic := by
  unfold addU8 at h
  split at h <;> cases h
  rfl

/-- What is left of `convert_schema_inner` once there is a group. -/
def groupCap (cfg : Cfg) (depth : Nat) (root : Element) (remainder : List Element) (index : Nat) (defLevel repLevel nesting : BitVec 8) (common : Common) (logicalType : Option GroupLogicalType) :
    List Nat × Except PFail (SField × List Element × Nat) :=
  match addU8 cfg nesting 1 with
  | .error x => ([asUsize32 (root.numChildren.getD 0)], .error x)
  | .ok nesting =>
    if 128 ≤ nesting.toNat then ([asUsize32 (root.numChildren.getD 0)], schemaErr "Schema is too deeply nested")
    else
      match childLoopCap (fun es index => convertInnerCap cfg depth es index defLevel repLevel nesting) (asUsize32 (root.numChildren.getD 0)) remainder index with
      | (caps, .error x) => (asUsize32 (root.numChildren.getD 0) :: caps, .error x)
      | (caps, .ok (children, remainder, index)) => (asUsize32 (root.numChildren.getD 0) :: caps, .ok (.group common children logicalType, remainder, index))

theorem withMemory_group {cap : Nat → Except PFail Unit} {k : Nat} (hk : cap k = .ok ()) {o : List Nat × Except PFail (List SField × List Element × Nat)} {g : List SField → SField} :
    withMemory cap (match o with
      | (caps, .error x) => (k :: caps, .error x)
      | (caps, .ok (children, remainder, index)) => (k :: caps, .ok (g children, remainder, index))) =
    match withMemory cap o with
      | (caps, .error x) => (k :: caps, .error x)
      | (caps, .ok (children, remainder, index)) => (k :: caps, .ok (g children, remainder, index)) := by
  rcases o with ⟨caps, x | ⟨fs, es, i⟩⟩
  · dsimp only
    rw [withMemory_cons_ok hk]
    cases h : (granted cap caps).2 <;> simp only [withMemory, h]
  · dsimp only
    rw [withMemory_cons_ok hk]
    cases h : (granted cap caps).2 <;> simp only [withMemory, h]

set_option maxHeartbeats 4000000 in
theorem run_inner (L : Nat) : ∀ (depth : Nat) (vs : List V) (es : List Element) (ix : BitVec 64) (d r nest : BitVec 8),
    Elements vs es → es.length ≤ L → ix.toNat + es.length < 2 ^ 64 → nest.toNat ≤ 127 → 128 ≤ nest.toNat + depth →
    InnerRun cfg cap (depth * (L + 150)) vs es ix d r nest (withMemory cap (convertInnerCap cfg depth es ix.toNat d r nest))
  | 0, _, _, _, _, _, _, _, _, _, _, _ => by omega
  | depth + 1, vs, es, ix, d, r, nest, hes, hL, hix, hnest, hdep => by
    rw [Nat.succ_mul]
    cases hes with
    | nil =>
      change InnerRun cfg cap _ _ _ _ _ _ _ (([] : List Nat), schemaErr "Missing schema elements")
      refine .inl ⟨n! "Schema", [.str (n! "Missing schema elements")], ix, rfl, nofun, fun N w hN => ?_⟩
      obtain ⟨n, rfl⟩ : ∃ n, N = n + 100 := ⟨N - 100, by omega⟩
      conv => lhs; unfold runFn
      pq_simp [pq_convert_schema_inner]
      rfl
    | @cons v e lt vs es h hes =>
      rw [List.length_cons] at hL hix
      rw [convertInnerCap]
      dsimp only
      have hrt := fun rest ps n w => run_rootRepetition cfg cap h rest ps n w
      have hp := h.plain
      have hi0 : indexV (.vec (v :: vs)) (.base (.lit 0)) = .ok v := rfl
      have hi1 : indexV (.vec (v :: vs)) (.range (some (.base (.lit 1))) none) = .ok (.vec vs) := by simp [indexV, slicedAt, posOf, Except.map]
      have hempty : (v :: vs).isEmpty = false := rfl
      cases ha : addU8 cfg d (if e.repetitionType.getD 0 = 1 then 1 else 0) with
      | error x =>
        have hde := fun rest v el ix rl nest n w => run_defExpr cfg cap (e.repetitionType.getD 0) rest v el ix d rl nest n w
        simp only [ha] at hde
        change InnerRun cfg cap _ _ _ _ _ _ _ (([] : List Nat), .error x)
        refine .inr ⟨.inl (addU8_panic ha), fun N w hN => ?_⟩
        obtain ⟨n, rfl⟩ : ∃ n, N = n + 100 := ⟨N - 100, by omega⟩
        conv => lhs; unfold runFn
        pq_simp [pq_convert_schema_inner, ↓hi0, ↓hi1, ↓hrt, ↓hde, hempty, List.append_nil]
      | ok d' =>
        have hde := fun rest v el ix rl nest n w => run_defExpr cfg cap (e.repetitionType.getD 0) rest v el ix d rl nest n w
        simp only [ha] at hde
        dsimp only
        cases hb : addU8 cfg r (if e.repetitionType.getD 0 = 2 then 1 else 0) with
        | error x =>
          have hre := fun rest v el ix d dl nest n w => run_repExpr cfg cap (e.repetitionType.getD 0) rest v el ix d dl r nest n w
          simp only [hb] at hre
          change InnerRun cfg cap _ _ _ _ _ _ _ (([] : List Nat), .error x)
          refine .inr ⟨.inl (addU8_panic hb), fun N w hN => ?_⟩
          obtain ⟨n, rfl⟩ : ∃ n, N = n + 100 := ⟨N - 100, by omega⟩
          conv => lhs; unfold runFn
          pq_simp [pq_convert_schema_inner, ↓hi0, ↓hi1, ↓hrt, ↓hde, ↓hre, hempty, List.append_nil]
        | ok r' =>
          have hre := fun rest v el ix d dl nest n w => run_repExpr cfg cap (e.repetitionType.getD 0) rest v el ix d dl r nest n w
          simp only [hb] at hre
          dsimp only
          have hlen : (BitVec.ofNat 64 vs.length).toNat = es.length := by rw [hes.length, BitVec.toNat_ofNat]; exact Nat.mod_eq_of_lt (by omega)
          rcases run_field cfg cap h ix (BitVec.ofNat 64 vs.length) d' r' (by omega) with ⟨f, i, hm, hg, hf⟩ | ⟨q, us, hm, hf⟩ | ⟨c, l, i, x, hm, hx, hf⟩
          · rw [hlen] at hm
            rw [hm]
            cases f with
            | primitive c p l k =>
              have hi := fieldFromElement_primitive hm
              subst hi
              dsimp only
              rw [withMemory_nil]
              refine ⟨vs, hes, ⟨by simp only [List.length_cons]; omega, by simp only [List.length_cons]; omega⟩, nofun, fun N w hN => ?_⟩
              obtain ⟨n, rfl⟩ : ∃ n, N = n + 100 := ⟨N - 100, by omega⟩
              conv => lhs; unfold runFn
              simp only [fieldCaps, List.append_nil, fieldV] at hf ⊢
              pq_simp [pq_convert_schema_inner, ↓hi0, ↓hi1, ↓hrt, ↓hde, ↓hre, ↓hf, ↓hp, hempty, List.append_nil]
            | group c ch l =>
              obtain ⟨rfl, rfl, hle⟩ := fieldFromElement_group hm
              have hg : cap (asUsize32 (e.numChildren.getD 0)) = .ok () := hg _ List.mem_cons_self
              have hadd : addU8 cfg nest 1 = .ok (nest + 1) := by
                unfold addU8
                rw [show decide (256 ≤ nest.toNat + BitVec.toNat (1 : BitVec 8)) = false from decide_eq_false (by simp; omega), Bool.and_false]
                rfl
              have hn1 : (nest + 1).toNat = nest.toNat + 1 := by rw [BitVec.toNat_add]; exact Nat.mod_eq_of_lt (by simp; omega)
              have hnadd : ∀ fr w, Out.of (binV cfg .add (.base (.u8 nest)) (.base (.lit 1))) fr w = .val (.base (.u8 (nest + 1))) fr w := by
                intro fr w
                have := of_addU8 cfg nest 1 fr w
                rw [hadd] at this
                exact this
              have hge : ∀ fr w, Out.of (binV cfg .ge (.base (.u8 (nest + 1))) (.base (.lit 128))) fr w = .val (.base (.bool (decide (128 ≤ nest.toNat + 1)))) fr w := by
                intro fr w
                show Out.val (.base (.bool (decide (128 ≤ (nest + 1).toNat)))) fr w = _
                rw [hn1]
              rw [hadd]
              dsimp only
              rw [hn1]
              simp only [fieldCaps, fieldV, fieldVs, BitVec.ofNat_toNat, BitVec.setWidth_eq] at hf
              by_cases hdeep : 128 ≤ nest.toNat + 1
              · rw [decide_eq_true hdeep] at hge
                rw [if_pos hdeep, withMemory_cons_ok hg, withMemory_nil]
                refine .inl ⟨n! "Schema", [.str (n! "Schema is too deeply nested")], ix, rfl, fun k hk => List.mem_singleton.1 hk ▸ hg, fun N w hN => ?_⟩
                obtain ⟨n, rfl⟩ : ∃ n, N = n + 100 := ⟨N - 100, by omega⟩
                conv => lhs; unfold runFn
                pq_simp [pq_convert_schema_inner, ↓hi0, ↓hi1, ↓hrt, ↓hde, ↓hre, ↓hf, ↓hp, ↓hnadd, ↓hge, hempty, beq_self_eq_true, List.append_nil]
              · rw [decide_eq_false hdeep] at hge
                rw [if_neg hdeep]
                have hcount : (BitVec.ofNat 64 (asUsize32 (e.numChildren.getD 0))).toNat = asUsize32 (e.numChildren.getD 0) := by
                  rw [BitVec.toNat_ofNat]; exact Nat.mod_eq_of_lt (by omega)
                have hnc := fun el cur cs t d0 r0 n0 d r nest vs ix n w => run_childrenExpr cfg cap h el cur cs t d0 r0 n0 d r nest vs ix n w
                have hloop := run_loop cfg cap (F := depth * (L + 150)) (L := L) (d := d') (r := r') (nest := nest + 1) (rec := fun es index => withMemory cap (convertInnerCap cfg depth es index d' r' (nest + 1)))
                  (fun vs es ix h1 h2 h3 => run_inner L depth vs es ix d' r' (nest + 1) h1 h2 h3 (by omega) (by omega))
                  v (.vec (v :: vs)) (fieldV (.group c [] l)) (e.repetitionType.getD 0) d r nest (BitVec.ofNat 64 (asUsize32 (e.numChildren.getD 0))) (asUsize32 (e.numChildren.getD 0)) 0 [] vs es ix
                  (by omega) hes (by omega) (by omega)
                rw [← withMemory_loop] at hloop
                refine Eq.mpr (congrArg (InnerRun cfg cap _ _ _ _ _ _ _) (withMemory_group hg (g := fun fs => .group c fs l))) ?_
                rcases hc : withMemory cap (childLoopCap (fun es index => convertInnerCap cfg depth es index d' r' (nest + 1)) (asUsize32 (e.numChildren.getD 0)) es ix.toNat) with ⟨caps, x | ⟨fs, es', i⟩⟩
                · rw [hc] at hloop
                  rcases hloop with ⟨q, us, k', cs', vs', j, hx, hg', hloop⟩ | ⟨hx, hloop⟩
                  · refine .inl ⟨q, us, j, hx, List.forall_mem_cons.2 ⟨hg, hg'⟩, fun N w hN => ?_⟩
                    obtain ⟨n, rfl⟩ : ∃ n, N = n + 100 := ⟨N - 100, by omega⟩
                    have hN' : ∀ i, depth * (L + 150) + 50 + asUsize32 (e.numChildren.getD 0) ≤ n + i := fun i => by omega
                    simp only [fieldV, fieldVs] at hloop
                    conv => lhs; unfold runFn
                    pq_simp [pq_convert_schema_inner, ↓hi0, ↓hi1, ↓hrt, ↓hde, ↓hre, ↓hf, ↓hp, ↓hnadd, ↓hge, ↓hnc, ↓hloop, hN', hempty, beq_self_eq_true, List.append_assoc, List.cons_append, List.nil_append]
                  · refine .inr ⟨hx.imp_right fun ⟨k, hk, h⟩ => ⟨k, List.mem_cons_of_mem _ hk, h⟩, fun N w hN => ?_⟩
                    obtain ⟨n, rfl⟩ : ∃ n, N = n + 100 := ⟨N - 100, by omega⟩
                    have hN' : ∀ i, depth * (L + 150) + 50 + asUsize32 (e.numChildren.getD 0) ≤ n + i := fun i => by omega
                    simp only [fieldV, fieldVs] at hloop
                    conv => lhs; unfold runFn
                    pq_simp [pq_convert_schema_inner, ↓hi0, ↓hi1, ↓hrt, ↓hde, ↓hre, ↓hf, ↓hp, ↓hnadd, ↓hge, ↓hnc, ↓hloop, hN', hempty, beq_self_eq_true, List.append_assoc, List.cons_append, List.nil_append]
                · rw [hc] at hloop
                  obtain ⟨vs', hes', hb', hg', hloop⟩ := hloop
                  refine ⟨vs', hes', ⟨by simp only [List.length_cons]; omega, by simp only [List.length_cons]; omega⟩, List.forall_mem_cons.2 ⟨hg, hg'⟩, fun N w hN => ?_⟩
                  obtain ⟨n, rfl⟩ : ∃ n, N = n + 100 := ⟨N - 100, by omega⟩
                  have hN' : ∀ i, depth * (L + 150) + 50 + asUsize32 (e.numChildren.getD 0) ≤ n + i := fun i => by omega
                  simp only [fieldV, fieldVs] at hloop
                  conv => lhs; unfold runFn
                  pq_simp [pq_convert_schema_inner, ↓hi0, ↓hi1, ↓hrt, ↓hde, ↓hre, ↓hf, ↓hp, ↓hnadd, ↓hge, ↓hnc, ↓hloop, hN', hempty, beq_self_eq_true, List.append_assoc, List.cons_append, List.nil_append]
                  simp only [fieldV]
          · rw [hlen] at hm
            rw [hm]
            dsimp only
            rw [withMemory_nil]
            refine .inl ⟨q, us, ix, rfl, nofun, fun N w hN => ?_⟩
            obtain ⟨n, rfl⟩ : ∃ n, N = n + 100 := ⟨N - 100, by omega⟩
            conv => lhs; unfold runFn
            pq_simp [pq_convert_schema_inner, ↓hi0, ↓hi1, ↓hrt, ↓hde, ↓hre, ↓hf, ↓hp, hempty, List.append_nil]
          · rw [hlen] at hm
            rw [hm]
            have hcut : ∀ o : List Nat × Except PFail (SField × List Element × Nat), withMemory cap (asUsize32 (e.numChildren.getD 0) :: o.1, o.2) = ([asUsize32 (e.numChildren.getD 0)], .error x) :=
              fun o => withMemory_cons_error hx _ _
            have hall : withMemory cap (groupCap cfg depth e es i d' r' nest c l) = ([asUsize32 (e.numChildren.getD 0)], .error x) := by
              rw [groupCap]
              split
              · exact hcut ([], _)
              · split
                · exact hcut ([], _)
                · split
                  · exact hcut (_, _)
                  · exact hcut (_, _)
            change InnerRun cfg cap _ _ _ _ _ _ _ (withMemory cap (groupCap cfg depth e es i d' r' nest c l))
            rw [hall]
            refine .inr ⟨.inr ⟨_, List.mem_cons_self, hx⟩, fun N w hN => ?_⟩
            obtain ⟨n, rfl⟩ : ∃ n, N = n + 100 := ⟨N - 100, by omega⟩
            conv => lhs; unfold runFn
            pq_simp [pq_convert_schema_inner, ↓hi0, ↓hi1, ↓hrt, ↓hde, ↓hre, ↓hf, ↓hp, hempty, List.append_nil]

end

end

end CT.Pq
