import Verif.Spec.ThriftParser
/-!
# Lemmas for C85: the parser finds the parse tree
-/
namespace CT.Gen.Spec
open CT.Gen

/-! ## Soundness -/

/-- What is returned is a parse tree of what was consumed. -/
def Snd {α : Type} (p : List Tok → Option (α × List Tok)) (f : α → List Tok) : Prop := ∀ ts a rest, p ts = some (a, rest) → ts = f a ++ rest

theorem expect_some {t : Tok} {ts rest : List Tok} (h : expect t ts = some rest) : ts = t :: rest := by
  cases ts with
  | nil => cases h
  | cons u us =>
    rw [expect] at h
    split at h
    · next hu => cases h; rw [hu]
    · cases h

theorem pIdent_some {ts : List Tok} {t : List Char} {rest : List Tok} (h : pIdent ts = some (t, rest)) : ts = .IDENTIFIER t :: rest := by
  unfold pIdent at h
  split at h
  · cases h; rfl
  · cases h

theorem pInteger_some {ts : List Tok} {i : IntegerCtx} {rest : List Tok} (h : pInteger ts = some (i, rest)) : ts = integer i ++ rest := by
  unfold pInteger at h
  split at h
  · cases h; rfl
  · cases h; rfl
  · cases h

theorem pSep_eq {ts rest : List Tok} {s : Option Sep} (h : pSep ts = (s, rest)) : ts = opt listSeparator s ++ rest := by
  unfold pSep at h
  split at h <;> (cases h; rfl)

theorem pCpp_some {ts rest : List Tok} {c : Option (List Char)} (h : pCpp ts = some (c, rest)) : ts = opt cppType c ++ rest := by
  unfold pCpp at h
  split at h
  · cases h; rfl
  · cases h
  · cases h; rfl

theorem baseOf_some {k : Kw} {b : BuiltinType} (h : baseOf k = some b) : baseType b = [.kw k] := by
  unfold baseOf at h
  split at h <;> first | (cases h; rfl) | cases h

theorem pType_sound : ∀ n, Snd (pType n) fieldType
  | 0, ts, t, rest, h => by
    cases ts with
    | nil => cases h
    | cons a ts => cases a <;> cases h
  | n + 1, ts, t, rest, h => by
    have ih := pType_sound n
    unfold pType at h
    split at h
    · next m us hm =>
      cases hm
      simp only [Option.bind_eq_bind, Option.bind_eq_some_iff, Prod.exists, Option.pure_def, Option.some.injEq, Prod.mk.injEq] at h
      obtain ⟨c, t1, h1, t2, h2, k, t3, h3, t4, h4, v, t5, h5, t6, h6, rfl, rfl⟩ := h
      rw [pCpp_some h1, expect_some h2, ih _ _ _ h3, expect_some h4, ih _ _ _ h5, expect_some h6]
      simp [fieldType]
    · next m us hm =>
      cases hm
      simp only [Option.bind_eq_bind, Option.bind_eq_some_iff, Prod.exists, Option.pure_def, Option.some.injEq, Prod.mk.injEq] at h
      obtain ⟨c, t1, h1, t2, h2, k, t3, h3, t4, h4, rfl, rfl⟩ := h
      rw [pCpp_some h1, expect_some h2, ih _ _ _ h3, expect_some h4]
      simp [fieldType]
    · next m us hm =>
      cases hm
      simp only [Option.bind_eq_bind, Option.bind_eq_some_iff, Prod.exists, Option.pure_def, Option.some.injEq, Prod.mk.injEq] at h
      obtain ⟨c, t1, h1, t2, h2, k, t3, h3, t4, h4, rfl, rfl⟩ := h
      rw [pCpp_some h1, expect_some h2, ih _ _ _ h3, expect_some h4]
      simp [fieldType]
    · cases h; rfl
    · obtain ⟨b, hb, h2⟩ := Option.map_eq_some_iff.1 h
      cases h2
      rw [fieldType, baseOf_some hb]; rfl
    · cases h

mutual
theorem pConst_sound : ∀ n, Snd (pConst n) constValue
  | 0, ts, t, rest, h => by
    cases ts with
    | nil => simp [pConst] at h
    | cons a ts => cases a <;> simp [pConst] at h
  | n + 1, ts, t, rest, h => by
    unfold pConst at h
    split at h
    · cases h; simp [constValue, integer]
    · cases h; simp [constValue, integer]
    · cases h; simp [constValue]
    · cases h; simp [constValue]
    · cases h; simp [constValue]
    · next m us hm =>
      cases hm
      obtain ⟨r, hr, h2⟩ := Option.map_eq_some_iff.1 h
      cases h2
      have := pItems_sound n us r.1 r.2 hr
      rw [this]; simp [constValue]
    · next m us hm =>
      cases hm
      obtain ⟨r, hr, h2⟩ := Option.map_eq_some_iff.1 h
      cases h2
      have := pEntries_sound n us r.1 r.2 hr
      rw [this]; simp [constValue]
    · cases h
theorem pItems_sound : ∀ n (ts : List Tok) (vs : PItems) (rest : List Tok), pItems n ts = some (vs, rest) → ts = constItems vs ++ .kw .RBRACK :: rest
  | 0, ts, vs, rest, h => by
    simp [pItems] at h
  | n + 1, ts, vs, rest, h => by
    unfold pItems at h
    split at h
    · cases h; rfl
    · next heq _ =>
      cases heq
      simp only [Option.bind_eq_bind, Option.bind_eq_some_iff, Prod.exists, Option.pure_def, Option.some.injEq, Prod.mk.injEq] at h
      obtain ⟨v, t1, h1, ws, t2, h2, rfl, rfl⟩ := h
      generalize hq0 : pSep t1 = q0 at *
      obtain ⟨s0, u0⟩ := q0
      dsimp only at *
      have e1 := pConst_sound n _ _ _ h1
      have e2 := pItems_sound n _ _ _ h2
      rw [e1, pSep_eq hq0, e2]
      simp [constItems]
    · cases h
theorem pEntries_sound : ∀ n (ts : List Tok) (vs : PEntries) (rest : List Tok), pEntries n ts = some (vs, rest) → ts = constEntries vs ++ .kw .RBRACE :: rest
  | 0, ts, vs, rest, h => by
    simp [pEntries] at h
  | n + 1, ts, vs, rest, h => by
    unfold pEntries at h
    split at h
    · cases h; rfl
    · next heq _ =>
      cases heq
      simp only [Option.bind_eq_bind, Option.bind_eq_some_iff, Prod.exists, Option.pure_def, Option.some.injEq, Prod.mk.injEq] at h
      obtain ⟨k, t1, h1, t2, h2, v, t3, h3, ws, t4, h4, rfl, rfl⟩ := h
      generalize hq0 : pSep t3 = q0 at *
      obtain ⟨s0, u0⟩ := q0
      dsimp only at *
      have e1 := pConst_sound n _ _ _ h1
      have e3 := pConst_sound n _ _ _ h3
      have e4 := pEntries_sound n _ _ _ h4
      rw [e1, expect_some h2, e3, pSep_eq hq0, e4]
      simp [constEntries]
    · cases h
end

theorem manyUntil_sound {α : Type} {close : Tok} {p : List Tok → Option (α × List Tok)} {f : α → List Tok} (hp : Snd p f) :
    ∀ (n : Nat) (ts : List Tok) (as : List α) (rest : List Tok), manyUntil close p n ts = some (as, rest) → ts = many f as ++ close :: rest
  | 0, _, _, _, h => by cases h
  | _ + 1, [], _, _, h => by cases h
  | n + 1, t :: ts, as, rest, h => by
    rw [manyUntil] at h
    split at h
    · next ht => cases h; rw [ht]; rfl
    · simp only [Option.bind_eq_bind, Option.bind_eq_some_iff, Prod.exists, Option.pure_def, Option.some.injEq, Prod.mk.injEq] at h
      obtain ⟨a, t1, h1, bs, t2, h2, rfl, rfl⟩ := h
      rw [hp _ _ _ h1, manyUntil_sound hp n _ _ _ h2]
      simp [many]

theorem pFieldId_some {ts rest : List Tok} {i : Option IntegerCtx} (h : pFieldId ts = some (i, rest)) : ts = opt (fun i => integer i ++ [.kw .COLON]) i ++ rest := by
  unfold pFieldId at h
  split at h
  · cases h; rfl
  · next j us hj =>
    obtain ⟨vs, hv, h2⟩ := Option.map_eq_some_iff.1 h
    cases h2
    rw [pInteger_some hj, expect_some hv]; simp [opt]

theorem pReq_eq {ts rest : List Tok} {r : Option Bool} (h : pReq ts = (r, rest)) : ts = opt fieldRequirement r ++ rest := by
  unfold pReq at h
  split at h <;> (cases h; rfl)

theorem pDefault_some {n : Nat} {ts rest : List Tok} {v : Option PConst} (h : pDefault n ts = some (v, rest)) : ts = opt (fun v => [.kw .EQ] ++ constValue v) v ++ rest := by
  unfold pDefault at h
  split at h
  · obtain ⟨r, hr, h2⟩ := Option.map_eq_some_iff.1 h
    cases h2
    rw [pConst_sound n _ r.1 r.2 hr]; simp [opt]
  · cases h; rfl

theorem pField_sound (n : Nat) : Snd (pField n) field := by
  intro ts f rest h
  simp only [pField, Option.bind_eq_bind, Option.bind_eq_some_iff, Prod.exists, Option.pure_def, Option.some.injEq, Prod.mk.injEq] at h
  obtain ⟨i, t1, h1, t, t3, h3, x, t4, h4, v, t5, h5, rfl, rfl⟩ := h
  generalize hq0 : pReq t1 = q0 at *
  obtain ⟨s0, u0⟩ := q0
  generalize hq1 : pSep t5 = q1 at *
  obtain ⟨s1, u1⟩ := q1
  dsimp only at *
  rw [pFieldId_some h1, pReq_eq hq0, pType_sound n _ _ _ h3, pIdent_some h4, pDefault_some h5, pSep_eq hq1]
  simp [field]

theorem pEnumField_sound : Snd pEnumField enumField := by
  intro ts f rest h
  simp only [pEnumField, Option.bind_eq_bind, Option.bind_eq_some_iff, Prod.exists, Option.pure_def, Option.some.injEq, Prod.mk.injEq] at h
  obtain ⟨x, t1, h1, t2, h2, v, t3, h3, rfl, rfl⟩ := h
  generalize hq0 : pSep t3 = q0 at *
  obtain ⟨s0, u0⟩ := q0
  dsimp only at *
  rw [pIdent_some h1, expect_some h2, pInteger_some h3, pSep_eq hq0]
  simp [enumField]

theorem pOneway_eq {ts rest : List Tok} {o : Bool} (h : pOneway ts = (o, rest)) : ts = (if o then [.kw .ONEWAY] else []) ++ rest := by
  unfold pOneway at h
  split at h <;> (cases h; rfl)

theorem pFunctionType_sound (n : Nat) : Snd (pFunctionType n) functionType := by
  intro ts t rest h
  unfold pFunctionType at h
  split at h
  · cases h; rfl
  · obtain ⟨r, hr, h2⟩ := Option.map_eq_some_iff.1 h
    cases h2
    exact pType_sound n _ r.1 r.2 hr

theorem pThrows_some {n : Nat} {ts rest : List Tok} {o : Option (List PField)} (h : pThrows n ts = some (o, rest)) : ts = opt throwsList o ++ rest := by
  unfold pThrows at h
  split at h
  · simp only [Option.bind_eq_bind, Option.bind_eq_some_iff, Prod.exists, Option.pure_def, Option.some.injEq, Prod.mk.injEq] at h
    obtain ⟨t1, h1, fs, t2, h2, rfl, rfl⟩ := h
    rw [expect_some h1, manyUntil_sound (pField_sound n) _ _ _ _ h2]
    simp [opt, throwsList]
  · cases h; rfl

theorem pFunction_sound (n : Nat) : Snd (pFunction n) function := by
  intro ts f rest h
  simp only [pFunction, Option.bind_eq_bind, Option.bind_eq_some_iff, Prod.exists, Option.pure_def, Option.some.injEq, Prod.mk.injEq] at h
  obtain ⟨t, t2, h2, x, t3, h3, t4, h4, ps, t5, h5, th, t6, h6, rfl, rfl⟩ := h
  generalize hq0 : pOneway ts = q0 at *
  obtain ⟨s0, u0⟩ := q0
  generalize hq1 : pSep t6 = q1 at *
  obtain ⟨s1, u1⟩ := q1
  dsimp only at *
  rw [pOneway_eq hq0, pFunctionType_sound n _ _ _ h2, pIdent_some h3, expect_some h4, manyUntil_sound (pField_sound n) _ _ _ _ h5, pThrows_some h6, pSep_eq hq1]
  simp [function]

theorem pBody_some {α : Type} {p : List Tok → Option (α × List Tok)} {f : α → List Tok} (hp : Snd p f) {n : Nat} {ts : List Tok} {x : List Char} {as : List α} {rest : List Tok}
    (h : pBody p n ts = some (x, as, rest)) : ts = [.IDENTIFIER x, .kw .LBRACE] ++ many f as ++ [.kw .RBRACE] ++ rest := by
  simp only [pBody, Option.bind_eq_bind, Option.bind_eq_some_iff, Prod.exists, Option.pure_def, Option.some.injEq, Prod.mk.injEq] at h
  obtain ⟨y, t1, h1, t2, h2, bs, t3, h3, rfl, rfl, rfl⟩ := h
  rw [pIdent_some h1, expect_some h2, manyUntil_sound hp _ _ _ _ h3]
  simp

theorem pExtends_some {ts rest : List Tok} {e : Option (List Char)} (h : pExtends ts = some (e, rest)) : ts = opt (fun b => [.kw .EXTENDS, .IDENTIFIER b]) e ++ rest := by
  unfold pExtends at h
  split at h
  · obtain ⟨r, hr, h2⟩ := Option.map_eq_some_iff.1 h
    cases h2
    rw [pIdent_some (t := r.1) (rest := r.2) hr]; simp [opt]
  · cases h; rfl

theorem pDefinition_sound (n : Nat) : Snd (pDefinition n) definition := by
  intro ts d rest h
  unfold pDefinition at h
  split at h
  · simp only [Option.bind_eq_bind, Option.bind_eq_some_iff, Prod.exists, Option.pure_def, Option.some.injEq, Prod.mk.injEq] at h
    obtain ⟨t, t1, h1, x, t2, h2, t3, h3, v, t4, h4, rfl, rfl⟩ := h
    generalize hq0 : pSep t4 = q0 at *
    obtain ⟨s0, u0⟩ := q0
    dsimp only at *
    rw [pType_sound n _ _ _ h1, pIdent_some h2, expect_some h3, pConst_sound n _ _ _ h4, pSep_eq hq0]
    simp [definition]
  · simp only [Option.bind_eq_bind, Option.bind_eq_some_iff, Prod.exists, Option.pure_def, Option.some.injEq, Prod.mk.injEq] at h
    obtain ⟨t, t1, h1, x, t2, h2, rfl, rfl⟩ := h
    rw [pType_sound n _ _ _ h1, pIdent_some h2]
    simp [definition]
  · obtain ⟨⟨x, as, r⟩, hr, h2⟩ := Option.map_eq_some_iff.1 h
    cases h2
    rw [pBody_some pEnumField_sound hr]; simp [definition]
  · obtain ⟨⟨x, as, r⟩, hr, h2⟩ := Option.map_eq_some_iff.1 h
    cases h2
    rw [pBody_some (pField_sound n) hr]; simp [definition]
  · obtain ⟨⟨x, as, r⟩, hr, h2⟩ := Option.map_eq_some_iff.1 h
    cases h2
    rw [pBody_some (pField_sound n) hr]; simp [definition]
  · obtain ⟨⟨x, as, r⟩, hr, h2⟩ := Option.map_eq_some_iff.1 h
    cases h2
    rw [pBody_some (pField_sound n) hr]; simp [definition]
  · simp only [Option.bind_eq_bind, Option.bind_eq_some_iff, Prod.exists, Option.pure_def, Option.some.injEq, Prod.mk.injEq] at h
    obtain ⟨x, t1, h1, e, t2, h2, t3, h3, fs, t4, h4, rfl, rfl⟩ := h
    rw [pIdent_some h1, pExtends_some h2, expect_some h3, manyUntil_sound (pFunction_sound n) _ _ _ _ h4]
    simp [definition]
  · cases h

theorem pHeaders_sound (ts : List Tok) : ∀ hs rest, pHeaders ts = some (hs, rest) → ts = many header hs ++ rest := by
  fun_induction pHeaders ts
  all_goals (try (intro hs rest h; cases h; rfl))
  all_goals
    rename_i ih
    intro hs rest h
    obtain ⟨r, hr, h2⟩ := Option.map_eq_some_iff.1 h
    cases h2
    rw [ih r.1 r.2 hr]; simp [many, header]

theorem pDefinitions_sound (n : Nat) : ∀ (m : Nat) (ts : List Tok) (ds : List PDef), pDefinitions n m ts = some ds → ts = many definition ds
  | m, [], ds, h => by cases m <;> (rw [pDefinitions] at h; cases h; rfl)
  | 0, _ :: _, _, h => by cases h
  | m + 1, t :: ts, ds, h => by
    simp only [pDefinitions, Option.bind_eq_bind, Option.bind_eq_some_iff, Prod.exists, Option.pure_def, Option.some.injEq] at h
    obtain ⟨d, t1, h1, es, h2, rfl⟩ := h
    rw [pDefinition_sound n _ _ _ h1, pDefinitions_sound n m _ _ h2]
    simp [many]

theorem parse_sound {ts : List Tok} {d : PDoc} (h : parse ts = some d) : document d = ts := by
  simp only [parse, Option.bind_eq_bind, Option.bind_eq_some_iff, Prod.exists, Option.pure_def, Option.some.injEq] at h
  obtain ⟨hs, us, h1, ds, h2, rfl⟩ := h
  rw [pHeaders_sound _ _ _ h1, pDefinitions_sound _ _ _ _ h2]
  rfl

/-! ## Completeness -/

/-- Not a list separator. -/
def noSep : List Tok → Bool
  | .COMMA :: _ => false
  | .kw .SEMI :: _ => false
  | _ => true

/-- Neither a list separator nor the start of a default value. -/
def fieldFollow : List Tok → Bool
  | .kw .EQ :: _ => false
  | ts => noSep ts

/-- Neither a list separator nor the start of a list of exceptions. -/
def functionFollow : List Tok → Bool
  | .kw .THROWS :: _ => false
  | ts => noSep ts

/-- The tokens a type may start with. -/
def typeStart : Tok → Bool
  | .kw .MAP => true
  | .kw .SET => true
  | .kw .LIST => true
  | .kw k => (baseOf k).isSome
  | .IDENTIFIER _ => true
  | _ => false

/-- The tokens a constant may start with. -/
def constStart : Tok → Bool
  | .kw .LBRACK => true
  | .kw .LBRACE => true
  | .kw _ => false
  | .COMMA => false
  | _ => true

/-- The tokens a field may start with. -/
def fieldStart : Tok → Bool
  | .INTEGER _ => true
  | .HEX_INTEGER _ => true
  | .kw .REQUIRED => true
  | .kw .OPTIONAL => true
  | t => typeStart t

/-- The tokens a function may start with. -/
def functionStart : Tok → Bool
  | .kw .ONEWAY => true
  | .kw .VOID => true
  | t => typeStart t

/-- The tokens a definition may start with. -/
def definitionStart : Tok → Bool
  | .kw .CONST => true
  | .kw .TYPEDEF => true
  | .kw .ENUM => true
  | .kw .STRUCT => true
  | .kw .UNION => true
  | .kw .EXCEPTION => true
  | .kw .SERVICE => true
  | _ => false

theorem expect_self (t : Tok) (ts : List Tok) : expect t (t :: ts) = some ts := by rw [expect, if_pos rfl]

theorem pInteger_complete (i : IntegerCtx) (rest : List Tok) : pInteger (integer i ++ rest) = some (i, rest) := by cases i <;> rfl

theorem pSep_complete (s : Option Sep) {rest : List Tok} (h : noSep rest = true) : pSep (opt listSeparator s ++ rest) = (s, rest) := by
  cases s with
  | some s => cases s <;> rfl
  | none =>
    show pSep rest = _
    unfold pSep
    split
    · cases h
    · cases h
    · rfl

theorem pCpp_complete (c : Option (List Char)) (rest : List Tok) : pCpp (opt cppType c ++ .kw .LT :: rest) = some (c, .kw .LT :: rest) := by cases c <;> rfl

theorem pType_complete : ∀ (t : PType) (n : Nat) (rest : List Tok), (fieldType t).length ≤ n → pType n (fieldType t ++ rest) = some (t, rest)
  | .builtin b, n, rest, h => by
    cases n with
    | zero => cases b <;> simp [fieldType, baseType] at h
    | succ n => cases b <;> rfl
  | .named x, n, rest, h => by
    cases n with
    | zero => simp [fieldType] at h
    | succ n => rfl
  | .map c k v, n, rest, h => by
    cases n with
    | zero => simp [fieldType] at h
    | succ n =>
      simp only [fieldType, List.length_append, List.length_cons, List.length_nil] at h
      have hk : ∀ r, pType n (fieldType k ++ r) = some (k, r) := fun r => pType_complete k n r (by omega)
      have hv : ∀ r, pType n (fieldType v ++ r) = some (v, r) := fun r => pType_complete v n r (by omega)
      simp [fieldType, pType, pCpp_complete, expect_self, hk, hv]
  | .set c e, n, rest, h => by
    cases n with
    | zero => simp [fieldType] at h
    | succ n =>
      simp only [fieldType, List.length_append, List.length_cons, List.length_nil] at h
      have he : ∀ r, pType n (fieldType e ++ r) = some (e, r) := fun r => pType_complete e n r (by omega)
      simp [fieldType, pType, pCpp_complete, expect_self, he]
  | .list c e, n, rest, h => by
    cases n with
    | zero => simp [fieldType] at h
    | succ n =>
      simp only [fieldType, List.length_append, List.length_cons, List.length_nil] at h
      have he : ∀ r, pType n (fieldType e ++ r) = some (e, r) := fun r => pType_complete e n r (by omega)
      simp [fieldType, pType, pCpp_complete, expect_self, he]

theorem type_first (t : PType) : ∃ a us, fieldType t = a :: us ∧ typeStart a = true := by
  cases t with
  | builtin b => cases b <;> exact ⟨_, _, rfl, rfl⟩
  | _ => exact ⟨_, _, rfl, rfl⟩

theorem const_first (v : PConst) : ∃ a us, constValue v = a :: us ∧ constStart a = true := by
  cases v with
  | integer i => cases i <;> exact ⟨_, [], by simp only [constValue, integer] <;> rfl, rfl⟩
  | list vs => exact ⟨.kw .LBRACK, constItems vs ++ [.kw .RBRACK], by simp [constValue], rfl⟩
  | map es => exact ⟨.kw .LBRACE, constEntries es ++ [.kw .RBRACE], by simp [constValue], rfl⟩
  | _ => exact ⟨_, [], by simp only [constValue] <;> rfl, rfl⟩

theorem noSep_const {a : Tok} (h : constStart a = true) (us : List Tok) : noSep (a :: us) = true := by
  cases a with
  | kw k => cases k <;> first | rfl | cases h
  | COMMA => cases h
  | _ => rfl

theorem noSep_items (vs : PItems) (rest : List Tok) : noSep (constItems vs ++ .kw .RBRACK :: rest) = true := by
  cases vs with
  | nil => rfl
  | cons v s vs =>
    obtain ⟨a, us, hv, ha⟩ := const_first v
    simp only [constItems, hv, List.cons_append]
    exact noSep_const ha _

theorem noSep_entries (vs : PEntries) (rest : List Tok) : noSep (constEntries vs ++ .kw .RBRACE :: rest) = true := by
  cases vs with
  | nil => rfl
  | cons k v s vs =>
    obtain ⟨a, us, hv, ha⟩ := const_first k
    simp only [constEntries, hv, List.cons_append]
    exact noSep_const ha _

mutual
theorem pConst_complete : ∀ (v : PConst) (n : Nat) (rest : List Tok), (constValue v).length ≤ n → pConst n (constValue v ++ rest) = some (v, rest)
  | .integer i, n, rest, h => by
    cases n with
    | zero => cases i <;> simp [constValue, integer] at h
    | succ n => cases i <;> simp [constValue, integer, pConst]
  | .double t, n, rest, h => by
    cases n with
    | zero => simp [constValue] at h
    | succ n => simp [constValue, pConst]
  | .literal t, n, rest, h => by
    cases n with
    | zero => simp [constValue] at h
    | succ n => simp [constValue, pConst]
  | .identifier t, n, rest, h => by
    cases n with
    | zero => simp [constValue] at h
    | succ n => simp [constValue, pConst]
  | .list vs, n, rest, h => by
    cases n with
    | zero => simp [constValue] at h
    | succ n =>
      simp only [constValue, List.length_append, List.length_cons, List.length_nil] at h
      have := pItems_complete vs n rest (by omega)
      simp [constValue, pConst, this]
  | .map es, n, rest, h => by
    cases n with
    | zero => simp [constValue] at h
    | succ n =>
      simp only [constValue, List.length_append, List.length_cons, List.length_nil] at h
      have := pEntries_complete es n rest (by omega)
      simp [constValue, pConst, this]
theorem pItems_complete : ∀ (vs : PItems) (n : Nat) (rest : List Tok), (constItems vs).length + 1 ≤ n → pItems n (constItems vs ++ .kw .RBRACK :: rest) = some (vs, rest)
  | .nil, n, rest, h => by
    cases n with
    | zero => simp at h
    | succ n => simp [constItems, pItems]
  | .cons v s vs, n, rest, h => by
    cases n with
    | zero => simp at h
    | succ n =>
      obtain ⟨a, us, hv, ha⟩ := const_first v
      simp only [constItems, List.length_append] at h
      have hl : 1 ≤ (constValue v).length := by rw [hv]; simp
      have h1 := pConst_complete v n (opt listSeparator s ++ (constItems vs ++ .kw .RBRACK :: rest)) (by omega)
      have h2 := pItems_complete vs n rest (by omega)
      have h3 := pSep_complete s (noSep_items vs rest)
      have e : constItems (.cons v s vs) ++ .kw .RBRACK :: rest = constValue v ++ (opt listSeparator s ++ (constItems vs ++ .kw .RBRACK :: rest)) := by simp [constItems]
      rw [e]
      have hne : ∀ ts, constValue v ++ (opt listSeparator s ++ (constItems vs ++ .kw .RBRACK :: rest)) = .kw .RBRACK :: ts → False := by
        intro ts h; rw [hv] at h; cases h; cases ha
      rw [pItems.eq_2 _ _ hne, h1]
      simp [h2, h3]
theorem pEntries_complete : ∀ (vs : PEntries) (n : Nat) (rest : List Tok), (constEntries vs).length + 1 ≤ n → pEntries n (constEntries vs ++ .kw .RBRACE :: rest) = some (vs, rest)
  | .nil, n, rest, h => by
    cases n with
    | zero => simp at h
    | succ n => simp [constEntries, pEntries]
  | .cons k v s vs, n, rest, h => by
    cases n with
    | zero => simp at h
    | succ n =>
      obtain ⟨a, us, hk, ha⟩ := const_first k
      simp only [constEntries, List.length_append, List.length_cons] at h
      have h0 := pConst_complete k n (.kw .COLON :: (constValue v ++ (opt listSeparator s ++ (constEntries vs ++ .kw .RBRACE :: rest)))) (by omega)
      have h1 := pConst_complete v n (opt listSeparator s ++ (constEntries vs ++ .kw .RBRACE :: rest)) (by omega)
      have h2 := pEntries_complete vs n rest (by omega)
      have h3 := pSep_complete s (noSep_entries vs rest)
      have e : constEntries (.cons k v s vs) ++ .kw .RBRACE :: rest =
          constValue k ++ (.kw .COLON :: (constValue v ++ (opt listSeparator s ++ (constEntries vs ++ .kw .RBRACE :: rest)))) := by simp [constEntries]
      rw [e]
      have hne : ∀ ts, constValue k ++ (.kw .COLON :: (constValue v ++ (opt listSeparator s ++ (constEntries vs ++ .kw .RBRACE :: rest)))) = .kw .RBRACE :: ts → False := by
        intro ts h; rw [hk] at h; cases h; cases ha
      rw [pEntries.eq_2 _ _ hne, h0]
      simp [h1, h2, h3, expect_self]
end

theorem manyUntil_complete {α : Type} {close : Tok} {p : List Tok → Option (α × List Tok)} {f : α → List Tok} {F : List Tok → Bool} {n : Nat}
    (hp : ∀ a rest, (f a).length ≤ n → F rest = true → p (f a ++ rest) = some (a, rest))
    (hf : ∀ a, ∃ t us, f a = t :: us ∧ t ≠ close ∧ ∀ vs, F (t :: vs) = true) (hc : ∀ vs, F (close :: vs) = true) (rest : List Tok) :
    ∀ (as : List α) (m : Nat), (many f as).length ≤ n → (many f as).length + 1 ≤ m → manyUntil close p m (many f as ++ close :: rest) = some (as, rest)
  | [], m, _, h => by
    cases m with
    | zero => simp at h
    | succ m => show manyUntil _ _ _ (close :: rest) = _; rw [manyUntil, if_pos rfl]
  | a :: as, m, hn, h => by
    cases m with
    | zero => simp at h
    | succ m =>
      obtain ⟨t, us, hfa, ht, hF⟩ := hf a
      have e : many f (a :: as) ++ close :: rest = f a ++ (many f as ++ close :: rest) := by simp [many]
      have hl : (many f (a :: as)).length = (f a).length + (many f as).length := by simp [many]
      have hl1 : 1 ≤ (f a).length := by rw [hfa]; simp
      have hfo : F (many f as ++ close :: rest) = true := by
        cases as with
        | nil => exact hc _
        | cons b bs =>
          obtain ⟨t2, us2, hfb, _, hF2⟩ := hf b
          simp only [many, List.map_cons, List.flatten_cons, hfb, List.cons_append]
          exact hF2 _
      have h1 := hp a (many f as ++ close :: rest) (by omega) hfo
      have h2 := manyUntil_complete hp hf hc rest as m (by omega) (by omega)
      rw [e, hfa] at *
      rw [List.cons_append, manyUntil, if_neg ht]
      rw [List.cons_append] at h1
      rw [h1]
      simp [h2]

theorem pFieldId_none {a : Tok} (h : typeStart a = true ∨ a = .kw .REQUIRED ∨ a = .kw .OPTIONAL) (us : List Tok) : pFieldId (a :: us) = some (none, a :: us) := by
  cases a with
  | INTEGER _ => simp [typeStart] at h
  | HEX_INTEGER _ => simp [typeStart] at h
  | _ => rfl

theorem pReq_none {a : Tok} (h : typeStart a = true) (us : List Tok) : pReq (a :: us) = (none, a :: us) := by
  cases a with
  | kw k => cases k <;> first | rfl | cases h
  | _ => rfl

theorem pDefault_complete (v : Option PConst) {n : Nat} {rest : List Tok} (h : (opt (fun v => [.kw .EQ] ++ constValue v) v).length ≤ n)
    (hr : ∀ ts, rest = .kw .EQ :: ts → False) : pDefault n (opt (fun v => [.kw .EQ] ++ constValue v) v ++ rest) = some (v, rest) := by
  cases v with
  | none => exact pDefault.eq_2 _ _ hr
  | some v =>
    simp only [opt, List.length_append, List.length_cons] at h
    simp [opt, pDefault, pConst_complete v n rest (by omega)]

theorem pField_complete (n : Nat) (f : PField) (rest : List Tok) (hn : (field f).length ≤ n) (h : fieldFollow rest = true) : pField n (field f ++ rest) = some (f, rest) := by
  obtain ⟨i, r, t, x, v, s⟩ := f
  have hsep : noSep rest = true := by
    unfold fieldFollow at h
    split at h
    · cases h
    · exact h
  have heq : ∀ ts, opt listSeparator s ++ rest = .kw .EQ :: ts → False := by
    intro ts he
    cases s with
    | none => cases he; cases h
    | some s => cases s <;> cases he
  simp only [field, List.length_append] at hn
  have e : field ⟨i, r, t, x, v, s⟩ ++ rest = opt (fun i => integer i ++ [.kw .COLON]) i ++ (opt fieldRequirement r ++ (fieldType t ++ (.IDENTIFIER x ::
      (opt (fun v => [.kw .EQ] ++ constValue v) v ++ (opt listSeparator s ++ rest))))) := by simp [field]
  rw [e]
  obtain ⟨a, us, ht, ha⟩ := type_first t
  have h2 : ∀ ws, pReq (opt fieldRequirement r ++ (fieldType t ++ ws)) = (r, fieldType t ++ ws) := by
    intro ws
    cases r with
    | none => rw [ht]; exact pReq_none ha _
    | some r => cases r <;> rfl
  have h1 : ∀ ws, pFieldId (opt (fun i => integer i ++ [.kw .COLON]) i ++ (opt fieldRequirement r ++ (fieldType t ++ ws))) = some (i, opt fieldRequirement r ++ (fieldType t ++ ws)) := by
    intro ws
    cases i with
    | some i => simp [opt, pFieldId, pInteger_complete, expect_self]
    | none =>
      cases r with
      | none => rw [ht]; exact pFieldId_none (.inl ha) _
      | some r => cases r <;> rfl
  have h3 : ∀ ws, pType n (fieldType t ++ ws) = some (t, ws) := fun ws => pType_complete t n ws (by omega)
  have h5 := pDefault_complete v (n := n) (rest := opt listSeparator s ++ rest) (by omega) heq
  have h6 := pSep_complete s hsep
  simp only [List.cons_append, List.nil_append] at h5
  simp [pField, h1, h2, h3, h5, h6, pIdent]

theorem pEnumField_complete (f : PEnumField) (rest : List Tok) (h : noSep rest = true) : pEnumField (enumField f ++ rest) = some (f, rest) := by
  obtain ⟨x, v, s⟩ := f
  simp [enumField, pEnumField, pIdent, expect_self, pInteger_complete, pSep_complete s h]

theorem field_first (f : PField) : ∃ t us, field f = t :: us ∧ fieldStart t = true := by
  obtain ⟨i, r, t, x, v, s⟩ := f
  cases i with
  | some i => cases i <;> exact ⟨_, _, rfl, rfl⟩
  | none =>
    cases r with
    | some r => cases r <;> exact ⟨_, _, rfl, rfl⟩
    | none =>
      obtain ⟨a, us, ht, ha⟩ := type_first t
      refine ⟨a, us ++ (.IDENTIFIER x :: (opt (fun v => [.kw .EQ] ++ constValue v) v ++ opt listSeparator s)), by simp [field, opt, ht], ?_⟩
      unfold fieldStart
      split <;> first | rfl | exact ha

theorem fieldFollow_start {t : Tok} (h : fieldStart t = true) (us : List Tok) : fieldFollow (t :: us) = true := by
  cases t with
  | kw k => cases k <;> first | rfl | cases h
  | COMMA => cases h
  | _ => rfl

theorem fields_complete (close : Kw) (hc : close = .RPAREN ∨ close = .RBRACE) (n : Nat) (fs : List PField) (rest : List Tok) (h : (many field fs).length + 1 ≤ n) :
    manyUntil (.kw close) (pField n) n (many field fs ++ .kw close :: rest) = some (fs, rest) := by
  refine manyUntil_complete (F := fieldFollow) (n := n) (pField_complete n) ?_ ?_ rest fs n (by omega) h
  · intro f
    obtain ⟨t, us, e, ht⟩ := field_first f
    refine ⟨t, us, e, ?_, fieldFollow_start ht⟩
    rintro rfl
    rcases hc with rfl | rfl <;> cases ht
  · intro vs
    rcases hc with rfl | rfl <;> rfl

theorem functionFollow_start {t : Tok} (h : functionStart t = true) (us : List Tok) : functionFollow (t :: us) = true := by
  cases t with
  | kw k => cases k <;> first | rfl | cases h
  | COMMA => cases h
  | _ => rfl

theorem function_first (f : PFunction) : ∃ t us, function f = t :: us ∧ functionStart t = true := by
  obtain ⟨o, t, x, ps, th, s⟩ := f
  cases o with
  | true => exact ⟨_, _, rfl, rfl⟩
  | false =>
    cases t with
    | none => exact ⟨_, _, rfl, rfl⟩
    | some t =>
      obtain ⟨a, us, ht, ha⟩ := type_first t
      refine ⟨a, us ++ (.IDENTIFIER x :: .kw .LPAREN :: (many field ps ++ .kw .RPAREN :: (opt throwsList th ++ opt listSeparator s))), by simp [function, functionType, ht], ?_⟩
      unfold functionStart
      split <;> first | rfl | exact ha

theorem pThrows_complete (th : Option (List PField)) {n : Nat} {rest : List Tok} (h : (opt throwsList th).length ≤ n)
    (hr : ∀ ts, rest = .kw .THROWS :: ts → False) : pThrows n (opt throwsList th ++ rest) = some (th, rest) := by
  cases th with
  | none => exact pThrows.eq_2 _ _ hr
  | some fs =>
    simp only [opt, throwsList, List.length_append, List.length_cons, List.length_nil] at h
    have := fields_complete .RPAREN (.inl rfl) n fs rest (by omega)
    simp [opt, throwsList, pThrows, expect_self, this]

theorem pFunction_complete (n : Nat) (f : PFunction) (rest : List Tok) (hn : (function f).length ≤ n) (h : functionFollow rest = true) :
    pFunction n (function f ++ rest) = some (f, rest) := by
  obtain ⟨o, t, x, ps, th, s⟩ := f
  have hsep : noSep rest = true := by
    unfold functionFollow at h
    split at h
    · cases h
    · exact h
  have hth : ∀ ts, opt listSeparator s ++ rest = .kw .THROWS :: ts → False := by
    intro ts he
    cases s with
    | none => cases he; cases h
    | some s => cases s <;> cases he
  simp only [function, List.length_append, List.length_cons, List.length_nil] at hn
  have e : function ⟨o, t, x, ps, th, s⟩ ++ rest = (if o then [.kw .ONEWAY] else []) ++ (functionType t ++ (.IDENTIFIER x :: .kw .LPAREN ::
      (many field ps ++ .kw .RPAREN :: (opt throwsList th ++ (opt listSeparator s ++ rest))))) := by simp [function]
  rw [e]
  have h1 : ∀ ws, pOneway ((if o then [.kw .ONEWAY] else []) ++ (functionType t ++ ws)) = (o, functionType t ++ ws) := by
    intro ws
    cases o with
    | true => rfl
    | false =>
      cases t with
      | none => rfl
      | some t =>
        obtain ⟨a, us, ht, ha⟩ := type_first t
        show pOneway (fieldType t ++ ws) = (false, fieldType t ++ ws)
        rw [ht]
        cases a with
        | kw k => cases k <;> first | rfl | cases ha
        | _ => rfl
  have h2 : ∀ ws, pFunctionType n (functionType t ++ ws) = some (t, ws) := by
    intro ws
    cases t with
    | none => rfl
    | some t =>
      obtain ⟨a, us, ht, ha⟩ := type_first t
      have hne : ∀ ts, functionType (some t) ++ ws = .kw .VOID :: ts → False := by
        intro ts he
        rw [functionType, ht] at he; cases he; cases ha
      rw [pFunctionType.eq_2 _ _ hne]
      simp only [functionType] at *
      simp [pType_complete t n ws (by omega)]
  have h3 := fields_complete .RPAREN (.inl rfl) n ps (opt throwsList th ++ (opt listSeparator s ++ rest)) (by omega)
  have h4 := pThrows_complete th (n := n) (rest := opt listSeparator s ++ rest) (by omega) hth
  have h5 := pSep_complete s hsep
  simp [pFunction, h1, h2, h3, h4, h5, pIdent, expect_self]

theorem functions_complete (n : Nat) (fs : List PFunction) (rest : List Tok) (h : (many function fs).length + 1 ≤ n) :
    manyUntil (.kw .RBRACE) (pFunction n) n (many function fs ++ .kw .RBRACE :: rest) = some (fs, rest) := by
  refine manyUntil_complete (F := functionFollow) (n := n) (pFunction_complete n) ?_ (fun _ => rfl) rest fs n (by omega) h
  intro f
  obtain ⟨t, us, e, ht⟩ := function_first f
  refine ⟨t, us, e, ?_, functionFollow_start ht⟩
  rintro rfl
  cases ht

theorem pBody_fields (n : Nat) (x : List Char) (fs : List PField) (rest : List Tok) (h : (many field fs).length + 1 ≤ n) :
    pBody (pField n) n (.IDENTIFIER x :: .kw .LBRACE :: (many field fs ++ .kw .RBRACE :: rest)) = some (x, fs, rest) := by
  simp [pBody, pIdent, expect_self, fields_complete .RBRACE (.inr rfl) n fs rest h]

theorem pBody_enum (n : Nat) (x : List Char) (fs : List PEnumField) (rest : List Tok) (h : (many enumField fs).length + 1 ≤ n) :
    pBody pEnumField n (.IDENTIFIER x :: .kw .LBRACE :: (many enumField fs ++ .kw .RBRACE :: rest)) = some (x, fs, rest) := by
  have : manyUntil (.kw .RBRACE) pEnumField n (many enumField fs ++ .kw .RBRACE :: rest) = some (fs, rest) :=
    manyUntil_complete (F := noSep) (n := n) (fun a r _ => pEnumField_complete a r) (fun f => ⟨_, _, rfl, by simp, fun _ => rfl⟩) (fun _ => rfl) rest fs n (by omega) h
  simp [pBody, pIdent, expect_self, this]

theorem pDefinition_complete (n : Nat) (d : PDef) (rest : List Tok) (hn : (definition d).length ≤ n) (h : noSep rest = true) :
    pDefinition n (definition d ++ rest) = some (d, rest) := by
  cases d with
  | const t x v s =>
    simp only [definition, List.length_append, List.length_cons, List.length_nil] at hn
    have h1 : ∀ ws, pType n (fieldType t ++ ws) = some (t, ws) := fun ws => pType_complete t n ws (by omega)
    have h2 : ∀ ws, pConst n (constValue v ++ ws) = some (v, ws) := fun ws => pConst_complete v n ws (by omega)
    simp [definition, pDefinition, h1, h2, pIdent, expect_self, pSep_complete s h]
  | typedef t x =>
    simp only [definition, List.length_append, List.length_cons, List.length_nil] at hn
    have h1 : ∀ ws, pType n (fieldType t ++ ws) = some (t, ws) := fun ws => pType_complete t n ws (by omega)
    simp [definition, pDefinition, h1, pIdent]
  | enum x fs =>
    simp only [definition, List.length_append, List.length_cons, List.length_nil] at hn
    simp [definition, pDefinition, pBody_enum n x fs rest (by omega)]
  | struct x fs =>
    simp only [definition, List.length_append, List.length_cons, List.length_nil] at hn
    simp [definition, pDefinition, pBody_fields n x fs rest (by omega)]
  | union x fs =>
    simp only [definition, List.length_append, List.length_cons, List.length_nil] at hn
    simp [definition, pDefinition, pBody_fields n x fs rest (by omega)]
  | exception x fs =>
    simp only [definition, List.length_append, List.length_cons, List.length_nil] at hn
    simp [definition, pDefinition, pBody_fields n x fs rest (by omega)]
  | service x e fs =>
    simp only [definition, List.length_append, List.length_cons, List.length_nil] at hn
    have h1 : ∀ ws, pExtends (opt (fun b => [.kw .EXTENDS, .IDENTIFIER b]) e ++ .kw .LBRACE :: ws) = some (e, .kw .LBRACE :: ws) := by
      intro ws; cases e <;> rfl
    simp [definition, pDefinition, pIdent, h1, expect_self, functions_complete n fs rest (by omega)]

theorem definition_first (d : PDef) : ∃ t us, definition d = t :: us ∧ definitionStart t = true := by
  cases d <;> exact ⟨_, _, rfl, rfl⟩

theorem pDefinitions_complete (n : Nat) : ∀ (ds : List PDef) (m : Nat), (many definition ds).length ≤ n → (many definition ds).length ≤ m →
    pDefinitions n m (many definition ds) = some ds
  | [], m, _, _ => by cases m <;> rfl
  | d :: ds, m, hn, hm => by
    obtain ⟨t, us, hd, ht⟩ := definition_first d
    have e : many definition (d :: ds) = definition d ++ many definition ds := by simp [many]
    have hl : (many definition (d :: ds)).length = (definition d).length + (many definition ds).length := by simp [many]
    have hl1 : 1 ≤ (definition d).length := by rw [hd]; simp
    cases m with
    | zero => omega
    | succ m =>
      have hfo : noSep (many definition ds) = true := by
        cases ds with
        | nil => rfl
        | cons c cs =>
          obtain ⟨t2, us2, hc, ht2⟩ := definition_first c
          simp only [many, List.map_cons, List.flatten_cons, hc, List.cons_append]
          cases t2 with
          | kw k => cases k <;> first | rfl | cases ht2
          | COMMA => cases ht2
          | _ => rfl
      have h1 := pDefinition_complete n d (many definition ds) (by omega) hfo
      have h2 := pDefinitions_complete n ds m (by omega) (by omega)
      rw [e, hd, List.cons_append, pDefinitions]
      rw [hd, List.cons_append] at h1
      simp [h1, h2]

theorem pHeaders_complete : ∀ (hs : List PHeader) (ds : List PDef), pHeaders (many header hs ++ many definition ds) = some (hs, many definition ds)
  | [], [] => rfl
  | [], d :: ds => by cases d <;> rfl
  | .include t :: hs, ds => by
    have := pHeaders_complete hs ds
    simp only [many] at this
    simp [many, header, pHeaders, this]
  | .cppInclude t :: hs, ds => by
    have := pHeaders_complete hs ds
    simp only [many] at this
    simp [many, header, pHeaders, this]
  | .namespace none x :: hs, ds => by
    have := pHeaders_complete hs ds
    simp only [many] at this
    simp [many, header, pHeaders, this]
  | .namespace (some l) x :: hs, ds => by
    have := pHeaders_complete hs ds
    simp only [many] at this
    simp [many, header, pHeaders, this]

theorem parse_complete (d : PDoc) : parse (document d) = some d := by
  obtain ⟨hs, ds⟩ := d
  have h2 := pDefinitions_complete ((many definition ds).length + 1) ds (many definition ds).length (by omega) (Nat.le_refl _)
  simp [parse, document, pHeaders_complete, h2]

end CT.Gen.Spec
