import Verif.Spec.RustCode
import Verif.Model.MacroTable
/-! # Expansion of the macros of macros.rs on arbitrary arguments -/
namespace CT.Rust
open CT CT.Rust.Spec

/-! ## Matching -/

theorem ofTTs_append (a b : List Macro.TT) : ofTTs (a ++ b) = ofTTs a ++ ofTTs b := by
  induction a with
  | nil => rfl
  | cons t a ih => simp only [List.cons_append, ofTTs, ih]

theorem ofTTs_length (a : List Macro.TT) : (ofTTs a).length = a.length := by
  induction a with
  | nil => rfl
  | cons t a ih => simp only [ofTTs, List.length_cons, ih]

/-- `#[$($x:meta)*]` -/
def attrP (x : List Char) : List P := [.tok (.op ['#']), .group .bracket [.rep [.var x .meta_] false]]

/-- What the variable stands for in one attribute -/
def metas (a : List Tree) : List B := if a.isEmpty then [] else [.leaf a]

theorem many_nil {m : List Tree → Option (Binds × List Tree)} (h : m [] = none) (n : Nat) : many m n [] = ([], []) := by
  cases n <;> simp [many, h]

theorem matchPs_cons {p : P} {ps : List P} {ts ts' : List Tree} {e : Binds} (h : matchP p ts = some (e, ts')) :
    matchPs (p :: ps) ts = (matchPs ps ts').map fun r => (e ++ r.1, r.2) := by
  rw [matchPs, h]; rfl

theorem matchPs_nil (ts : List Tree) : matchPs [] ts = some ([], ts) := by rw [matchPs]

theorem matchP_group {d : Delim} {ps : List P} {us ts : List Tree} {e : Binds} (h : matchPs ps us = some (e, [])) :
    matchP (.group d ps) (.group d us :: ts) = some (e, ts) := by
  rw [matchP]; simp [h]

theorem matchP_tok (t : Tok) (o : Bool) (ts : List Tree) : matchP (.tok t) (.tok t o :: ts) = some ([], ts) := by
  rw [matchP]; simp

theorem matchP_var {x : List Char} {f : Frag} {ts us ts' : List Tree} (h : frag f ts = some (us, ts')) : matchP (.var x f) ts = some ([(x, .leaf us)], ts') := by
  rw [matchP]; simp [h]

theorem matchP_rep (ps : List P) (one : Bool) (ts : List Tree) :
    matchP (.rep ps one) ts = some (columns (varsOf ps) (many (matchPs ps) (if one then 1 else ts.length) ts).1, (many (matchPs ps) (if one then 1 else ts.length) ts).2) := by
  rw [matchP]

theorem match_metas (x : List Char) (a : List Tree) : matchPs [.rep [.var x .meta_] false] a = some ([(x, .seq (metas a))], []) := by
  have hn : matchPs [.var x .meta_] [] = none := rfl
  rw [matchPs_cons (matchP_rep _ _ _), matchPs_nil]
  cases a with
  | nil => rfl
  | cons t a =>
    have h1 : matchPs [.var x .meta_] (t :: a) = some ([(x, .leaf (t :: a))], []) := rfl
    have h2 : many (matchPs [.var x .meta_]) (t :: a).length (t :: a) = ([[(x, .leaf (t :: a))]], []) := by
      simp only [many, List.length_cons, h1, many_nil hn]
    simp only [Bool.false_eq_true, if_false]
    rw [h2]
    simp [columns, varsOf, P.vars, look, metas]

theorem match_attr (x : List Char) (o : Bool) (a rest : List Tree) :
    matchPs (attrP x) (.tok (.op ['#']) o :: .group .bracket a :: rest) = some ([(x, .seq (metas a))], rest) := by
  rw [attrP, matchPs_cons (matchP_tok _ _ _), matchPs_cons (matchP_group (match_metas x a)), matchPs_nil]; rfl

/-- A tree that begins no attribute. -/
def noAttr : List Tree → Bool
  | .tok (.op ['#']) _ :: _ => false
  | _ => true

theorem match_noAttr (x : List Char) {ts : List Tree} (h : noAttr ts = true) : matchPs (attrP x) ts = none := by
  cases ts with
  | nil => rfl
  | cons t ts =>
    cases t with
    | tok t o =>
      by_cases ht : t = .op ['#']
      · subst ht; simp [noAttr] at h
      · have : matchP (.tok (.op ['#'])) (.tok t o :: ts) = none := by rw [matchP, if_neg fun e => ht e.symm]
        rw [attrP, matchPs, this]; rfl
    | _ => rfl

theorem many_attrs (x : List Char) (o : Bool) {rest : List Tree} (h : noAttr rest = true) : ∀ (attrs : List (List Macro.TT)) (n : Nat), attrs.length ≤ n →
    many (matchPs (attrP x)) n (ofAttrs o attrs ++ rest) = (attrs.map fun a => [(x, .seq (metas (ofTTs a)))], rest) := by
  intro attrs
  induction attrs with
  | nil =>
    intro n _
    simp only [ofAttrs, List.map_nil, List.flatten_nil, List.nil_append]
    cases n <;> simp [many, match_noAttr x h]
  | cons a attrs ih =>
    intro n hn
    cases n with
    | zero => simp at hn
    | succ n =>
      have := ih n (by simpa using hn)
      simp only [ofAttrs] at this
      simp [ofAttrs, many, match_attr, this]

theorem ofAttrs_length (o : Bool) (attrs : List (List Macro.TT)) : (ofAttrs o attrs).length = 2 * attrs.length := by
  induction attrs with
  | nil => rfl
  | cons a attrs ih => simp only [ofAttrs, List.map_cons, List.flatten_cons, List.length_append, List.length_cons, List.length_nil] at ih ⊢; omega

/-- What the repetition stands for -/
def attrSeq (attrs : List (List Macro.TT)) : B := .seq (attrs.map fun a => .seq (metas (ofTTs a)))

theorem match_attrs (x : List Char) (o : Bool) {rest : List Tree} (h : noAttr rest = true) (attrs : List (List Macro.TT)) :
    matchP (.rep (attrP x) false) (ofAttrs o attrs ++ rest) = some ([(x, attrSeq attrs)], rest) := by
  simp only [matchP, Bool.false_eq_true, if_false]
  rw [many_attrs x o h attrs _ (by rw [List.length_append, ofAttrs_length]; omega)]
  simp [columns, attrP, varsOf, P.vars, attrSeq, look]

theorem skipAttrs_eq : ∀ ts : List Macro.TT, ∃ attrs, ofTTs ts = ofAttrs false attrs ++ ofTTs (Macro.skipAttrs ts)
  | [] => ⟨[], rfl⟩
  | [t] => ⟨[], by cases t <;> simp [Macro.skipAttrs, ofAttrs]⟩
  | t :: u :: ts => by
    by_cases h : ∃ us, t = .punct '#' ∧ u = .group .bracket us
    · obtain ⟨us, rfl, rfl⟩ := h
      obtain ⟨attrs, ha⟩ := skipAttrs_eq ts
      exact ⟨us :: attrs, by simp [Macro.skipAttrs, ofTTs, ofTT, ofAttrs, ha, ofDelim] at ha ⊢⟩
    · refine ⟨[], ?_⟩
      have : Macro.skipAttrs (t :: u :: ts) = t :: u :: ts := by
        unfold Macro.skipAttrs
        split
        · rename_i heq; injection heq with h1 h2; injection h2 with h2 h3; exact absurd ⟨_, h1, h2⟩ h
        · rfl
      rw [this]; rfl

/-- A literal -/
theorem frag_literal {ts rest : List Macro.TT} {l : Macro.Literal} (h : Macro.literal ts = some (l, rest)) :
    ∃ us, frag .literal (ofTTs ts) = some (us, ofTTs rest) ∧ (l ≠ .other → us = ofLiteral l) ∧ noAttr (ofTTs ts) = true := by
  unfold Macro.literal at h
  split at h
  · cases h; exact ⟨_, rfl, fun _ => rfl, rfl⟩
  · cases h; exact ⟨_, rfl, fun h => absurd rfl h, rfl⟩
  · cases h; exact ⟨_, rfl, fun h => absurd rfl h, rfl⟩
  · cases h; exact ⟨_, rfl, fun _ => rfl, rfl⟩
  · cases h; exact ⟨_, rfl, fun h => absurd rfl h, rfl⟩
  · split at h
    · rename_i s ts hs
      cases h
      refine ⟨[ident s], ?_, fun h => absurd rfl h, rfl⟩
      have : s.toList = text! "true" ∨ s.toList = text! "false" := by rcases hs with rfl | rfl <;> decide
      simp [ofTTs, ofTT, ident, frag, this]
    · cases h
  · cases h


/-! ## Fields -/

theorem matchPs_none {p : P} {ps : List P} {ts : List Tree} (h : matchP p ts = none) : matchPs (p :: ps) ts = none := by
  rw [matchPs, h]; rfl

/-- The repeated part of the pattern of `thrift_struct!` -/
def pField : List P := match pThriftStruct with | [_, _, _, .group _ [.rep ps _]] => ps | _ => []

/-- The optional parts of a pattern: absent -/
theorem opt_none {ps : List P} {ts : List Tree} (h : matchPs ps ts = none) :
    matchP (.rep ps true) ts = some (columns (varsOf ps) [], ts) := by
  rw [matchP_rep]; simp [many, h]

/-- … and present -/
theorem opt_some {ps : List P} {ts ts' : List Tree} {e : Binds} (h : matchPs ps ts = some (e, ts')) :
    matchP (.rep ps true) ts = some (columns (varsOf ps) [e], ts') := by
  rw [matchP_rep]; simp [many, h]

/-- What one field is bound to -/
def fieldBinds (r : List (List Macro.TT) × List B × Macro.FieldSyn) : Binds :=
  [(text! "field_attrs", attrSeq r.1), (text! "field_id", .leaf (ofLiteral r.2.2.id)), (text! "required_or_optional", .leaf [ident r.2.2.req]),
   (text! "field_type", .leaf [ident r.2.2.ty]), (text! "element_type", .seq (r.2.2.elem.toList.map fun e => .leaf [ident e])),
   (text! "field_name", .leaf [ident r.2.2.name]), (text! "default_value", .seq r.2.1)]

theorem match_type {ts rest : List Macro.TT} {ty : String} {elem : Option String} {name : String} (h : Macro.typeAndName ts = some (ty, elem, name, rest)) :
    ∃ mid mid', frag .ident (ofTTs ts) = some ([ident ty], mid) ∧
      matchP (.rep [.tok (.op ['<']), .var (text! "element_type") .ident, .tok (.op ['>'])] true) mid =
        some ([(text! "element_type", .seq (elem.toList.map fun e => .leaf [ident e]))], mid') ∧
      frag .ident mid' = some ([ident name], ofTTs rest) := by
  unfold Macro.typeAndName at h
  split at h
  · cases h; exact ⟨_, _, rfl, rfl, rfl⟩
  · cases h; exact ⟨_, _, rfl, rfl, rfl⟩
  · cases h

theorem match_default {ts rest : List Macro.TT} (h : Macro.skipDefault ts = some rest) :
    ∃ dv, matchP (.rep [.tok (.op ['=']), .var (text! "default_value") .literal] true) (ofTTs ts) = some ([(text! "default_value", .seq dv)], ofTTs rest) := by
  unfold Macro.skipDefault at h
  split at h
  · rename_i ts
    cases hl : Macro.literal ts with
    | none => rw [hl] at h; cases h
    | some lr =>
      obtain ⟨l, r⟩ := lr
      rw [hl] at h; cases h
      obtain ⟨us, hf, -, -⟩ := frag_literal hl
      refine ⟨[.leaf us], ?_⟩
      have : matchPs [.tok (.op ['=']), .var (text! "default_value") .literal] (ofTTs (.punct '=' :: ts)) = some ([(text! "default_value", .leaf us)], ofTTs r) := by
        rw [show ofTTs (.punct '=' :: ts) = .tok (.op ['=']) false :: ofTTs ts from rfl, matchPs_cons (matchP_tok _ _ _), matchPs_cons (matchP_var hf), matchPs_nil]; rfl
      rw [opt_some this]; rfl
  · rename_i hne
    cases h
    refine ⟨[], ?_⟩
    rw [opt_none]
    · rfl
    · apply matchPs_none
      cases ts with
      | nil => rfl
      | cons t ts =>
        cases t with
        | punct c =>
          have : c ≠ '=' := fun e => hne ts (by rw [e])
          show matchP _ (.tok (.op [c]) false :: _) = none
          rw [matchP, if_neg]
          intro e; injection e with e; injection e with e; exact this e.symm
        | lit l => cases l <;> rfl
        | _ => rfl

theorem match_semi (ts : List Macro.TT) : matchP (.rep [.tok (.op [';'])] true) (ofTTs ts) = some ([], ofTTs (Macro.skipSemi ts)) := by
  unfold Macro.skipSemi
  split
  · rfl
  · rename_i hne
    rw [opt_none]
    · rfl
    · apply matchPs_none
      cases ts with
      | nil => rfl
      | cons t ts =>
        cases t with
        | punct c =>
          have : c ≠ ';' := fun e => hne ts (by rw [e])
          show matchP _ (.tok (.op [c]) false :: _) = none
          rw [matchP, if_neg]
          intro e; injection e with e; injection e with e; exact this e.symm
        | lit l => cases l <;> rfl
        | _ => rfl

theorem noAttr_skip {x : List Char} (attrs : List (List Macro.TT)) {ts ts' : List Macro.TT} (he : ofTTs ts = ofAttrs false attrs ++ ofTTs ts')
    (h : noAttr (ofTTs ts') = true) : matchP (.rep (attrP x) false) (ofTTs ts) = some ([(x, attrSeq attrs)], ofTTs ts') := by
  rw [he, match_attrs x false h]

theorem match_field {ts rest : List Macro.TT} {f : Macro.FieldSyn} (h : Macro.structField ts = some (f, rest)) (hid : f.id ≠ .other) :
    ∃ a dv, matchPs pField (ofTTs ts) = some (fieldBinds (a, dv, f), ofTTs rest) := by
  obtain ⟨attrs, ha⟩ := skipAttrs_eq ts
  unfold Macro.structField at h
  split at h
  · rename_i id req us hl
    split at h
    · rename_i ty e name vs ht
      cases hd : Macro.skipDefault vs with
      | none => rw [hd] at h; cases h
      | some ws =>
        rw [hd] at h; cases h
        obtain ⟨lit, hf, hlit, hn⟩ := frag_literal hl
        have := hlit hid
        subst this
        obtain ⟨mid, mid', h1, h2, h3⟩ := match_type ht
        obtain ⟨dv, h4⟩ := match_default hd
        refine ⟨attrs, dv, ?_⟩
        have step : matchPs pField (ofTTs ts) = _ := matchPs_cons (noAttr_skip attrs ha hn)
        rw [step, matchPs_cons (matchP_var hf), show ofTTs (.punct ':' :: .ident req :: us) = .tok (.op [':']) false :: ident req :: ofTTs us from rfl,
          matchPs_cons (matchP_tok _ _ _), matchPs_cons (matchP_var (us := [ident req]) (ts' := ofTTs us) rfl), matchPs_cons (matchP_var h1), matchPs_cons h2,
          matchPs_cons (matchP_var h3), matchPs_cons h4, matchPs_cons (match_semi _), matchPs_nil]
        rfl
    · cases h
  · cases h

/-- Patterns repeated: whatever a matcher of `Model/Macros.lean` accepts, the pattern accepts. -/
theorem match_repeated {α ρ : Type} {p : List Macro.TT → Option (α × List Macro.TT)} {ps : List P} {good : α → Prop} {syn : ρ → α} {binds : ρ → Binds}
    (hp : ∀ ts a rest, p ts = some (a, rest) → good a → ∃ r, syn r = a ∧ matchPs ps (ofTTs ts) = some (binds r, ofTTs rest))
    (hn : matchPs ps [] = none) :
    ∀ (n : Nat) (ts : List Macro.TT) (as : List α) (N : Nat), Macro.repeated p n ts = some as → (∀ a ∈ as, good a) → n ≤ N →
      ∃ rs : List ρ, rs.map syn = as ∧ many (matchPs ps) N (ofTTs ts) = (rs.map binds, []) := by
  intro n
  induction n with
  | zero =>
    intro ts as N h _ _
    cases ts with
    | nil => cases h; exact ⟨[], rfl, many_nil hn N⟩
    | cons t ts => cases h
  | succ n ih =>
    intro ts as N h hg hN
    cases ts with
    | nil => cases h; exact ⟨[], rfl, many_nil hn N⟩
    | cons t ts =>
      rw [Macro.repeated] at h
      cases hq : p (t :: ts) with
      | none => rw [hq] at h; cases h
      | some ar =>
        obtain ⟨a, rest⟩ := ar
        rw [hq] at h
        cases hr : Macro.repeated p n rest with
        | none => simp [hr] at h
        | some as' =>
          simp [hr] at h
          subst h
          obtain ⟨r, h1, h2⟩ := hp _ _ _ hq (hg a (by simp))
          obtain ⟨N, rfl⟩ : ∃ M, N = M + 1 := ⟨N - 1, by omega⟩
          obtain ⟨rs, h3, h4⟩ := ih rest as' N hr (fun a ha => hg a (by simp [ha])) (by omega)
          refine ⟨r :: rs, by simp [h1, h3], ?_⟩
          rw [many, h2]
          simp [h4]

theorem match_fields {body : List Macro.TT} {fs : List Macro.FieldSyn} (h : Macro.repeated Macro.structField body.length body = some fs) (hid : ∀ f ∈ fs, f.id ≠ .other) :
    ∃ rs : List (List (List Macro.TT) × List B × Macro.FieldSyn), rs.map (·.2.2) = fs ∧
      matchPs [.rep pField false] (ofTTs body) = some (columns (varsOf pField) (rs.map fieldBinds), []) := by
  obtain ⟨rs, h1, h2⟩ := match_repeated (p := Macro.structField) (ps := pField) (good := fun f => f.id ≠ .other) (syn := fun r => r.2.2) (binds := fieldBinds)
    (fun ts a rest h hg => by obtain ⟨x, y, h⟩ := match_field h hg; exact ⟨(x, y, a), rfl, h⟩) rfl body.length body fs (ofTTs body).length h hid (by rw [ofTTs_length]; exact Nat.le_refl _)
  refine ⟨rs, h1, ?_⟩
  rw [matchPs_cons (matchP_rep _ _ _), matchPs_nil]
  simp [h2]

/-- The bindings of `thrift_struct!` -/
def structBinds (attrs : List (List Macro.TT)) (name : String) (rs : List (List (List Macro.TT) × List B × Macro.FieldSyn)) : Binds :=
  [(text! "def_attrs", attrSeq attrs), (text! "identifier", .leaf [ident name]),
   (text! "field_attrs", .seq (rs.map fun r => attrSeq r.1)), (text! "field_id", .seq (rs.map fun r => .leaf (ofLiteral r.2.2.id))),
   (text! "required_or_optional", .seq (rs.map fun r => .leaf [ident r.2.2.req])),
   (text! "field_type", .seq (rs.map fun r => .leaf [ident r.2.2.ty])), (text! "element_type", .seq (rs.map fun r => .seq (r.2.2.elem.toList.map fun e => .leaf [ident e]))),
   (text! "field_name", .seq (rs.map fun r => .leaf [ident r.2.2.name])), (text! "default_value", .seq (rs.map fun r => .seq r.2.1))]

theorem match_struct {body : List Macro.TT} {fs : List Macro.FieldSyn} (h : Macro.repeated Macro.structField body.length body = some fs) (hid : ∀ f ∈ fs, f.id ≠ .other)
    (o : Bool) (attrs : List (List Macro.TT)) (name : String) :
    ∃ rs : List (List (List Macro.TT) × List B × Macro.FieldSyn), rs.map (·.2.2) = fs ∧
      matchPs pThriftStruct (definition o attrs (text! "struct") name body) = some (structBinds attrs name rs, []) := by
  obtain ⟨rs, h1, h2⟩ := match_fields h hid
  refine ⟨rs, h1, ?_⟩
  have hP : pThriftStruct = [.rep (attrP (text! "def_attrs")) false, .tok (.ident false (text! "struct")), .var (text! "identifier") .ident, .group .brace [.rep pField false]] := rfl
  rw [definition, hP, matchPs_cons (match_attrs _ o rfl attrs), matchPs_cons (matchP_tok _ _ _),
    matchPs_cons (matchP_var (us := [ident name]) (ts' := [.group .brace (ofTTs body)]) rfl), matchPs_cons (matchP_group h2), matchPs_nil]
  simp only [columns, List.map_map]
  rfl

/-! ## Transcribing -/

theorem transcribe1_rep {call : List Char → List Tree → List Tree} {e : Binds} {ts : List T} {sep : Option Tok} {ρ : Type} {rs : List ρ} {g : ρ → List Tree}
    (ht : times e (usedIn ts) = some rs.length) (hr : ∀ i r, rs[i]? = some r → transcribe call (row e i) ts = g r) :
    transcribe1 call e (.rep ts sep) = joinWith sep (rs.map g) := by
  rw [transcribe1, ht]
  have : (List.range rs.length).map (fun i => transcribe call (row e i) ts) = rs.map g := by
    apply List.ext_getElem?
    intro i
    by_cases hi : i < rs.length
    · simp [hi, hr i rs[i] (by simp [hi])]
    · simp [hi]
  simp only [this]

theorem joinWith_none (xs : List (List Tree)) : joinWith none xs = xs.flatten := by
  induction xs with
  | nil => rfl
  | cons a xs ih =>
    cases xs with
    | nil => simp [joinWith]
    | cons b xs => rw [joinWith, ih]; simp

theorem t_tok (call : List Char → List Tree → List Tree) (e : Binds) (t : Tok) : transcribe1 call e (.tok t) = [.tok t true] := by rw [transcribe1]
theorem t_crate (call : List Char → List Tree → List Tree) (e : Binds) : transcribe1 call e .crate = [.tok .crate true] := by rw [transcribe1]
theorem t_group (call : List Char → List Tree → List Tree) (e : Binds) (d : Delim) (ts : List T) : transcribe1 call e (.group d ts) = [.group d (transcribe call e ts)] := by rw [transcribe1]
theorem t_call (call : List Char → List Tree → List Tree) (e : Binds) (x : List Char) (ts : List T) : transcribe1 call e (.call x ts) = call x (transcribe call e ts) := by rw [transcribe1]
theorem t_leaf {call : List Char → List Tree → List Tree} {e : Binds} {x : List Char} {us : List Tree} (h : look x e = some (.leaf us)) : transcribe1 call e (.var x) = us := by
  rw [transcribe1, h]
theorem t_nil (call : List Char → List Tree → List Tree) (e : Binds) : transcribe call e [] = [] := by rw [transcribe]
theorem t_cons (call : List Char → List Tree → List Tree) (e : Binds) (t : T) (ts : List T) : transcribe call e (t :: ts) = transcribe1 call e t ++ transcribe call e ts := by rw [transcribe]

/-- A variable in a repetition of its own -/
theorem times_one {e : Binds} {x : List Char} {bs : List B} (h : look x e = some (.seq bs)) : times e [x] = some bs.length := by
  simp [times, h]

theorem look_row {x : List Char} {e : Binds} {bs : List B} {b : B} {i : Nat} (h : look x e = some (.seq bs)) (hb : bs[i]? = some b) : look x (row e i) = some b := by
  induction e with
  | nil => cases h
  | cons p e ih =>
    obtain ⟨y, c⟩ := p
    simp only [row, List.map_cons, look] at h ih ⊢
    split at h
    · rename_i hx; cases h; rw [if_pos hx]; simp [hb]
    · rename_i hx; rw [if_neg hx]; exact ih h

/-- `$($x)*` for attributes -/
theorem t_metas {call : List Char → List Tree → List Tree} {e : Binds} {x : List Char} {a : List Tree} (h : look x e = some (.seq (metas a))) :
    transcribe1 call e (.rep [.var x] none) = a := by
  cases a with
  | nil =>
    rw [transcribe1_rep (rs := ([] : List Unit)) (g := fun _ => []) (times_one h) (by simp)]; rfl
  | cons t a =>
    rw [transcribe1_rep (rs := [()]) (g := fun _ => t :: a) (times_one h)]
    · rfl
    · intro i r hi
      have hi0 : i = 0 := by cases i with | zero => rfl | succ i => simp at hi
      subst hi0
      rw [t_cons, t_leaf (look_row h rfl), t_nil]; simp

/-- `#[cfg_attr(not(doctest), $($x)*)]` for all attributes -/
theorem t_docs {call : List Char → List Tree → List Tree} {e : Binds} {x : List Char} {attrs : List (List Macro.TT)} (h : look x e = some (attrSeq attrs)) :
    transcribe1 call e (.rep [.tok (.op ['#']), .group .bracket [.tok (.ident false (text! "cfg_attr")), .group .paren [.tok (.ident false (text! "not")),
      .group .paren [.tok (.ident false (text! "doctest"))], .tok (.op [',']), .rep [.var x] none]]] none) = docs (attrs.map ofTTs) := by
  rw [transcribe1_rep (rs := attrs) (g := fun a => code (text! "#") ++ group .bracket (code (text! "cfg_attr") ++ group .paren (code (text! "not(doctest),") ++ ofTTs a)))
    (by have := times_one h; simpa [usedIn, T.vars] using this), joinWith_none]
  · simp [docs, Function.comp_def]
  · intro i a hi
    have : look x (row e i) = some (.seq (metas (ofTTs a))) := look_row h (by simp [hi])
    simp only [t_cons, t_tok, t_group, t_nil, t_metas this, List.append_nil]
    rfl

/-- `#[$($x)*]` for all attributes -/
theorem t_attrs {call : List Char → List Tree → List Tree} {e : Binds} {x : List Char} {attrs : List (List Macro.TT)} (h : look x e = some (attrSeq attrs)) :
    transcribe1 call e (.rep [.tok (.op ['#']), .group .bracket [.rep [.var x] none]] none) = (attrs.map fun a => code (text! "#") ++ group .bracket (ofTTs a)).flatten := by
  rw [transcribe1_rep (rs := attrs) (g := fun a => code (text! "#") ++ group .bracket (ofTTs a)) (by have := times_one h; simpa [usedIn, T.vars] using this), joinWith_none]
  intro i a hi
  have : look x (row e i) = some (.seq (metas (ofTTs a))) := look_row h (by simp [hi])
  simp only [t_cons, t_tok, t_group, t_nil, t_metas this, List.append_nil]
  rfl

/-- `$($element_type)*` -/
theorem t_elem {call : List Char → List Tree → List Tree} {e : Binds} {x : List Char} {o : Option String} (h : look x e = some (.seq (o.toList.map fun e => .leaf [ident e]))) :
    transcribe1 call e (.rep [.var x] none) = o.toList.map ident := by
  rw [transcribe1_rep (rs := o.toList) (g := fun s => [ident s]) (by have := times_one h; simpa [usedIn, T.vars] using this), joinWith_none]
  · cases o <;> rfl
  · intro i a hi
    rw [t_cons, t_leaf (look_row (b := .leaf [ident a]) h (by simp [hi])), t_nil]; rfl

/-! ## The helper macros -/

theorem ident_eq {s w : String} {cs : List Char} (hw : w.toList = cs) (h : s = w) : ident s = .tok (.ident false cs) false := by rw [ident, h, hw]

theorem tok_ne {s w : String} {cs : List Char} {ps : List P} {ts : List Tree} (hw : w.toList = cs) (h : s ≠ w) :
    matchPs (.tok (.ident false cs) :: ps) (ident s :: ts) = none := by
  apply matchPs_none
  rw [ident, matchP, if_neg]
  intro e
  injection e with _ e
  exact h (String.toList_injective (e.symm.trans hw.symm))

theorem use_none {call : List Char → List Tree → List Tree} {args : List Tree} {p : List P} {t : List T} {rs : Rules} (h : matchPs p args = none) :
    useRule call args ((p, t) :: rs) = useRule call args rs := by rw [useRule, h]

theorem expand_type1 (n : Nat) (s : String) : expandMacro macroTable (n + 1) (text! "__thrift_field_type") [ident s] = typeCode1 s := by
  have step : expandMacro macroTable (n + 1) (text! "__thrift_field_type") [ident s] = useRule (expandMacro macroTable n) [ident s] rulesThriftFieldType := rfl
  rw [step, rulesThriftFieldType]
  by_cases h0 : s = "list"
  · subst h0; rfl
  rw [use_none (p := pThriftFieldType0) (tok_ne (w := "list") (by decide) h0)]
  by_cases h1 : s = "set"
  · subst h1; rfl
  rw [use_none (p := pThriftFieldType1) (tok_ne (w := "set") (by decide) h1)]
  by_cases h2 : s = "binary"
  · subst h2; rfl
  rw [use_none (p := pThriftFieldType2) (tok_ne (w := "binary") (by decide) h2)]
  by_cases h3 : s = "string"
  · subst h3; rfl
  rw [use_none (p := pThriftFieldType3) (tok_ne (w := "string") (by decide) h3)]
  by_cases h4 : s = "byte"
  · subst h4; rfl
  rw [use_none (p := pThriftFieldType4) (tok_ne (w := "byte") (by decide) h4)]
  by_cases h5 : s = "double"
  · subst h5; rfl
  rw [use_none (p := pThriftFieldType5) (tok_ne (w := "double") (by decide) h5), typeCode1, if_neg h2, if_neg h3, if_neg h4, if_neg h5]
  rfl

theorem use_left {call : List Char → List Tree → List Tree} {args : List Tree} {p : List P} {t : List T} {rs : Rules} {e : Binds} {u : Tree} {us : List Tree}
    (h : matchPs p args = some (e, u :: us)) : useRule call args ((p, t) :: rs) = useRule call args rs := by rw [useRule, h]

/-- The type as the rules read it -/
theorem expand_type2 (n : Nat) (s e : String) : expandMacro macroTable (n + 2) (text! "__thrift_field_type") [ident s, ident e] = typeCode s (some e) := by
  have step : expandMacro macroTable (n + 2) (text! "__thrift_field_type") [ident s, ident e] =
    useRule (expandMacro macroTable (n + 1)) [ident s, ident e] rulesThriftFieldType := rfl
  have ht := expand_type1 n e
  rw [step, rulesThriftFieldType]
  by_cases h0 : s = "list"
  · subst h0; rw [show typeCode "list" (some e) = code (text! "Vec<") ++ typeCode1 e ++ code (text! ">") from rfl, ← ht]; rfl
  rw [use_none (p := pThriftFieldType0) (tok_ne (w := "list") (by decide) h0)]
  by_cases h1 : s = "set"
  · subst h1; rw [show typeCode "set" (some e) = code (text! "Vec<") ++ typeCode1 e ++ code (text! ">") from rfl, ← ht]; rfl
  rw [use_none (p := pThriftFieldType1) (tok_ne (w := "set") (by decide) h1)]
  by_cases h2 : s = "binary"
  · subst h2; rfl
  rw [use_none (p := pThriftFieldType2) (tok_ne (w := "binary") (by decide) h2)]
  by_cases h3 : s = "string"
  · subst h3; rfl
  rw [use_none (p := pThriftFieldType3) (tok_ne (w := "string") (by decide) h3)]
  by_cases h4 : s = "byte"
  · subst h4; rfl
  rw [use_none (p := pThriftFieldType4) (tok_ne (w := "byte") (by decide) h4)]
  by_cases h5 : s = "double"
  · subst h5; rfl
  rw [use_none (p := pThriftFieldType5) (tok_ne (w := "double") (by decide) h5)]
  rw [use_left (p := pThriftFieldType6) (rfl : matchPs pThriftFieldType6 [ident s, ident e] = some (_, ident e :: []))]
  by_cases h7 : s = "Box"
  · subst h7; rw [show typeCode "Box" (some e) = code (text! "std::boxed::Box<") ++ typeCode1 e ++ code (text! ">") from rfl, ← ht]; rfl
  rw [use_none (p := pThriftFieldType7) (tok_ne (w := "Box") (by decide) h7)]
  by_cases h8 : s = "Rc"
  · subst h8; rw [show typeCode "Rc" (some e) = code (text! "std::rc::Rc<") ++ typeCode1 e ++ code (text! ">") from rfl, ← ht]; rfl
  rw [use_none (p := pThriftFieldType8) (tok_ne (w := "Rc") (by decide) h8)]
  by_cases h9 : s = "Arc"
  · subst h9; rw [show typeCode "Arc" (some e) = code (text! "std::sync::Arc<") ++ typeCode1 e ++ code (text! ">") from rfl, ← ht]; rfl
  rw [use_none (p := pThriftFieldType9) (tok_ne (w := "Arc") (by decide) h9)]
  rw [typeCode, if_neg (by rintro (h | h); exact h0 h; exact h1 h), if_neg h7, if_neg h8, if_neg h9]
  rfl

theorem expand_type (n : Nat) (s : String) (o : Option String) : expandMacro macroTable (n + 2) (text! "__thrift_field_type") (ident s :: o.toList.map ident) = typeCode s o := by
  cases o with
  | none => exact expand_type1 (n + 1) s
  | some e => exact expand_type2 n s e

theorem path_nil : path [] = some ([], []) := by rw [path]; all_goals simp

theorem frag_type1 (s : String) : frag .ty (typeCode1 s) = some (typeCode1 s, []) := by
  unfold typeCode1
  repeat' split
  all_goals rfl

theorem angle_type1 (s : String) : ∃ us, angle 0 (typeCode1 s ++ code (text! ">")) = some (us, []) ∧ us = typeCode1 s ++ code (text! ">") := by
  unfold typeCode1
  repeat' split
  all_goals exact ⟨_, rfl, rfl⟩

/-- A type is one for the compiler. -/
theorem frag_type {s : String} {o : Option String} {t : Macro.RustTy} (h : Macro.fieldTypeMacro s o = some t) : frag .ty (typeCode s o) = some (typeCode s o, []) := by
  cases o with
  | none => exact frag_type1 s
  | some e =>
    obtain ⟨us, h1, h2⟩ := angle_type1 e
    have key : path (.tok (.op ['<']) true :: (typeCode1 e ++ code (text! ">"))) = some (.tok (.op ['<']) true :: (typeCode1 e ++ code (text! ">")), []) := by
      rw [path, h1, h2]; rfl
    have k2 : ∀ r r' : List Char, path (.tok (.op [':', ':']) true :: .tok (.ident false r) true :: .tok (.op [':', ':']) true :: .tok (.ident false r') true ::
        .tok (.op ['<']) true :: (typeCode1 e ++ code (text! ">"))) = some (.tok (.op [':', ':']) true :: .tok (.ident false r) true :: .tok (.op [':', ':']) true :: .tok (.ident false r') true ::
        .tok (.op ['<']) true :: (typeCode1 e ++ code (text! ">")), []) := by
      intro r r'; rw [path, path, key]; rfl
    unfold Macro.fieldTypeMacro at h
    have hvec : frag .ty (code (text! "Vec<") ++ typeCode1 e ++ code (text! ">")) = some (code (text! "Vec<") ++ typeCode1 e ++ code (text! ">"), []) := by
      show (path (.tok (.op ['<']) true :: (typeCode1 e ++ code (text! ">")))).map _ = _
      rw [key]; rfl
    simp only [typeCode]
    split
    · exact hvec
    · rename_i h0
      split
      · show (path (.tok (.op [':', ':']) true :: .tok (.ident false (text! "boxed")) true :: .tok (.op [':', ':']) true :: .tok (.ident false (text! "Box")) true ::
          .tok (.op ['<']) true :: (typeCode1 e ++ code (text! ">")))).map _ = _
        rw [k2]; rfl
      · rename_i h3
        split
        · show (path (.tok (.op [':', ':']) true :: .tok (.ident false (text! "rc")) true :: .tok (.op [':', ':']) true :: .tok (.ident false (text! "Rc")) true ::
            .tok (.op ['<']) true :: (typeCode1 e ++ code (text! ">")))).map _ = _
          rw [k2]; rfl
        · rename_i h4
          split
          · show (path (.tok (.op [':', ':']) true :: .tok (.ident false (text! "sync")) true :: .tok (.op [':', ':']) true :: .tok (.ident false (text! "Arc")) true ::
              .tok (.op ['<']) true :: (typeCode1 e ++ code (text! ">")))).map _ = _
            rw [k2]; rfl
          · rename_i h5
            simp only [not_or] at h0
            simp [h0, h3, h4, h5] at h

/-- Required or optional -/
theorem expand_required (n : Nat) {ts : List Tree} (ht : frag .ty ts = some (ts, [])) :
    expandMacro macroTable (n + 1) (text! "__thrift_required_or_optional") (ident "required" :: ts) = ts := by
  have step : expandMacro macroTable (n + 1) (text! "__thrift_required_or_optional") (ident "required" :: ts) =
    useRule (expandMacro macroTable n) (ident "required" :: ts) rulesThriftRequiredOrOptional := rfl
  have hm : matchPs pThriftRequiredOrOptional0 (ident "required" :: ts) = some ([(text! "field_type", .leaf ts)], []) := by
    rw [pThriftRequiredOrOptional0, ident_eq (w := "required") (cs := text! "required") (by decide) rfl, matchPs_cons (matchP_tok _ _ _), matchPs_cons (matchP_var ht), matchPs_nil]; rfl
  rw [step, rulesThriftRequiredOrOptional, useRule, hm]
  show ts ++ [] = ts
  simp

theorem expand_optional (n : Nat) {ts : List Tree} (ht : frag .ty ts = some (ts, [])) :
    expandMacro macroTable (n + 1) (text! "__thrift_required_or_optional") (ident "optional" :: ts) = code (text! "Option<") ++ ts ++ code (text! ">") := by
  have step : expandMacro macroTable (n + 1) (text! "__thrift_required_or_optional") (ident "optional" :: ts) =
    useRule (expandMacro macroTable n) (ident "optional" :: ts) rulesThriftRequiredOrOptional := rfl
  have hm : matchPs pThriftRequiredOrOptional1 (ident "optional" :: ts) = some ([(text! "field_type", .leaf ts)], []) := by
    rw [pThriftRequiredOrOptional1, ident_eq (w := "optional") (cs := text! "optional") (by decide) rfl, matchPs_cons (matchP_tok _ _ _), matchPs_cons (matchP_var ht), matchPs_nil]; rfl
  rw [step, rulesThriftRequiredOrOptional, use_none (p := pThriftRequiredOrOptional0) (tok_ne (w := "required") (by decide) (by decide)), useRule, hm]
  rfl

/-! ## Structs -/

/-- A field as matched and the field of the model -/
structure Same (f : Macro.FieldSyn) (g : Field) : Prop where
  name : f.name = g.name
  req : f.req = if g.required then "required" else "optional"
  id : ofLiteral f.id = literal false g.id.toInt
  plain : keywords.contains g.name.toList = false
  ty : frag .ty (typeCode f.ty f.elem) = some (typeCode f.ty f.elem, [])

theorem Same.nameTree {f : Macro.FieldSyn} {g : Field} (h : Same f g) : Spec.name ofMacro g.name = ident f.name := by
  rw [Spec.name, h.plain, h.name]; rfl

theorem expand_fieldType (n : Nat) {f : Macro.FieldSyn} {g : Field} (h : Same f g) :
    expandMacro macroTable (n + 1) (text! "__thrift_required_or_optional") (ident f.req :: typeCode f.ty f.elem) = fieldTypeCode f := by
  unfold fieldTypeCode
  rw [h.req]
  cases g.required with
  | true => exact expand_required n h.ty
  | false => exact expand_optional n h.ty

theorem expand_flag (n : Nat) {f : Macro.FieldSyn} {g : Field} (h : Same f g) :
    expandMacro macroTable (n + 1) (text! "__thrift_required_flag") [ident f.req, ident f.name] =
      stmt ofMacro (if g.required then .letIn (Code.Style.macro.flag g.name) (.bool false) .nop else .nop) := by
  rw [h.req, h.name]
  cases g.required <;> rfl

theorem expand_set (n : Nat) {f : Macro.FieldSyn} {g : Field} (h : Same f g) :
    expandMacro macroTable (n + 1) (text! "__thrift_required_set") [ident f.req, ident f.name] =
      stmt ofMacro (if g.required then .assign (Code.Style.macro.flag g.name) (.bool true) else .nop) := by
  rw [h.req, h.name]
  cases g.required <;> rfl

theorem expand_check (n : Nat) (name : String) {f : Macro.FieldSyn} {g : Field} (h : Same f g) :
    expandMacro macroTable (n + 2) (text! "__thrift_required_check") [ident f.req, ident name, ident f.name] =
      stmt ofMacro (if g.required then .when (.unset (Code.Style.macro.flag g.name)) (.throw (.missingField (name ++ "::" ++ g.name))) else .nop) := by
  rw [h.req, h.name]
  cases g.required with
  | false => rfl
  | true =>
    have hm : ofMacro.message (name ++ "::" ++ g.name) = .str (name.toList ++ (text! "::" ++ (g.name.toList ++ ['\x00']))) := by
      simp [ofMacro, String.toList_append]
    simp only [if_true, stmt, error, hm]
    rfl

abbrev Row := List (List Macro.TT) × List B × Macro.FieldSyn

/-- What the variables stand for in the repetition for one field -/
def rowBinds (j : B) (name : String) (r : Row) : Binds := (text! "def_attrs", j) :: (text! "identifier", .leaf [ident name]) :: fieldBinds r

theorem row_struct {attrs : List (List Macro.TT)} {name : String} {rs : List Row} {i : Nat} {r : Row} (h : rs[i]? = some r) :
    ∃ j, row (structBinds attrs name rs) i = rowBinds j name r := by
  refine ⟨match attrSeq attrs with | .seq bs => bs[i]?.getD (.leaf [.bad]) | .leaf ts => .leaf ts, ?_⟩
  simp only [row, structBinds, List.map_cons, List.map_nil, List.getElem?_map, h, Option.map_some, Option.getD_some]
  rfl

section
variable {attrs : List (List Macro.TT)} {name : String} {ps : List (Row × Field)} {n : Nat}

/-- A repetition over the fields -/
theorem rep_struct {ts : List T} {sep : Option Tok} {g : Row × Field → List Tree} (hs : ∀ p ∈ ps, Same p.1.2.2 p.2)
    (ht : times (structBinds attrs name (ps.map (·.1))) (usedIn ts) = some ps.length)
    (hr : ∀ j p, Same p.1.2.2 p.2 → transcribe (expandMacro macroTable n) (rowBinds j name p.1) ts = g p) :
    transcribe1 (expandMacro macroTable n) (structBinds attrs name (ps.map (·.1))) (.rep ts sep) = joinWith sep (ps.map g) := by
  apply transcribe1_rep ht
  intro i p hi
  obtain ⟨j, hj⟩ := row_struct (attrs := attrs) (name := name) (rs := ps.map (·.1)) (i := i) (r := p.1) (by simp [hi])
  rw [hj]
  exact hr j p (hs p (List.mem_of_getElem? hi))

theorem struct_fields (hs : ∀ p ∈ ps, Same p.1.2.2 p.2) :
    transcribe1 (expandMacro macroTable (n + 2)) (structBinds attrs name (ps.map (·.1))) (.rep [.rep [.tok (.op (text! "#")), .group .bracket [.tok (.ident false (text! "cfg_attr")),
      .group .paren [.tok (.ident false (text! "not")), .group .paren [.tok (.ident false (text! "doctest"))], .tok (.op (text! ",")),
      .rep [.var (text! "field_attrs")] none]]] none, .tok (.ident false (text! "pub")), .var (text! "field_name"), .tok (.op (text! ":")),
      .call (text! "__thrift_required_or_optional") [.var (text! "required_or_optional"), .call (text! "__thrift_field_type") [.var (text! "field_type"),
      .rep [.var (text! "element_type")] none]]] (some (.op (text! ",")))) =
    joinWith (some (.op [','])) (ps.map fun p => docs (p.1.1.map ofTTs) ++ code (text! "pub") ++ [ident p.1.2.2.name] ++ code (text! ":") ++ fieldTypeCode p.1.2.2) := by
  apply rep_struct hs
  · simp [times, usedIn, T.vars, look, structBinds]
  · intro j p h
    rw [t_cons, t_docs (attrs := p.1.1) rfl]
    simp only [t_cons, t_nil, t_tok, t_call]
    rw [t_elem (x := text! "element_type") (o := p.1.2.2.elem) rfl]
    rw [t_leaf (x := text! "field_type") (us := [ident p.1.2.2.ty]) rfl, t_leaf (x := text! "required_or_optional") (us := [ident p.1.2.2.req]) rfl,
      t_leaf (x := text! "field_name") (us := [ident p.1.2.2.name]) rfl]
    simp only [List.append_nil, List.cons_append, List.nil_append, expand_type n, expand_fieldType (n + 1) h]
    simp only [List.append_assoc]
    rfl

theorem struct_new (hs : ∀ p ∈ ps, Same p.1.2.2 p.2) :
    transcribe1 (expandMacro macroTable (n + 2)) (structBinds attrs name (ps.map (·.1))) (.rep [.var (text! "field_name"), .tok (.op (text! ":")), .tok (.ident false (text! "impl")),
      .tok (.ident false (text! "Into")), .tok (.op (text! "<")), .call (text! "__thrift_required_or_optional") [.var (text! "required_or_optional"),
      .call (text! "__thrift_field_type") [.var (text! "field_type"), .rep [.var (text! "element_type")] none]],
      .tok (.op (text! ">"))] (some (.op (text! ",")))) =
    joinWith (some (.op [','])) (ps.map fun p => [ident p.1.2.2.name] ++ code (text! ": impl Into<") ++ fieldTypeCode p.1.2.2 ++ code (text! ">")) := by
  apply rep_struct hs
  · simp [times, usedIn, T.vars, look, structBinds]
  · intro j p h
    simp only [t_cons, t_nil, t_tok, t_call]
    rw [t_elem (x := text! "element_type") (o := p.1.2.2.elem) rfl]
    rw [t_leaf (x := text! "field_type") (us := [ident p.1.2.2.ty]) rfl, t_leaf (x := text! "required_or_optional") (us := [ident p.1.2.2.req]) rfl,
      t_leaf (x := text! "field_name") (us := [ident p.1.2.2.name]) rfl]
    simp only [List.append_nil, List.cons_append, List.nil_append, expand_type n, expand_fieldType (n + 1) h]
    rfl

theorem struct_into (hs : ∀ p ∈ ps, Same p.1.2.2 p.2) :
    transcribe1 (expandMacro macroTable n) (structBinds attrs name (ps.map (·.1))) (.rep [.var (text! "field_name"), .tok (.op (text! ":")),
      .var (text! "field_name"), .tok (.op (text! ".")), .tok (.ident false (text! "into")), .group .paren [], .tok (.op (text! ","))] none) =
    (ps.map fun p => [ident p.1.2.2.name] ++ code (text! ":") ++ [ident p.1.2.2.name] ++ code (text! ".into(),")).flatten := by
  rw [← joinWith_none]
  apply rep_struct hs
  · simp [times, usedIn, T.vars, look, structBinds]
  · intro j p h
    rfl

theorem struct_flags (hs : ∀ p ∈ ps, Same p.1.2.2 p.2) :
    transcribe1 (expandMacro macroTable (n + 1)) (structBinds attrs name (ps.map (·.1)))
      (.rep [.call (text! "__thrift_required_flag") [.var (text! "required_or_optional"), .var (text! "field_name")]] none) =
    (ps.map fun p => stmt ofMacro (if p.2.required then .letIn (Code.Style.macro.flag p.2.name) (.bool false) .nop else .nop)).flatten := by
  rw [← joinWith_none]
  apply rep_struct hs
  · simp [times, usedIn, T.vars, look, structBinds]
  · intro j p h
    rw [← expand_flag n h, t_cons, t_call, t_nil, List.append_nil]
    rfl

/-- One arm -/
def armCode (g : Field) : List Tree := literal ofMacro.user g.id.toInt ++ code (text! "=>") ++ group .brace (stmt ofMacro (Code.Style.macro.fieldArm g))

theorem struct_arms (hs : ∀ p ∈ ps, Same p.1.2.2 p.2) :
    transcribe1 (expandMacro macroTable (n + 1)) (structBinds attrs name (ps.map (·.1))) (.rep [.var (text! "field_id"), .tok (.op (text! "=>")),
      .group .brace [.call (text! "__thrift_required_set") [.var (text! "required_or_optional"), .var (text! "field_name")],
      .tok (.ident false (text! "self")), .tok (.op (text! ".")), .var (text! "field_name"), .tok (.op (text! ".")),
      .tok (.ident false (text! "fill_thrift_field")), .group .paren [.tok (.ident false (text! "input")), .tok (.op (text! ",")),
      .tok (.ident false (text! "field_type"))], .tok (.op (text! "?")), .tok (.op (text! ";"))]] (some (.op (text! ",")))) =
    joinWith (some (.op [','])) (ps.map fun p => armCode p.2) := by
  apply rep_struct hs
  · simp [times, usedIn, T.vars, look, structBinds]
  · intro j p h
    simp only [armCode, Code.Style.fieldArm, stmt]
    rw [← expand_set n h, h.nameTree, show literal ofMacro.user p.2.id.toInt = ofLiteral p.1.2.2.id from h.id.symm]
    simp only [t_cons, t_nil, t_tok, t_group, t_call]
    rw [t_leaf (x := text! "field_id") (us := ofLiteral p.1.2.2.id) rfl, t_leaf (x := text! "required_or_optional") (us := [ident p.1.2.2.req]) rfl,
      t_leaf (x := text! "field_name") (us := [ident p.1.2.2.name]) rfl]
    simp only [List.append_assoc]
    rfl

theorem struct_checks (hs : ∀ p ∈ ps, Same p.1.2.2 p.2) :
    transcribe1 (expandMacro macroTable (n + 2)) (structBinds attrs name (ps.map (·.1)))
      (.rep [.call (text! "__thrift_required_check") [.var (text! "required_or_optional"), .var (text! "identifier"), .var (text! "field_name")]] none) =
    (ps.map fun p => stmt ofMacro (if p.2.required then .when (.unset (Code.Style.macro.flag p.2.name)) (.throw (.missingField (name ++ "::" ++ p.2.name))) else .nop)).flatten := by
  rw [← joinWith_none]
  apply rep_struct hs
  · simp [times, usedIn, T.vars, look, structBinds]
  · intro j p h
    rw [← expand_check n name h, t_cons, t_call, t_nil, List.append_nil]
    rfl

theorem struct_writes (hs : ∀ p ∈ ps, Same p.1.2.2 p.2) :
    transcribe1 (expandMacro macroTable n) (structBinds attrs name (ps.map (·.1))) (.rep [.tok (.ident false (text! "self")), .tok (.op (text! ".")), .var (text! "field_name"), .tok (.op (text! ".")),
      .tok (.ident false (text! "write_thrift_field")), .group .paren [.tok (.ident false (text! "output")), .tok (.op (text! ",")),
      .var (text! "field_id"), .tok (.op (text! ",")), .tok (.op (text! "&")), .tok (.ident false (text! "mut")),
      .tok (.ident false (text! "last_field_id"))], .tok (.op (text! "?")), .tok (.op (text! ";"))] none) =
    (ps.map fun p => wstmt ofMacro false (.writeField p.2.name (Code.Style.macro.own "output") p.2.id (Code.Style.macro.own "last_field_id"))).flatten := by
  rw [← joinWith_none]
  apply rep_struct hs
  · simp [times, usedIn, T.vars, look, structBinds]
  · intro j p h
    simp only [wstmt]
    rw [h.nameTree, show literal ofMacro.user p.2.id.toInt = ofLiteral p.1.2.2.id from h.id.symm]
    simp only [t_cons, t_nil, t_tok, t_group, t_call]
    rw [t_leaf (x := text! "field_id") (us := ofLiteral p.1.2.2.id) rfl, t_leaf (x := text! "field_name") (us := [ident p.1.2.2.name]) rfl]
    simp only [List.append_assoc]
    rfl
end

/-! ## The statements, as code -/

theorem stmt_flags (gs : List Field) (z : Code.Stmt) : stmt ofMacro (Code.Style.macro.flags gs z) =
    (gs.map fun g => stmt ofMacro (if g.required then .letIn (Code.Style.macro.flag g.name) (.bool false) .nop else .nop)).flatten ++ stmt ofMacro z := by
  induction gs with
  | nil => rfl
  | cons g gs ih =>
    rw [Code.Style.flags]
    cases hg : g.required with
    | true => simp only [hg, if_true, stmt, ih, List.map_cons, List.flatten_cons, List.append_assoc, List.append_nil, List.nil_append]
    | false => simp only [hg, Bool.false_eq_true, if_false, stmt, ih, List.map_cons, List.flatten_cons, List.nil_append]

theorem stmt_checks (name : String) (gs : List Field) : stmt ofMacro (Code.Style.macro.checks name gs) =
    (gs.map fun g => stmt ofMacro (if g.required then .when (.unset (Code.Style.macro.flag g.name)) (.throw (.missingField (name ++ "::" ++ g.name))) else .nop)).flatten := by
  induction gs with
  | nil => rfl
  | cons g gs ih => rw [Code.Style.checks, stmt, ih]; rfl

theorem stmt_arms (gs : List Field) : arms ofMacro (Code.Style.macro.fieldArms gs) =
    joinWith (some (.op [','])) (gs.map armCode) ++ (code (text! "_ =>") ++ group .brace (stmt ofMacro (.skip (Code.Style.macro.own "input") (Code.Style.macro.own "field_type")))) := by
  induction gs with
  | nil => rfl
  | cons g gs ih =>
    cases gs with
    | nil => simp only [Code.Style.fieldArms, arms, List.map_cons, List.map_nil, joinWith, armCode]
    | cons h gs =>
      rw [Code.Style.fieldArms, Code.Style.fieldArms, arms, ← Code.Style.fieldArms, ih]
      · simp only [List.map_cons, joinWith, armCode, List.append_assoc]
        rfl
      · intro b hb; cases hb

theorem stmt_writes (last : Bool) (as : List Code.WStmt) (z : Code.WStmt) : wstmt ofMacro last (Code.wseqs as z) = (as.map (wstmt ofMacro false)).flatten ++ wstmt ofMacro last z := by
  induction as with
  | nil => rfl
  | cons a as ih => rw [Code.wseqs, wstmt, ih]; simp

set_option maxRecDepth 100000 in
/-- The right hand side of `thrift_struct!` -/
theorem transcribe_struct (attrs : List (List Macro.TT)) (name : String) {ps : List (Row × Field)} (n : Nat) (hs : ∀ p ∈ ps, Same p.1.2.2 p.2) :
    transcribe (expandMacro macroTable (n + 2)) (structBinds attrs name (ps.map (·.1))) tThriftStruct =
      structItems (attrs.map ofTTs) name (ps.map fun p => (p.1.1.map ofTTs, p.1.2.2)) (stmt ofMacro (Code.macroFill (.struct name (ps.map (·.2)))))
        (wstmt ofMacro false (Code.macroWrite (.struct name (ps.map (·.2))))) := by
  have e1 : stmt ofMacro (Code.macroFill (.struct name (ps.map (·.2)))) = code (text! "let mut last_field_id = 0i16;") ++
      ((ps.map fun p => stmt ofMacro (if p.2.required then .letIn (Code.Style.macro.flag p.2.name) (.bool false) .nop else .nop)).flatten ++
      (code (text! "loop") ++ group .brace (code (text! "let field_type = input.read_field_header(&mut last_field_id)?; if field_type == 0 { break; } match last_field_id") ++
        group .brace (joinWith (some (.op [','])) (ps.map fun p => armCode p.2) ++ code (text! "_ => { input.skip_field(field_type)?; }"))) ++
      (ps.map fun p => stmt ofMacro (if p.2.required then .when (.unset (Code.Style.macro.flag p.2.name)) (.throw (.missingField (name ++ "::" ++ p.2.name))) else .nop)).flatten)) := by
    rw [Code.macroFill, Code.Style.structFillMacro, stmt, stmt_flags, stmt, stmt_checks]
    simp only [stmt, Code.Style.structRound, stmt_arms, List.map_map, Function.comp_def]
    rfl
  have e2 : wstmt ofMacro false (Code.macroWrite (.struct name (ps.map (·.2)))) = code (text! "let mut last_field_id = 0i16;") ++
      ((ps.map fun p => wstmt ofMacro false (.writeField p.2.name (Code.Style.macro.own "output") p.2.id (Code.Style.macro.own "last_field_id"))).flatten ++
      code (text! "output.write_byte(0)?;")) := by
    simp only [Code.macroWrite, Code.Style.structWrite, Bool.true_or, if_true, wstmt, stmt_writes, List.map_map, Function.comp_def]
    rfl
  rw [e1, e2, structItems, implCode]
  simp only [List.map_map, Function.comp_def]
  simp only [tThriftStruct, t_cons, t_nil, t_tok, t_group, t_crate, struct_fields hs, struct_new hs, struct_into hs, struct_flags hs, struct_arms hs, struct_checks hs, struct_writes hs]
  rw [t_docs (x := text! "def_attrs") (attrs := attrs) rfl, t_leaf (x := text! "identifier") (us := [ident name]) rfl]
  simp only [List.append_assoc, List.append_nil]
  rfl

/-! ## From the fields as matched to the fields of the model -/

theorem keywords_eq : keywords = Macro.rustKeywords.map String.toList := by decide

theorem isName_plain {s : String} (h : Macro.isName s = true) : keywords.contains s.toList = false := by
  rw [Bool.eq_false_iff]
  intro hc
  rw [keywords_eq, List.contains_iff_mem, List.mem_map] at hc
  obtain ⟨w, hw, he⟩ := hc
  have := String.toList_injective he
  subst this
  simp [Macro.isName, hw] at h

theorem ofLiteral_eq {w : Nat} {l : Macro.Literal} {id : BitVec (w + 1)} (h : Macro.intOf (w + 1) l = some id) (h0 : l ≠ .int true 0) : ofLiteral l = literal false id.toInt := by
  match l, h with
  | .int false n, h =>
    simp only [Macro.intOf, Nat.add_sub_cancel] at h
    split at h
    · rename_i hn
      cases h
      have hlt : n < 2 ^ (w + 1) := by rw [Nat.pow_succ]; omega
      have : (BitVec.ofNat (w + 1) n).toInt = n := by
        rw [BitVec.toInt_eq_toNat_of_lt, BitVec.toNat_ofNat, Nat.mod_eq_of_lt hlt]
        rw [BitVec.toNat_ofNat, Nat.mod_eq_of_lt hlt, Nat.pow_succ]; omega
      rw [this, literal, if_neg (by omega)]
      rfl
    · cases h
  | .int true n, h =>
    simp only [Macro.intOf, Nat.add_sub_cancel] at h
    split at h
    · rename_i hn
      cases h
      have hz : n ≠ 0 := fun e => h0 (by rw [e])
      have : (BitVec.ofInt (w + 1) (-n)).toInt = -n := by
        rw [BitVec.toInt_ofInt]
        have hp : (2 ^ (w + 1) : Nat) = 2 * 2 ^ w := by rw [Nat.pow_succ]; omega
        apply Int.bmod_eq_of_le
        · rw [hp]; omega
        · rw [hp]; have : 0 < 2 ^ w := Nat.two_pow_pos w; omega
      rw [this, literal, if_pos (by omega)]
      simp [ofLiteral]
    · cases h

theorem same_of_elab {scope : String → Option Ty} {f : Macro.FieldSyn} {g : Field} (h : Macro.elabField scope f = some g) (h0 : f.id ≠ .int true 0) (hn : Macro.isName f.name = true) : Same f g := by
  simp only [Macro.elabField, Option.bind_eq_bind, Option.bind_eq_some_iff, Option.pure_def] at h
  obtain ⟨id, hid, required, hreq, t, ht, ty, hty, he⟩ := h
  cases he
  refine ⟨rfl, ?_, ofLiteral_eq hid h0, isName_plain hn, frag_type ht⟩
  simp only [Macro.requiredOf] at hreq
  split at hreq
  · rename_i hr; cases hreq; exact hr
  · split at hreq
    · rename_i hr; cases hreq; exact hr
    · cases hreq

theorem mapM_pairs {ρ α β : Type} {syn : ρ → α} {f : α → Option β} : ∀ {rs : List ρ} {gs : List β}, (rs.map syn).mapM f = some gs →
    ∃ ps : List (ρ × β), ps.map (·.1) = rs ∧ ps.map (·.2) = gs ∧ ∀ p ∈ ps, f (syn p.1) = some p.2
  | [], gs, h => by simp at h; subst h; exact ⟨[], rfl, rfl, by simp⟩
  | r :: rs, gs, h => by
    simp only [List.map_cons, List.mapM_cons, Option.bind_eq_bind, Option.bind_eq_some_iff, Option.pure_def] at h
    obtain ⟨b, hb, bs, hbs, he⟩ := h
    cases he
    obtain ⟨ps, h1, h2, h3⟩ := mapM_pairs hbs
    refine ⟨(r, b) :: ps, by simp [h1], by simp [h2], ?_⟩
    intro p hp
    rcases List.mem_cons.mp hp with rfl | hp
    · exact hb
    · exact h3 p hp

/-- `thrift_struct!` -/
theorem expand_struct {scope : String → Option Ty} {name : String} {body : List Macro.TT} {fs : List Macro.FieldSyn} {d : Def}
    (hf : Macro.repeated Macro.structField body.length body = some fs) (h0 : ∀ f ∈ fs, f.id ≠ .int true 0) (h : Macro.thriftStruct scope name body = some d)
    (o : Bool) (attrs : List (List Macro.TT)) (n : Nat) :
    ∃ ds : List (List (List Macro.TT)), ds.length = fs.length ∧
      expandMacro macroTable (n + 3) (text! "thrift_struct") (definition o attrs (text! "struct") name body) =
        structItems (attrs.map ofTTs) name ((ds.map (·.map ofTTs)).zip fs) (stmt ofMacro (Code.macroFill d)) (wstmt ofMacro false (Code.macroWrite d)) := by
  simp only [Macro.thriftStruct, hf, Option.bind_eq_bind, Option.bind_some] at h
  split at h
  · rename_i hn
    obtain ⟨-, hn, -⟩ := hn
    simp only [Option.bind_eq_some_iff, Option.pure_def] at h
    obtain ⟨gs, hg, he⟩ := h
    cases he
    have hid : ∀ f ∈ fs, f.id ≠ .other := by
      intro f hf' he
      obtain ⟨ps, h1, h2, h3⟩ := mapM_pairs (ρ := Macro.FieldSyn) (syn := id) (rs := fs) (by simpa using hg)
      have : f ∈ ps.map (·.1) := by rw [h1]; exact hf'
      obtain ⟨p, hp, rfl⟩ := List.mem_map.mp this
      have := h3 p hp
      simp [Macro.elabField, he, Macro.intOf] at this
    obtain ⟨rs, h1, h2⟩ := match_struct hf hid o attrs name
    subst h1
    obtain ⟨ps, h3, h4, h5⟩ := mapM_pairs hg
    subst h3 h4
    refine ⟨ps.map (·.1.1), by simp, ?_⟩
    have hs : ∀ p ∈ ps, Same p.1.2.2 p.2 := fun p hp => by
      have hm : p.1.2.2 ∈ (ps.map (·.1)).map (·.2.2) := by simp only [List.map_map]; exact List.mem_map.mpr ⟨p, hp, rfl⟩
      exact same_of_elab (h5 p hp) (h0 _ hm) (hn _ hm)
    have step : expandMacro macroTable (n + 3) (text! "thrift_struct") (definition o attrs (text! "struct") name body) =
      useRule (expandMacro macroTable (n + 2)) (definition o attrs (text! "struct") name body) rulesThriftStruct := rfl
    rw [step, rulesThriftStruct, useRule, h2]
    simp only
    rw [transcribe_struct attrs name n hs]
    congr 1
    simp only [List.map_map, List.zip_map', Function.comp_def]
  · cases h

end CT.Rust
