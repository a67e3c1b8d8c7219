import Verif.Proofs.Expansion
/-! # Expansion of `thrift_union!`, `thrift_enum!` and `thrift!` on arbitrary arguments -/
namespace CT.Rust
open CT CT.Rust.Spec

/-! ## Unions -/

/-- The repeated part of the pattern of `thrift_union!` -/
def pVariant : List P := match pThriftUnion with | [_, _, _, .group _ [.rep ps _]] => ps | _ => []

abbrev URow := List (List Macro.TT) × Macro.VariantSyn

/-- What one variant is bound to -/
def variantBinds (r : URow) : Binds :=
  [(text! "field_attrs", attrSeq r.1), (text! "field_id", .leaf (ofLiteral r.2.id)),
   (text! "field_type", .leaf [ident r.2.ty]), (text! "element_type", .seq (r.2.elem.toList.map fun e => .leaf [ident e])),
   (text! "field_name", .leaf [ident r.2.name])]

theorem match_variant {ts rest : List Macro.TT} {f : Macro.VariantSyn} (h : Macro.unionField ts = some (f, rest)) (hid : f.id ≠ .other) :
    ∃ a, matchPs pVariant (ofTTs ts) = some (variantBinds (a, f), ofTTs rest) := by
  obtain ⟨attrs, ha⟩ := skipAttrs_eq ts
  unfold Macro.unionField at h
  split at h
  · rename_i id us hl
    split at h
    · rename_i ty e name vs ht
      cases h
      obtain ⟨lit, hf, hlit, hn⟩ := frag_literal hl
      have := hlit hid
      subst this
      obtain ⟨mid, mid', h1, h2, h3⟩ := match_type ht
      refine ⟨attrs, ?_⟩
      have step : matchPs pVariant (ofTTs ts) = _ := matchPs_cons (noAttr_skip attrs ha hn)
      rw [step, matchPs_cons (matchP_var hf), show ofTTs (.punct ':' :: us) = .tok (.op [':']) false :: ofTTs us from rfl,
        matchPs_cons (matchP_tok _ _ _), matchPs_cons (matchP_var h1), matchPs_cons h2,
        matchPs_cons (matchP_var h3), matchPs_cons (match_semi _), matchPs_nil]
      rfl
    · cases h
  · cases h

/-- The bindings of `thrift_union!` -/
def unionBinds (attrs : List (List Macro.TT)) (name : String) (rs : List URow) : Binds :=
  [(text! "def_attrs", attrSeq attrs), (text! "identifier", .leaf [ident name]),
   (text! "field_attrs", .seq (rs.map fun r => attrSeq r.1)), (text! "field_id", .seq (rs.map fun r => .leaf (ofLiteral r.2.id))),
   (text! "field_type", .seq (rs.map fun r => .leaf [ident r.2.ty])), (text! "element_type", .seq (rs.map fun r => .seq (r.2.elem.toList.map fun e => .leaf [ident e]))),
   (text! "field_name", .seq (rs.map fun r => .leaf [ident r.2.name]))]

theorem match_union {body : List Macro.TT} {fs : List Macro.VariantSyn} (h : Macro.repeated Macro.unionField body.length body = some fs) (hid : ∀ f ∈ fs, f.id ≠ .other)
    (o : Bool) (attrs : List (List Macro.TT)) (name : String) :
    ∃ rs : List URow, rs.map (·.2) = fs ∧
      matchPs pThriftUnion (definition o attrs (text! "union") name body) = some (unionBinds attrs name rs, []) := by
  obtain ⟨rs, h1, h2⟩ := match_repeated (p := Macro.unionField) (ps := pVariant) (good := fun f => f.id ≠ .other) (syn := fun r => r.2) (binds := variantBinds)
    (fun ts a rest h hg => by obtain ⟨x, h⟩ := match_variant h hg; exact ⟨(x, a), rfl, h⟩) rfl body.length body fs (ofTTs body).length h hid (by rw [ofTTs_length]; exact Nat.le_refl _)
  refine ⟨rs, h1, ?_⟩
  have h2 : matchPs [.rep pVariant false] (ofTTs body) = some (columns (varsOf pVariant) (rs.map variantBinds), []) := by
    rw [matchPs_cons (matchP_rep _ _ _), matchPs_nil]
    simp [h2]
  have hP : pThriftUnion = [.rep (attrP (text! "def_attrs")) false, .tok (.ident false (text! "union")), .var (text! "identifier") .ident, .group .brace [.rep pVariant false]] := rfl
  rw [definition, hP, matchPs_cons (match_attrs _ o rfl attrs), matchPs_cons (matchP_tok _ _ _),
    matchPs_cons (matchP_var (us := [ident name]) (ts' := [.group .brace (ofTTs body)]) rfl), matchPs_cons (matchP_group h2), matchPs_nil]
  simp only [columns, List.map_map]
  rfl

/-- A variant as matched and the variant of the model -/
structure USame (f : Macro.VariantSyn) (g : Variant) : Prop where
  name : f.name = g.name
  id : ofLiteral f.id = literal false g.id.toInt
  plain : keywords.contains g.name.toList = false

theorem USame.nameTree {f : Macro.VariantSyn} {g : Variant} (h : USame f g) : Spec.name ofMacro g.name = ident f.name := by
  rw [Spec.name, h.plain, h.name]; rfl

/-- What the variables stand for in the repetition for one variant -/
def urowBinds (j : B) (name : String) (r : URow) : Binds := (text! "def_attrs", j) :: (text! "identifier", .leaf [ident name]) :: variantBinds r

theorem row_union {attrs : List (List Macro.TT)} {name : String} {rs : List URow} {i : Nat} {r : URow} (h : rs[i]? = some r) :
    ∃ j, row (unionBinds attrs name rs) i = urowBinds j name r := by
  refine ⟨match attrSeq attrs with | .seq bs => bs[i]?.getD (.leaf [.bad]) | .leaf ts => .leaf ts, ?_⟩
  simp only [row, unionBinds, List.map_cons, List.map_nil, List.getElem?_map, h, Option.map_some, Option.getD_some]
  rfl

section
variable {attrs : List (List Macro.TT)} {name : String} {ps : List (URow × Variant)} {n : Nat}

/-- A repetition over the variants -/
theorem rep_union {ts : List T} {sep : Option Tok} {g : URow × Variant → List Tree} (hs : ∀ p ∈ ps, USame p.1.2 p.2)
    (ht : times (unionBinds attrs name (ps.map (·.1))) (usedIn ts) = some ps.length)
    (hr : ∀ j p, USame p.1.2 p.2 → transcribe (expandMacro macroTable n) (urowBinds j name p.1) ts = g p) :
    transcribe1 (expandMacro macroTable n) (unionBinds attrs name (ps.map (·.1))) (.rep ts sep) = joinWith sep (ps.map g) := by
  apply transcribe1_rep ht
  intro i p hi
  obtain ⟨j, hj⟩ := row_union (attrs := attrs) (name := name) (rs := ps.map (·.1)) (i := i) (r := p.1) (by simp [hi])
  rw [hj]
  exact hr j p (hs p (List.mem_of_getElem? hi))

theorem union_fields (hs : ∀ p ∈ ps, USame p.1.2 p.2) :
    transcribe1 (expandMacro macroTable (n + 2)) (unionBinds attrs name (ps.map (·.1))) (.rep [.rep [.tok (.op (text! "#")), .group .bracket [.tok (.ident false (text! "cfg_attr")),
   .group .paren [.tok (.ident false (text! "not")), .group .paren [.tok (.ident false (text! "doctest"))], .tok (.op (text! ",")),
   .rep [.var (text! "field_attrs")] none]]] none, .var (text! "field_name"),
   .group .paren [.call (text! "__thrift_field_type") [.var (text! "field_type"),
   .rep [.var (text! "element_type")] none]]] (some (.op (text! ",")))) =
    joinWith (some (.op [','])) (ps.map fun p => docs (p.1.1.map ofTTs) ++ [ident p.1.2.name] ++ group .paren (typeCode p.1.2.ty p.1.2.elem)) := by
  apply rep_union hs
  · simp [times, usedIn, T.vars, look, unionBinds]
  · intro j p h
    rw [t_cons, t_docs (attrs := p.1.1) rfl]
    simp only [t_cons, t_nil, t_group, t_call]
    rw [t_elem (x := text! "element_type") (o := p.1.2.elem) rfl]
    rw [t_leaf (x := text! "field_type") (us := [ident p.1.2.ty]) rfl,
      t_leaf (x := text! "field_name") (us := [ident p.1.2.name]) rfl]
    simp only [List.append_nil, List.cons_append, List.nil_append, expand_type n]
    simp only [List.append_assoc]
    rfl

theorem union_names (hs : ∀ p ∈ ps, USame p.1.2 p.2) :
    transcribe1 (expandMacro macroTable n) (unionBinds attrs name (ps.map (·.1))) (.rep [.var (text! "field_name"), .tok (.op (text! ";"))] none) =
    (ps.map fun p => [ident p.1.2.name, .tok (.op [';']) true]).flatten := by
  rw [← joinWith_none]
  apply rep_union hs
  · simp [times, usedIn, T.vars, look, unionBinds]
  · intro j p h
    rfl

/-- One arm -/
def uarmCode (g : Variant) : List Tree :=
  literal ofMacro.user g.id.toInt ++ code (text! "=>") ++ group .brace (stmt ofMacro (.seq (.become g.name) (.fillInner g.name (Code.Style.macro.own "input"))))

theorem union_arms (hs : ∀ p ∈ ps, USame p.1.2 p.2) :
    transcribe1 (expandMacro macroTable n) (unionBinds attrs name (ps.map (·.1))) (.rep [.var (text! "field_id"), .tok (.op (text! "=>")),
   .group .brace [.tok (.op (text! "*")), .tok (.ident false (text! "self")), .tok (.op (text! "=")), .tok (.ident false (text! "Self")),
   .tok (.op (text! "::")), .var (text! "field_name"), .group .paren [.tok (.ident false (text! "Default")), .tok (.op (text! "::")),
   .tok (.ident false (text! "default")), .group .paren []], .tok (.op (text! ";")), .tok (.op (text! "#")),
   .group .bracket [.tok (.ident false (text! "allow")), .group .paren [.tok (.ident false (text! "unreachable_patterns"))]],
   .tok (.ident false (text! "match")), .tok (.ident false (text! "self")), .group .brace [.tok (.ident false (text! "Self")),
   .tok (.op (text! "::")), .var (text! "field_name"), .group .paren [.tok (.ident false (text! "inner"))], .tok (.op (text! "=>")),
   .tok (.ident false (text! "inner")), .tok (.op (text! ".")), .tok (.ident false (text! "fill_thrift")),
   .group .paren [.tok (.ident false (text! "input"))], .tok (.op (text! "?")), .tok (.op (text! ",")), .tok (.ident false (text! "_")),
   .tok (.op (text! "=>")), .tok (.ident false (text! "unsafe")), .group .brace [.tok (.ident false (text! "std")), .tok (.op (text! "::")),
   .tok (.ident false (text! "hint")), .tok (.op (text! "::")), .tok (.ident false (text! "unreachable_unchecked")), .group .paren []],
   .tok (.op (text! ","))]]] (some (.op (text! ",")))) =
    joinWith (some (.op [','])) (ps.map fun p => uarmCode p.2) := by
  apply rep_union hs
  · simp [times, usedIn, T.vars, look, unionBinds]
  · intro j p h
    simp only [uarmCode, stmt]
    rw [h.nameTree, show literal ofMacro.user p.2.id.toInt = ofLiteral p.1.2.id from h.id.symm]
    simp only [t_cons, t_nil, t_tok, t_group]
    rw [t_leaf (x := text! "field_id") (us := ofLiteral p.1.2.id) rfl, t_leaf (x := text! "field_name") (us := [ident p.1.2.name]) rfl]
    simp only [List.append_assoc]
    rfl

/-- One arm of `match self` -/
def warmCode (g : Variant) : List Tree :=
  code (text! "Self::") ++ [Spec.name ofMacro g.name] ++ code (text! "(inner) => inner.") ++ [word ofMacro.writeField] ++
    group .paren ([localVar (Code.Style.macro.own "output")] ++ code (text! ",") ++ literal ofMacro.user g.id.toInt ++ code (text! ", &mut") ++
      [localVar (Code.Style.macro.own "last_field_id")]) ++ code (text! "?")

theorem union_warms (hs : ∀ p ∈ ps, USame p.1.2 p.2) :
    transcribe1 (expandMacro macroTable n) (unionBinds attrs name (ps.map (·.1))) (.rep [.tok (.ident false (text! "Self")), .tok (.op (text! "::")), .var (text! "field_name"),
   .group .paren [.tok (.ident false (text! "inner"))], .tok (.op (text! "=>")), .tok (.ident false (text! "inner")), .tok (.op (text! ".")),
   .tok (.ident false (text! "write_thrift_field")), .group .paren [.tok (.ident false (text! "output")), .tok (.op (text! ",")),
   .var (text! "field_id"), .tok (.op (text! ",")), .tok (.op (text! "&")), .tok (.ident false (text! "mut")),
   .tok (.ident false (text! "last_field_id"))], .tok (.op (text! "?"))] (some (.op (text! ",")))) =
    joinWith (some (.op [','])) (ps.map fun p => warmCode p.2) := by
  apply rep_union hs
  · simp [times, usedIn, T.vars, look, unionBinds]
  · intro j p h
    simp only [warmCode]
    rw [h.nameTree, show literal ofMacro.user p.2.id.toInt = ofLiteral p.1.2.id from h.id.symm]
    simp only [t_cons, t_nil, t_tok, t_group]
    rw [t_leaf (x := text! "field_id") (us := ofLiteral p.1.2.id) rfl, t_leaf (x := text! "field_name") (us := [ident p.1.2.name]) rfl]
    simp only [List.append_assoc]
    rfl
end

theorem stmt_uarms (name : String) (gs : List Variant) : arms ofMacro (Code.Style.macro.variantArms name gs) =
    joinWith (some (.op [','])) (gs.map uarmCode) ++ (code (text! "_ =>") ++ group .brace (stmt ofMacro (.throw (.missingField (Code.Style.macro.unknown name))))) := by
  induction gs with
  | nil => rfl
  | cons g gs ih =>
    cases gs with
    | nil => simp only [Code.Style.variantArms, arms, List.map_cons, List.map_nil, joinWith, uarmCode]
    | cons h gs =>
      rw [Code.Style.variantArms, Code.Style.variantArms, arms, ← Code.Style.variantArms, ih]
      · simp only [List.map_cons, joinWith, uarmCode, List.append_assoc]
        rfl
      · intro b hb; cases hb

theorem stmt_warms (gs : List Variant) : warms ofMacro false (Code.Style.macro.writeArms gs) = joinWith (some (.op [','])) (gs.map warmCode) := by
  induction gs with
  | nil => rfl
  | cons g gs ih =>
    cases gs with
    | nil => simp [Code.Style.writeArms, warms, joinWith, warmCode]
    | cons h gs =>
      rw [Code.Style.writeArms, warms, ih]
      · simp only [List.map_cons, joinWith, warmCode, List.append_assoc]
        rfl
      · intro _ h; cases h

theorem many_names : ∀ (us : List String) (N : Nat), us.length ≤ N →
    many (matchPs [.var (text! "tail") .ident, .tok (.op (text! ";"))]) N (us.map fun u => [ident u, .tok (.op [';']) true]).flatten =
      (us.map fun u => [(text! "tail", .leaf [ident u])], [])
  | [], N, _ => by
    have : matchPs [.var (text! "tail") .ident, .tok (.op (text! ";"))] [] = none := rfl
    exact many_nil this N
  | u :: us, 0, h => by simp at h
  | u :: us, N + 1, h => by
    have ih := many_names us N (by simpa using h)
    simp only [List.map_cons, List.flatten_cons, List.cons_append, List.nil_append, many]
    rw [matchPs_cons (matchP_var (us := [ident u]) (ts' := .tok (.op [';']) true :: (us.map fun u => [ident u, .tok (.op [';']) true]).flatten) rfl), matchPs_cons (matchP_tok _ _ _), matchPs_nil]
    simp only [Option.map_some, ih]
    rfl

/-- The default of a union is its first variant. -/
theorem expand_default (n : Nat) (u : String) (us : List String) :
    expandMacro macroTable (n + 1) (text! "__thrift_union_default") ((u :: us).map fun u => [ident u, .tok (.op [';']) true]).flatten =
      code (text! "Self::") ++ [ident u] ++ code (text! "(Default::default())") := by
  have step : expandMacro macroTable (n + 1) (text! "__thrift_union_default") ((u :: us).map fun u => [ident u, .tok (.op [';']) true]).flatten =
    useRule (expandMacro macroTable n) (ident u :: .tok (.op [';']) true :: (us.map fun u => [ident u, .tok (.op [';']) true]).flatten) rulesThriftUnionDefault := rfl
  have hm : ∃ e, matchPs pThriftUnionDefault0 (ident u :: .tok (.op [';']) true :: (us.map fun u => [ident u, .tok (.op [';']) true]).flatten) =
      some ((text! "head", .leaf [ident u]) :: e, []) := by
    rw [pThriftUnionDefault0, matchPs_cons (matchP_var (us := [ident u]) (ts' := .tok (.op [';']) true :: (us.map fun u => [ident u, .tok (.op [';']) true]).flatten) rfl),
      matchPs_cons (matchP_tok _ _ _), matchPs_cons (matchP_rep _ _ _), matchPs_nil]
    simp only [Bool.false_eq_true, if_false]
    rw [many_names us _ (by simp [List.length_flatten, Function.comp_def, List.map_const']; omega)]
    exact ⟨_, rfl⟩
  obtain ⟨e, hm⟩ := hm
  rw [step, rulesThriftUnionDefault, useRule, hm]
  rfl

/-- The error for an unknown variant: `$struct_name` is no variable of the macro. -/
theorem unknown_message (name : String) : ofMacro.message (Code.Style.macro.unknown name) = .str (text! "$struct_name\x00") := by
  show Tok.str ("$struct_name".toList ++ ['\x00']) = _
  rw [show "$struct_name".toList = text! "$struct_name" by decide]
  rfl

set_option maxRecDepth 100000 in
/-- The right hand side of `thrift_union!` -/
theorem transcribe_union (attrs : List (List Macro.TT)) (name : String) {ps : List (URow × Variant)} (n : Nat) (hs : ∀ p ∈ ps, USame p.1.2 p.2) (hne : ps ≠ []) :
    transcribe (expandMacro macroTable (n + 2)) (unionBinds attrs name (ps.map (·.1))) tThriftUnion =
      unionItems (attrs.map ofTTs) name (ps.map fun p => (p.1.1.map ofTTs, p.1.2)) (stmt ofMacro (Code.macroFill (.union name (ps.map (·.2)))))
        (wstmt ofMacro false (Code.macroWrite (.union name (ps.map (·.2))))) := by
  obtain ⟨p, qs, rfl⟩ : ∃ p qs, ps = p :: qs := by
    cases ps with
    | nil => exact absurd rfl hne
    | cons p qs => exact ⟨p, qs, rfl⟩
  have hd : expandMacro macroTable (n + 2) (text! "__thrift_union_default") ((p :: qs).map fun p => [ident p.1.2.name, .tok (.op [';']) true]).flatten =
      code (text! "Self::") ++ [ident p.1.2.name] ++ code (text! "(Default::default())") := by
    have := expand_default (n + 1) p.1.2.name (qs.map (·.1.2.name))
    simpa only [List.map_cons, List.map_map, Function.comp_def] using this
  unfold unionItems
  rw [implCode]
  simp only [Code.macroFill, Code.macroWrite, Code.Style.unionFill, Code.Style.unionWrite, stmt, wstmt, stmt_uarms, show ofMacro.trailing = false from rfl, stmt_warms, List.map_map, Function.comp_def, if_true, reduceCtorEq, if_false, error, unknown_message]
  simp only [tThriftUnion, t_cons, t_nil, t_tok, t_group, t_crate, t_call, union_fields hs, union_names hs, union_arms hs, union_warms hs]
  rw [t_docs (x := text! "def_attrs") (attrs := attrs) rfl, t_leaf (x := text! "identifier") (us := [ident name]) rfl]
  simp only [List.append_assoc, List.append_nil, hd]
  rfl

/-- `thrift_union!` -/
theorem expand_union {scope : String → Option Ty} {name : String} {body : List Macro.TT} {fs : List Macro.VariantSyn} {d : Def}
    (hf : Macro.repeated Macro.unionField body.length body = some fs) (h0 : ∀ f ∈ fs, f.id ≠ .int true 0) (h : Macro.thriftUnion scope name body = some d)
    (o : Bool) (attrs : List (List Macro.TT)) (n : Nat) :
    ∃ ds : List (List (List Macro.TT)), ds.length = fs.length ∧
      expandMacro macroTable (n + 3) (text! "thrift_union") (definition o attrs (text! "union") name body) =
        unionItems (attrs.map ofTTs) name ((ds.map (·.map ofTTs)).zip fs) (stmt ofMacro (Code.macroFill d)) (wstmt ofMacro false (Code.macroWrite d)) := by
  simp only [Macro.thriftUnion, hf, Option.bind_eq_bind, Option.bind_some] at h
  split at h
  · rename_i hn
    obtain ⟨-, hne, hn, -⟩ := hn
    simp only [Option.bind_eq_some_iff, Option.pure_def] at h
    obtain ⟨gs, hg, he⟩ := h
    cases he
    have hid : ∀ f ∈ fs, f.id ≠ .other := by
      intro f hf' he
      obtain ⟨ps, h1, h2, h3⟩ := mapM_pairs (ρ := Macro.VariantSyn) (syn := id) (rs := fs) (by simpa using hg)
      have : f ∈ ps.map (·.1) := by rw [h1]; exact hf'
      obtain ⟨p, hp, rfl⟩ := List.mem_map.mp this
      have := h3 p hp
      simp [Macro.elabVariant, he, Macro.intOf] at this
    obtain ⟨rs, h1, h2⟩ := match_union hf hid o attrs name
    subst h1
    obtain ⟨ps, h3, h4, h5⟩ := mapM_pairs hg
    subst h3 h4
    refine ⟨ps.map (·.1.1), by simp, ?_⟩
    have hs : ∀ p ∈ ps, USame p.1.2 p.2 := fun p hp => by
      have hm : p.1.2 ∈ (ps.map (·.1)).map (·.2) := by simp only [List.map_map]; exact List.mem_map.mpr ⟨p, hp, rfl⟩
      have he := h5 p hp
      simp only [Macro.elabVariant, Option.bind_eq_bind, Option.bind_eq_some_iff, Option.pure_def] at he
      obtain ⟨id, hid, t, ht, ty, hty, he⟩ := he
      have hname := hn _ hm
      have hz := h0 _ hm
      have e1 : p.2 = ⟨id, p.1.2.name, ty⟩ := by simpa using he.symm
      exact ⟨by rw [e1], by rw [e1]; exact ofLiteral_eq hid hz, by rw [e1]; exact isName_plain hname⟩
    have step : expandMacro macroTable (n + 3) (text! "thrift_union") (definition o attrs (text! "union") name body) =
      useRule (expandMacro macroTable (n + 2)) (definition o attrs (text! "union") name body) rulesThriftUnion := rfl
    rw [step, rulesThriftUnion, useRule, h2]
    simp only
    rw [transcribe_union attrs name n hs (by rintro rfl; exact hne rfl)]
    congr 1
    simp only [List.map_map, List.zip_map', Function.comp_def]
  · cases h


/-! ## Enums -/

/-- The repeated part of the pattern of `thrift_enum!` -/
def pConstant : List P := match pThriftEnum with | [_, _, _, .group _ [.rep ps _]] => ps | _ => []

abbrev ERow := List (List Macro.TT) × String × Macro.Literal

def constantBinds (r : ERow) : Binds :=
  [(text! "field_attrs", attrSeq r.1), (text! "field_name", .leaf [ident r.2.1]), (text! "field_value", .leaf (ofLiteral r.2.2))]

theorem match_constant {ts rest : List Macro.TT} {c : String × Macro.Literal} (h : Macro.enumField ts = some (c, rest)) (hid : c.2 ≠ .other) :
    ∃ a, matchPs pConstant (ofTTs ts) = some (constantBinds (a, c), ofTTs rest) := by
  obtain ⟨attrs, ha⟩ := skipAttrs_eq ts
  unfold Macro.enumField at h
  split at h
  · rename_i nm us hsk
    split at h
    · rename_i v ws hl
      cases h
      obtain ⟨lit, hf, hlit, -⟩ := frag_literal hl
      have := hlit hid
      subst this
      refine ⟨attrs, ?_⟩
      have hn : noAttr (ofTTs (Macro.skipAttrs ts)) = true := by rw [hsk]; rfl
      have step : matchPs pConstant (ofTTs ts) = _ := matchPs_cons (noAttr_skip attrs ha hn)
      rw [step, hsk, show ofTTs (.ident nm :: .punct '=' :: us) = ident nm :: .tok (.op ['=']) false :: ofTTs us from rfl,
        matchPs_cons (matchP_var (us := [ident nm]) (ts' := .tok (.op ['=']) false :: ofTTs us) rfl), matchPs_cons (matchP_tok _ _ _), matchPs_cons (matchP_var hf),
        show ofTTs (.punct ';' :: rest) = .tok (.op [';']) false :: ofTTs rest from rfl, matchPs_cons (matchP_tok _ _ _), matchPs_nil]
      rfl
    · cases h
  · cases h

/-- The bindings of `thrift_enum!` -/
def enumBinds (attrs : List (List Macro.TT)) (name : String) (rs : List ERow) : Binds :=
  [(text! "def_attrs", attrSeq attrs), (text! "identifier", .leaf [ident name]),
   (text! "field_attrs", .seq (rs.map fun r => attrSeq r.1)), (text! "field_name", .seq (rs.map fun r => .leaf [ident r.2.1])),
   (text! "field_value", .seq (rs.map fun r => .leaf (ofLiteral r.2.2)))]

theorem match_enum {body : List Macro.TT} {fs : List (String × Macro.Literal)} (h : Macro.repeated Macro.enumField body.length body = some fs) (hid : ∀ f ∈ fs, f.2 ≠ .other)
    (o : Bool) (attrs : List (List Macro.TT)) (name : String) :
    ∃ rs : List ERow, rs.map (·.2) = fs ∧
      matchPs pThriftEnum (definition o attrs (text! "enum") name body) = some (enumBinds attrs name rs, []) := by
  obtain ⟨rs, h1, h2⟩ := match_repeated (p := Macro.enumField) (ps := pConstant) (good := fun f => f.2 ≠ .other) (syn := fun r => r.2) (binds := constantBinds)
    (fun ts a rest h hg => by obtain ⟨x, h⟩ := match_constant h hg; exact ⟨(x, a), rfl, h⟩) rfl body.length body fs (ofTTs body).length h hid (by rw [ofTTs_length]; exact Nat.le_refl _)
  refine ⟨rs, h1, ?_⟩
  have h2 : matchPs [.rep pConstant false] (ofTTs body) = some (columns (varsOf pConstant) (rs.map constantBinds), []) := by
    rw [matchPs_cons (matchP_rep _ _ _), matchPs_nil]
    simp [h2]
  have hP : pThriftEnum = [.rep (attrP (text! "def_attrs")) false, .tok (.ident false (text! "enum")), .var (text! "identifier") .ident, .group .brace [.rep pConstant false]] := rfl
  rw [definition, hP, matchPs_cons (match_attrs _ o rfl attrs), matchPs_cons (matchP_tok _ _ _),
    matchPs_cons (matchP_var (us := [ident name]) (ts' := [.group .brace (ofTTs body)]) rfl), matchPs_cons (matchP_group h2), matchPs_nil]
  simp only [columns, List.map_map]
  rfl

theorem row_enum {attrs : List (List Macro.TT)} {name : String} {rs : List ERow} {i : Nat} {r : ERow} (h : rs[i]? = some r) :
    ∃ j, row (enumBinds attrs name rs) i = (text! "def_attrs", j) :: (text! "identifier", .leaf [ident name]) :: constantBinds r := by
  refine ⟨match attrSeq attrs with | .seq bs => bs[i]?.getD (.leaf [.bad]) | .leaf ts => .leaf ts, ?_⟩
  simp only [row, enumBinds, List.map_cons, List.map_nil, List.getElem?_map, h, Option.map_some, Option.getD_some]
  rfl

theorem enum_constants {call : List Char → List Tree → List Tree} {attrs : List (List Macro.TT)} {name : String} {rs : List ERow} :
    transcribe1 call (enumBinds attrs name rs) (.rep [.tok (.ident false (text! "pub")),
   .tok (.ident false (text! "const")), .var (text! "field_name"), .tok (.op (text! ":")), .tok (.ident false (text! "Self")), .tok (.op (text! "=")),
   .tok (.ident false (text! "Self")), .group .paren [.var (text! "field_value")], .tok (.op (text! ";"))] none) =
    (rs.map fun r => code (text! "pub const") ++ [ident r.2.1] ++ code (text! ": Self = Self") ++ group .paren (ofLiteral r.2.2) ++ code (text! ";")).flatten := by
  rw [← joinWith_none]
  apply transcribe1_rep
  · simp [times, usedIn, T.vars, look, enumBinds]
  · intro i r hi
    obtain ⟨j, hj⟩ := row_enum (attrs := attrs) (name := name) hi
    rw [hj]
    simp only [t_cons, t_nil, t_tok, t_group]
    rw [t_leaf (x := text! "field_value") (us := ofLiteral r.2.2) rfl, t_leaf (x := text! "field_name") (us := [ident r.2.1]) rfl]
    simp only [List.append_assoc, List.append_nil]
    rfl

set_option maxRecDepth 100000 in
/-- The right hand side of `thrift_enum!` -/
theorem transcribe_enum (call : List Char → List Tree → List Tree) (attrs : List (List Macro.TT)) (name : String) (rs : List ERow) :
    transcribe call (enumBinds attrs name rs) tThriftEnum =
      enumItems (attrs.map ofTTs) name (rs.map fun r => (r.2.1, ofLiteral r.2.2)) (stmt ofMacro (Code.macroFill (.enum name))) (wstmt ofMacro true (Code.macroWrite (.enum name))) := by
  rw [enumItems, implCode]
  simp only [Code.macroFill, Code.macroWrite, stmt, wstmt, List.map_map, Function.comp_def]
  simp only [tThriftEnum, t_cons, t_nil, t_tok, t_group, t_crate, enum_constants]
  rw [t_attrs (x := text! "def_attrs") (attrs := attrs) rfl, t_leaf (x := text! "identifier") (us := [ident name]) rfl]
  simp only [List.append_assoc, List.append_nil, List.nil_append]
  rfl

/-- `thrift_enum!` -/
theorem expand_enum {name : String} {body : List Macro.TT} {fs : List (String × Macro.Literal)} {d : Def}
    (hf : Macro.repeated Macro.enumField body.length body = some fs) (h : Macro.thriftEnum name body = some d)
    (o : Bool) (attrs : List (List Macro.TT)) (n : Nat) :
    expandMacro macroTable (n + 1) (text! "thrift_enum") (definition o attrs (text! "enum") name body) =
      enumItems (attrs.map ofTTs) name (fs.map fun f => (f.1, ofLiteral f.2)) (stmt ofMacro (Code.macroFill d)) (wstmt ofMacro true (Code.macroWrite d)) := by
  simp only [Macro.thriftEnum] at h
  split at h
  · simp only [Option.map_eq_some_iff, Macro.enumConstants, hf, Option.bind_eq_bind, Option.bind_some] at h
    obtain ⟨cs, hc, he⟩ := h
    cases he
    split at hc
    · have hid : ∀ f ∈ fs, f.2 ≠ .other := by
        intro f hf' he
        obtain ⟨ps, h1, h2, h3⟩ := mapM_pairs (ρ := String × Macro.Literal) (syn := id) (rs := fs) (by simpa using hc)
        have : f ∈ ps.map (·.1) := by rw [h1]; exact hf'
        obtain ⟨p, hp, rfl⟩ := List.mem_map.mp this
        have := h3 p hp
        simp [he, Macro.intOf] at this
      obtain ⟨rs, h1, h2⟩ := match_enum hf hid o attrs name
      subst h1
      have step : expandMacro macroTable (n + 1) (text! "thrift_enum") (definition o attrs (text! "enum") name body) =
        useRule (expandMacro macroTable n) (definition o attrs (text! "enum") name body) rulesThriftEnum := rfl
      rw [step, rulesThriftEnum, useRule, h2]
      simp only
      rw [transcribe_enum]
      congr 1
      simp only [List.map_map, Function.comp_def]
    · cases hc
  · cases h

end CT.Rust
