import Verif.Proofs.ExpansionUnion
/-! # Expansion of `thrift!` on arbitrary documents -/
namespace CT.Rust
open CT CT.Rust.Spec

theorem many_tts (x : List Char) : ∀ (us : List Tree) (N : Nat), us.length ≤ N →
    many (matchPs [.var x .tt]) N us = (us.map fun t => [(x, .leaf [t])], [])
  | [], N, _ => by
    have : matchPs [.var x .tt] [] = none := rfl
    exact many_nil this N
  | u :: us, 0, h => by simp at h
  | u :: us, N + 1, h => by
    have ih := many_tts x us N (by simpa using h)
    rw [many, matchPs_cons (matchP_var (us := [u]) (ts' := us) rfl), matchPs_nil]
    simp [ih]

/-- `$($x:tt)*` -/
theorem match_tts (x : List Char) (us : List Tree) : matchP (.rep [.var x .tt] false) us = some ([(x, .seq (us.map fun t => .leaf [t]))], []) := by
  rw [matchP_rep]
  simp only [Bool.false_eq_true, if_false]
  rw [many_tts x us _ (Nat.le_refl _)]
  simp [columns, varsOf, P.vars, look, Function.comp_def]

theorem flatten_single : ∀ us : List Tree, (us.map fun t => [t]).flatten = us
  | [] => rfl
  | u :: us => by simp only [List.map_cons, List.flatten_cons, flatten_single us]; rfl

/-- `$($x)*` -/
theorem t_tts {call : List Char → List Tree → List Tree} {e : Binds} {x : List Char} {us : List Tree} (h : look x e = some (.seq (us.map fun t => .leaf [t]))) :
    transcribe1 call e (.rep [.var x] none) = us := by
  rw [transcribe1_rep (rs := us) (g := fun t => [t]) (by have := times_one h; simpa [usedIn, T.vars] using this), joinWith_none]
  · exact flatten_single us
  · intro i a hi
    rw [t_cons, t_leaf (look_row (b := .leaf [a]) h (by simp [hi])), t_nil]; rfl

/-- The bindings of the first three rules of `thrift!` -/
def itemBinds (attrs : List (List Macro.TT)) (name : String) (body remainder : List Macro.TT) : Binds :=
  [(text! "def_attrs", attrSeq attrs), (text! "identifier", .leaf [ident name]), (text! "definitions", .seq ((ofTTs body).map fun t => .leaf [t])),
   (text! "remainder", .seq ((ofTTs remainder).map fun t => .leaf [t]))]

def pItem (kw : List Char) : List P :=
  [.rep (attrP (text! "def_attrs")) false, .tok (.ident false kw), .var (text! "identifier") .ident, .group .brace [.rep [.var (text! "definitions") .tt] false],
   .rep [.var (text! "remainder") .tt] false]

def tItem (m kw : List Char) : List T :=
  [.call m [.rep [.tok (.op (text! "#")), .group .bracket [.rep [.var (text! "def_attrs")] none]] none,
   .tok (.ident false kw), .var (text! "identifier"), .group .brace [.rep [.var (text! "definitions")] none]],
   .call (text! "thrift") [.rep [.var (text! "remainder")] none]]

theorem match_item {ts remainder body : List Macro.TT} {attrs : List (List Macro.TT)} {kw name : String} {cs : List Char} (hk : kw.toList = cs)
    (ha : ofTTs ts = ofAttrs false attrs ++ ofTTs (.ident kw :: .ident name :: .group .brace body :: remainder)) :
    matchPs (pItem cs) (ofTTs ts) = some (itemBinds attrs name body remainder, []) := by
  rw [ha, pItem, matchPs_cons (match_attrs _ false rfl attrs),
    show ofTTs (.ident kw :: .ident name :: .group .brace body :: remainder) = ident kw :: ident name :: .group .brace (ofTTs body) :: ofTTs remainder from rfl,
    ident_eq hk rfl, matchPs_cons (matchP_tok _ _ _), matchPs_cons (matchP_var (us := [ident name]) (ts' := .group .brace (ofTTs body) :: ofTTs remainder) rfl),
    matchPs_cons (matchP_group (by rw [matchPs_cons (match_tts _ _), matchPs_nil]; rfl)), matchPs_cons (match_tts _ _), matchPs_nil]
  rfl

theorem match_item_ne {ts us : List Macro.TT} {attrs : List (List Macro.TT)} {kw w : String} {cs : List Char} {ps : List P} (hw : w.toList = cs) (hne : kw ≠ w)
    (ha : ofTTs ts = ofAttrs false attrs ++ ofTTs (.ident kw :: us)) :
    matchPs (.rep (attrP (text! "def_attrs")) false :: .tok (.ident false cs) :: ps) (ofTTs ts) = none := by
  rw [ha, matchPs_cons (match_attrs _ false rfl attrs), show ofTTs (.ident kw :: us) = ident kw :: ofTTs us from rfl, tok_ne hw hne]
  rfl

theorem transcribe_item (call : List Char → List Tree → List Tree) (m kw : List Char) (attrs : List (List Macro.TT)) (name : String) (body remainder : List Macro.TT) :
    transcribe call (itemBinds attrs name body remainder) (tItem m kw) = call m (definition true attrs kw name body) ++ call (text! "thrift") (ofTTs remainder) := by
  rw [tItem]
  simp only [t_cons, t_nil, t_call, t_group, t_tok]
  rw [t_attrs (x := text! "def_attrs") (attrs := attrs) rfl, t_tts (x := text! "definitions") (us := ofTTs body) rfl, t_tts (x := text! "remainder") (us := ofTTs remainder) rfl,
    t_leaf (x := text! "identifier") (us := [ident name]) rfl]
  simp only [List.append_nil]
  rfl

/-- The macro and the keyword of an item -/
def itemMacro : Macro.Item → List Char × List Char × List Macro.TT
  | .struct _ body => (text! "thrift_struct", text! "struct", body)
  | .union _ body => (text! "thrift_union", text! "union", body)
  | .enum _ body => (text! "thrift_enum", text! "enum", body)

theorem expand_thrift : ∀ (limit : Nat) (ts : List Macro.TT) (items : List Macro.Item), Macro.thrift limit ts = some items → ∀ k : Nat,
    ∃ xs : List (List (List Macro.TT) × Nat × Macro.Item), xs.map (·.2.2) = items ∧ (∀ x ∈ xs, k ≤ x.2.1) ∧
      expandMacro macroTable (limit + k) (text! "thrift") (ofTTs ts) =
        (xs.map fun x => expandMacro macroTable x.2.1 (itemMacro x.2.2).1 (definition true x.1 (itemMacro x.2.2).2.1 x.2.2.name (itemMacro x.2.2).2.2)).flatten := by
  intro limit
  induction limit with
  | zero => intro ts items h; cases h
  | succ limit ih =>
    intro ts items h k
    have step : expandMacro macroTable (limit + 1 + k) (text! "thrift") (ofTTs ts) = useRule (expandMacro macroTable (limit + k)) (ofTTs ts) rulesThrift := by
      rw [show limit + 1 + k = limit + k + 1 by omega]; rfl
    rw [step, rulesThrift]
    cases ts with
    | nil => cases h; exact ⟨[], rfl, by simp, rfl⟩
    | cons t ts =>
      rw [Macro.thrift] at h
      obtain ⟨attrs, ha⟩ := skipAttrs_eq (t :: ts)
      split at h
      · rename_i kw name body remainder hs
        rw [hs] at ha
        by_cases h1 : kw = "struct"
        · rw [if_pos h1, Option.map_eq_some_iff] at h
          obtain ⟨items, hi, rfl⟩ := h
          obtain ⟨xs, e1, e2, e3⟩ := ih _ _ hi k
          refine ⟨(attrs, limit + k, .struct name body) :: xs, by simp [e1], ?_, ?_⟩
          · intro x hx; rcases List.mem_cons.mp hx with rfl | hx
            · simp
            · exact e2 x hx
          · have hm : matchPs pThrift0 (ofTTs (t :: ts)) = _ := match_item (by rw [h1]; decide) ha
            rw [useRule, hm]
            exact (transcribe_item _ (text! "thrift_struct") (text! "struct") attrs name body remainder).trans (by rw [e3]; rfl)
        · rw [if_neg h1] at h
          rw [use_none (p := pThrift0) (match_item_ne (w := "struct") (by decide) h1 ha)]
          by_cases h2 : kw = "union"
          · rw [if_pos h2, Option.map_eq_some_iff] at h
            obtain ⟨items, hi, rfl⟩ := h
            obtain ⟨xs, e1, e2, e3⟩ := ih _ _ hi k
            refine ⟨(attrs, limit + k, .union name body) :: xs, by simp [e1], ?_, ?_⟩
            · intro x hx; rcases List.mem_cons.mp hx with rfl | hx
              · simp
              · exact e2 x hx
            · have hm : matchPs pThrift1 (ofTTs (t :: ts)) = _ := match_item (by rw [h2]; decide) ha
              rw [useRule, hm]
              exact (transcribe_item _ (text! "thrift_union") (text! "union") attrs name body remainder).trans (by rw [e3]; rfl)
          · rw [if_neg h2] at h
            rw [use_none (p := pThrift1) (match_item_ne (w := "union") (by decide) h2 ha)]
            by_cases h3 : kw = "enum"
            · rw [if_pos h3, Option.map_eq_some_iff] at h
              obtain ⟨items, hi, rfl⟩ := h
              obtain ⟨xs, e1, e2, e3⟩ := ih _ _ hi k
              refine ⟨(attrs, limit + k, .enum name body) :: xs, by simp [e1], ?_, ?_⟩
              · intro x hx; rcases List.mem_cons.mp hx with rfl | hx
                · simp
                · exact e2 x hx
              · have hm : matchPs pThrift2 (ofTTs (t :: ts)) = _ := match_item (by rw [h3]; decide) ha
                rw [useRule, hm]
                exact (transcribe_item _ (text! "thrift_enum") (text! "enum") attrs name body remainder).trans (by rw [e3]; rfl)
            · rw [if_neg h3] at h; cases h
      · rename_i kw a b remainder hs
        rw [hs] at ha
        split at h
        · rename_i h4
          rw [use_none (p := pThrift0) (match_item_ne (w := "struct") (by decide) (by rw [h4]; decide) ha),
            use_none (p := pThrift1) (match_item_ne (w := "union") (by decide) (by rw [h4]; decide) ha),
            use_none (p := pThrift2) (match_item_ne (w := "enum") (by decide) (by rw [h4]; decide) ha)]
          obtain ⟨xs, e1, e2, e3⟩ := ih _ _ h k
          refine ⟨xs, e1, e2, ?_⟩
          have hm : ∃ e, matchPs pThrift3 (ofTTs (t :: ts)) = some (e, []) ∧ look (text! "remainder") e = some (.seq ((ofTTs remainder).map fun t => .leaf [t])) := by
            have hP : pThrift3 = [.rep (attrP (text! "def_attrs")) false, .tok (.ident false (text! "namespace")), .var (text! "identifier") .ident, .var (text! "namespace") .ident,
              .rep [.var (text! "remainder") .tt] false] := rfl
            rw [ha, hP, matchPs_cons (match_attrs _ false rfl attrs),
              show ofTTs (.ident kw :: .ident a :: .ident b :: remainder) = ident kw :: ident a :: ident b :: ofTTs remainder from rfl,
              ident_eq (cs := text! "namespace") (w := "namespace") (by decide) h4, matchPs_cons (matchP_tok _ _ _), matchPs_cons (matchP_var (us := [ident a]) (ts' := ident b :: ofTTs remainder) rfl),
              matchPs_cons (matchP_var (us := [ident b]) (ts' := ofTTs remainder) rfl), matchPs_cons (match_tts _ _), matchPs_nil]
            exact ⟨_, rfl, rfl⟩
          obtain ⟨e, hm, hl⟩ := hm
          rw [useRule, hm, tThrift3]
          simp only [t_cons, t_nil, t_call, t_tts hl, List.append_nil, e3]
        · cases h
      · cases h

end CT.Rust
