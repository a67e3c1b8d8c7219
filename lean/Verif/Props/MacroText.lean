import Verif.Proofs.ExpansionThrift
/-!
# C96: from the text of macros.rs to the code that C95 executes

The texts of the macros are read and expanded by the rules of `macro_rules!`; the result is the code whose statements `Model/Code.lean` executes (C95).
-/
namespace CT.Props
open CT CT.Rust CT.Rust.Spec

set_option maxRecDepth 100000 in
/-- **C96** Every macro of macros.rs is read, and its rules are those of the table. -/
theorem C96_text : macroTexts.map readMacro = macroTable.map some := rfl

theorem macros_eq : macros = macroTable := by
  have h : ∀ (xs : List (List (List Char))) (ys : List (List Char × Rules)), xs.map readMacro = ys.map some → xs.filterMap readMacro = ys := by
    intro xs
    induction xs with
    | nil => intro ys h; cases ys with
      | nil => rfl
      | cons y ys => cases h
    | cons x xs ih =>
      intro ys h
      cases ys with
      | nil => cases h
      | cons y ys =>
        simp only [List.map_cons, List.cons.injEq] at h
        rw [List.filterMap_cons, h.1, ih ys h.2]
  exact h _ _ C96_text

/-- **C96** `thrift_struct!`, for every body the model accepts: the items, with the functions C95 executes. -/
theorem C96_struct {scope : String → Option Ty} {name : String} {body : List Macro.TT} {fs : List Macro.FieldSyn} {d : Def}
    (hf : Macro.repeated Macro.structField body.length body = some fs) (h0 : ∀ f ∈ fs, f.id ≠ .int true 0) (h : Macro.thriftStruct scope name body = some d)
    (own : Bool) (attrs : List (List Macro.TT)) (n : Nat) :
    ∃ ds : List (List (List Macro.TT)), ds.length = fs.length ∧
      expandMacro macros (n + 3) (text! "thrift_struct") (definition own attrs (text! "struct") name body) =
        structItems (attrs.map ofTTs) name ((ds.map (·.map ofTTs)).zip fs) (stmt ofMacro (Code.macroFill d)) (wstmt ofMacro false (Code.macroWrite d)) := by
  rw [macros_eq]; exact expand_struct hf h0 h own attrs n

/-- **C96** `thrift_union!` -/
theorem C96_union {scope : String → Option Ty} {name : String} {body : List Macro.TT} {us : List Macro.VariantSyn} {d : Def}
    (hu : Macro.repeated Macro.unionField body.length body = some us) (h0 : ∀ u ∈ us, u.id ≠ .int true 0) (h : Macro.thriftUnion scope name body = some d)
    (own : Bool) (attrs : List (List Macro.TT)) (n : Nat) :
    ∃ ds : List (List (List Macro.TT)), ds.length = us.length ∧
      expandMacro macros (n + 3) (text! "thrift_union") (definition own attrs (text! "union") name body) =
        unionItems (attrs.map ofTTs) name ((ds.map (·.map ofTTs)).zip us) (stmt ofMacro (Code.macroFill d)) (wstmt ofMacro false (Code.macroWrite d)) := by
  rw [macros_eq]; exact expand_union hu h0 h own attrs n

/-- **C96** `thrift_enum!` -/
theorem C96_enum {name : String} {body : List Macro.TT} {cs : List (String × Macro.Literal)} {d : Def}
    (hc : Macro.repeated Macro.enumField body.length body = some cs) (h : Macro.thriftEnum name body = some d) (own : Bool) (attrs : List (List Macro.TT)) (n : Nat) :
    expandMacro macros (n + 1) (text! "thrift_enum") (definition own attrs (text! "enum") name body) =
      enumItems (attrs.map ofTTs) name (cs.map fun c => (c.1, ofLiteral c.2)) (stmt ofMacro (Code.macroFill d)) (wstmt ofMacro true (Code.macroWrite d)) := by
  rw [macros_eq]; exact expand_enum hc h own attrs n

theorem repeated_struct {scope : String → Option Ty} {name : String} {body : List Macro.TT} {d : Def} (h : Macro.thriftStruct scope name body = some d) :
    ∃ fs, Macro.repeated Macro.structField body.length body = some fs := by
  simp only [Macro.thriftStruct, Option.bind_eq_bind, Option.bind_eq_some_iff] at h
  obtain ⟨fs, h, -⟩ := h
  exact ⟨fs, h⟩

theorem repeated_union {scope : String → Option Ty} {name : String} {body : List Macro.TT} {d : Def} (h : Macro.thriftUnion scope name body = some d) :
    ∃ fs, Macro.repeated Macro.unionField body.length body = some fs := by
  simp only [Macro.thriftUnion, Option.bind_eq_bind, Option.bind_eq_some_iff] at h
  obtain ⟨fs, h, -⟩ := h
  exact ⟨fs, h⟩

theorem repeated_enum {name : String} {body : List Macro.TT} {d : Def} (h : Macro.thriftEnum name body = some d) :
    ∃ fs, Macro.repeated Macro.enumField body.length body = some fs := by
  simp only [Macro.thriftEnum] at h
  split at h
  · simp only [Macro.enumConstants, Option.map_eq_some_iff, Option.bind_eq_bind, Option.bind_eq_some_iff] at h
    obtain ⟨_, ⟨fs, h, -⟩, -⟩ := h
    exact ⟨fs, h⟩
  · cases h

theorem itemCode_of {scope : String → Option Ty} {item : Macro.Item} {d : Def} (h : Macro.elabItem scope item = some d) (h0 : noMinusZero item) (attrs : List (List Macro.TT)) {n : Nat} (hn : 3 ≤ n) :
    ItemCode item d (expandMacro macroTable n (itemMacro item).1 (definition true attrs (itemMacro item).2.1 item.name (itemMacro item).2.2)) := by
  obtain ⟨n, rfl⟩ : ∃ m, n = m + 3 := ⟨n - 3, by omega⟩
  cases item with
  | struct name body =>
    obtain ⟨fs, hf⟩ := repeated_struct h
    obtain ⟨ds, h1, h2⟩ := expand_struct hf (h0 fs hf) h true attrs n
    simp only [itemMacro, Macro.Item.name, h2]
    exact .struct hf (by simp [h1])
  | union name body =>
    obtain ⟨fs, hf⟩ := repeated_union h
    obtain ⟨ds, h1, h2⟩ := expand_union hf (h0 fs hf) h true attrs n
    simp only [itemMacro, Macro.Item.name, h2]
    exact .union hf (by simp [h1])
  | enum name body =>
    obtain ⟨fs, hf⟩ := repeated_enum h
    have h2 := expand_enum hf h true attrs (n + 2)
    simp only [itemMacro, Macro.Item.name, h2]
    exact .enum hf

/-- **C96** `thrift!`, for every document the model accepts: the expansion is the code of its definitions one after the other, in the order of the document
(`k` is at least 3: the definitions need that many further nested invocations). -/
theorem C96_document {scope : String → Option Ty} {limit k : Nat} (hk : 3 ≤ k) {ts : List Macro.TT} {items : List Macro.Item} {defs : List Def}
    (h : Macro.thrift limit ts = some items) (hd : items.mapM (Macro.elabItem scope) = some defs) (h0 : ∀ item ∈ items, noMinusZero item) :
    ∃ xs : List (Macro.Item × Def × List Tree), xs.map (·.1) = items ∧ xs.map (·.2.1) = defs ∧ (∀ x ∈ xs, ItemCode x.1 x.2.1 x.2.2) ∧
      expandMacro macros (limit + k) (text! "thrift") (ofTTs ts) = (xs.map (·.2.2)).flatten := by
  obtain ⟨ys, h1, h2, h3⟩ := expand_thrift limit ts items h k
  subst h1
  obtain ⟨ps, e1, e2, e3⟩ := mapM_pairs hd
  subst e1 e2
  refine ⟨ps.map fun p => (p.1.2.2, p.2, expandMacro macroTable p.1.2.1 (itemMacro p.1.2.2).1 (definition true p.1.1 (itemMacro p.1.2.2).2.1 p.1.2.2.name (itemMacro p.1.2.2).2.2)),
    by simp, by simp, ?_, ?_⟩
  · intro x hx
    obtain ⟨p, hp, rfl⟩ := List.mem_map.mp hx
    have hk' : k ≤ p.1.2.1 := h2 p.1 (List.mem_map.mpr ⟨p, hp, rfl⟩)
    exact itemCode_of (e3 p hp) (h0 _ (List.mem_map.mpr ⟨p.1, List.mem_map.mpr ⟨p, hp, rfl⟩, rfl⟩)) p.1.1 (by omega)
  · rw [macros_eq, h3]
    simp only [List.map_map, Function.comp_def]

theorem written_type1 (s : String) : (typeCode1 s).map written = rustTy (Macro.fieldType1 s) := by
  unfold typeCode1 Macro.fieldType1
  repeat' split
  all_goals simp only [rustTy]
  all_goals first | rfl | (simp [show "String".toList = text! "String" by decide, show "u8".toList = text! "u8" by decide, show "f64".toList = text! "f64" by decide]; rfl)

/-- **C96** The types in the expansion are those of the model of `__thrift_field_type!` (C70, C71). -/
theorem C96_types {s : String} {o : Option String} {t : Macro.RustTy} (h : Macro.fieldTypeMacro s o = some t) : (typeCode s o).map written = rustTy t := by
  cases o with
  | none => cases h; exact written_type1 s
  | some e =>
    have he := written_type1 e
    simp only [Macro.fieldTypeMacro] at h
    split at h
    · rename_i hs; subst hs; cases h
      rw [show typeCode "list" (some e) = code (text! "Vec<") ++ typeCode1 e ++ code (text! ">") from rfl, List.map_append, List.map_append, he]; rfl
    split at h
    · rename_i hs; subst hs; cases h
      rw [show typeCode "set" (some e) = code (text! "Vec<") ++ typeCode1 e ++ code (text! ">") from rfl, List.map_append, List.map_append, he]; rfl
    split at h
    · rename_i hs; subst hs; cases h
      rw [show typeCode "Box" (some e) = code (text! "std::boxed::Box<") ++ typeCode1 e ++ code (text! ">") from rfl, List.map_append, List.map_append, he]; rfl
    split at h
    · rename_i hs; subst hs; cases h
      rw [show typeCode "Rc" (some e) = code (text! "std::rc::Rc<") ++ typeCode1 e ++ code (text! ">") from rfl, List.map_append, List.map_append, he]; rfl
    split at h
    · rename_i hs; subst hs; cases h
      rw [show typeCode "Arc" (some e) = code (text! "std::sync::Arc<") ++ typeCode1 e ++ code (text! ">") from rfl, List.map_append, List.map_append, he]; rfl
    · cases h

/-! ## Cases -/

/-- `enum E { A = -1; } struct S { 1: required list<i32> foo; -2: optional E bar } union U { /** … */ 3: S s }` -/
def exampleDocument : List Macro.TT :=
  [.ident "enum", .ident "E", .group .brace [.ident "A", .punct '=', .punct '-', .lit (.int 1), .punct ';'],
   .ident "struct", .ident "S", .group .brace [.lit (.int 1), .punct ':', .ident "required", .ident "list", .punct '<', .ident "i32", .punct '>', .ident "foo", .punct ';',
     .punct '-', .lit (.int 2), .punct ':', .ident "optional", .ident "E", .ident "bar"],
   .ident "union", .ident "U", .group .brace [.punct '#', .group .bracket [.ident "doc", .punct '=', .lit .text], .lit (.int 3), .punct ':', .ident "S", .ident "s"]]

def exampleItems : List Macro.Item := (Macro.thrift 4 exampleDocument).getD []

def exampleTextScope : String → Option Ty := fun s => if s = "E" then some (.named 0) else if s = "S" then some (.named 1) else if s = "U" then some (.named 2) else none

/-- The premises of `C96_document` hold for it. -/
example : Macro.thrift 4 exampleDocument = some exampleItems ∧ exampleItems.length = 3 ∧
    exampleItems.mapM (Macro.elabItem exampleTextScope) =
      some [.enum "E", .struct "S" [⟨1, true, "foo", .list .i32⟩, ⟨-2, false, "bar", .named 0⟩], .union "U" [⟨3, "s", .named 1⟩]] ∧
    ∀ item ∈ exampleItems, noMinusZero item := by
  refine ⟨rfl, rfl, by decide, ?_⟩
  intro item hi
  rcases hi with _ | ⟨_, _ | ⟨_, _ | ⟨_, hi⟩⟩⟩
  · exact trivial
  · intro fs hfs f hf
    cases hfs
    revert f
    decide
  · intro fs hfs f hf
    cases hfs
    revert f
    decide
  · cases hi

end CT.Props
