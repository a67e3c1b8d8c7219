import Verif.Proofs.GeneratedItems
/-!
# The items of structs, read from the text of the generator
-/
namespace CT.Props
open CT CT.Rust CT.Rust.Spec CT.Gen

/-! ## Building chunks -/

theorem Chunk.to {E : Char → Bool} {cs : List Char} {ls ms : List Lex} (h : Chunk E cs ls) (hm : ls = ms) : Chunk E cs ms := hm ▸ h

/-- A fixed text, then the rest -/
theorem Chunk.lit {F : Char → Bool} {cs r : List Char} {lr : List Lex} (h : (Rust.run .between cs).map (·.2) = some .between) (hr : Chunk F r lr) :
    Chunk F (cs ++ r) (toks cs ++ lr) := Chunk.then (Chunk.mono (Chunk.fix .between h) fun _ _ => rfl) hr

/-- A fixed text that ends with an operator, then a word -/
theorem Chunk.litOp {F : Char → Bool} {cs x r : List Char} {lr : List Lex} (d : Char) (hd : d = '.' ∨ d = '!' ∨ d = '<')
    (h : (Rust.run .between cs).map (·.2) = some (.op d)) (hx : ∃ c r, x = c :: r ∧ wordStart c = true) (hr : Chunk F (x ++ r) lr) :
    Chunk F (cs ++ (x ++ r)) (toks cs ++ lr) := by
  obtain ⟨c, q, rfl, hc⟩ := hx
  exact Chunk.append (Chunk.fix (.op d) h) hr ⟨c, q ++ r, rfl, fin_op hd hc⟩

/-- A fixed text that ends with a comma or a semicolon, then the rest -/
theorem Chunk.litEnd {F : Char → Bool} {cs r : List Char} {lr : List Lex} (d : Char) (hd : d = ',' ∨ d = ';')
    (h : (Rust.run .between cs).map (·.2) = some (.op d)) (hr : Chunk F r lr) : Chunk F (cs ++ r) (toks cs ++ lr) := by
  refine Chunk.then ((Chunk.fix (.op d) h).mono fun c _ => ?_) hr
  rcases hd with rfl | rfl
  · exact fin_comma c
  · exact fin_semi c

/-- The text ends there. -/
theorem Chunk.lit1 {cs : List Char} (h : (Rust.run .between cs).map (·.2) = some .between) : Chunk any cs (toks cs) := (Chunk.fix .between h).mono fun _ _ => rfl

theorem Chunk.litEnd1 {cs : List Char} (d : Char) (hd : d = ',' ∨ d = ';') (h : (Rust.run .between cs).map (·.2) = some (.op d)) : Chunk any cs (toks cs) := by
  have := Chunk.litEnd d hd h (Chunk.nil (E := any))
  simpa using this

/-- A part, then a fixed text and the rest -/
theorem Chunk.part {E F : Char → Bool} {x r : List Char} {lx lr : List Lex} (hx : Chunk E x lx) (hc : ∃ c cs, r = c :: cs ∧ E c = true) (hr : Chunk F r lr) :
    Chunk F (x ++ r) (lx ++ lr) := hx.append hr hc

/-- What strings are made of -/
def Quotable (s : List Char) : Prop := ∀ c ∈ s, c ≠ '"' ∧ c ≠ '\\' ∧ c ≠ '\n'

theorem run_quotable {b : Bool} {a s : List Char} (h : Quotable s) : run (.str b a) s = some ([], .str b (a ++ s)) := by
  induction s generalizing a with
  | nil => simp [run]
  | cons c s ih =>
    have hc := h c (by simp)
    rw [run, step, if_neg (by simpa using hc.1), if_neg (by simpa using hc.2.1), if_neg (by simpa using hc.2.2), Option.bind_some]
    simp [ih fun d hd => h d (by simp [hd])]

/-- A string after a fixed text that opens it -/
theorem Chunk.quote {F : Char → Bool} {pre s post post' r : List Char} {lr : List Lex} (b : Bool) (h : (Rust.run .between pre).map (·.2) = some (.str b []))
    (hs : Quotable s) (hp : post = '"' :: post') (hr : Chunk F (post' ++ r) lr) :
    Chunk F (pre ++ (s ++ (post ++ r))) (toks pre ++ ([.tok (if b then .cstr s else .str s)] ++ lr)) := by
  subst hp
  rw [Option.map_eq_some_iff] at h
  obtain ⟨⟨a, st⟩, h1, h2⟩ := h
  cases h2
  intro c rest hc
  have ht : toks pre = a := by rw [toks, h1]; simp [pending]
  have hq : Rust.run (.str b s) ('"' :: (post' ++ r ++ c :: rest)) = before [.tok (if b then .cstr s else .str s)] (Rust.run .between (post' ++ r ++ c :: rest)) := by
    rw [Rust.run, step, if_pos (by rfl), Option.bind_some]
    rfl
  rw [List.append_assoc, run_append, h1, Option.bind_some, List.append_assoc, run_append, run_quotable hs, Option.bind_some, before_nil]
  simp only [List.nil_append, List.cons_append]
  rw [hq, hr c rest hc, before_before, before_before, ht, List.append_assoc]
  rfl

theorem quotable_word {s : List Char} (h : Wordy s) : Quotable s := by
  obtain ⟨c, cs, rfl, h1, h2⟩ := h
  have hall : ∀ d ∈ c :: cs, wordTail d = true := by
    intro d hd
    rcases List.mem_cons.mp hd with rfl | hd
    · simp [wordTail, h1]
    · exact h2 d hd
  intro d hd
  have := hall d hd
  refine ⟨?_, ?_, ?_⟩ <;> (rintro rfl; revert this; decide)

theorem quotable_name {s : String} (h : escapedOk s = true) : Quotable s.toList := by
  simp only [escapedOk, Bool.or_eq_true, beq_iff_eq] at h
  rcases h with rfl | h
  · rw [toList_type]; intro c hc; revert c; decide
  · exact quotable_word (wordy_of h).1

theorem path_eq (a b : String) (r : List Char) : a.toList ++ (text! "::" ++ (b.toList ++ r)) = (a ++ "::" ++ b).toList ++ r := by
  rw [String.toList_append, String.toList_append, show "::".toList = text! "::" by decide]
  simp only [List.append_assoc]

theorem quotable_path {a b : String} (ha : escapedOk a = true) (hb : escapedOk b = true) : Quotable (a ++ "::" ++ b).toList := by
  rw [String.toList_append, String.toList_append, show "::".toList = text! "::" by decide]
  intro c hc
  rcases List.mem_append.mp hc with hc | hc
  · rcases List.mem_append.mp hc with hc | hc
    · exact quotable_name ha c hc
    · have : ∀ c ∈ text! "::", c ≠ '"' ∧ c ≠ '\\' ∧ c ≠ '\n' := by decide
      exact this c hc
  · exact quotable_name hb c hc

/-! ## Fields -/

/-- A field of the document, its type as text, and the field of the struct -/
structure FieldOk (needs : String → Bool) (z : Gen.Field × List Char × CT.Field) : Prop where
  ok : escapedOk z.1.identifier = true
  name : z.2.2.name = z.1.identifier
  id : z.2.2.id.toInt = z.1.id.toInt
  required : z.2.2.required = decide (z.1.req = .REQUIRED)
  type : Chunk brk z.2.1 (flat (genFieldCode needs z.1))
  head : ∃ c r, z.2.1 = c :: r ∧ wordStart c = true
  fine : fine (genFieldCode needs z.1) = true

/-- `pub x: T,` -/
def declTree (needs : String → Bool) (f : Gen.Field) : List Tree := code (text! "pub") ++ [name ofGenerator f.identifier] ++ code (text! ":") ++ genFieldCode needs f ++ code (text! ",")

theorem chunk_decl {needs : String → Bool} {z : Gen.Field × List Char × CT.Field} (h : FieldOk needs z) :
    Chunk any (text! "
                pub " ++ rustIdentifier z.1.identifier ++ text! ": " ++ z.2.1 ++ text! ",") (flat (declTree needs z.1)) := by
  simp only [List.append_assoc]
  refine Chunk.to (.lit rfl (.part (chunk_name h.ok) ⟨_, _, rfl, rfl⟩ (.lit rfl (.part h.type ⟨_, _, rfl, rfl⟩ (.litEnd1 ',' (.inl rfl) rfl))))) ?_
  code_simp [declTree, flat_append, flat, flat1, pending]

/-- `x: impl Into<T>` -/
def paramTree (needs : String → Bool) (f : Gen.Field) : List Tree := [name ofGenerator f.identifier] ++ code (text! ": impl Into<") ++ genFieldCode needs f ++ code (text! ">")

theorem chunk_param {E : Char → Bool} {needs : String → Bool} {z : Gen.Field × List Char × CT.Field} (h : FieldOk needs z) :
    Chunk E (rustIdentifier z.1.identifier ++ text! ": impl Into<" ++ z.2.1 ++ text! ">") (flat (paramTree needs z.1)) := by
  simp only [List.append_assoc]
  refine Chunk.to (.part (chunk_name h.ok) ⟨_, _, rfl, rfl⟩ (.litOp '<' (by simp) rfl h.head (.part h.type ⟨_, _, rfl, rfl⟩ (chunk_gt rfl)))) ?_
  code_simp [paramTree, flat_append, flat, flat1, pending]

/-- The parameters of `new` -/
theorem chunk_params {needs : String → Bool} {zs : List (Gen.Field × List Char × CT.Field)} (h : ∀ z ∈ zs, FieldOk needs z) :
    Chunk any (structText.joinComma (zs.map fun z => rustIdentifier z.1.identifier ++ text! ": impl Into<" ++ z.2.1 ++ text! ">"))
      (flat (joinWith (some (.op [','])) (zs.map fun z => paramTree needs z.1))) := by
  induction zs with
  | nil => exact Chunk.nil
  | cons z zs ih =>
    have hz := chunk_param (E := any) (h z (by simp))
    cases zs with
    | nil => exact hz
    | cons y zs =>
      have := ih fun z hz => h z (by simp [hz])
      rw [List.map_cons] at this
      rw [List.map_cons, List.map_cons, structText.joinComma, List.append_assoc]
      · refine Chunk.to (.then hz (.lit rfl this)) ?_
        conv => rhs; rw [List.map_cons, List.map_cons, joinWith, flat_append, flat_append]
        code_simp [flat, flat1]
        rfl
      · simp

/-- `x: x.into(),` -/
def intoTree (f : Gen.Field) : List Tree := [name ofGenerator f.identifier] ++ code (text! ":") ++ [name ofGenerator f.identifier] ++ code (text! ".into(),")

theorem chunk_into {needs : String → Bool} {z : Gen.Field × List Char × CT.Field} (h : FieldOk needs z) :
    Chunk any (text! "
                        " ++ rustIdentifier z.1.identifier ++ text! ": " ++ rustIdentifier z.1.identifier ++ text! ".into(),") (flat (intoTree z.1)) := by
  simp only [List.append_assoc]
  refine Chunk.to (.lit rfl (.part (chunk_name h.ok) ⟨_, _, rfl, rfl⟩ (.lit rfl (.part (chunk_name h.ok) ⟨_, _, rfl, rfl⟩ (.litEnd1 ',' (.inl rfl) rfl))))) ?_
  code_simp [intoTree, flat_append, flat, flat1, pending]

theorem chunk_flagged {needs : String → Bool} {z : Gen.Field × List Char × CT.Field} (h : FieldOk needs z) :
    Chunk any (text! "
                    let mut " ++ rustIdentifier z.1.identifier ++ text! "_set_: bool = false;") (flat (flagTree z.2.2.name)) := by
  rw [show text! "_set_: bool = false;" = text! "_set_" ++ text! ": bool = false;" from rfl, ← List.append_assoc, List.append_assoc (text! "
                    let mut "), List.append_assoc, h.name]
  refine Chunk.to (.lit rfl (.part (chunk_flag h.ok) ⟨_, _, rfl, rfl⟩ (.litEnd1 ';' (.inr rfl) rfl))) ?_
  code_simp [flagTree, flat_append, flat, flat1, pending]

theorem chunk_arm {needs : String → Bool} {z : Gen.Field × List Char × CT.Field} (h : FieldOk needs z) :
    Chunk any (text! "
                            " ++ intText z.1.id ++ text! " => {
                                " ++ (if z.1.req = .REQUIRED then rustIdentifier z.1.identifier ++ text! "_set_ = true;" else []) ++ text! "
                                self." ++ rustIdentifier z.1.identifier ++ text! ".fill_field(input, field_type)?;
                            }") (flat (armTree z.2.2)) := by
  have hset : Chunk any (if z.1.req = .REQUIRED then rustIdentifier z.1.identifier ++ text! "_set_ = true;" else []) (flat (setTree z.2.2)) := by
    rw [setTree, h.required]
    by_cases hr : z.1.req = .REQUIRED
    · rw [if_pos hr, if_pos (by simpa using hr), show text! "_set_ = true;" = text! "_set_" ++ text! " = true;" from rfl, ← List.append_assoc, h.name]
      refine Chunk.to (.part (chunk_flag h.ok) ⟨_, _, rfl, rfl⟩ (.litEnd1 ';' (.inr rfl) rfl)) ?_
      code_simp [flat_append, flat, flat1, pending]
    · rw [if_neg hr, if_neg (by simpa using hr)]
      exact Chunk.nil
  simp only [List.append_assoc]
  refine Chunk.to (.lit rfl (.part (chunk_int _) ⟨_, _, rfl, rfl⟩ (.lit rfl (.then hset (.litOp '.' (.inl rfl) rfl (head_name h.ok)
    (.part (chunk_name h.ok) ⟨_, _, rfl, rfl⟩ (.lit1 rfl))))))) ?_
  rw [armTree, h.name, h.id]
  code_simp [flat_append, flat, flat1, pending, flat_group]

theorem chunk_check {needs : String → Bool} {z : Gen.Field × List Char × CT.Field} {id : String} (hid : escapedOk id = true) (h : FieldOk needs z) :
    Chunk any (text! "
                    if !" ++ rustIdentifier z.1.identifier ++ text! "_set_ {
                        return Err(ThriftError::MissingField(c\"" ++ id.toList ++ text! "::" ++ z.1.identifier.toList ++ text! "\".into()))
                    }
                    ") (flat (checkTree id z.2.2.name)) := by
  rw [show text! "_set_ {
                        return Err(ThriftError::MissingField(c\"" = text! "_set_" ++ text! " {
                        return Err(ThriftError::MissingField(c\"" from rfl, ← List.append_assoc, List.append_assoc (text! "
                    if !"), h.name]
  simp only [List.append_assoc, path_eq]
  rw [← List.append_assoc (rustIdentifier _)]
  have hhead : ∃ c r, rustIdentifier z.1.identifier ++ text! "_set_" = c :: r ∧ wordStart c = true := by
    obtain ⟨c, r, h1, h2⟩ := head_name h.ok
    exact ⟨c, _, by rw [h1]; rfl, h2⟩
  have := Chunk.quote (F := any) (pre := text! " {
                        return Err(ThriftError::MissingField(c\"") (r := []) (post := text! "\".into()))
                    }
                    ") true rfl (quotable_path hid h.ok) rfl (by rw [List.append_nil]; exact .lit1 rfl)
  rw [List.append_nil] at this
  refine Chunk.to (.litOp '!' (by simp) rfl hhead (.part (chunk_flag h.ok) ⟨_, _, rfl, rfl⟩ this)) ?_
  code_simp [checkTree, flat_append, flat, flat1, pending, flat_group]
  rfl

theorem chunk_write {needs : String → Bool} {z : Gen.Field × List Char × CT.Field} (h : FieldOk needs z) :
    Chunk any (text! "
                    self." ++ rustIdentifier z.1.identifier ++ text! ".write_field(output, " ++ intText z.1.id ++ text! ", &mut last_field_id)?;") (flat (writeTree z.2.2)) := by
  simp only [List.append_assoc]
  refine Chunk.to (.litOp '.' (.inl rfl) rfl (head_name h.ok) (.part (chunk_name h.ok) ⟨_, _, rfl, rfl⟩ (.lit rfl (.part (chunk_int _) ⟨_, _, rfl, rfl⟩ (.litEnd1 ';' (.inr rfl) rfl))))) ?_
  rw [writeTree, h.name, h.id]
  code_simp [flat_append, flat, flat1, pending, flat_group]

/-! ## Structs -/

/-- A word with its lifetime, then the rest -/
theorem Chunk.partLt {F : Char → Bool} {x r : List Char} {lx lr : List Lex} (b : Bool) (hx : Chunk brk x lx) (hc : ∃ c cs, r = c :: cs ∧ brk c = true) (hr : Chunk F r lr) :
    Chunk F (x ++ ((if b then text! "<'i>" else []) ++ r)) (lx ++ (flat (lifetime b) ++ lr)) := by
  rw [← List.append_assoc, ← List.append_assoc]
  exact (chunk_lifetime b hx).append hr hc

theorem filter_required {needs : String → Bool} {zs : List (Gen.Field × List Char × CT.Field)} (h : ∀ z ∈ zs, FieldOk needs z) :
    (zs.filter fun z => decide (z.1.req = .REQUIRED)) = zs.filter fun z => z.2.2.required :=
  List.filter_congr fun z hz => (h z hz).required.symm

theorem fine_map {α : Type} (f : α → List Tree) (xs : List α) : fine (xs.map f).flatten = true ↔ ∀ x ∈ xs, fine (f x) = true := by
  refine ⟨fun h x hx => ?_, fine_flatten f xs⟩
  induction xs with
  | nil => cases hx
  | cons y xs ih =>
    rw [List.map_cons, List.flatten_cons, fine_append, Bool.and_eq_true] at h
    rcases List.mem_cons.mp hx with rfl | hx
    · exact h.1
    · exact ih h.2 hx

theorem fine_name (s : String) : fine1 (name ofGenerator s) = true := rfl
theorem fine_local (s : String) : fine1 (localVar (Code.Style.generator.flag s)) = true := rfl
theorem fine_life (b : Bool) : fine (lifetime b) = true := by cases b <;> rfl
theorem fine_literal (n : Int) : fine (literal true n) = true := by rw [literal]; split <;> rfl

theorem fine_join {α : Type} (f : α → List Tree) (xs : List α) (t : Rust.Tok) (h : ∀ x ∈ xs, fine (f x) = true) : fine (joinWith (some t) (xs.map f)) = true := by
  induction xs with
  | nil => rfl
  | cons x xs ih =>
    have hx := h x (by simp)
    cases xs with
    | nil => exact hx
    | cons y xs =>
      rw [List.map_cons, List.map_cons, joinWith, ← List.map_cons (f := f), fine_append, fine_append, hx, ih fun z hz => h z (by simp [hz])]
      rfl

set_option maxRecDepth 100000 in
theorem writes_struct {needs : String → Bool} {zs : List (Gen.Field × List Char × CT.Field)} {id : String} (b : Bool) (hid : escapedOk id = true) (h : ∀ z ∈ zs, FieldOk needs z) :
    Writes (structText id (if b then text! "<'i>" else []) (zs.map fun z => (z.1, z.2.1)))
      (genStruct needs b id (zs.map (·.1)) (stmt ofGenerator (Code.generatorFill (.struct id (zs.map (·.2.2))))) (wstmt ofGenerator false (Code.generatorWrite (.struct id (zs.map (·.2.2)))))) := by
  have hreq : ∀ z ∈ zs.filter (fun z => z.2.2.required), FieldOk needs z := fun z hz => h z (List.mem_filter.mp hz).1
  have hlet : Chunk any (if (zs.map fun z => (z.1, z.2.1)).isEmpty then [] else text! "let mut last_field_id = 0_i16;")
      (flat (if (zs.map (·.2.2)).isEmpty then [] else code (text! "let mut last_field_id = 0_i16;"))) := by
    cases zs with
    | nil => exact Chunk.nil
    | cons z zs => exact .to (.litEnd1 ';' (.inr rfl) rfl) rfl
  refine ⟨trim_run (Chunk.run ?_), ?_⟩
  · simp only [List.filter_map, List.map_map, Function.comp_def, filter_required h]
    simp only [List.append_assoc]
    refine Chunk.to (.lit rfl <| .partLt b (chunk_name hid) ⟨_, _, rfl, rfl⟩ <| .lit rfl <|
      .then (.flatten (g := fun z : Gen.Field × List Char × CT.Field => flat (declTree needs z.1)) fun z hz => by simpa only [List.append_assoc] using chunk_decl (h z hz)) <|
      .partLt b (Chunk.fix (.word (text! "impl")) rfl) ⟨_, _, rfl, rfl⟩ <| .lit rfl <| .partLt b (chunk_name hid) ⟨_, _, rfl, rfl⟩ <| .lit rfl <|
      .then (la := flat (joinWith (some (.op [','])) (zs.map fun z => paramTree needs z.1))) (by simpa only [List.append_assoc] using chunk_params h) <| .lit rfl <|
      .then (.flatten (g := fun z : Gen.Field × List Char × CT.Field => flat (intoTree z.1)) fun z hz => by simpa only [List.append_assoc] using chunk_into (h z hz)) <|
      .lit rfl <| .partLt b (chunk_name hid) ⟨_, _, rfl, rfl⟩ <| .lit rfl <|
      .then (.flatten (g := fun z : Gen.Field × List Char × CT.Field => flat (flagTree z.2.2.name)) fun z hz => by simpa only [List.append_assoc] using chunk_flagged (hreq z hz)) <| .lit rfl <|
      .then (.flatten (g := fun z : Gen.Field × List Char × CT.Field => flat (armTree z.2.2)) fun z hz => by simpa only [List.append_assoc] using chunk_arm (h z hz)) <| .lit rfl <|
      .then (.flatten (g := fun z : Gen.Field × List Char × CT.Field => flat (checkTree id z.2.2.name)) fun z hz => by simpa only [List.append_assoc] using chunk_check hid (hreq z hz)) <| .lit rfl <| .then hlet <|
      .then (.flatten (g := fun z : Gen.Field × List Char × CT.Field => flat (writeTree z.2.2)) fun z hz => by simpa only [List.append_assoc] using chunk_write (h z hz)) <| .lit1 rfl) ?_
    rw [genStruct, genImpl, stmt_struct, wstmt_struct]
    simp only [List.filter_map, List.map_map, Function.comp_def]
    code_simp [flat_append, flat_group, flat_flatten, flat, flat1, declTree, paramTree, intoTree]
  · rw [genStruct, genImpl, stmt_struct, wstmt_struct]
    simp only [List.filter_map, List.map_map, Function.comp_def]
    code_simp [fine_append, fine_group, fine_map, fine, fine1, fine_name, fine_local, fine_life, fine_literal, Bool.and_eq_true, Bool.true_and, Bool.and_true, flagTree, armTree, setTree,
      checkTree, writeTree]
    refine ⟨fun z hz => (h z hz).fine, ⟨fine_join _ _ _ fun z hz => ?_, fun _ _ => trivial⟩, ⟨fun _ _ => trivial, fun z _ => ?_, fun _ _ => trivial⟩, ?_, fun _ _ => trivial⟩
    · code_simp [fine, fine1, fine_append, fine_name, (h z hz).fine, Bool.and_true]
    · split
      · code_simp [fine, fine1, fine_local, Bool.and_true]
      · rfl
    · split <;> rfl

end CT.Props
