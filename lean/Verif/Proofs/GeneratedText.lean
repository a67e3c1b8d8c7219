import Verif.Spec.GeneratedCode
import Verif.Model.GeneratorText
import Verif.Proofs.Expansion
/-!
# Lexing the text of the generator
-/
namespace CT.Props
open CT CT.Rust CT.Rust.Spec CT.Gen

/-! ## The lexer on parts of a text -/

/-- The tokens so far, before the rest -/
def before (ls : List Lex) (r : Option (List Lex × St)) : Option (List Lex × St) := r.map fun x => (ls ++ x.1, x.2)

theorem before_nil (r : Option (List Lex × St)) : before [] r = r := by cases r <;> rfl

theorem before_before (a b : List Lex) (r : Option (List Lex × St)) : before a (before b r) = before (a ++ b) r := by
  cases r <;> simp [before]

theorem run_append (st : St) (a b : List Char) : run st (a ++ b) = (run st a).bind fun x => before x.1 (run x.2 b) := by
  induction a generalizing st with
  | nil => simp [run, before_nil]
  | cons c a ih =>
    rw [List.cons_append, run, run]
    cases step st c with
    | none => rfl
    | some x =>
      simp only [Option.bind_some, ih]
      cases run x.2 a with
      | none => rfl
      | some y =>
        simp only [Option.bind_some, Option.map_some, before]
        cases run y.2 b <;> simp

/-- The token a state stands for, if it ends here -/
def pending : St → List Lex
  | .between => []
  | .word s => [.tok (.ident false s)]
  | .raw s => [.tok (.ident (keywords.contains s) s)]
  | .number s => [.tok (numTok s)]
  | .life s => [.tok (.life s)]
  | .op c => [.tok (.op [c])]
  | _ => []

/-- The token ends before `c`. -/
def fin : St → Char → Bool
  | .between, _ => true
  | .word _, c => !wordTail c && !(c == '#') && !(c == '"')
  | .raw s, c => !wordTail c && !s.isEmpty
  | .number _, c => !wordTail c && !(c == '.')
  | .life s, c => !wordTail c && !s.isEmpty && !(c == '\'')
  | .op d, c => !(d == '/') && !twoOps.contains [d, c]
  | _, _ => false

theorem step_fin {st : St} {c : Char} (h : fin st c = true) : step st c = before (pending st) (start c) := by
  cases st with
  | between => simp [step, pending, before_nil]
  | word s =>
    simp only [fin, Bool.and_eq_true, Bool.not_eq_true'] at h
    simp [step, h.1.1, h.1.2, h.2, pending, after, before]
  | raw s =>
    simp only [fin, Bool.and_eq_true, Bool.not_eq_true'] at h
    simp [step, h.1, h.2, pending, after, before]
  | number s =>
    simp only [fin, Bool.and_eq_true, Bool.not_eq_true'] at h
    simp [step, h.1, h.2, pending, after, before]
  | life s =>
    simp only [fin, Bool.and_eq_true, Bool.not_eq_true'] at h
    simp [step, h.1.1, h.1.2, h.2, pending, after, before]
  | op d =>
    simp only [fin, Bool.and_eq_true, Bool.not_eq_true'] at h
    simp only [step, h.1, h.2, Bool.false_eq_true, if_false, pending, after, before]
    rfl
  | str => cases h
  | esc => cases h
  | comment => cases h

theorem run_fin {st : St} {c : Char} (h : fin st c = true) (cs : List Char) : run st (c :: cs) = before (pending st) (run .between (c :: cs)) := by
  rw [run, run, step_fin h, show step .between c = start c from rfl]
  cases start c with
  | none => rfl
  | some x =>
    simp only [before, Option.map_some, Option.bind_some]
    cases run x.2 cs <;> simp

/-- `cs` are the tokens `ls`, if a character of `E` follows. -/
def Chunk (E : Char → Bool) (cs : List Char) (ls : List Lex) : Prop := ∀ c rest, E c = true → run .between (cs ++ c :: rest) = before ls (run .between (c :: rest))

/-- Anything may follow. -/
def any : Char → Bool := fun _ => true

theorem Chunk.of {cs : List Char} {ls : List Lex} {st : St} (h : run .between cs = some (ls, st)) : Chunk (fin st) cs (ls ++ pending st) := by
  intro c rest hc
  rw [run_append, h, Option.bind_some, run_fin hc, before_before]

/-- A fixed text; its tokens are computed. -/
theorem Chunk.fixed (st : St) {cs : List Char} {ls : List Lex} (h : (run .between cs).map (fun x => (x.1 ++ pending x.2, x.2)) = some (ls, st)) : Chunk (fin st) cs ls := by
  rw [Option.map_eq_some_iff] at h
  obtain ⟨⟨a, st'⟩, h1, h2⟩ := h
  cases h2
  exact Chunk.of h1

/-- The tokens of a fixed text -/
def toks (cs : List Char) : List Lex :=
  match run .between cs with
  | some x => x.1 ++ pending x.2
  | none => []

theorem Chunk.fix (st : St) {cs : List Char} (h : (run .between cs).map (·.2) = some st) : Chunk (fin st) cs (toks cs) := by
  rw [Option.map_eq_some_iff] at h
  obtain ⟨⟨a, st'⟩, h1, h2⟩ := h
  cases h2
  rw [toks, h1]
  exact Chunk.of h1

theorem Chunk.mono {E F : Char → Bool} {cs : List Char} {ls : List Lex} (h : Chunk E cs ls) (hE : ∀ c, F c = true → E c = true) : Chunk F cs ls :=
  fun c rest hc => h c rest (hE c hc)

theorem Chunk.nil {E : Char → Bool} : Chunk E [] [] := fun c rest _ => by rw [List.nil_append, before_nil]

/-- Two parts, the second not empty -/
theorem Chunk.append {E F : Char → Bool} {a b : List Char} {la lb : List Lex} (ha : Chunk E a la) (hb : Chunk F b lb)
    (h : ∃ c cs, b = c :: cs ∧ E c = true) : Chunk F (a ++ b) (la ++ lb) := by
  obtain ⟨c, cs, rfl, hc⟩ := h
  intro d rest hd
  rw [List.append_assoc, List.cons_append, ha c _ hc, ← List.cons_append, hb d rest hd, before_before]

/-- Two parts, the first complete -/
theorem Chunk.then {F : Char → Bool} {a b : List Char} {la lb : List Lex} (ha : Chunk any a la) (hb : Chunk F b lb) : Chunk F (a ++ b) (la ++ lb) := by
  intro d rest hd
  rw [List.append_assoc]
  cases b with
  | nil =>
    have := hb d rest hd
    rw [List.nil_append] at this
    rw [List.nil_append, ha d rest rfl, this, before_before]
    rw [← this]
  | cons c cs => rw [List.cons_append, ha c _ rfl, ← List.cons_append, hb d rest hd, before_before]

theorem Chunk.run {cs : List Char} {ls : List Lex} (h : Chunk any cs ls) : Rust.run .between (cs ++ ['\n']) = some (ls, .between) := by
  rw [h '\n' [] rfl, show Rust.run .between ['\n'] = some ([], .between) from rfl]
  simp [before]

theorem Chunk.flatten {α : Type} {f : α → List Char} {g : α → List Lex} {xs : List α} (h : ∀ x ∈ xs, Chunk any (f x) (g x)) :
    Chunk any (xs.map f).flatten (xs.map g).flatten := by
  induction xs with
  | nil => exact Chunk.nil
  | cons x xs ih =>
    rw [List.map_cons, List.map_cons, List.flatten_cons, List.flatten_cons]
    exact (h x (by simp)).then (ih fun y hy => h y (by simp [hy]))

/-! ## `trimIndent` -/

theorem step_nl {st : St} {x : List Lex × St} (h : step st '\n' = some x) : x.2 = .between := by
  have hs : start '\n' = some ([], .between) := rfl
  have ha : ∀ t, after t '\n' = some x → x.2 = .between := by
    intro t h
    rw [after, hs] at h
    cases h; rfl
  cases st with
  | between => cases h; rfl
  | word s => exact ha _ h
  | raw s =>
    rw [step, if_neg (by decide)] at h
    split at h
    · cases h
    · exact ha _ h
  | number s => exact ha _ h
  | life s =>
    rw [step, if_neg (by decide)] at h
    split at h
    · cases h
    · exact ha _ h
  | str c s => cases h
  | esc c s => cases h
  | op d =>
    rw [step] at h
    split at h
    · cases h
    · split at h
      · rename_i hc
        simp [twoOps] at hc
      · exact ha _ h
  | comment => cases h; rfl

/-- Lines with line feeds -/
def withNl (ls : List (List Char)) : List Char := (ls.map fun l => l ++ ['\n']).flatten

theorem joinNl_eq {ls : List (List Char)} (h : ls ≠ []) : joinNl ls ++ ['\n'] = withNl ls := by
  induction ls with
  | nil => exact absurd rfl h
  | cons l ls ih =>
    cases ls with
    | nil => simp [joinNl, withNl]
    | cons m ls =>
      have := ih (by simp)
      rw [joinNl, List.append_assoc, List.cons_append, this]
      · simp [withNl]
      · simp

theorem textLines_ne (s : List Char) : textLines s ≠ [] := by
  cases s with
  | nil => simp [textLines]
  | cons c s =>
    rw [textLines]
    split
    · simp
    · split <;> simp

theorem joinNl_textLines (s : List Char) : joinNl (textLines s) = s := by
  induction s with
  | nil => rfl
  | cons c s ih =>
    have hne := textLines_ne s
    rw [textLines]
    split
    · rename_i h
      subst h
      cases ht : textLines s with
      | nil => exact absurd ht hne
      | cons l ls => rw [ht] at ih; rw [joinNl, ih]; rfl; simp
    · cases ht : textLines s with
      | nil => exact absurd ht hne
      | cons l ls =>
        rw [ht] at ih
        simp only
        cases ls with
        | nil => rw [joinNl] at ih ⊢; rw [ih]
        | cons m ls => rw [joinNl] at ih ⊢; rw [List.cons_append, ih]; all_goals simp

/-- The tokens line by line -/
inductive Lines : List (List Char) → List Lex → Prop where
  | nil : Lines [] []
  | cons {l : List Char} {ls : List (List Char)} {a b : List Lex} : run .between (l ++ ['\n']) = some (a, .between) → Lines ls b → Lines (l :: ls) (a ++ b)

theorem run_nl {l : List Char} {x : List Lex × St} (h : run .between (l ++ ['\n']) = some x) : x.2 = .between := by
  rw [run_append, Option.bind_eq_some_iff] at h
  obtain ⟨y, -, h⟩ := h
  rw [run, before, Option.map_eq_some_iff] at h
  obtain ⟨z, h, rfl⟩ := h
  rw [Option.bind_eq_some_iff] at h
  obtain ⟨w, hw, h⟩ := h
  have := step_nl hw
  cases h
  exact this

theorem lines_of_run {ls : List (List Char)} {ts : List Lex} {st : St} (h : run .between (withNl ls) = some (ts, st)) : Lines ls ts := by
  induction ls generalizing ts with
  | nil => cases h; exact .nil
  | cons l ls ih =>
    rw [withNl, List.map_cons, List.flatten_cons, run_append, Option.bind_eq_some_iff] at h
    obtain ⟨⟨a, s⟩, h1, h2⟩ := h
    have := run_nl h1
    simp only at this
    subst this
    simp only [before, Option.map_eq_some_iff] at h2
    obtain ⟨⟨b, s'⟩, h2, h3⟩ := h2
    cases h3
    exact .cons h1 (ih h2)

theorem run_of_lines {ls : List (List Char)} {ts : List Lex} (h : Lines ls ts) : run .between (withNl ls) = some (ts, .between) := by
  induction h with
  | nil => rfl
  | cons h1 _ ih =>
    rw [withNl, List.map_cons, List.flatten_cons, run_append, h1, Option.bind_some]
    rw [withNl] at ih
    simp only [ih, before, Option.map_some]

theorem start_ws {c : Char} (h : isWhitespace c = true) {x : List Lex × St} (hs : start c = some x) : x = ([], .between) := by
  rw [start] at hs
  split at hs
  · cases hs; rfl
  rename_i hw
  exfalso
  have hn : (9 ≤ c.toNat ∧ c.toNat ≤ 13) ∨ (28 ≤ c.toNat ∧ c.toNat ≤ 32) ∨ 160 ≤ c.toNat := by
    simp only [isWhitespace, Bool.or_eq_true, Bool.and_eq_true, decide_eq_true_eq, beq_iff_eq] at h
    omega
  have hne : ∀ d : Char, (d.toNat ≠ 32 → 33 ≤ d.toNat ∧ d.toNat < 160) → d.toNat ≠ 32 → (c == d) = false := by
    intro d h1 h2
    have := h1 h2
    rw [beq_eq_false_iff_ne]
    rintro rfl
    omega
  split at hs
  · rename_i h1
    simp only [wordStart, Bool.or_eq_true, Bool.and_eq_true, decide_eq_true_eq, show 'a'.toNat = 97 from rfl, show 'z'.toNat = 122 from rfl,
      show 'A'.toNat = 65 from rfl, show 'Z'.toNat = 90 from rfl, hne '_' (by decide) (by decide)] at h1
    simp at h1
    omega
  split at hs
  · rename_i h1
    simp only [digit, Bool.and_eq_true, decide_eq_true_eq, show '0'.toNat = 48 from rfl, show '9'.toNat = 57 from rfl] at h1
    omega
  simp [delim, opChar, hne '"' (by decide) (by decide), hne '\'' (by decide) (by decide), hne '(' (by decide) (by decide), hne ')' (by decide) (by decide),
    hne '[' (by decide) (by decide), hne ']' (by decide) (by decide), hne '{' (by decide) (by decide), hne '}' (by decide) (by decide),
    hne ':' (by decide) (by decide), hne '-' (by decide) (by decide), hne '>' (by decide) (by decide), hne '<' (by decide) (by decide),
    hne '=' (by decide) (by decide), hne '!' (by decide) (by decide), hne '+' (by decide) (by decide), hne '&' (by decide) (by decide),
    hne '|' (by decide) (by decide), hne '.' (by decide) (by decide), hne ',' (by decide) (by decide), hne ';' (by decide) (by decide),
    hne '#' (by decide) (by decide), hne '$' (by decide) (by decide), hne '*' (by decide) (by decide), hne '?' (by decide) (by decide),
    hne '/' (by decide) (by decide)] at hs

theorem run_ws {w r : List Char} {x : List Lex × St} (hw : ∀ c ∈ w, isWhitespace c = true) (h : run .between (w ++ r) = some x) : run .between r = some x := by
  induction w with
  | nil => exact h
  | cons c w ih =>
    rw [List.cons_append, run, show step .between c = start c from rfl, Option.bind_eq_some_iff] at h
    obtain ⟨y, hy, h⟩ := h
    have := start_ws (hw c (by simp)) hy
    subst this
    simp only [Option.map_eq_some_iff] at h
    obtain ⟨z, hz, h⟩ := h
    refine ih (fun d hd => hw d (by simp [hd])) ?_
    rw [hz, ← h]
    rfl

theorem lines_blank {l : List Char} {a : List Lex} (hl : isBlank l = true) (h : run .between (l ++ ['\n']) = some (a, .between)) : a = [] := by
  have := run_ws (by simpa [isBlank] using hl) h
  cases this
  rfl

theorem lines_dropFirst {ls : List (List Char)} {ts : List Lex} (h : Lines ls ts) : Lines (dropFirst ls) ts := by
  cases h with
  | nil => exact .nil
  | cons h1 h2 =>
    rw [dropFirst]
    split
    · rename_i hb
      rw [lines_blank hb h1]
      exact h2
    · exact .cons h1 h2

theorem lines_append {a b : List (List Char)} {ts : List Lex} : Lines (a ++ b) ts ↔ ∃ t u, ts = t ++ u ∧ Lines a t ∧ Lines b u := by
  induction a generalizing ts with
  | nil =>
    refine ⟨fun h => ⟨[], ts, rfl, .nil, h⟩, ?_⟩
    rintro ⟨t, u, rfl, ha, hb⟩
    cases ha
    exact hb
  | cons l a ih =>
    constructor
    · intro h
      cases h with
      | cons h1 h2 =>
        obtain ⟨t, u, rfl, h3, h4⟩ := ih.mp h2
        exact ⟨_, u, (List.append_assoc _ _ _).symm, .cons h1 h3, h4⟩
    · rintro ⟨t, u, rfl, ha, hb⟩
      cases ha with
      | cons h1 h2 =>
        rw [List.append_assoc]
        exact .cons h1 (ih.mpr ⟨_, _, rfl, h2, hb⟩)

theorem lines_dropLast {ls : List (List Char)} {ts : List Lex} (h : Lines ls ts) : Lines (dropLast ls) ts := by
  rw [dropLast]
  cases hr : ls.reverse with
  | nil =>
    rw [List.reverse_eq_nil_iff] at hr
    subst hr
    exact h
  | cons l r =>
    have hls : ls = r.reverse ++ [l] := by rw [← List.reverse_reverse ls, hr, List.reverse_cons]
    rw [dropFirst]
    split
    · rename_i hb
      rw [hls] at h
      obtain ⟨t, u, rfl, h1, h2⟩ := lines_append.mp h
      cases h2 with
      | cons h3 h4 =>
        cases h4
        rw [lines_blank hb h3]
        simpa using h1
    · rw [← hr, List.reverse_reverse]; exact h

theorem drop_run {l : List Char} {m : Nat} {x : List Lex × St} (hm : isBlank l = true ∨ m ≤ indentWidth l) (h : run .between (l ++ ['\n']) = some x) :
    run .between (l.drop m ++ ['\n']) = some x := by
  refine run_ws (w := l.take m) ?_ ?_
  · intro c hc
    rcases hm with hm | hm
    · simp only [isBlank, List.all_eq_true] at hm
      exact hm c (List.mem_of_mem_take hc)
    · have hp : l.take m = (l.takeWhile isWhitespace).take m := by
        have hl := List.takeWhile_append_dropWhile (p := isWhitespace) (l := l)
        conv => lhs; rw [← hl]
        rw [List.take_append_of_le_length hm]
      rw [hp] at hc
      exact List.all_eq_true.mp List.all_takeWhile c (List.mem_of_mem_take hc)
  · rw [← List.append_assoc, List.take_append_drop]
    exact h

theorem lines_drop {ls : List (List Char)} {ts : List Lex} {m : Nat} (hm : ∀ l ∈ ls, isBlank l = true ∨ m ≤ indentWidth l) (h : Lines ls ts) :
    Lines (ls.map fun l => l.drop m) ts := by
  induction h with
  | nil => exact .nil
  | cons h1 _ ih => exact .cons (drop_run (hm _ (by simp)) h1) (ih fun l hl => hm l (by simp [hl]))

theorem min_indent {ls : List (List Char)} {l : List Char} (hl : l ∈ ls) : isBlank l = true ∨ minCommonIndent ls ≤ indentWidth l := by
  cases hb : isBlank l with
  | true => exact .inl rfl
  | false =>
    right
    rw [minCommonIndent]
    have hmem : indentWidth l ∈ (ls.filter fun l => !isBlank l).map indentWidth := List.mem_map.mpr ⟨l, List.mem_filter.mpr ⟨hl, by rw [hb]; rfl⟩, rfl⟩
    cases hx : ((ls.filter fun l => !isBlank l).map indentWidth).min? with
    | none => exact Nat.zero_le _
    | some x => exact (List.min?_eq_some_iff.mp hx).2 _ hmem

theorem mem_dropFirst {l : List Char} {ls : List (List Char)} (h : l ∈ dropFirst ls) : l ∈ ls := by
  cases ls with
  | nil => exact h
  | cons m ls =>
    rw [dropFirst] at h
    split at h
    · exact List.mem_cons_of_mem _ h
    · exact h

/-- The tokens are not changed by `trimIndent`. -/
theorem trim_run {s : List Char} {ts : List Lex} {st : St} (h : run .between (s ++ ['\n']) = some (ts, st)) : run .between (appendln (trimIndent s)) = some (ts, .between) := by
  have hl : Lines (textLines s) ts := by
    refine lines_of_run (st := st) ?_
    rw [← joinNl_eq (textLines_ne s), joinNl_textLines]
    exact h
  have hm : ∀ l ∈ dropLast (dropFirst (textLines s)), l ∈ textLines s := by
    intro l hl
    rw [dropLast, List.mem_reverse] at hl
    exact mem_dropFirst (List.mem_reverse.mp (mem_dropFirst hl))
  have h1 := lines_drop (m := minCommonIndent (textLines s)) (fun l hl => min_indent (hm l hl)) (lines_dropLast (lines_dropFirst hl))
  rw [appendln, trimIndent]
  generalize ((dropLast (dropFirst (textLines s))).map fun l => l.drop (minCommonIndent (textLines s))) = ls at h1
  cases ls with
  | nil => cases h1; rfl
  | cons l ls => rw [joinNl_eq (by simp)]; exact run_of_lines h1

/-! ## Token trees -/

mutual
/-- The tokens of a tree -/
def flat1 : Tree → List Lex
  | .tok t _ => [.tok t]
  | .group d ts => .opening d :: (flat ts ++ [.closing d])
  | .bad => []
def flat : List Tree → List Lex
  | [] => []
  | t :: ts => flat1 t ++ flat ts
end

mutual
/-- All tokens are written in the template, and there is nothing bad. -/
def fine1 : Tree → Bool
  | .tok _ own => own
  | .group _ ts => fine ts
  | .bad => false
def fine : List Tree → Bool
  | [] => true
  | t :: ts => fine1 t && fine ts
end

theorem flat_append (a b : List Tree) : flat (a ++ b) = flat a ++ flat b := by
  induction a with
  | nil => rfl
  | cons t a ih => rw [List.cons_append, flat, flat, ih, List.append_assoc]

theorem fine_append (a b : List Tree) : fine (a ++ b) = (fine a && fine b) := by
  induction a with
  | nil => simp [fine]
  | cons t a ih => rw [List.cons_append, fine, fine, ih, Bool.and_assoc]

theorem flat_group (d : Delim) (ts : List Tree) : flat (group d ts) = .opening d :: (flat ts ++ [.closing d]) := by simp [group, flat, flat1]
theorem fine_group (d : Delim) (ts : List Tree) : fine (group d ts) = fine ts := by simp [group, fine, fine1]

theorem flat_flatten {α : Type} (f : α → List Tree) (xs : List α) : flat (xs.map f).flatten = (xs.map fun x => flat (f x)).flatten := by
  induction xs with
  | nil => rfl
  | cons x xs ih => rw [List.map_cons, List.flatten_cons, flat_append, ih]; rfl

theorem fine_flatten {α : Type} (f : α → List Tree) (xs : List α) (h : ∀ x ∈ xs, fine (f x) = true) : fine (xs.map f).flatten = true := by
  induction xs with
  | nil => rfl
  | cons x xs ih => rw [List.map_cons, List.flatten_cons, fine_append, h x (by simp), ih fun y hy => h y (by simp [hy])]; rfl

mutual
theorem trees_flat1 (t : Tree) (h : fine1 t = true) (st : List (Delim × List Tree)) (acc : List Tree) (ls : List Lex) :
    trees true st acc (flat1 t ++ ls) = trees true st (acc ++ [t]) ls := by
  cases t with
  | tok t own =>
    simp only [fine1] at h
    subst h
    simp [flat1, trees]
  | group d ts =>
    simp only [fine1] at h
    rw [flat1, List.cons_append, List.append_assoc]
    rw [show trees true st acc (.opening d :: (flat ts ++ ([.closing d] ++ ls))) = trees true ((d, acc) :: st) [] (flat ts ++ ([.closing d] ++ ls)) by
      cases st <;> simp [trees]]
    rw [trees_flat ts h]
    simp [trees]
  | bad => cases h
theorem trees_flat (ts : List Tree) (h : fine ts = true) (st : List (Delim × List Tree)) (acc : List Tree) (ls : List Lex) :
    trees true st acc (flat ts ++ ls) = trees true st (acc ++ ts) ls := by
  cases ts with
  | nil => simp [flat]
  | cons t ts =>
    simp only [fine, Bool.and_eq_true] at h
    rw [flat, List.append_assoc, trees_flat1 t h.1, trees_flat ts h.2]
    simp
end

/-- A text whose tokens are those of the code -/
def Writes (cs : List Char) (ts : List Tree) : Prop := run .between cs = some (flat ts, .between) ∧ fine ts = true

theorem Writes.append {a b : List Char} {ta tb : List Tree} (ha : Writes a ta) (hb : Writes b tb) : Writes (a ++ b) (ta ++ tb) := by
  refine ⟨?_, by rw [fine_append, ha.2, hb.2]; rfl⟩
  rw [run_append, ha.1, Option.bind_some, hb.1, flat_append]
  rfl

theorem Writes.parse {cs : List Char} {ts : List Tree} (h : Writes cs ts) : Rust.parse true cs = some ts := by
  rw [Rust.parse, Rust.lex, run_append, h.1]
  have := trees_flat ts h.2 [] [] []
  simp only [List.append_nil, List.nil_append] at this
  simp only [Option.bind_some]
  rw [show run .between ['\n'] = some ([], .between) from rfl]
  simp [before, this, trees]

end CT.Props
