import Verif.Model.PqProgram
import Verif.Model.PqText
import Lean.Elab.Tactic.Basic
import Lean.Meta.AppBuilder
/-!
# The texts parse to the tables

Tokens end at the end of a line, so the text is the tokens of its lines. This keeps what has to be computed shallow.
-/
namespace CT.Pq
open CT.Rust (joinLines)

/-- The tokens of a line. -/
def lexLine (l : List Char) : List Lex := (runLex .between (l ++ ['\n'])).getD []

/-- Whether the line is made of tokens. -/
def lineOk (l : List Char) : Bool := (runLex .between (l ++ ['\n'])).isSome

theorem lexLine_eq {l : List Char} (h : lineOk l = true) : runLex .between (l ++ ['\n']) = some (lexLine l) := by
  unfold lineOk at h
  unfold lexLine
  cases h' : runLex .between (l ++ ['\n']) with
  | none => rw [h'] at h; cases h
  | some ts => rfl

theorem runLex_append {b : List Char} : ∀ {a : List Char} {st : St} {ts : List Lex}, runLex st a = some ts → runLex st (a ++ b) = (runLex .between b).map (ts ++ ·)
  | [], st, ts, h => by
    cases st <;> first | cases h | skip
    show runLex .between b = _
    cases runLex .between b <;> rfl
  | c :: a, st, ts, h => by
    have e : ∀ cs, runLex st (c :: cs) = (stepLex st c).bind fun (ts, st') => (runLex st' cs).map fun us => ts ++ us := fun cs => by cases st <;> rfl
    rw [e] at h
    rw [List.cons_append, e]
    cases hs : stepLex st c with
    | none => rw [hs] at h; cases h
    | some r =>
      rw [hs] at h
      obtain ⟨us, st'⟩ := r
      change (runLex st' a).map _ = _ at h
      show (runLex st' (a ++ b)).map _ = _
      cases ha : runLex st' a with
      | none => rw [ha] at h; cases h
      | some vs =>
        rw [ha] at h
        cases h
        rw [runLex_append ha]
        cases runLex .between b <;> simp

theorem runLex_lines (rest : List Char) : ∀ (lines : List (List Char)), lines.all lineOk = true →
    runLex .between (joinLines lines ++ rest) = (runLex .between rest).map (lines.flatMap lexLine ++ ·)
  | [], _ => by
    show runLex .between rest = _
    cases runLex .between rest <;> rfl
  | l :: lines, h => by
    rw [List.all_cons, Bool.and_eq_true] at h
    have : joinLines (l :: lines) ++ rest = (l ++ ['\n']) ++ (joinLines lines ++ rest) := by simp [joinLines]
    rw [this, runLex_append (lexLine_eq h.1), runLex_lines rest lines h.2]
    cases runLex .between rest <;> simp

theorem parse_lines {lines : List (List Char)} (h : lines.all lineOk = true) {l : List Char} (hl : lineOk l = true) :
    parseText (joinLines lines ++ l) = (trees [] [] (lines.flatMap lexLine ++ lexLine l)).bind (parseItems 200) := by
  unfold parseText
  rw [List.append_assoc, runLex_lines _ lines h, lexLine_eq hl]
  rfl

open Lean Elab Tactic Meta in
/-- `rfl`, left to the kernel to check: the elaborator does not evaluate both sides before. -/
elab "kernel_rfl" : tactic => do
  let g ← getMainGoal
  let some (_, l, _) := (← g.getType).eq? | throwError "not an equation"
  g.assign (← mkEqRefl l)

theorem lib_lines : (libText0 ++ libText1).all lineOk = true := by kernel_rfl
theorem lib_last : lineOk (text! "}") = true := by kernel_rfl
theorem lib_items : (trees [] [] ((libText0 ++ libText1).flatMap lexLine ++ lexLine (text! "}"))).bind (parseItems 200) = some libItems := by kernel_rfl

theorem parse_lib : parseText libText = some libItems := (parse_lines lib_lines lib_last).trans lib_items

theorem schema_lines : (schemaText0 ++ schemaText1 ++ schemaText2 ++ schemaText3 ++ schemaText4 ++ schemaText5 ++ schemaText6).all lineOk = true := by kernel_rfl
theorem schema_last : lineOk [] = true := by kernel_rfl
theorem schema_items : (trees [] [] ((schemaText0 ++ schemaText1 ++ schemaText2 ++ schemaText3 ++ schemaText4 ++ schemaText5 ++ schemaText6).flatMap lexLine ++ lexLine [])).bind
    (parseItems 200) = some schemaItems := by kernel_rfl

theorem parse_schema : parseText schemaText = some schemaItems := by
  rw [← List.append_nil schemaText]
  exact (parse_lines schema_lines schema_last).trans schema_items

/-- To run a function of a text is to run it in the table the text parses to. -/
theorem runText_eq {text : List Char} {items : List Item} (hp : parseText text = some items) {f : Rs.Name} {fn : Fn} (h : assoc (progOf items).fns f = some fn)
    (cfg : Cfg) (capacity : Nat → Except Parquet.PFail Unit) (n : Nat) (vs : List V) (w : World) :
    runText cfg capacity text f n vs w = runFn (eval cfg capacity (progOf items) n) fn vs w := by
  unfold runText
  rw [hp]
  dsimp only
  rw [h]

end CT.Pq
