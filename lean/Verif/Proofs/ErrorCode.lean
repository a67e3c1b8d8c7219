import Verif.Model.ErrorCode
import Verif.Proofs.PqParse
/-!
# Running the functions of runtime/src/error.rs
-/
namespace CT.Er
open CT CT.Pq
open CT.Rs (Name ITy BinOp)
open CT.Rust (joinLines)

theorem error_lines : errorLines.all lineOk = true := by kernel_rfl
theorem error_items : ((trees [] [] (errorLines.flatMap lexLine ++ lexLine (text! "}"))).bind fun ts => (parseItems 200 ts).map fun is => (⟨is, enums ts⟩ : Prog)) =
    some ⟨errorItems, [errorEnum]⟩ := by kernel_rfl

/-- The program of error.rs -/
def errorProg : Prog := ⟨errorItems, [errorEnum]⟩

theorem program_lines {lines : List (List Char)} (h : lines.all lineOk = true) {l : List Char} (hl : lineOk l = true) :
    program (joinLines lines ++ l) = (trees [] [] (lines.flatMap lexLine ++ lexLine l)).bind fun ts => (parseItems 200 ts).map fun is => (⟨is, enums ts⟩ : Prog) := by
  unfold program
  rw [List.append_assoc, runLex_lines _ lines h, lexLine_eq hl]
  rfl

theorem program_error : program errorText = some errorProg := (program_lines error_lines lib_last).trans error_items

/-- A `FieldName` -/
def fieldW (p : Nat) : W := .record [n! "FieldName"] [(n! "name", .ptr p)]

section
variable (s : ErrorStd) (cfg : Cfg) (mem : Mem) (fuel : Nat)

section
variable (alt : Bool) (n : Nat) (env : List (Name × W)) (out : Bytes)
local notation "E" => eval s cfg mem fuel alt errorProg
theorem e_lit (k : Nat) : E (n + 1) (.lit k none) env out = .ok (.num k, out) := rfl
theorem e_byte (k : Nat) : E (n + 1) (.lit k (some .u8)) env out = .ok (.byte (BitVec.ofNat 8 k), out) := rfl
theorem e_path (x : Name) : E (n + 1) (.path [x]) env out = pureR (lookup env x) out := rfl
theorem e_not (e : Expr) : E (n + 1) (.not e) env out = match E n e env out with
    | .ok (.bool b, out) => .ok (.bool !b, out)
    | .ok _ => .error .stuck
    | .error x => .error x := rfl
theorem e_and (a b : Expr) : E (n + 1) (.and a b) env out = match E n a env out with
    | .ok (.bool true, out) => E n b env out
    | .ok (.bool false, out) => .ok (.bool false, out)
    | .ok _ => .error .stuck
    | .error x => .error x := rfl
theorem e_bin (op : BinOp) (a b : Expr) : E (n + 1) (.bin op a b) env out = match evAll (E n) [a, b] env out with
    | .ok ([a, b], out) => binary cfg op a b out
    | .ok _ => .error .stuck
    | .error x => .error x := rfl
theorem e_index (a i : Expr) : E (n + 1) (.index a i) env out = match evAll (E n) [a, i] env out with
    | .ok ([a, i], out) => indexed mem a i out
    | .ok _ => .error .stuck
    | .error x => .error x := rfl
theorem e_record (p : List Name) (x : Name) (e : Expr) : E (n + 1) (.record p [(x, e)]) env out = match evAll (E n) [e] env out with
    | .ok (vs, out) => .ok (.record p ([x].zip vs), out)
    | .error x => .error x := rfl
theorem e_method (e : Expr) (f : Name) : E (n + 1) (.method e f []) env out = match E n e env out with
    | .ok (v, out) => pureR (stdMethod f v) out
    | .error x => .error x := rfl
theorem e_assert (e : Expr) : E (n + 1) (.mac (n! "assert") [e]) env out = match E n e env out with
    | .ok (.bool true, out) => .ok (.unit, out)
    | .ok (.bool false, _) => .error .panic
    | .ok _ => .error .stuck
    | .error x => .error x := rfl
theorem e_semi (e : Expr) : E (n + 1) (.semi e) env out = match E n e env out with
    | .ok (_, out) => .ok (.unit, out)
    | .error x => .error x := rfl
theorem e_block (es : List Expr) : E (n + 1) (.block es) env out = evBlock (E n) es env out := rfl
end

theorem from_CStr (n p : Nat) (bs : Bytes) : runFrom s cfg mem fuel errorText (n + 10) (n! "CStr") (n! "FieldName") (.cstr p bs) = .ok (fieldW p) := by
  unfold runFrom
  rw [program_error]
  rfl

theorem from_IOError (n : Nat) (k : ErrorKind) :
    runFrom s cfg mem fuel errorText (n + 10) (n! "IOError") (n! "ThriftError") (.io k) = .ok (.con [n! "ThriftError", n! "IO"] [.kind k]) := by
  unfold runFrom
  rw [program_error]
  rfl

theorem from_ErrorKind (n : Nat) (k : ErrorKind) :
    runFrom s cfg mem fuel errorText (n + 10) (n! "ErrorKind") (n! "ThriftError") (.kind k) = .ok (.con [n! "ThriftError", n! "IO"] [.kind k]) := by
  unfold runFrom
  rw [program_error]
  rfl

theorem from_str (n p len : Nat) : runFrom s cfg mem fuel errorText (n + 20) (n! "str") (n! "FieldName") (.str p len) = (FieldName.ofStr mem p len).map fun f => fieldW f.name := by
  unfold runFrom
  rw [program_error]
  change (eval s cfg mem fuel false errorProg (n + 20) er_from_str.body [(n! "value", .str p len)] []).map Prod.fst = _
  unfold FieldName.ofStr
  cases len with
  | zero => rfl
  | succ len =>
    rw [if_neg (Nat.succ_ne_zero _), Nat.add_sub_cancel]
    have hsub : subUsize cfg (len + 1) 1 = .ok len := by unfold subUsize; rw [if_pos (Nat.le_add_left 1 len)]; rfl
    have hi : indexed mem (.slice p (len + 1)) (.usize len) [] = (match mem (p + len) with
      | some b => .ok (.byte b, [])
      | none => .error .ub) := by
      show (if len < len + 1 then _ else _) = _
      exact if_pos (Nat.lt_succ_self len)
    have h1 : stdMethod (n! "is_empty") (.str p (len + 1)) = some (.bool false) := rfl
    have h2 : stdMethod (n! "as_bytes") (.str p (len + 1)) = some (.slice p (len + 1)) := rfl
    have h3 : stdMethod (n! "len") (.str p (len + 1)) = some (.usize (len + 1)) := rfl
    have h4 : stdMethod (n! "as_ptr") (.str p (len + 1)) = some (.ptr p) := rfl
    have h5 : stdMethod (n! "cast") (.ptr p) = some (.ptr p) := rfl
    simp only [er_from_str, e_block, evBlock, e_semi, e_assert, e_and, e_not, e_method, e_path, lookup, if_pos, pureR, h1, h2, h3, h4, h5, e_bin, e_index, evAll, e_lit, e_byte, binary, hsub, hi,
      e_record, Bool.not_false]
    cases mem (p + len) with
    | none => rfl
    | some b =>
      by_cases hb : b = 0
      · subst hb
        rfl
      · have hb' : decide (b = BitVec.ofNat 8 0) = false := decide_eq_false hb
        simp only [hb', if_neg hb, Except.map]

theorem display_FieldName (alt : Bool) (n p : Nat) (out : Bytes) : format s cfg mem fuel alt errorProg (n + 20) (n! "Display") (fieldW p) out =
    match FieldName.display mem fuel ⟨p⟩ with
    | .ok bs => .ok (.done, out ++ bs)
    | .error x => .error x := by
  change eval s cfg mem fuel alt errorProg (n + 19) er_FieldName_Display.body [(n! "self", fieldW p), (n! "f", .formatter)] out = _
  unfold FieldName.display
  cases hc : cstr mem fuel p with
  | error x => simp [er_FieldName_Display, eval, step, evBlock, evAll, lookup, pureR, fieldW, called, hc]
  | ok bs =>
    cases hu : utf8Valid bs with
    | false => simp [er_FieldName_Display, eval, step, evBlock, evAll, lookup, pureR, fieldW, called, hc, stdMethod, hu]
    | true =>
      simp [er_FieldName_Display, eval, step, evBlock, evAll, lookup, pureR, fieldW, called, hc, stdMethod, hu]
      rfl

theorem debug_FieldName (alt : Bool) (n p : Nat) (out : Bytes) : format s cfg mem fuel alt errorProg (n + 20) (n! "Debug") (fieldW p) out =
    match cstr mem fuel p with
    | .ok bs => .ok (.done, out ++ s.cstr bs)
    | .error x => .error x := by
  change eval s cfg mem fuel alt errorProg (n + 19) er_FieldName_Debug.body [(n! "self", fieldW p), (n! "f", .formatter)] out = _
  cases hc : cstr mem fuel p with
  | error x => simp [er_FieldName_Debug, eval, step, evBlock, evAll, lookup, pureR, fieldW, called, hc]
  | ok bs =>
    simp [er_FieldName_Debug, eval, step, evBlock, evAll, lookup, pureR, fieldW, called, hc]
    rfl

/-- The derived `Debug` of a variant with one field -/
theorem debug_one (alt : Bool) (n : Nat) (c : Name) (hc : (c, 1) ∈ errorEnum.variants) (v : W) (out : Bytes) :
    format s cfg mem fuel alt errorProg (n + 1) (n! "Debug") (.con [n! "ThriftError", c] [v]) out =
    match format s cfg mem fuel alt errorProg n (n! "Debug") v [] with
    | .ok (_, text) => .ok (.done, out ++ debugTuple alt (nameBytes c) text)
    | .error x => .error x := by
  change deriveDebug alt errorProg (format s cfg mem fuel alt errorProg n) (.con [n! "ThriftError", c] [v]) out = _
  unfold deriveDebug
  change (if n! "Debug" ∈ errorEnum.derives ∧ (c, 1) ∈ errorEnum.variants then _ else _) = _
  exact if_pos ⟨by decide, hc⟩
end

end CT.Er
