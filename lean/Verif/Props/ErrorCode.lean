import Verif.Proofs.ErrorCode
import Verif.Props.ErrorText
/-!
# C120: the code of runtime/src/error.rs does what the model says

The text of error.rs is parsed as Rust and run.
-/
namespace CT.Props
open CT CT.Er CT.Spec
open CT.Rs (Name)

/-- C120: the file parses; `errorItems` and `errorEnum` are what it parses to. -/
theorem C120_text : program errorText = some ⟨errorItems, [errorEnum]⟩ := program_error

/-- The value of an error, if a name in it is at `p`. -/
def errorW (p : Nat) : ThriftError → W
  | .invalidNumber => .con [n! "ThriftError", n! "InvalidNumber"] []
  | .invalidString => .con [n! "ThriftError", n! "InvalidString"] []
  | .invalidBinaryLen n => .con [n! "ThriftError", n! "InvalidBinaryLen"] [.usize n]
  | .invalidCollectionLen => .con [n! "ThriftError", n! "InvalidCollectionLen"] []
  | .missingField _ => .con [n! "ThriftError", n! "MissingField"] [fieldW p]
  | .missingValue => .con [n! "ThriftError", n! "MissingValue"] []
  | .missingStop => .con [n! "ThriftError", n! "MissingStop"] []
  | .duplicateField => .con [n! "ThriftError", n! "DuplicateField"] []
  | .invalidType => .con [n! "ThriftError", n! "InvalidType"] []
  | .reserveError => .con [n! "ThriftError", n! "ReserveError"] []
  | .io k => .con [n! "ThriftError", n! "IO"] [.kind k]

/-- C120: the errors of the model are the variants declared in error.rs:10-23, no more and no fewer, with as many fields. -/
theorem C120_variants (c : Name) (k : Nat) : (c, k) ∈ errorEnum.variants ↔ ∃ e p vs, errorW p e = .con [n! "ThriftError", c] vs ∧ vs.length = k := by
  constructor
  · intro h
    simp only [errorEnum, List.mem_cons, List.not_mem_nil, or_false, Prod.mk.injEq] at h
    rcases h with ⟨rfl, rfl⟩ | ⟨rfl, rfl⟩ | ⟨rfl, rfl⟩ | ⟨rfl, rfl⟩ | ⟨rfl, rfl⟩ | ⟨rfl, rfl⟩ | ⟨rfl, rfl⟩ | ⟨rfl, rfl⟩ | ⟨rfl, rfl⟩ | ⟨rfl, rfl⟩ | ⟨rfl, rfl⟩
    · exact ⟨.invalidNumber, 0, _, rfl, rfl⟩
    · exact ⟨.invalidString, 0, _, rfl, rfl⟩
    · exact ⟨.invalidBinaryLen 0, 0, _, rfl, rfl⟩
    · exact ⟨.invalidCollectionLen, 0, _, rfl, rfl⟩
    · exact ⟨.missingField "", 0, _, rfl, rfl⟩
    · exact ⟨.missingValue, 0, _, rfl, rfl⟩
    · exact ⟨.missingStop, 0, _, rfl, rfl⟩
    · exact ⟨.duplicateField, 0, _, rfl, rfl⟩
    · exact ⟨.invalidType, 0, _, rfl, rfl⟩
    · exact ⟨.reserveError, 0, _, rfl, rfl⟩
    · exact ⟨.io .writeZero, 0, _, rfl, rfl⟩
  · rintro ⟨e, p, vs, h, rfl⟩
    cases e <;> (cases h; simp only [List.length_cons, List.length_nil]; decide)

section
variable (s : ErrorStd) (cfg : Cfg) (mem : Mem) (fuel : Nat)

/-- C120: `From<&str> for FieldName`, error.rs:44-51, is that of the model, in every build, for every memory and string. -/
theorem C120_from_str (n : Nat) (hn : 20 ≤ n) (p len : Nat) :
    runFrom s cfg mem fuel errorText n (n! "str") (n! "FieldName") (.str p len) = (FieldName.ofStr mem p len).map fun f => fieldW f.name := by
  obtain ⟨n, rfl⟩ := Nat.exists_eq_add_of_le' hn
  exact from_str s cfg mem fuel n p len

/-- C120: so the text accepts a string exactly if it ends in nul, and panics if not; the address is kept. Nothing outside the string is read, and nothing is undefined. -/
theorem C120_accepts (n : Nat) (hn : 20 ≤ n) {p : Nat} {t : Bytes} (h : Holds mem p t) :
    runFrom s cfg mem fuel errorText n (n! "str") (n! "FieldName") (.str p t.length) = if t.getLast? = some 0 then .ok (fieldW p) else .error .panic := by
  rw [C120_from_str s cfg mem fuel n hn, C74_accepts h]
  split <;> rfl

/-- C120: the other conversions, error.rs:36-42, 75-85: the address of a `CStr` is kept, and an `io::Error` becomes the error of its kind. -/
theorem C120_from (n : Nat) (hn : 10 ≤ n) (p q : Nat) (bs : Bytes) (k : ErrorKind) :
    runFrom s cfg mem fuel errorText n (n! "CStr") (n! "FieldName") (.cstr p bs) = .ok (fieldW p) ∧
    runFrom s cfg mem fuel errorText n (n! "IOError") (n! "ThriftError") (.io k) = .ok (errorW q (.io k)) ∧
    runFrom s cfg mem fuel errorText n (n! "ErrorKind") (n! "ThriftError") (.kind k) = .ok (errorW q (.io k)) := by
  obtain ⟨n, rfl⟩ := Nat.exists_eq_add_of_le' hn
  exact ⟨from_CStr s cfg mem fuel n p bs, from_IOError s cfg mem fuel n k, from_ErrorKind s cfg mem fuel n k⟩

/-- C120: `Display` and `Debug` for `FieldName`, error.rs:53-63, show what the model shows, whether or not the memory at the address may be read. -/
theorem C120_name (n : Nat) (hn : 20 ≤ n) (alt : Bool) (p : Nat) :
    runFmt s cfg mem fuel alt errorText n (n! "Display") (fieldW p) = (FieldName.display mem fuel ⟨p⟩).map (W.done, ·) ∧
    runFmt s cfg mem fuel alt errorText n (n! "Debug") (fieldW p) = (cstr mem fuel p).map fun bs => (W.done, s.cstr bs) := by
  obtain ⟨n, rfl⟩ := Nat.exists_eq_add_of_le' hn
  unfold runFmt
  rw [program_error]
  constructor
  · refine (display_FieldName s cfg mem fuel alt n p []).trans ?_
    cases FieldName.display mem fuel ⟨p⟩ <;> rfl
  · refine (debug_FieldName s cfg mem fuel alt n p []).trans ?_
    cases cstr mem fuel p <;> rfl

/-- C120: `Debug` and `Display` for `ThriftError`, error.rs:10, 65-69: each error shows the text of C101, with either trait, plain or alternate, if its name is at the address. -/
theorem C120_error (n : Nat) (hn : 30 ≤ n) (alt : Bool) (e : ThriftError) (p : Nat) (h : ∀ name, e = .missingField name → cstr mem fuel p = .ok (stringBytes name)) :
    runFmt s cfg mem fuel alt errorText n (n! "Debug") (errorW p e) = .ok (W.done, debugError s alt e) ∧
    runFmt s cfg mem fuel alt errorText n (n! "Display") (errorW p e) = .ok (W.done, displayError s alt e) := by
  have key : ∀ n, 21 ≤ n → format s cfg mem fuel alt errorProg n (n! "Debug") (errorW p e) [] = .ok (W.done, debugError s alt e) := by
    intro n hn
    obtain ⟨n, rfl⟩ := Nat.exists_eq_add_of_le' hn
    cases e with
    | missingField name =>
      refine (debug_one s cfg mem fuel alt (n + 20) (n! "MissingField") (by decide) _ []).trans ?_
      rw [debug_FieldName, h name rfl]
      rfl
    | invalidBinaryLen k => rfl
    | io k => rfl
    | _ => rfl
  unfold runFmt
  rw [program_error]
  refine ⟨key n (by omega), ?_⟩
  obtain ⟨n, rfl⟩ := Nat.exists_eq_add_of_le' hn
  have ht : typeOf (errorW p e) = n! "ThriftError" := by cases e <;> rfl
  change format s cfg mem fuel alt errorProg (n + 30) (n! "Display") (errorW p e) [] = _
  refine Eq.trans ?_ (key (n + 27) (by omega))
  conv => lhs; unfold format
  unfold fmtStep
  rw [ht]
  change called mem fuel (format s cfg mem fuel alt errorProg (n + 27)) [n! "ThriftError", n! "Debug", n! "fmt"] [errorW p e, .formatter] [] = _
  change (if n! "fmt" = n! "fmt" ∧ typeOf (errorW p e) = n! "ThriftError" then _ else _) = _
  rw [if_pos ⟨rfl, ht⟩]

/-- C120: from the literal that the macros make for a required field to the text of the error: the text of error.rs accepts it, and the name and the error show `Struct::field`. -/
theorem C120_missing (n : Nat) (hn : 30 ≤ n) (alt : Bool) {p : Nat} {structName fieldName : String} (h1 : '\x00' ∉ structName.toList) (h2 : '\x00' ∉ fieldName.toList)
    (h : Holds mem p (encodeString (missingFieldLiteral structName fieldName))) (hf : (encodeString (missingFieldLiteral structName fieldName)).length ≤ fuel) :
    runFrom s cfg mem fuel errorText n (n! "str") (n! "FieldName") (.str p (encodeString (missingFieldLiteral structName fieldName)).length) = .ok (fieldW p) ∧
    runFmt s cfg mem fuel alt errorText n (n! "Display") (fieldW p) = .ok (W.done, encodeString (structName ++ "::" ++ fieldName)) ∧
    runFmt s cfg mem fuel alt errorText n (n! "Display") (errorW p (.missingField (structName ++ "::" ++ fieldName))) =
      .ok (W.done, debugTuple alt (ascii! "MissingField") (s.cstr (encodeString (structName ++ "::" ++ fieldName)))) := by
  obtain ⟨f, hf1, hf2⟩ := C74_missing_field h1 h2 h
  have hp : f = ⟨p⟩ := by
    rw [C74_accepts h] at hf1
    split at hf1
    · cases hf1; rfl
    · cases hf1
  subst hp
  have hd := hf2 fuel hf
  have hc : cstr mem fuel p = .ok (stringBytes (structName ++ "::" ++ fieldName)) := by
    rw [stringBytes_eq]
    unfold FieldName.display at hd
    cases hc : cstr mem fuel p with
    | error x => rw [hc] at hd; cases hd
    | ok bs =>
      rw [hc] at hd
      dsimp only at hd
      split at hd
      · exact hd
      · cases hd
  refine ⟨?_, ?_, ?_⟩
  · rw [C120_from_str s cfg mem fuel n (by omega), hf1]
    rfl
  · rw [(C120_name s cfg mem fuel n (by omega) alt p).1, hd]
    rfl
  · rw [(C120_error s cfg mem fuel n hn alt _ p fun name he => by cases he; exact hc).2, ← stringBytes_eq]
    rfl

end

/-- `"S::a\0"` at address 100, followed by bytes that may not be read: the hypotheses hold, and `{}` of the error is `MissingField(…)`. -/
example (s : ErrorStd) (hs : s.cstr (ascii! "S::a") = ascii! "\"S::a\"") : ∃ mem : Mem, mem 105 = none ∧
    runFrom s ⟨true, true, fun _ => false⟩ mem 5 errorText 30 (n! "str") (n! "FieldName") (.str 100 5) = .ok (fieldW 100) ∧
    runFrom s ⟨true, true, fun _ => false⟩ mem 5 errorText 30 (n! "str") (n! "FieldName") (.str 100 4) = .error .panic ∧
    runFmt s ⟨true, true, fun _ => false⟩ mem 5 false errorText 30 (n! "Display") (errorW 100 (.missingField "S::a")) = .ok (W.done, ascii! "MissingField(\"S::a\")") := by
  have he : encodeString (missingFieldLiteral "S" "a") = [0x53#8, 0x3A#8, 0x3A#8, 0x61#8, 0x00#8] := rfl
  have hh : Holds (fun a => if 100 ≤ a then [0x53#8, 0x3A#8, 0x3A#8, 0x61#8, 0x00#8][a - 100]? else none) 100 [0x53#8, 0x3A#8, 0x3A#8, 0x61#8, 0x00#8] := by
    intro i hi
    simp only [Nat.le_add_right, if_true, Nat.add_sub_cancel_left]
    exact List.getElem?_eq_getElem hi
  obtain ⟨r1, _, r3⟩ := C120_missing s ⟨true, true, fun _ => false⟩ _ 5 30 (Nat.le_refl _) false (structName := "S") (fieldName := "a") (by decide) (by decide) (by rw [he]; exact hh) (Nat.le_refl _)
  refine ⟨_, rfl, r1, ?_, r3.trans ?_⟩
  · rw [C120_from_str _ _ _ _ 30 (by decide)]
    rfl
  · rw [show encodeString ("S" ++ "::" ++ "a") = ascii! "S::a" from rfl, hs]
    rfl

end CT.Props
