import Verif.Proofs.GeneratedText
/-!
# Names, numbers and types in the text of the generator
-/
namespace CT.Props
open CT CT.Rust CT.Rust.Spec CT.Gen

/-! ## Words -/

/-- What may follow a name -/
def brk (c : Char) : Bool := !wordTail c && !(c == '#') && !(c == '"')

/-- The characters of a word -/
def Wordy (s : List Char) : Prop := ∃ c cs, s = c :: cs ∧ wordStart c = true ∧ ∀ d ∈ cs, wordTail d = true

theorem white_word {c : Char} (h : wordTail c = true) : white c = false := by
  simp only [white, Bool.or_eq_false_iff, beq_eq_false_iff_ne]
  refine ⟨⟨⟨?_, ?_⟩, ?_⟩, ?_⟩ <;> (rintro rfl; revert h; decide)

theorem run_wordTail {s cs : List Char} (h : ∀ d ∈ cs, wordTail d = true) : run (.word s) cs = some ([], .word (s ++ cs)) := by
  induction cs generalizing s with
  | nil => simp [run]
  | cons c cs ih =>
    rw [run, step, if_pos (h c (by simp)), Option.bind_some]
    simp [ih fun d hd => h d (by simp [hd])]

theorem run_rawTail {s cs : List Char} (h : ∀ d ∈ cs, wordTail d = true) : run (.raw s) cs = some ([], .raw (s ++ cs)) := by
  induction cs generalizing s with
  | nil => simp [run]
  | cons c cs ih =>
    rw [run, step, if_pos (h c (by simp)), Option.bind_some]
    simp [ih fun d hd => h d (by simp [hd])]

theorem run_wordy {s : List Char} (h : Wordy s) : run .between s = some ([], .word s) := by
  obtain ⟨c, cs, rfl, h1, h2⟩ := h
  rw [run, show step .between c = start c from rfl, start, white_word (by simp [wordTail, h1]), if_neg (by simp), if_pos h1, Option.bind_some]
  simp [run_wordTail h2]

theorem chunk_wordy {s : List Char} (h : Wordy s) : Chunk brk s [.tok (.ident false s)] := Chunk.of (run_wordy h)

theorem Wordy.append {s t : List Char} (h : Wordy s) (ht : ∀ d ∈ t, wordTail d = true) : Wordy (s ++ t) := by
  obtain ⟨c, cs, rfl, h1, h2⟩ := h
  refine ⟨c, cs ++ t, rfl, h1, ?_⟩
  intro d hd
  rcases List.mem_append.mp hd with hd | hd
  · exact h2 d hd
  · exact ht d hd

theorem letter_word {c : Char} (h : Gen.isLetter c = true) : wordStart c = true := by
  simp only [Gen.isLetter, Bool.or_eq_true, Bool.and_eq_true, decide_eq_true_eq] at h
  simp only [wordStart, Bool.or_eq_true, Bool.and_eq_true, decide_eq_true_eq]
  rcases h with h | h
  · exact .inl (.inr h)
  · exact .inl (.inl h)

theorem digit_digit {c : Char} (h : Gen.isDigit c = true) : digit c = true := by
  simp only [Gen.isDigit, Bool.and_eq_true, decide_eq_true_eq] at h
  simp only [digit, Bool.and_eq_true, decide_eq_true_eq]
  exact h

theorem wordy_of {s : String} (h : rustIdent s = true) : Wordy s.toList ∧ keywords.contains s.toList = false := by
  simp only [rustIdent, Bool.and_eq_true, Bool.not_eq_true'] at h
  obtain ⟨⟨⟨⟨h1, h2⟩, h3⟩, -⟩, h5⟩ := h
  refine ⟨?_, isName_plain h5⟩
  cases hs : s.toList with
  | nil => rw [hs] at h2; cases h2
  | cons c cs =>
    rw [hs] at h1 h3
    simp only [List.all_cons, Bool.and_eq_true, Bool.or_eq_true, List.take_succ_cons, List.take_zero, List.all_nil, Bool.and_true] at h1 h3
    have hall : ∀ d ∈ cs, wordTail d = true := by
      intro d hd
      have := List.all_eq_true.mp h1.2 d hd
      simp only [Bool.or_eq_true] at this
      rcases this with (h | h) | h
      · simp [wordTail, letter_word h]
      · simp [wordTail, digit_digit h]
      · simp [wordTail, wordStart, h]
    refine ⟨c, cs, rfl, ?_, hall⟩
    rcases h1.1 with (h | h) | h
    · exact letter_word h
    · rw [h] at h3; cases h3
    · simp [wordStart, h]

theorem toList_type : "type".toList = text! "type" := by decide

/-- An escaped name -/
theorem chunk_name {s : String} (h : escapedOk s = true) : Chunk brk (rustIdentifier s) (flat [name ofGenerator s]) := by
  have hf : flat [name ofGenerator s] = [.tok (.ident (keywords.contains s.toList) s.toList)] := rfl
  rw [hf]
  by_cases ht : s = "type"
  · subst ht
    rw [rustIdentifier, if_pos rfl, toList_type]
    refine (Chunk.of (st := .raw (text! "type")) (ls := []) rfl).mono ?_
    intro c hc
    simp only [brk, Bool.and_eq_true] at hc
    simp [fin, hc.1.1]
  · rw [rustIdentifier, if_neg ht]
    simp only [escapedOk, Bool.or_eq_true, beq_iff_eq] at h
    have := wordy_of (h.resolve_left ht)
    rw [this.2]
    exact chunk_wordy this.1

theorem head_name {s : String} (h : escapedOk s = true) : ∃ c cs, rustIdentifier s = c :: cs ∧ wordStart c = true := by
  by_cases ht : s = "type"
  · subst ht
    rw [rustIdentifier, if_pos rfl, toList_type]
    exact ⟨_, _, rfl, rfl⟩
  · rw [rustIdentifier, if_neg ht]
    simp only [escapedOk, Bool.or_eq_true, beq_iff_eq] at h
    obtain ⟨⟨c, cs, h1, h2, -⟩, -⟩ := wordy_of (h.resolve_left ht)
    exact ⟨c, cs, h1, h2⟩

/-- The flag of a field -/
theorem chunk_flag {s : String} (h : escapedOk s = true) : Chunk brk (rustIdentifier s ++ text! "_set_") (flat [localVar (Code.Style.generator.flag s)]) := by
  have hf : flat [localVar (Code.Style.generator.flag s)] = [.tok (.ident false (s ++ "_set_").toList)] := rfl
  rw [hf, String.toList_append, show "_set_".toList = text! "_set_" by decide]
  by_cases ht : s = "type"
  · subst ht
    rw [rustIdentifier, if_pos rfl, toList_type]
    refine (Chunk.of (st := .raw (text! "type_set_")) (ls := []) rfl).mono ?_
    intro c hc
    simp only [brk, Bool.and_eq_true] at hc
    simp [fin, hc.1.1]
  · rw [rustIdentifier, if_neg ht]
    simp only [escapedOk, Bool.or_eq_true, beq_iff_eq] at h
    exact chunk_wordy ((wordy_of (h.resolve_left ht)).1.append (by decide))

/-- A name that is not escaped -/
theorem chunk_plain {s : String} (h : rustIdent s = true) : Chunk brk s.toList (flat [name ofGenerator s]) := by
  have hf : flat [name ofGenerator s] = [.tok (.ident (keywords.contains s.toList) s.toList)] := rfl
  have := wordy_of h
  rw [hf, this.2]
  exact chunk_wordy this.1

theorem head_plain {s : String} (h : rustIdent s = true) : ∃ c cs, s.toList = c :: cs ∧ wordStart c = true := by
  obtain ⟨⟨c, cs, h1, h2, -⟩, -⟩ := wordy_of h
  exact ⟨c, cs, h1, h2⟩

theorem fin_op {d c : Char} (hd : d = '.' ∨ d = '!' ∨ d = '<') (hc : wordStart c = true) : fin (.op d) c = true := by
  have h1 : c ≠ '.' := by rintro rfl; revert hc; decide
  have h2 : c ≠ '=' := by rintro rfl; revert hc; decide
  rcases hd with rfl | rfl | rfl <;> simp [fin, twoOps, h1, h2]

/-! ## Numbers -/

/-- What may follow a number -/
def brkNum (c : Char) : Bool := !wordTail c && !(c == '.')

theorem run_number {s cs : List Char} (h : ∀ d ∈ cs, digit d = true) : run (.number s) cs = some ([], .number (s ++ cs)) := by
  induction cs generalizing s with
  | nil => simp [run]
  | cons c cs ih =>
    rw [run, step, if_pos (by simp [wordTail, h c (by simp)]), Option.bind_some]
    simp [ih fun d hd => h d (by simp [hd])]

theorem digit_facts {c : Char} (h : digit c = true) : white c = false ∧ wordStart c = false := by
  refine ⟨white_word (by simp [wordTail, h]), ?_⟩
  simp only [digit, Bool.and_eq_true, decide_eq_true_eq, show '0'.toNat = 48 from rfl, show '9'.toNat = 57 from rfl] at h
  simp only [wordStart, Bool.or_eq_false_iff, Bool.and_eq_false_iff, decide_eq_false_iff_not, show 'a'.toNat = 97 from rfl, show 'z'.toNat = 122 from rfl,
      show 'A'.toNat = 65 from rfl, show 'Z'.toNat = 90 from rfl, beq_eq_false_iff_ne]
  refine ⟨⟨by omega, by omega⟩, ?_⟩
  rintro rfl
  exact absurd h.2 (by decide)

theorem decimal_eq (n : Nat) (cs : List Char) (h : ∀ c ∈ cs, digit c = true) : decimal n cs = Nat.ofDigitChars 10 cs n := by
  induction cs generalizing n with
  | nil => rw [decimal, Nat.ofDigitChars_nil]
  | cons c cs ih =>
    have hc : (c == '_') = false := by
      rw [beq_eq_false_iff_ne]
      rintro rfl
      exact absurd (h '_' (by simp)) (by decide)
    rw [decimal, hc, if_neg (by simp), ih _ (fun d hd => h d (by simp [hd])), Nat.ofDigitChars_cons, Nat.mul_comm]
    rfl

theorem digits_digit (n : Nat) : ∀ c ∈ Nat.toDigits 10 n, digit c = true := by
  intro c hc
  have := Nat.isDigit_of_mem_toDigits (by decide) (by decide) hc
  simp only [Char.isDigit, Bool.and_eq_true, decide_eq_true_eq] at this
  simp only [digit, Bool.and_eq_true, decide_eq_true_eq]
  exact this

theorem numTok_digits (n : Nat) : numTok (Nat.toDigits 10 n) = .num n [] := by
  have hd := digits_digit n
  have h1 : (Nat.toDigits 10 n).takeWhile (fun c => digit c || c == '_') = Nat.toDigits 10 n := by
    have := List.takeWhile_append_of_pos (p := fun c => digit c || c == '_') (l₁ := Nat.toDigits 10 n) (l₂ := []) fun c hc => by simp [hd c hc]
    simpa using this
  have h2 : (Nat.toDigits 10 n).dropWhile (fun c => digit c || c == '_') = [] := by
    have := List.dropWhile_append_of_pos (p := fun c => digit c || c == '_') (l₁ := Nat.toDigits 10 n) (l₂ := []) fun c hc => by simp [hd c hc]
    simpa using this
  rw [numTok, h1, h2, decimal_eq _ _ hd, Nat.ofDigitChars_ten_toDigits]

theorem run_digits (n : Nat) : run .between (Nat.toDigits 10 n) = some ([], .number (Nat.toDigits 10 n)) := by
  have hd := digits_digit n
  cases hs : Nat.toDigits 10 n with
  | nil => exact absurd hs (Nat.toDigits_ne_nil)
  | cons c cs =>
    rw [hs] at hd
    have hc := digit_facts (hd c (by simp))
    rw [run, show step .between c = start c from rfl, start, hc.1, hc.2, if_neg (by simp), if_neg (by simp), if_pos (hd c (by simp)), Option.bind_some]
    simp [run_number (s := [c]) (cs := cs) fun d h => hd d (by simp [h])]

theorem chunk_digits (n : Nat) : Chunk brkNum (Nat.toDigits 10 n) [.tok (.num n [])] := by
  have := Chunk.of (run_digits n)
  rw [pending, numTok_digits] at this
  exact this

/-- An integer -/
theorem chunk_int (n : BitVec 32) : Chunk brkNum (intText n) (flat (literal true n.toInt)) := by
  rw [intText, literal]
  split
  · refine Chunk.append (a := ['-']) (la := [.tok (.op ['-'])]) (Chunk.fixed (.op '-') rfl) (chunk_digits _) ?_
    cases hs : Nat.toDigits 10 n.toInt.natAbs with
    | nil => exact absurd hs (Nat.toDigits_ne_nil)
    | cons c cs =>
      refine ⟨c, cs, hs, ?_⟩
      have hd := digits_digit n.toInt.natAbs c (by rw [hs]; simp)
      have h1 : c ≠ '>' := by rintro rfl; revert hd; decide
      have h2 : c ≠ '=' := by rintro rfl; revert hd; decide
      simp [fin, twoOps, h1, h2]
  · exact chunk_digits _

/-! ## Types -/

/-- What may follow a type -/
def brkType (c : Char) : Bool := brk c && !(c == '=')

theorem brkType_brk (c : Char) (h : brkType c = true) : brk c = true := by
  simp only [brkType, Bool.and_eq_true] at h
  exact h.1

theorem brkType_gt (c : Char) : fin (.op '>') c = true := by simp [fin, twoOps]

theorem fin_comma (c : Char) : fin (.op ',') c = true := by simp [fin, twoOps]
theorem fin_semi (c : Char) : fin (.op ';') c = true := by simp [fin, twoOps]

theorem chunk_gt {E : Char → Bool} {cs : List Char} {ls : List Lex} (h : (run .between cs).map (fun x => (x.1 ++ pending x.2, x.2)) = some (ls, .op '>')) : Chunk E cs ls :=
  (Chunk.fixed (.op '>') h).mono fun c _ => brkType_gt c

/-- The lifetime of a name -/
theorem chunk_lifetime (b : Bool) {s : List Char} {ls : List Lex} (h : Chunk brk s ls) : Chunk brk (s ++ if b then text! "<'i>" else []) (ls ++ flat (lifetime b)) := by
  cases b with
  | false => simpa [lifetime, flat] using h
  | true => exact h.append (chunk_gt rfl) ⟨_, _, rfl, rfl⟩

/-- The names in a type are words. -/
def NamesOk : FieldType → Prop
  | .base _ => True
  | .named s => Wordy s.toList
  | .list t => NamesOk t
  | .set t => NamesOk t
  | .map k v => NamesOk k ∧ NamesOk v

/-- What `lifetimeText` and `lifetimeAnnotation` find out -/
def Needs (document : Document) (depth : Nat) (s : String) : Bool :=
  match get? s document with
  | none => false
  | some d => definitionNeedsLifeTime document depth d == some true

theorem chunk_type {document : Document} {depth : Nat} {t : FieldType} {cs : List Char} (hn : NamesOk t) (h : fieldTypeText document depth t = some cs) :
    Chunk brk cs (flat (genTypeCode (Needs document depth) t)) ∧ (∃ c r, cs = c :: r ∧ wordStart c = true) ∧ fine (genTypeCode (Needs document depth) t) = true := by
  induction t generalizing cs with
  | base b =>
    cases b <;> cases h
    · exact ⟨Chunk.fixed (.word (text! "bool")) rfl, ⟨_, _, rfl, rfl⟩, rfl⟩
    · exact ⟨Chunk.fixed (.word (text! "u8")) rfl, ⟨_, _, rfl, rfl⟩, rfl⟩
    · exact ⟨Chunk.fixed (.word (text! "i16")) rfl, ⟨_, _, rfl, rfl⟩, rfl⟩
    · exact ⟨Chunk.fixed (.word (text! "i32")) rfl, ⟨_, _, rfl, rfl⟩, rfl⟩
    · exact ⟨Chunk.fixed (.word (text! "i64")) rfl, ⟨_, _, rfl, rfl⟩, rfl⟩
    · exact ⟨Chunk.fixed (.word (text! "f64")) rfl, ⟨_, _, rfl, rfl⟩, rfl⟩
    · exact ⟨chunk_gt rfl, ⟨_, _, rfl, rfl⟩, rfl⟩
    · exact ⟨chunk_gt rfl, ⟨_, _, rfl, rfl⟩, rfl⟩
  | named s =>
    have hw : Wordy s.toList := hn
    have hb : ∃ b, cs = s.toList ++ (if b then text! "<'i>" else []) ∧ Needs document depth s = b := by
      simp only [fieldTypeText, lifetimeText, Option.map_eq_some_iff] at h
      obtain ⟨l, h, rfl⟩ := h
      unfold Needs
      cases hg : get? s document with
      | none => rw [hg] at h; cases h; exact ⟨false, rfl, rfl⟩
      | some d =>
        rw [hg] at h
        simp only [Option.map_eq_some_iff] at h
        obtain ⟨b, h, rfl⟩ := h
        simp only [h]
        exact ⟨b, rfl, by cases b <;> rfl⟩
    obtain ⟨b, rfl, hb⟩ := hb
    simp only [genTypeCode, hb]
    refine ⟨chunk_lifetime b (chunk_wordy hw), ?_, by cases b <;> rfl⟩
    obtain ⟨c, r, h1, h2, -⟩ := hw
    exact ⟨c, r ++ _, by rw [h1]; rfl, h2⟩
  | list t ih =>
    simp only [fieldTypeText, Option.map_eq_some_iff] at h
    obtain ⟨u, h, rfl⟩ := h
    obtain ⟨h1, ⟨c, r, rfl, h2⟩, h3⟩ := ih hn h
    refine ⟨?_, ⟨_, _, rfl, rfl⟩, by rw [genTypeCode, fine_append, fine_append, h3]; rfl⟩
    rw [genTypeCode, flat_append, flat_append]
    exact Chunk.append ((Chunk.fixed (.op '<') rfl).append h1 ⟨c, r, rfl, fin_op (by simp) h2⟩)
      (chunk_gt rfl) ⟨_, _, rfl, rfl⟩
  | set t ih =>
    simp only [fieldTypeText, Option.map_eq_some_iff] at h
    obtain ⟨u, h, rfl⟩ := h
    obtain ⟨h1, ⟨c, r, rfl, h2⟩, h3⟩ := ih hn h
    refine ⟨?_, ⟨_, _, rfl, rfl⟩, by rw [genTypeCode, fine_append, fine_append, h3]; rfl⟩
    rw [genTypeCode, flat_append, flat_append]
    exact Chunk.append ((Chunk.fixed (.op '<') rfl).append h1 ⟨c, r, rfl, fin_op (by simp) h2⟩)
      (chunk_gt rfl) ⟨_, _, rfl, rfl⟩
  | map k v ihk ihv =>
    simp only [fieldTypeText, Option.bind_eq_some_iff, Option.map_eq_some_iff] at h
    obtain ⟨u, hk, w, hv, rfl⟩ := h
    obtain ⟨h1, ⟨c, r, rfl, h2⟩, h3⟩ := ihk hn.1 hk
    obtain ⟨h1', ⟨c', r', rfl, h2'⟩, h3'⟩ := ihv hn.2 hv
    refine ⟨?_, ⟨_, _, rfl, rfl⟩, by rw [genTypeCode, fine_append, fine_append, fine_append, fine_append, h3, h3']; rfl⟩
    rw [genTypeCode, flat_append, flat_append, flat_append, flat_append]
    refine Chunk.append (Chunk.then ?_ h1') (chunk_gt rfl) ⟨_, _, rfl, rfl⟩
    refine Chunk.append ((Chunk.fixed (.op '<') rfl).append h1 ⟨c, r, rfl, fin_op (by simp) h2⟩)
      ((Chunk.fixed .between rfl).mono fun _ _ => rfl) ⟨_, _, rfl, rfl⟩

end CT.Props
