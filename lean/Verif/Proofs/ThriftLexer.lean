import Verif.Spec.ThriftLexer
/-!
# Lemmas for C84: the scanners compute the longest matches of the rules
-/
namespace CT.Gen.Spec
open CT.Gen

/-! ## Languages -/

theorem matches_one {p : Char → Prop} {w : List Char} : Matches (.one p) w ↔ ∃ c, w = [c] ∧ p c := by
  constructor
  · rintro (_ | h); exact ⟨_, rfl, h⟩
  · rintro ⟨c, rfl, h⟩; exact .one h

theorem matches_seq {a b : Re} {w : List Char} : Matches (.seq a b) w ↔ ∃ u v, w = u ++ v ∧ Matches a u ∧ Matches b v := by
  constructor
  · intro h; cases h with | seq hu hv => exact ⟨_, _, rfl, hu, hv⟩
  · rintro ⟨u, v, rfl, hu, hv⟩; exact .seq hu hv

theorem matches_alt {a b : Re} {w : List Char} : Matches (.alt a b) w ↔ Matches a w ∨ Matches b w := by
  constructor
  · intro h; cases h with
    | left h => exact .inl h
    | right h => exact .inr h
  · rintro (h | h)
    · exact .left h
    · exact .right h

theorem matches_eps {w : List Char} : Matches .eps w ↔ w = [] := by
  constructor
  · intro h; cases h; rfl
  · rintro rfl; exact .eps

theorem matches_chr {c : Char} {w : List Char} : Matches (.chr c) w ↔ w = [c] := by
  simp [Re.chr, matches_one]

theorem matches_opt {a : Re} {w : List Char} : Matches (.opt a) w ↔ Matches a w ∨ w = [] := by
  simp [Re.opt, matches_alt, matches_eps]

theorem star_induction {a : Re} {P : List Char → Prop} (hn : P []) (hm : ∀ u v, Matches a u → Matches (.star a) v → P v → P (u ++ v)) :
    ∀ {w}, Matches (.star a) w → P w := by
  intro w h
  generalize hr : Re.star a = r at h
  induction h with
  | nil => exact hn
  | more hu hv _ ih2 => cases hr; exact hm _ _ hu hv (ih2 rfl)
  | eps => cases hr
  | one => cases hr
  | seq => cases hr
  | left => cases hr
  | right => cases hr

/-- The expression matches single characters. -/
def IsClass (r : Re) (p : Char → Bool) : Prop := ∀ w, Matches r w ↔ ∃ c, w = [c] ∧ p c = true

theorem matches_star {r : Re} {p : Char → Bool} (h : IsClass r p) {w : List Char} : Matches (.star r) w ↔ ∀ c ∈ w, p c = true := by
  constructor
  · refine star_induction (P := fun w => ∀ c ∈ w, p c = true) (by simp) ?_
    intro u v hu _ ih c hc
    obtain ⟨d, rfl, hd⟩ := (h u).1 hu
    rcases List.mem_append.1 hc with hc | hc
    · simp only [List.mem_singleton] at hc; subst hc; exact hd
    · exact ih c hc
  · intro hw
    induction w with
    | nil => exact .nil
    | cons c cs ih =>
      exact Matches.more (u := [c]) ((h _).2 ⟨c, rfl, hw c (by simp)⟩) (ih fun d hd => hw d (List.mem_cons_of_mem _ hd))

theorem matches_plus {r : Re} {p : Char → Bool} (h : IsClass r p) {w : List Char} : Matches (.plus r) w ↔ w ≠ [] ∧ ∀ c ∈ w, p c = true := by
  unfold Re.plus
  rw [matches_seq]
  constructor
  · rintro ⟨u, v, rfl, hu, hv⟩
    obtain ⟨c, rfl, hc⟩ := (h u).1 hu
    have := (matches_star h).1 hv
    exact ⟨by simp, by simpa [hc] using this⟩
  · rintro ⟨hne, hw⟩
    obtain ⟨c, cs, rfl⟩ := List.exists_cons_of_ne_nil hne
    exact ⟨[c], cs, rfl, (h _).2 ⟨c, rfl, hw c (by simp)⟩, (matches_star h).2 fun d hd => hw d (List.mem_cons_of_mem _ hd)⟩

theorem IsClass.alt {a b : Re} {p q : Char → Bool} (ha : IsClass a p) (hb : IsClass b q) : IsClass (.alt a b) fun c => p c || q c := by
  intro w
  rw [matches_alt, ha, hb]
  simp only [Bool.or_eq_true]
  constructor
  · rintro (⟨c, rfl, h⟩ | ⟨c, rfl, h⟩)
    · exact ⟨c, rfl, .inl h⟩
    · exact ⟨c, rfl, .inr h⟩
  · rintro ⟨c, rfl, h | h⟩
    · exact .inl ⟨c, rfl, h⟩
    · exact .inr ⟨c, rfl, h⟩

theorem IsClass.of {P : Char → Prop} {p : Char → Bool} (h : ∀ c, P c ↔ p c = true) : IsClass (.one P) p := by
  intro w; rw [matches_one]; simp only [h]

theorem IsClass.chr (c : Char) : IsClass (.chr c) fun d => d == c := IsClass.of (by simp)
theorem IsClass.range (a b : Char) : IsClass (.range a b) fun c => decide (a ≤ c) && decide (c ≤ b) := IsClass.of (by simp)

theorem class_digit : IsClass DIGIT isDigit := IsClass.range _ _
theorem class_letter : IsClass LETTER isLetter := (IsClass.range _ _).alt (IsClass.range _ _)
theorem IsClass.congr {r : Re} {p q : Char → Bool} (h : IsClass r p) (he : ∀ c, p c = q c) : IsClass r q := by
  intro w; rw [h]; simp only [he]
theorem class_hex : IsClass HEX_DIGIT isHexDigit :=
  (class_digit.alt ((IsClass.range _ _).alt (IsClass.range _ _))).congr fun c => by simp [isHexDigit, Bool.or_assoc]
theorem class_identStart : IsClass (.alt LETTER (.chr '_')) fun c => isLetter c || c == '_' := class_letter.alt (IsClass.chr _)
theorem class_ident : IsClass (.alt LETTER (.alt DIGIT (.alt (.chr '.') (.chr '_')))) isIdentChar :=
  (class_letter.alt (class_digit.alt ((IsClass.chr _).alt (IsClass.chr _)))).congr fun c => by simp [isIdentChar, Bool.or_assoc]

/-- One or more characters of a class. -/
def Run (p : Char → Bool) (w : List Char) : Prop := w ≠ [] ∧ ∀ c ∈ w, p c = true

theorem matches_sign {w : List Char} : Matches sign w ↔ w = ['+'] ∨ w = ['-'] ∨ w = [] := by
  simp [sign, matches_opt, matches_alt, matches_chr, or_assoc]

/-! ## Scanning -/

/-- The function computes the longest match. -/
structure Scans (f : List Char → Option Nat) (L : List Char → Prop) : Prop where
  sound : ∀ s n, f s = some n → ∃ u v, s = u ++ v ∧ u.length = n ∧ L u
  compl : ∀ u v, L u → ∃ n, f (u ++ v) = some n ∧ u.length ≤ n

theorem spanLen_all {p : Char → Bool} : ∀ {u : List Char} (v : List Char), (∀ c ∈ u, p c = true) → spanLen p (u ++ v) = u.length + spanLen p v
  | [], v, _ => by simp
  | c :: u, v, h => by
    have := spanLen_all (u := u) v fun d hd => h d (List.mem_cons_of_mem _ hd)
    rw [List.cons_append, spanLen, if_pos (h c (by simp)), this, List.length_cons]; omega

theorem spanLen_stop {p : Char → Bool} {u v : List Char} (h : ∀ c ∈ u, p c = true) (hv : ∀ c t, v = c :: t → p c = false) :
    spanLen p (u ++ v) = u.length := by
  rw [spanLen_all v h]
  cases v with
  | nil => rfl
  | cons c t => simp [spanLen, hv c t rfl]

theorem spanLen_split (p : Char → Bool) : ∀ s : List Char, ∃ u v, s = u ++ v ∧ u.length = spanLen p s ∧ (∀ c ∈ u, p c = true) ∧ ∀ c t, v = c :: t → p c = false
  | [] => ⟨[], [], rfl, rfl, by simp, by simp⟩
  | c :: s => by
    rw [spanLen]
    by_cases hc : p c = true
    · obtain ⟨u, v, h1, h2, h3, h4⟩ := spanLen_split p s
      rw [if_pos hc]
      refine ⟨c :: u, v, by rw [h1]; rfl, by rw [List.length_cons, h2], ?_, h4⟩
      intro d hd
      rcases List.mem_cons.1 hd with rfl | hd
      · exact hc
      · exact h3 d hd
    · rw [if_neg hc]
      refine ⟨[], c :: s, rfl, rfl, by simp, ?_⟩
      intro d t h; cases h; simpa using hc

theorem plusLen_run {p : Char → Bool} {u : List Char} (v : List Char) (h : Run p u) : plusLen p (u ++ v) = some (u.length + spanLen p v) := by
  obtain ⟨hne, hu⟩ := h
  unfold plusLen
  rw [spanLen_all v hu]
  obtain ⟨c, cs, rfl⟩ := List.exists_cons_of_ne_nil hne
  have : (c :: cs).length + spanLen p v = (cs.length + spanLen p v) + 1 := by rw [List.length_cons]; omega
  rw [this]

theorem plusLen_some {p : Char → Bool} {s : List Char} {n : Nat} (h : plusLen p s = some n) :
    ∃ u v, s = u ++ v ∧ u.length = n ∧ Run p u ∧ ∀ c t, v = c :: t → p c = false := by
  unfold plusLen at h
  obtain ⟨u, v, h1, h2, h3, h4⟩ := spanLen_split p s
  cases hs : spanLen p s with
  | zero => rw [hs] at h; cases h
  | succ m =>
    rw [hs] at h; cases h
    refine ⟨u, v, h1, by rw [h2, hs], ⟨?_, h3⟩, h4⟩
    rintro rfl; rw [hs] at h2; cases h2

theorem plusLen_none {p : Char → Bool} {s : List Char} (h : plusLen p s = none) : ∀ c t, s = c :: t → p c = false := by
  intro c t hs
  subst hs
  cases hp : p c
  · rfl
  · rw [plusLen, spanLen, if_pos hp] at h; cases h

theorem plusLen_stop {p : Char → Bool} {s : List Char} (h : ∀ c t, s = c :: t → p c = false) : plusLen p s = none := by
  cases s with
  | nil => rfl
  | cons c t => simp [plusLen, spanLen, h c t rfl]

/-! ### Signs -/

theorem signLen_cases (s : List Char) : (signLen s = 0 ∧ ∀ c t, s = c :: t → c ≠ '+' ∧ c ≠ '-') ∨ (∃ t, signLen s = 1 ∧ (s = '+' :: t ∨ s = '-' :: t)) := by
  unfold signLen
  split
  · exact .inr ⟨_, rfl, .inl rfl⟩
  · exact .inr ⟨_, rfl, .inr rfl⟩
  · next h1 h2 =>
    refine .inl ⟨rfl, ?_⟩
    rintro c t rfl
    exact ⟨fun h => h1 t (by rw [h]), fun h => h2 t (by rw [h])⟩

theorem signLen_split (s : List Char) : ∃ u v, s = u ++ v ∧ u.length = signLen s ∧ Matches sign u := by
  rcases signLen_cases s with ⟨h, _⟩ | ⟨t, h, h' | h'⟩
  · exact ⟨[], s, rfl, h.symm, matches_sign.2 (by simp)⟩
  · exact ⟨['+'], t, h', h.symm, matches_sign.2 (by simp)⟩
  · exact ⟨['-'], t, h', h.symm, matches_sign.2 (by simp)⟩

/-- Not a sign. -/
theorem digit_no_sign {c : Char} (h : isDigit c = true) : c ≠ '+' ∧ c ≠ '-' ∧ c ≠ '.' ∧ c ≠ 'E' ∧ c ≠ 'e' := by
  refine ⟨?_, ?_, ?_, ?_, ?_⟩ <;> (rintro rfl; revert h; decide)

theorem signLen_append {g s : List Char} (hg : Matches sign g) (hs : ∀ c t, s = c :: t → c ≠ '+' ∧ c ≠ '-') : signLen (g ++ s) = g.length := by
  rcases matches_sign.1 hg with rfl | rfl | rfl
  · rfl
  · rfl
  · rcases signLen_cases s with ⟨h, _⟩ | ⟨t, _, h' | h'⟩
    · simpa using h
    · exact absurd rfl (hs _ _ h').1
    · exact absurd rfl (hs _ _ h').2

theorem Run.head {p : Char → Bool} {u : List Char} (h : Run p u) : ∃ c t, u = c :: t ∧ p c = true := by
  obtain ⟨c, t, rfl⟩ := List.exists_cons_of_ne_nil h.1
  exact ⟨c, t, rfl, h.2 c (by simp)⟩

theorem run_no_sign {u : List Char} (h : Run isDigit u) (v : List Char) : ∀ c t, u ++ v = c :: t → c ≠ '+' ∧ c ≠ '-' := by
  obtain ⟨d, ds, rfl, hd⟩ := h.head
  intro c t he
  cases he
  exact ⟨(digit_no_sign hd).1, (digit_no_sign hd).2.1⟩

theorem drop_append_length {α : Type} (u v : List α) {n : Nat} (h : u.length = n) : (u ++ v).drop n = v := by subst h; simp

/-! ### INTEGER -/

theorem matches_INTEGER {w : List Char} : Matches INTEGER w ↔ ∃ g ds, w = g ++ ds ∧ Matches sign g ∧ Run isDigit ds := by
  simp only [INTEGER, matches_seq, matches_plus class_digit, Run]

theorem scans_INTEGER : Scans scanInteger (Matches INTEGER) := by
  constructor
  · intro s n h
    unfold scanInteger at h
    obtain ⟨m, hm, rfl⟩ := Option.map_eq_some_iff.1 h
    obtain ⟨g, s', rfl, hg, hs⟩ := signLen_split s
    rw [drop_append_length _ _ hg] at hm
    obtain ⟨u, v, rfl, hu, hr, _⟩ := plusLen_some hm
    exact ⟨g ++ u, v, by simp, by simp [hg, hu], matches_INTEGER.2 ⟨g, u, rfl, hs, hr⟩⟩
  · intro u v h
    obtain ⟨g, ds, rfl, hg, hd⟩ := matches_INTEGER.1 h
    have h1 : signLen (g ++ ds ++ v) = g.length := by
      rw [List.append_assoc]; exact signLen_append hg (run_no_sign hd v)
    refine ⟨g.length + (ds.length + spanLen isDigit v), ?_, by simp⟩
    rw [scanInteger, h1, List.append_assoc, drop_append_length _ _ rfl, plusLen_run v hd, Option.map_some]

/-! ### HEX_INTEGER -/

theorem matches_HEX {w : List Char} : Matches HEX_INTEGER w ↔ ∃ g ds, w = g ++ '0' :: 'x' :: ds ∧ (g = ['-'] ∨ g = []) ∧ Run isHexDigit ds := by
  simp only [HEX_INTEGER, matches_seq, matches_plus class_hex, Run, matches_opt, matches_chr]
  constructor
  · rintro ⟨g, _, rfl, hg, _, ds, rfl, ⟨_, _, rfl, rfl, rfl⟩, hd⟩
    exact ⟨g, ds, rfl, hg, hd⟩
  · rintro ⟨g, ds, rfl, hg, hd⟩
    exact ⟨g, _, rfl, hg, ['0', 'x'], ds, rfl, ⟨['0'], ['x'], rfl, rfl, rfl⟩, hd⟩

theorem scanHexBody_some {s : List Char} {n : Nat} (h : scanHexBody s = some n) : ∃ u v, s = '0' :: 'x' :: (u ++ v) ∧ u.length + 2 = n ∧ Run isHexDigit u := by
  unfold scanHexBody at h
  split at h
  · obtain ⟨m, hm, rfl⟩ := Option.map_eq_some_iff.1 h
    obtain ⟨u, v, rfl, hu, hr, _⟩ := plusLen_some hm
    exact ⟨u, v, rfl, by omega, hr⟩
  · cases h

theorem scanHexBody_run {ds : List Char} (v : List Char) (h : Run isHexDigit ds) : scanHexBody ('0' :: 'x' :: (ds ++ v)) = some (2 + (ds.length + spanLen isHexDigit v)) := by
  rw [scanHexBody, plusLen_run v h]; rfl

theorem scans_HEX : Scans scanHex (Matches HEX_INTEGER) := by
  constructor
  · intro s n h
    unfold scanHex at h
    split at h
    · obtain ⟨m, hm, rfl⟩ := Option.map_eq_some_iff.1 h
      obtain ⟨u, v, rfl, hu, hr⟩ := scanHexBody_some hm
      exact ⟨'-' :: '0' :: 'x' :: u, v, rfl, by simp; omega, matches_HEX.2 ⟨['-'], u, rfl, .inl rfl, hr⟩⟩
    · obtain ⟨u, v, rfl, hu, hr⟩ := scanHexBody_some h
      exact ⟨'0' :: 'x' :: u, v, rfl, by simp; omega, matches_HEX.2 ⟨[], u, rfl, .inr rfl, hr⟩⟩
  · intro u v h
    obtain ⟨g, ds, rfl, rfl | rfl, hd⟩ := matches_HEX.1 h
    · refine ⟨1 + (2 + (ds.length + spanLen isHexDigit v)), ?_, by simp; omega⟩
      have : ['-'] ++ '0' :: 'x' :: ds ++ v = '-' :: '0' :: 'x' :: (ds ++ v) := by simp
      rw [this, scanHex, scanHexBody_run v hd, Option.map_some]
    · refine ⟨2 + (ds.length + spanLen isHexDigit v), ?_, by simp; omega⟩
      have : [] ++ '0' :: 'x' :: ds ++ v = '0' :: 'x' :: (ds ++ v) := by simp
      rw [this, scanHex, scanHexBody_run v hd]
      intro s h; cases h

/-! ### DOUBLE -/

/-- `'.' DIGIT+` -/
def Fraction (w : List Char) : Prop := ∃ ds, w = '.' :: ds ∧ Run isDigit ds

/-- `('E' | 'e') ('+' | '-')? DIGIT+` -/
def Exponent (w : List Char) : Prop := ∃ c g ds, w = c :: (g ++ ds) ∧ (c = 'E' ∨ c = 'e') ∧ Matches sign g ∧ Run isDigit ds

theorem matches_fraction {w : List Char} : Matches (.seq (.chr '.') (.plus DIGIT)) w ↔ Fraction w := by
  simp only [matches_seq, matches_plus class_digit, matches_chr, Fraction, Run]
  constructor
  · rintro ⟨_, ds, rfl, rfl, h⟩; exact ⟨ds, rfl, h⟩
  · rintro ⟨ds, rfl, h⟩; exact ⟨['.'], ds, rfl, rfl, h⟩

theorem matches_exponent {w : List Char} : Matches (.seq (.alt (.chr 'E') (.chr 'e')) (.seq sign (.plus DIGIT))) w ↔ Exponent w := by
  simp only [matches_seq, matches_alt, matches_plus class_digit, matches_chr, Exponent, Run]
  constructor
  · rintro ⟨_, _, rfl, h, g, ds, rfl, hg, hd⟩
    rcases h with rfl | rfl
    · exact ⟨_, g, ds, rfl, .inl rfl, hg, hd⟩
    · exact ⟨_, g, ds, rfl, .inr rfl, hg, hd⟩
  · rintro ⟨c, g, ds, rfl, h, hg, hd⟩
    exact ⟨[c], g ++ ds, rfl, by rcases h with rfl | rfl <;> simp, g, ds, rfl, hg, hd⟩

theorem matches_DOUBLE {w : List Char} : Matches DOUBLE w ↔ ∃ g m e, w = g ++ (m ++ e) ∧ Matches sign g ∧
    ((∃ a b, m = a ++ b ∧ Run isDigit a ∧ (Fraction b ∨ b = [])) ∨ Fraction m) ∧ (Exponent e ∨ e = []) := by
  rw [DOUBLE, matches_seq]
  simp only [matches_seq (b := Re.opt _), matches_alt (b := Re.seq (Re.chr '.') (Re.plus DIGIT)), matches_opt, matches_fraction, matches_exponent, matches_plus class_digit]
  constructor
  · rintro ⟨g, _, rfl, hg, m, e, rfl, hm, he⟩
    exact ⟨g, m, e, rfl, hg, hm, he⟩
  · rintro ⟨g, m, e, rfl, hg, hm, he⟩
    exact ⟨g, _, rfl, hg, m, e, rfl, hm, he⟩

theorem fractionLen_split (s : List Char) : ∃ u v, s = u ++ v ∧ u.length = fractionLen s ∧ (Fraction u ∨ u = []) := by
  unfold fractionLen
  split
  · next t =>
    split
    · next n hn =>
      obtain ⟨u, v, rfl, hu, hr, _⟩ := plusLen_some hn
      exact ⟨'.' :: u, v, rfl, by simp; omega, .inl ⟨u, rfl, hr⟩⟩
    · exact ⟨[], _, rfl, rfl, .inr rfl⟩
  · exact ⟨[], _, rfl, rfl, .inr rfl⟩

theorem fractionLen_run {ds : List Char} (v : List Char) (h : Run isDigit ds) : fractionLen ('.' :: (ds ++ v)) = 1 + (ds.length + spanLen isDigit v) := by
  simp only [fractionLen, plusLen_run v h]

theorem fractionLen_stop {s : List Char} (h : ∀ t, s ≠ '.' :: t) : fractionLen s = 0 := by
  unfold fractionLen
  split
  · next t => exact absurd rfl (h t)
  · rfl

theorem exponentLen_split (s : List Char) : ∃ u v, s = u ++ v ∧ u.length = exponentLen s ∧ (Exponent u ∨ u = []) := by
  unfold exponentLen
  split
  · next c t =>
    split
    · next hc =>
      split
      · next n hn =>
        obtain ⟨g, s', rfl, hg, hs⟩ := signLen_split t
        rw [drop_append_length _ _ hg] at hn
        obtain ⟨u, v, rfl, hu, hr, _⟩ := plusLen_some hn
        exact ⟨c :: (g ++ u), v, by simp, by simp [← hg, hu]; omega, .inl ⟨c, g, u, rfl, hc, hs, hr⟩⟩
      · exact ⟨[], _, rfl, rfl, .inr rfl⟩
    · exact ⟨[], _, rfl, rfl, .inr rfl⟩
  · exact ⟨[], _, rfl, rfl, .inr rfl⟩

theorem exponentLen_ge {e : List Char} (v : List Char) (h : Exponent e) : e.length ≤ exponentLen (e ++ v) := by
  obtain ⟨c, g, ds, rfl, hc, hg, hd⟩ := h
  have h1 : signLen (g ++ (ds ++ v)) = g.length := signLen_append hg (run_no_sign hd v)
  have h2 : c :: (g ++ ds) ++ v = c :: (g ++ (ds ++ v)) := by simp
  rw [h2, exponentLen, if_pos hc, h1, drop_append_length _ _ rfl, plusLen_run v hd]
  simp only [List.length_cons, List.length_append]
  omega

theorem scanMantissa_some {s : List Char} {n : Nat} (h : scanMantissa s = some n) :
    ∃ m v, s = m ++ v ∧ m.length = n ∧ ((∃ a b, m = a ++ b ∧ Run isDigit a ∧ (Fraction b ∨ b = [])) ∨ Fraction m) := by
  unfold scanMantissa at h
  split at h
  · next k hk =>
    cases h
    obtain ⟨a, v, rfl, ha, hr, _⟩ := plusLen_some hk
    rw [drop_append_length _ _ ha]
    obtain ⟨b, v', rfl, hb, hf⟩ := fractionLen_split v
    exact ⟨a ++ b, v', by simp, by simp [ha, hb], .inl ⟨a, b, rfl, hr, hf⟩⟩
  · obtain ⟨b, v', rfl, hb, hf⟩ := fractionLen_split s
    split at h
    · cases h
    · next k hk =>
      cases h
      rw [hk] at hb
      rcases hf with hf | rfl
      · exact ⟨b, v', rfl, hb, .inr hf⟩
      · cases hb

theorem scanDouble_some {s : List Char} {n : Nat} (h : scanDouble s = some n) : ∃ u v, s = u ++ v ∧ u.length = n ∧ Matches DOUBLE u := by
  unfold scanDouble at h
  obtain ⟨k, hk, rfl⟩ := Option.map_eq_some_iff.1 h
  obtain ⟨g, s', rfl, hg, hs⟩ := signLen_split s
  rw [drop_append_length _ _ hg] at hk
  obtain ⟨m, v, rfl, hm, hM⟩ := scanMantissa_some hk
  rw [← List.append_assoc, drop_append_length (g ++ m) v (by simp [hg, hm])]
  obtain ⟨e, v', rfl, he, hE⟩ := exponentLen_split v
  refine ⟨g ++ (m ++ e), v', by simp, ?_, matches_DOUBLE.2 ⟨g, m, e, rfl, hs, hM, hE⟩⟩
  simp only [List.length_append, he, hm]
  rw [List.append_assoc, hg]

theorem exponent_head {e : List Char} (h : Exponent e) (v : List Char) : ∀ c t, e ++ v = c :: t → isDigit c = false ∧ c ≠ '.' := by
  obtain ⟨c, g, ds, rfl, hc, _, _⟩ := h
  intro d t he
  cases he
  rcases hc with rfl | rfl <;> decide

theorem spanLen_zero {p : Char → Bool} {v : List Char} (h : ∀ c t, v = c :: t → p c = false) : spanLen p v = 0 := by
  have := spanLen_stop (p := p) (u := []) (v := v) (by simp) h
  simpa using this

/-- If nothing more can belong to the mantissa, the scan is exact; otherwise it is at least as long. -/
theorem scanMantissa_mantissa {m : List Char} (v : List Char) (hM : (∃ a b, m = a ++ b ∧ Run isDigit a ∧ (Fraction b ∨ b = [])) ∨ Fraction m) :
    (∃ n, scanMantissa (m ++ v) = some n ∧ m.length ≤ n) ∧ ((∀ c t, v = c :: t → isDigit c = false ∧ c ≠ '.') → scanMantissa (m ++ v) = some m.length) := by
  rcases hM with ⟨a, b, rfl, ha, ⟨ds, rfl, hd⟩ | rfl⟩ | ⟨ds, rfl, hd⟩
  · have h1 : plusLen isDigit (a ++ '.' :: ds ++ v) = some a.length := by
      rw [List.append_assoc, plusLen_run _ ha, List.cons_append, spanLen_zero]
      · rfl
      · intro c t h; cases h; decide
    have h2 : scanMantissa (a ++ '.' :: ds ++ v) = some (a.length + (1 + (ds.length + spanLen isDigit v))) := by
      rw [scanMantissa, h1]
      simp only
      rw [List.append_assoc, drop_append_length _ _ rfl, List.cons_append, fractionLen_run v hd]
    refine ⟨⟨_, h2, by simp; omega⟩, fun hv => ?_⟩
    rw [h2, spanLen_zero fun c t h => (hv c t h).1]
    simp; omega
  · have h1 : scanMantissa (a ++ [] ++ v) = some (a.length + spanLen isDigit v + fractionLen (v.drop (spanLen isDigit v))) := by
      rw [List.append_nil, scanMantissa, plusLen_run v ha]
      simp only
      congr 2
      rw [List.drop_append, List.drop_eq_nil_of_le (by omega)]; simp
    refine ⟨⟨_, h1, by simp; omega⟩, fun hv => ?_⟩
    rw [h1, spanLen_zero fun c t h => (hv c t h).1, List.drop_zero, fractionLen_stop]
    · simp
    · rintro t rfl; exact (hv _ _ rfl).2 rfl
  · have h1 : plusLen isDigit ('.' :: ds ++ v) = none := plusLen_stop (by intro c t h; cases h; decide)
    have h2 : scanMantissa ('.' :: ds ++ v) = some (1 + (ds.length + spanLen isDigit v)) := by
      rw [scanMantissa, h1]
      simp only
      rw [List.cons_append, fractionLen_run v hd]
      split
      · next h => omega
      · next k h => exact congrArg some h.symm
    refine ⟨⟨_, h2, by simp; omega⟩, fun hv => ?_⟩
    rw [h2, spanLen_zero fun c t h => (hv c t h).1]
    simp; omega

theorem mantissa_no_sign {m : List Char} (hM : (∃ a b, m = a ++ b ∧ Run isDigit a ∧ (Fraction b ∨ b = [])) ∨ Fraction m) (v : List Char) :
    ∀ c t, m ++ v = c :: t → c ≠ '+' ∧ c ≠ '-' := by
  rcases hM with ⟨a, b, rfl, ha, _⟩ | ⟨ds, rfl, _⟩
  · rw [List.append_assoc]; exact run_no_sign ha _
  · intro c t h; cases h; decide

theorem scans_DOUBLE : Scans scanDouble (Matches DOUBLE) := by
  refine ⟨fun s n => scanDouble_some, ?_⟩
  intro u v h
  obtain ⟨g, m, e, rfl, hg, hM, he⟩ := matches_DOUBLE.1 h
  have h0 : g ++ (m ++ e) ++ v = g ++ (m ++ (e ++ v)) := by simp
  have h1 : signLen (g ++ (m ++ (e ++ v))) = g.length := signLen_append hg (mantissa_no_sign hM _)
  rw [h0, scanDouble, h1, drop_append_length _ _ rfl]
  rcases he with he | rfl
  · rw [(scanMantissa_mantissa (e ++ v) hM).2 (exponent_head he v)]
    refine ⟨_, rfl, ?_⟩
    have h2 : (g ++ (m ++ (e ++ v))).drop (g.length + m.length) = e ++ v := by
      rw [← List.append_assoc]; exact drop_append_length _ _ (by simp)
    show _ ≤ g.length + (m.length + exponentLen ((g ++ (m ++ (e ++ v))).drop (g.length + m.length)))
    rw [h2]
    have := exponentLen_ge v he
    simp only [List.length_append]; omega
  · obtain ⟨n, hn, hle⟩ := (scanMantissa_mantissa ([] ++ v) hM).1
    rw [hn]
    refine ⟨_, rfl, ?_⟩
    simp only [List.length_append, List.length_nil]; omega

/-! ### LITERAL -/

/-- What is between the quotes. -/
def Quoted (q : Char) : List Char → Prop := Matches (.star (.alt ESC_SEQ (.noneOf ['\\', q])))

theorem isEscape_iff {c : Char} : isEscape c = true ↔ c ∈ ['r', 'n', 't', '"', '\'', '\\'] := by
  simp [isEscape, or_assoc]

theorem matches_ESC {w : List Char} : Matches ESC_SEQ w ↔ ∃ c, w = ['\\', c] ∧ isEscape c = true := by
  simp only [ESC_SEQ, matches_seq, matches_chr, Re.oneOf, matches_one, isEscape_iff]
  constructor
  · rintro ⟨_, _, rfl, rfl, c, rfl, h⟩; exact ⟨c, rfl, h⟩
  · rintro ⟨c, rfl, h⟩; exact ⟨['\\'], [c], rfl, rfl, c, rfl, h⟩

theorem scanQuoted_some {q : Char} : ∀ (s : List Char) (n : Nat), scanQuoted q s = some n → ∃ u v, s = u ++ q :: v ∧ u.length + 1 = n ∧ Quoted q u
  | [], n, h => by cases h
  | [c], n, h => by
    unfold scanQuoted at h
    split at h
    · next hc => cases h; subst hc; exact ⟨[], [], rfl, rfl, .nil⟩
    · split at h
      · cases h
      · simp [scanQuoted] at h
  | c :: e :: s, n, h => by
    unfold scanQuoted at h
    split at h
    · next hc => cases h; subst hc; exact ⟨[], e :: s, rfl, rfl, .nil⟩
    · next hc =>
      split at h
      · next hb =>
        subst hb
        simp only at h
        split at h
        · next he =>
          obtain ⟨m, hm, rfl⟩ := Option.map_eq_some_iff.1 h
          obtain ⟨u, v, rfl, hu, hq⟩ := scanQuoted_some s m hm
          refine ⟨'\\' :: e :: u, v, rfl, by simp; omega, ?_⟩
          exact Matches.more (u := ['\\', e]) (.left (matches_ESC.2 ⟨e, rfl, he⟩)) hq
        · cases h
      · next hb =>
        obtain ⟨m, hm, rfl⟩ := Option.map_eq_some_iff.1 h
        obtain ⟨u, v, hs, hu, hq⟩ := scanQuoted_some (e :: s) m hm
        refine ⟨c :: u, v, by rw [hs]; rfl, by simp; omega, ?_⟩
        exact Matches.more (u := [c]) (.right (.one (by simp [hb, hc]))) hq

theorem scanQuoted_quoted {q : Char} (hq : q ≠ '\\') (v : List Char) {u : List Char} (h : Quoted q u) : scanQuoted q (u ++ q :: v) = some (u.length + 1) := by
  refine star_induction (P := fun u => scanQuoted q (u ++ q :: v) = some (u.length + 1)) ?_ ?_ h
  · rw [List.nil_append, scanQuoted.eq_def]; simp
  · intro a b ha _ ih
    rcases matches_alt.1 ha with ha | ha
    · obtain ⟨c, rfl, hc⟩ := matches_ESC.1 ha
      rw [List.append_assoc, List.cons_append, List.cons_append, List.nil_append, scanQuoted.eq_def]
      simp only [Ne.symm hq, hc, if_true, if_false, ih, Option.map_some]
      simp; omega
    · obtain ⟨c, rfl, hc⟩ := matches_one.1 ha
      simp only [List.mem_cons, List.not_mem_nil, or_false, not_or] at hc
      rw [List.append_assoc, List.cons_append, List.nil_append, scanQuoted.eq_def]
      simp only [hc.1, hc.2, if_false, ih, Option.map_some]
      simp; omega

theorem matches_LITERAL {w : List Char} : Matches LITERAL w ↔ ∃ q u, (q = '"' ∨ q = '\'') ∧ w = q :: (u ++ [q]) ∧ Quoted q u := by
  simp only [LITERAL, matches_alt (a := Re.seq _ _), matches_seq, matches_chr]
  constructor
  · rintro (⟨_, _, rfl, rfl, u, _, rfl, hu, rfl⟩ | ⟨_, _, rfl, rfl, u, _, rfl, hu, rfl⟩)
    · exact ⟨_, u, .inl rfl, rfl, hu⟩
    · exact ⟨_, u, .inr rfl, rfl, hu⟩
  · rintro ⟨q, u, rfl | rfl, rfl, hu⟩
    · exact .inl ⟨_, _, rfl, rfl, u, _, rfl, hu, rfl⟩
    · exact .inr ⟨_, _, rfl, rfl, u, _, rfl, hu, rfl⟩

theorem scanLiteral_quote {q : Char} (hq : q = '"' ∨ q = '\'') (s : List Char) : scanLiteral (q :: s) = (scanQuoted q s).map (1 + ·) := by
  rcases hq with rfl | rfl <;> rfl

theorem scanLiteral_literal {q : Char} (hq : q = '"' ∨ q = '\'') {u : List Char} (hu : Quoted q u) (v : List Char) : scanLiteral (q :: (u ++ q :: v)) = some (u.length + 2) := by
  rw [scanLiteral_quote hq, scanQuoted_quoted (by rcases hq with rfl | rfl <;> decide) v hu]
  simp; omega

theorem scanLiteral_some {s : List Char} {n : Nat} (h : scanLiteral s = some n) : ∃ q t, (q = '"' ∨ q = '\'') ∧ s = q :: t ∧ (scanQuoted q t).map (1 + ·) = some n := by
  unfold scanLiteral at h
  split at h
  · exact ⟨_, _, .inl rfl, rfl, h⟩
  · exact ⟨_, _, .inr rfl, rfl, h⟩
  · cases h

theorem scans_LITERAL : Scans scanLiteral (Matches LITERAL) := by
  constructor
  · intro s n h
    obtain ⟨q, t, hq, rfl, h'⟩ := scanLiteral_some h
    obtain ⟨m, hm, rfl⟩ := Option.map_eq_some_iff.1 h'
    obtain ⟨u, v, rfl, hu, hQ⟩ := scanQuoted_some _ _ hm
    exact ⟨q :: (u ++ [q]), v, by simp, by simp; omega, matches_LITERAL.2 ⟨q, u, hq, rfl, hQ⟩⟩
  · intro w v h
    obtain ⟨q, u, hq, rfl, hu⟩ := matches_LITERAL.1 h
    refine ⟨u.length + 2, ?_, by simp⟩
    have : q :: (u ++ [q]) ++ v = q :: (u ++ q :: v) := by simp
    rw [this, scanLiteral_literal hq hu v]

/-! ### IDENTIFIER, COMMA -/

theorem matches_IDENTIFIER {w : List Char} : Matches IDENTIFIER w ↔ ∃ c u, w = c :: u ∧ (isLetter c = true ∨ c = '_') ∧ ∀ d ∈ u, isIdentChar d = true := by
  simp only [IDENTIFIER, matches_seq, matches_star class_ident, class_identStart _]
  constructor
  · rintro ⟨_, u, rfl, ⟨c, rfl, hc⟩, hu⟩
    exact ⟨c, u, rfl, by simpa using hc, hu⟩
  · rintro ⟨c, u, rfl, hc, hu⟩
    exact ⟨[c], u, rfl, ⟨c, rfl, by simpa using hc⟩, hu⟩

theorem scans_IDENTIFIER : Scans scanIdentifier (Matches IDENTIFIER) := by
  constructor
  · intro s n h
    unfold scanIdentifier at h
    split at h
    · next c t =>
      split at h
      · next hc =>
        cases h
        obtain ⟨u, v, h1, h2, h3, _⟩ := spanLen_split isIdentChar t
        exact ⟨c :: u, v, by rw [h1]; rfl, by simp [h2]; omega, matches_IDENTIFIER.2 ⟨c, u, rfl, hc, h3⟩⟩
      · cases h
    · cases h
  · intro w v h
    obtain ⟨c, u, rfl, hc, hu⟩ := matches_IDENTIFIER.1 h
    refine ⟨1 + (u.length + spanLen isIdentChar v), ?_, by simp; omega⟩
    rw [List.cons_append, scanIdentifier, if_pos hc, spanLen_all v hu]

theorem scans_COMMA : Scans scanComma (Matches COMMA) := by
  constructor
  · intro s n h
    unfold scanComma at h
    split at h
    · cases h; exact ⟨[','], _, rfl, rfl, matches_chr.2 rfl⟩
    · cases h
  · intro w v h
    have := matches_chr.1 h
    subst this
    exact ⟨1, rfl, by simp⟩

/-! ### WS -/

/-- The alternatives of `WS` -/
def wsUnit : Re := .alt (.chr ' ') (.alt (.chr '\t') (.alt (.seq (.chr '\r') (.chr '\n')) (.chr '\n')))

theorem matches_wsUnit {w : List Char} : Matches wsUnit w ↔ w = [' '] ∨ w = ['\t'] ∨ w = ['\r', '\n'] ∨ w = ['\n'] := by
  simp only [wsUnit, matches_alt, matches_chr, matches_seq]
  constructor
  · rintro (h | h | ⟨_, _, rfl, rfl, rfl⟩ | h)
    · exact .inl h
    · exact .inr (.inl h)
    · exact .inr (.inr (.inl rfl))
    · exact .inr (.inr (.inr h))
  · rintro (h | h | h | h)
    · exact .inl h
    · exact .inr (.inl h)
    · exact .inr (.inr (.inl ⟨_, _, h, rfl, rfl⟩))
    · exact .inr (.inr (.inr h))

theorem wsLen_unit {a : List Char} (ha : Matches wsUnit a) (s : List Char) : wsLen (a ++ s) = a.length + wsLen s := by
  rcases matches_wsUnit.1 ha with rfl | rfl | rfl | rfl <;> (simp [wsLen]; try omega)

theorem wsLen_star {u : List Char} (hu : Matches (.star wsUnit) u) (s : List Char) : wsLen (u ++ s) = u.length + wsLen s := by
  refine star_induction (P := fun u => wsLen (u ++ s) = u.length + wsLen s) (by simp) ?_ hu
  intro a b ha _ ih
  rw [List.append_assoc, wsLen_unit ha, ih, List.length_append]; omega

theorem wsLen_split (s : List Char) : ∃ u v, s = u ++ v ∧ u.length = wsLen s ∧ Matches (.star wsUnit) u := by
  have step : ∀ (a s : List Char), Matches wsUnit a → (∃ u v, s = u ++ v ∧ u.length = wsLen s ∧ Matches (.star wsUnit) u) →
      ∃ u v, a ++ s = u ++ v ∧ u.length = wsLen (a ++ s) ∧ Matches (.star wsUnit) u := by
    rintro a s ha ⟨u, v, h1, h2, h3⟩
    exact ⟨a ++ u, v, by rw [h1]; simp, by rw [wsLen_unit ha, List.length_append, h2], .more ha h3⟩
  fun_induction wsLen s with
  | case1 s ih => simpa [wsLen] using step [' '] s (matches_wsUnit.2 (by simp)) ih
  | case2 s ih => simpa [wsLen] using step ['\t'] s (matches_wsUnit.2 (by simp)) ih
  | case3 s ih => simpa [wsLen] using step ['\n'] s (matches_wsUnit.2 (by simp)) ih
  | case4 s ih => simpa [wsLen] using step ['\r', '\n'] s (matches_wsUnit.2 (by simp)) ih
  | case5 s => exact ⟨[], s, rfl, rfl, .nil⟩

theorem matches_WS {w : List Char} : Matches WS w ↔ w ≠ [] ∧ Matches (.star wsUnit) w := by
  rw [show WS = Re.seq wsUnit (.star wsUnit) from rfl, matches_seq]
  constructor
  · rintro ⟨u, v, rfl, hu, hv⟩
    refine ⟨?_, .more hu hv⟩
    rcases matches_wsUnit.1 hu with rfl | rfl | rfl | rfl <;> simp
  · rintro ⟨hne, h⟩
    generalize hr : Re.star wsUnit = r at h
    cases h with
    | nil => exact absurd rfl hne
    | more hu hv => cases hr; exact ⟨_, _, rfl, hu, hv⟩
    | eps => cases hr
    | one => cases hr
    | seq => cases hr
    | left => cases hr
    | right => cases hr

theorem scanWs_eq (s : List Char) : scanWs s = if wsLen s = 0 then none else some (wsLen s) := by
  unfold scanWs
  split
  · next h => rw [if_pos h]
  · next n h => rw [if_neg (by omega), h]

theorem scans_WS : Scans scanWs (Matches WS) := by
  constructor
  · intro s n h
    rw [scanWs_eq] at h
    split at h
    · cases h
    · next h0 =>
      cases h
      obtain ⟨u, v, h1, h2, h3⟩ := wsLen_split s
      exact ⟨u, v, h1, h2, matches_WS.2 ⟨by rintro rfl; exact h0 h2.symm, h3⟩⟩
  · intro u v h
    obtain ⟨hne, h⟩ := matches_WS.1 h
    have := wsLen_star h v
    have h0 : 0 < u.length := List.length_pos_iff.2 hne
    exact ⟨wsLen (u ++ v), by rw [scanWs_eq, if_neg (by omega)], by omega⟩

/-! ### Comments -/

theorem lineLen_some : ∀ (s : List Char) (n : Nat), lineLen s = some n → ∃ u v, s = u ++ '\n' :: v ∧ u.length + 1 = n ∧ ∀ c ∈ u, c ≠ '\n'
  | [], _, h => by cases h
  | c :: s, n, h => by
    rw [lineLen] at h
    split at h
    · next hc => cases h; subst hc; exact ⟨[], s, rfl, rfl, by simp⟩
    · next hc =>
      obtain ⟨m, hm, rfl⟩ := Option.map_eq_some_iff.1 h
      obtain ⟨u, v, rfl, hu, hn⟩ := lineLen_some s m hm
      exact ⟨c :: u, v, rfl, by simp; omega, by simpa [hc] using hn⟩

theorem lineLen_line : ∀ {u : List Char} (v : List Char), (∀ c ∈ u, c ≠ '\n') → lineLen (u ++ '\n' :: v) = some (u.length + 1)
  | [], _, _ => rfl
  | c :: u, v, h => by
    rw [List.cons_append, lineLen, if_neg (h c (by simp)), lineLen_line v fun d hd => h d (List.mem_cons_of_mem _ hd)]
    simp; omega

theorem class_notNl : IsClass (.noneOf ['\n']) fun c => c != '\n' := IsClass.of (by simp)

theorem matches_SL {w : List Char} : Matches SL_COMMENT w ↔ ∃ p u, w = p ++ (u ++ ['\n']) ∧ (p = ['/', '/'] ∨ p = ['#']) ∧ ∀ c ∈ u, c ≠ '\n' := by
  simp only [SL_COMMENT, matches_seq, matches_alt, matches_chr, matches_star class_notNl, matches_opt]
  constructor
  · rintro ⟨p, _, rfl, hp, u, _, rfl, hu, r, _, rfl, hr, rfl⟩
    refine ⟨p, u ++ r, by simp, ?_, ?_⟩
    · rcases hp with ⟨_, _, rfl, rfl, rfl⟩ | rfl
      · exact .inl rfl
      · exact .inr rfl
    · intro c hc
      rcases List.mem_append.1 hc with hc | hc
      · simpa using hu c hc
      · rcases hr with rfl | rfl
        · simp only [List.mem_singleton] at hc; subst hc; decide
        · cases hc
  · rintro ⟨p, u, rfl, hp, hu⟩
    refine ⟨p, _, rfl, ?_, u, _, rfl, by simpa using hu, [], ['\n'], rfl, .inr rfl, rfl⟩
    rcases hp with rfl | rfl
    · exact .inl ⟨_, _, rfl, rfl, rfl⟩
    · exact .inr rfl

theorem scanSl_comment {p u : List Char} (hp : p = ['/', '/'] ∨ p = ['#']) (hu : ∀ c ∈ u, c ≠ '\n') (v : List Char) :
    scanSlComment (p ++ (u ++ '\n' :: v)) = some (p.length + (u.length + 1)) := by
  rcases hp with rfl | rfl
  · simp only [List.cons_append, List.nil_append, scanSlComment, lineLen_line v hu, Option.map_some]; simp
  · simp only [List.cons_append, List.nil_append, scanSlComment, lineLen_line v hu, Option.map_some]; simp

theorem scans_SL : Scans scanSlComment (Matches SL_COMMENT) := by
  constructor
  · intro s n h
    unfold scanSlComment at h
    split at h
    · obtain ⟨m, hm, rfl⟩ := Option.map_eq_some_iff.1 h
      obtain ⟨u, v, rfl, hu, hn⟩ := lineLen_some _ _ hm
      exact ⟨['/', '/'] ++ (u ++ ['\n']), v, by simp, by simp; omega, matches_SL.2 ⟨_, u, rfl, .inl rfl, hn⟩⟩
    · obtain ⟨m, hm, rfl⟩ := Option.map_eq_some_iff.1 h
      obtain ⟨u, v, rfl, hu, hn⟩ := lineLen_some _ _ hm
      exact ⟨['#'] ++ (u ++ ['\n']), v, by simp, by simp; omega, matches_SL.2 ⟨_, u, rfl, .inr rfl, hn⟩⟩
    · cases h
  · intro w v h
    obtain ⟨p, u, rfl, hp, hu⟩ := matches_SL.1 h
    refine ⟨p.length + (u.length + 1), ?_, by simp⟩
    have : p ++ (u ++ ['\n']) ++ v = p ++ (u ++ '\n' :: v) := by simp
    rw [this, scanSl_comment hp hu]

theorem matches_any {w : List Char} : Matches (.star (.one fun _ => True)) w := by
  have : IsClass (.one fun _ => True) fun _ => true := IsClass.of (by simp)
  rw [matches_star this]; simp

theorem matches_ML {w : List Char} : Matches ML_COMMENT w ↔ ∃ u, w = '/' :: '*' :: (u ++ ['*', '/']) := by
  simp only [ML_COMMENT, matches_seq, matches_chr, matches_any, true_and]
  constructor
  · rintro ⟨_, _, rfl, ⟨_, _, rfl, rfl, rfl⟩, u, _, rfl, _, _, rfl, rfl, rfl⟩; exact ⟨u, rfl⟩
  · rintro ⟨u, rfl⟩; exact ⟨['/', '*'], _, rfl, ⟨['/'], ['*'], rfl, rfl, rfl⟩, u, ['*', '/'], rfl, ['*'], ['/'], rfl, rfl, rfl⟩

theorem commentLen_cons {c : Char} {s : List Char} : commentLen (c :: s) = some 2 ∨ commentLen (c :: s) = (commentLen s).map (1 + ·) := by
  rw [commentLen.eq_def]
  split
  · exact .inl rfl
  · next h => cases h; exact .inr rfl
  · next h => cases h

theorem commentLen_le : ∀ (u v : List Char), ∃ n, commentLen (u ++ '*' :: '/' :: v) = some n ∧ n ≤ u.length + 2
  | [], v => ⟨2, rfl, by simp⟩
  | c :: u, v => by
    obtain ⟨n, hn, hle⟩ := commentLen_le u v
    rcases commentLen_cons (c := c) (s := u ++ '*' :: '/' :: v) with h | h
    · exact ⟨2, h, by simp⟩
    · rw [hn] at h
      exact ⟨1 + n, h, by simp; omega⟩

theorem commentLen_some : ∀ (s : List Char) (n : Nat), commentLen s = some n → ∃ u v, s = u ++ '*' :: '/' :: v ∧ u.length + 2 = n
  | [], _, h => by cases h
  | c :: s, n, h => by
    rw [commentLen.eq_def] at h
    split at h
    · next h1 => cases h; exact ⟨[], _, h1, rfl⟩
    · next h1 =>
      cases h1
      obtain ⟨m, hm, rfl⟩ := Option.map_eq_some_iff.1 h
      obtain ⟨u, v, rfl, hu⟩ := commentLen_some s m hm
      exact ⟨c :: u, v, rfl, by simp; omega⟩
    · cases h

theorem scanMl_some {s : List Char} {n : Nat} (h : scanMlComment s = some n) : ∃ t m, s = '/' :: '*' :: t ∧ commentLen t = some m ∧ n = 2 + m := by
  unfold scanMlComment at h
  split at h
  · obtain ⟨m, hm, rfl⟩ := Option.map_eq_some_iff.1 h
    exact ⟨_, m, rfl, hm, rfl⟩
  · cases h

theorem scans_ML : Scans scanMlComment (Rule .ML_COMMENT) := by
  constructor
  · intro s n h
    obtain ⟨t, m, rfl, hm, rfl⟩ := scanMl_some h
    obtain ⟨u, v, rfl, hu⟩ := commentLen_some _ _ hm
    refine ⟨'/' :: '*' :: (u ++ ['*', '/']), v, by simp, by simp; omega, matches_ML.2 ⟨u, rfl⟩, ?_⟩
    rintro a b hab ha
    obtain ⟨x, rfl⟩ := matches_ML.1 ha
    have h1 : u ++ ['*', '/'] = x ++ '*' :: '/' :: b := by simpa using hab
    obtain ⟨k, hk, hle⟩ := commentLen_le x (b ++ v)
    have h2 : u ++ '*' :: '/' :: v = x ++ '*' :: '/' :: (b ++ v) := by
      have := congrArg (· ++ v) h1
      simpa using this
    rw [h2, hk] at hm
    cases hm
    have h3 := congrArg List.length h1
    simp only [List.length_append, List.length_cons, List.length_nil] at h3
    exact List.eq_nil_of_length_eq_zero (by omega)
  · rintro w v ⟨hw, hmin⟩
    obtain ⟨x, rfl⟩ := matches_ML.1 hw
    obtain ⟨k, hk, hle⟩ := commentLen_le x v
    have h0 : '/' :: '*' :: (x ++ ['*', '/']) ++ v = '/' :: '*' :: (x ++ '*' :: '/' :: v) := by simp
    refine ⟨2 + k, by rw [h0, scanMlComment, hk]; rfl, ?_⟩
    obtain ⟨y, z, hyz, hy⟩ := commentLen_some _ _ hk
    -- the shorter comment is a prefix
    have hp : y ++ ['*', '/'] <+: x ++ ['*', '/'] := by
      refine List.prefix_of_prefix_length_le (l₃ := x ++ '*' :: '/' :: v) ?_ ?_ (by simp; omega)
      · rw [hyz]; exact ⟨z, by simp⟩
      · exact ⟨v, by simp⟩
    obtain ⟨t, ht⟩ := hp
    have := hmin ('/' :: '*' :: (y ++ ['*', '/'])) t (by rw [← ht]; simp) (matches_ML.2 ⟨y, rfl⟩)
    subst this
    have := congrArg List.length ht
    simp only [List.length_append, List.length_cons, List.length_nil] at this ⊢
    omega

theorem scans_kw (k : Kw) : Scans (scanKw k) (Rule (.kw k)) := by
  constructor
  · intro s n h
    unfold scanKw at h
    split at h
    · next hp =>
      cases h
      obtain ⟨v, hv⟩ := List.isPrefixOf_iff_prefix.1 hp
      exact ⟨k.text, v, hv.symm, rfl, rfl⟩
    · cases h
  · intro u v h
    have : u = k.text := h
    subst this
    refine ⟨k.text.length, ?_, Nat.le_refl _⟩
    rw [scanKw, if_pos (List.isPrefixOf_iff_prefix.2 ⟨v, rfl⟩)]

theorem scans_scan : ∀ k, Scans (scan k) (Rule k)
  | .kw k => scans_kw k
  | .INTEGER => scans_INTEGER
  | .HEX_INTEGER => scans_HEX
  | .DOUBLE => scans_DOUBLE
  | .LITERAL => scans_LITERAL
  | .IDENTIFIER => scans_IDENTIFIER
  | .COMMA => scans_COMMA
  | .WS => scans_WS
  | .SL_COMMENT => scans_SL
  | .ML_COMMENT => scans_ML

end CT.Gen.Spec
