import Verif.Props.ThriftLexer
/-!
# Lexing a text in pieces

If no word or number ends a piece, its tokens do not depend on what follows.
-/
namespace CT.Props
open CT.Gen CT.Gen.Spec

theorem gap_of_ws {w : List Char} (h : Matches WS w) : Gap w := by
  refine star_induction (P := Gap) .nil (fun u v hu _ hv => ?_) (matches_WS.1 h).2
  exact .white (by rcases matches_wsUnit.1 hu with h | h | h | h <;> simp [h]) hv

theorem gap_of_rule {k : Kind} {w : List Char} (h : Rule k w) (hk : Token.toTok (k, w) = none) : Gap w := by
  cases k with
  | WS => exact gap_of_ws h
  | SL_COMMENT =>
    obtain ⟨p, u, rfl, hp, hu⟩ := matches_SL.1 h
    have := Gap.line hp (fun hm => hu _ hm rfl) .nil
    simpa using this
  | ML_COMMENT =>
    obtain ⟨u, rfl⟩ := matches_ML.1 h.1
    have := Gap.block (u := u) (s := []) (fun a b he => ?_) .nil
    · simpa using this
    · by_cases hb : b = []
      · subst hb
        have := congrArg List.getLast? he
        simp at this
      · obtain ⟨b, c, rfl⟩ : ∃ b' c, b = b' ++ [c] := ⟨b.dropLast, b.getLast hb, (List.dropLast_concat_getLast hb).symm⟩
        rw [← List.append_assoc] at he
        obtain ⟨h1, h2⟩ := List.append_inj' he rfl
        have := h.2 ('/' :: '*' :: (a ++ ['*', '/'])) (b ++ ['*', '/']) (by simp [h1]) (matches_ML.2 ⟨a, rfl⟩)
        simp at this
  | _ => cases hk

theorem tokText_of_first {k : Kind} {w rest : List Char} (h : First k w rest) {t : Tok} (hk : Token.toTok (k, w) = some t) : TokText t w := by
  cases k with
  | kw a => cases hk; rw [(h.rule : w = a.text)]; exact .kw a
  | INTEGER => cases hk; exact .INTEGER h.rule
  | HEX_INTEGER => cases hk; exact .HEX_INTEGER h.rule
  | DOUBLE => cases hk; exact .DOUBLE h.rule fun hi => absurd (h.earliest .INTEGER hi) (by decide)
  | LITERAL => cases hk; exact .LITERAL h.rule
  | IDENTIFIER => cases hk; exact .IDENTIFIER h.rule fun a ha => absurd (h.earliest (.kw a) ha) (by simp [position])
  | COMMA => cases hk; rw [matches_chr.1 h.rule]; exact .COMMA
  | _ => cases hk

/-- Nothing can be appended to the token. -/
def closedTok : Tok → Bool
  | .kw k => k.text.length == 1
  | .LITERAL _ => true
  | .COMMA => true
  | _ => false

/-- The next token does not begin like a word or number. -/
def notWord : List Token → Bool
  | (_, c :: _) :: _ => !inTail c
  | _ => false

/-- Words and numbers are followed by something else. -/
def spaced : List Token → Bool
  | [] => true
  | x :: xs => ((Token.toTok x).all (fun t => closedTok t || notWord xs) && spaced xs)

theorem tokens_append {a : List Char} {xs : List Token} (h : Lexed a xs) (hs : spaced xs = true) (b : List Char) :
    tokens (a ++ b) = (tokens b).map (xs.filterMap Token.toTok ++ ·) := by
  induction h with
  | nil => rw [List.nil_append]; cases tokens b <;> simp
  | @cons k w s xs hF hL ih =>
    rw [spaced, Bool.and_eq_true] at hs
    rw [List.append_assoc, List.filterMap_cons]
    cases hk : Token.toTok (k, w) with
    | none => rw [tokens_gap (gap_of_rule hF.rule hk), ih hs.2]
    | some t =>
      have hs1 : Gen.Spec.Closed t ∨ ∀ c r, s ++ b = c :: r → ¬ inWord c := by
        have h1 := hs.1
        rw [hk] at h1
        rw [Option.all_some, Bool.or_eq_true] at h1
        rcases h1 with h1 | h1
        · refine .inl ?_
          cases t <;> simp_all [closedTok, Gen.Spec.Closed]
        · refine .inr fun c r he => ?_
          cases hL with
          | nil => simp [notWord] at h1
          | @cons k' w' s' xs' _ _ =>
            cases w' with
            | nil => simp [notWord] at h1
            | cons c' w' =>
              cases he
              rw [inWord_iff]
              simpa [notWord] using h1
      obtain ⟨k', hF', hk'⟩ := first_tokText (tokText_of_first hF hk) hs1
      rw [tokens_first hF', ih hs.2, hk']
      cases tokens b <;> simp

/-- What is to be checked of a piece -/
theorem tokens_piece {a : List Char} {ts : List Tok} (h : (lex a).any (fun xs => spaced xs && decide (xs.filterMap Token.toTok = ts)) = true) (b : List Char) :
    tokens (a ++ b) = (tokens b).map (ts ++ ·) := by
  cases hl : lex a with
  | none => rw [hl] at h; cases h
  | some xs =>
    rw [hl, Option.any_some, Bool.and_eq_true, decide_eq_true_iff] at h
    rw [tokens_append ((C84_lex _ _).1 hl) h.1, h.2]

end CT.Props
