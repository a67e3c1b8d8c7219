import Verif.Proofs.Debug
import Verif.Proofs.EncodingSet
/-!
# Texts determine values

Texts of values of the same type are told apart by their beginnings.
-/
namespace CT.Debug
open CT CT.Spec CT.Schema CT.Props CT.Props.Print

/-- What may follow the text of a value -/
def Stop (r : Bytes) : Prop := ∀ b ∈ r.head?, b = 44#8 ∨ b = 32#8 ∨ b = 41#8 ∨ b = 93#8

theorem Stop.nil : Stop [] := by intro b h; cases h

theorem Stop.cons {b : Byte} (h : b = 44#8 ∨ b = 32#8 ∨ b = 41#8 ∨ b = 93#8) (r : Bytes) : Stop (b :: r) := by
  intro c hc; cases hc; exact h

theorem cut_stop {p : Byte → Prop} (hp : ∀ b, p b → ¬ (b = 44#8 ∨ b = 32#8 ∨ b = 41#8 ∨ b = 93#8)) {a b r r' : Bytes} (ha : ∀ x ∈ a, p x) (hb : ∀ x ∈ b, p x)
    (hr : Stop r) (hr' : Stop r') (h : a ++ r = b ++ r') : a = b ∧ r = r' := by
  induction a generalizing b with
  | nil =>
    cases b with
    | nil => exact ⟨rfl, h⟩
    | cons y b =>
      exact absurd (hr y (by simp only [List.nil_append] at h; rw [h]; rfl)) (hp y (hb y (by simp)))
  | cons x a ih =>
    cases b with
    | nil => exact absurd (hr' x (by simp only [List.nil_append] at h; rw [← h]; rfl)) (hp x (ha x (by simp)))
    | cons y b =>
      simp only [List.cons_append, List.cons.injEq] at h
      have := ih (fun z hz => ha z (by simp [hz])) (fun z hz => hb z (by simp [hz])) h.2
      exact ⟨by rw [h.1, this.1], this.2⟩

theorem decimalInt_bytes (i : Int) : ∀ b ∈ decimalInt i, Digit b ∨ b = 45#8 := by
  intro b hb
  unfold decimalInt at hb
  split at hb
  · rcases List.mem_append.1 hb with hb | hb
    · exact .inr (by simpa using hb)
    · exact .inl (decimal_digits _ b hb)
  · exact .inl (decimal_digits _ b hb)

theorem digit_no_stop (b : Byte) (h : Digit b ∨ b = 45#8) : ¬ (b = 44#8 ∨ b = 32#8 ∨ b = 41#8 ∨ b = 93#8) := by
  rintro (rfl | rfl | rfl | rfl) <;> revert h <;> unfold Digit <;> decide

theorem decimalInt_inj {i j : Int} (h : decimalInt i = decimalInt j) : i = j :=
  (decimalInt_cut (c := 44#8) (c' := 44#8) (r := []) (r' := []) (by unfold Digit; decide) (by unfold Digit; decide) (by rw [h])).1

theorem int_cut {i j : Int} {r r' : Bytes} (hr : Stop r) (hr' : Stop r') (h : decimalInt i ++ r = decimalInt j ++ r') : i = j ∧ r = r' := by
  obtain ⟨h1, h2⟩ := cut_stop digit_no_stop (decimalInt_bytes i) (decimalInt_bytes j) hr hr' h
  exact ⟨decimalInt_inj h1, h2⟩

theorem nat_cut {i j : Nat} {r r' : Bytes} (hr : Stop r) (hr' : Stop r') (h : decimal i ++ r = decimal j ++ r') : i = j ∧ r = r' := by
  obtain ⟨h1, h2⟩ := cut_stop digit_no_stop (fun b hb => .inl (decimal_digits i b hb)) (fun b hb => .inl (decimal_digits j b hb)) hr hr' h
  exact ⟨decimal_inj h1, h2⟩

/-! ## Strings -/

def hexValue (bs : Bytes) : Nat := bs.foldl (fun a b => a * 16 + (if b.toNat < 58 then b.toNat - 48 else b.toNat - 87)) 0

theorem hexF_value : ∀ fuel n, n < fuel → hexValue (hexF fuel n) = n
  | 0, _, h => by omega
  | fuel + 1, n, h => by
    rw [hexF]
    unfold hexValue
    rw [List.foldl_append]
    simp only [List.foldl_cons, List.foldl_nil, BitVec.toNat_ofNat]
    have : List.foldl (fun a (b : Byte) => a * 16 + (if b.toNat < 58 then b.toNat - 48 else b.toNat - 87)) 0 (if n < 16 then [] else hexF fuel (n / 16)) = n / 16 := by
      split
      · simp only [List.foldl_nil]; omega
      · exact hexF_value fuel (n / 16) (by omega)
    rw [this]
    by_cases h10 : n % 16 < 10
    · rw [if_pos h10, if_pos (by omega)]; omega
    · rw [if_neg h10, if_neg (by omega)]; omega

theorem hex_inj {n m : Nat} (h : hex n = hex m) : n = m := by
  have h1 := hexF_value (n + 1) n (by omega)
  have h2 := hexF_value (m + 1) m (by omega)
  unfold hex at h
  rw [h] at h1
  omega

/-- The characters escaped by a letter -/
def letters : List (Nat × Byte) := [(0, 48#8), (9, 116#8), (13, 114#8), (10, 110#8), (34, 34#8), (92, 92#8)]

theorem escape_cases (s : DebugStd) (n : Nat) (bytes : Bytes) :
    (∃ c, (n, c) ∈ letters ∧ escapeDebug s n bytes = [92#8, c]) ∨ (n ≠ 34 ∧ n ≠ 92 ∧ escapeDebug s n bytes = bytes) ∨
      escapeDebug s n bytes = 92#8 :: 117#8 :: 123#8 :: (hex n ++ [125#8]) := by
  unfold escapeDebug
  split
  · subst n; exact .inl ⟨_, by decide, rfl⟩
  split
  · subst n; exact .inl ⟨_, by decide, rfl⟩
  split
  · subst n; exact .inl ⟨_, by decide, rfl⟩
  split
  · subst n; exact .inl ⟨_, by decide, rfl⟩
  split
  · subst n; exact .inl ⟨_, by decide, rfl⟩
  split
  · subst n; exact .inl ⟨_, by decide, rfl⟩
  split
  · exact .inr (.inl ⟨by assumption, by assumption, rfl⟩)
  · exact .inr (.inr rfl)

theorem letters_inj : ∀ p ∈ letters, ∀ q ∈ letters, p.2 = q.2 → p.1 = q.1 := by decide

theorem letters_u : ∀ p ∈ letters, p.2 ≠ 117#8 := by decide

/-- A character shown as it is starts neither an escape nor the end. -/
theorem utf8_head {n : Nat} (h : IsScalar n) (h1 : n ≠ 34) (h2 : n ≠ 92) (x y : Bytes) : utf8 n ++ x ≠ 92#8 :: y ∧ utf8 n ++ x ≠ 34#8 :: y := by
  rcases utf8_bytes h with ⟨h3, h4⟩ | ⟨h3, h4⟩
  · rw [h4]
    constructor <;> (intro he; simp only [List.cons_append, List.cons.injEq] at he; have := congrArg BitVec.toNat he.1; simp only [BitVec.toNat_ofNat] at this; omega)
  · cases e : utf8 n with
    | nil => exact absurd e (utf8_ne n)
    | cons b bs =>
      have := h4 b (by simp [e])
      constructor <;> (intro he; simp only [List.cons_append, List.cons.injEq] at he; rw [he.1] at this; revert this; decide)

theorem escape_end (s : DebugStd) {n : Nat} (h : IsScalar n) (x y : Bytes) : escapeDebug s n (utf8 n) ++ x ≠ 34#8 :: y := by
  rcases escape_cases s n (utf8 n) with ⟨c, _, e⟩ | ⟨h1, h2, e⟩ | e <;> rw [e]
  · simp
  · exact (utf8_head h h1 h2 x y).2
  · simp

theorem escape_cut (s : DebugStd) {n m : Nat} (hn : IsScalar n) (hm : IsScalar m) {x y : Bytes} (h : escapeDebug s n (utf8 n) ++ x = escapeDebug s m (utf8 m) ++ y) :
    n = m ∧ x = y := by
  rcases escape_cases s n (utf8 n) with ⟨c, hc, e⟩ | ⟨h1, h2, e⟩ | e <;> rcases escape_cases s m (utf8 m) with ⟨d, hd, e'⟩ | ⟨h1', h2', e'⟩ | e' <;> rw [e, e'] at h
  · simp only [List.cons_append, List.nil_append, List.cons.injEq, true_and] at h
    exact ⟨letters_inj _ hc _ hd h.1, h.2⟩
  · exact absurd h.symm (utf8_head hm h1' h2' _ _).1
  · simp only [List.cons_append, List.nil_append, List.cons.injEq, true_and] at h
    exact absurd h.1 (letters_u _ hc)
  · exact absurd h (utf8_head hn h1 h2 _ _).1
  · have := congrArg nextCodePoint h
    rw [nextCodePoint_utf8 hn, nextCodePoint_utf8 hm] at this
    simp only [Option.some.injEq, Prod.mk.injEq] at this
    exact ⟨this.1, this.2.2⟩
  · exact absurd h (utf8_head hn h1 h2 _ _).1
  · simp only [List.cons_append, List.nil_append, List.cons.injEq, true_and] at h
    exact absurd h.1.symm (letters_u _ hd)
  · exact absurd h.symm (utf8_head hm h1' h2' _ _).1
  · simp only [List.cons_append, List.append_assoc, List.nil_append, List.cons.injEq, true_and] at h
    have := cut (hex_bytes n) (hex_bytes m) (c := 125#8) (c' := 125#8) (by decide) (by decide) h
    exact ⟨hex_inj this.1, this.2.2⟩

theorem escapes_cut (s : DebugStd) : ∀ {ns ms : List Nat}, (∀ n ∈ ns, IsScalar n) → (∀ n ∈ ms, IsScalar n) → ∀ {r r' : Bytes},
    (ns.flatMap fun n => escapeDebug s n (utf8 n)) ++ 34#8 :: r = (ms.flatMap fun n => escapeDebug s n (utf8 n)) ++ 34#8 :: r' → ns = ms ∧ r = r'
  | [], [], _, _, r, r', h => by simpa using h
  | [], m :: ms, _, hm, r, r', h => by
    rw [List.flatMap_cons, List.append_assoc] at h
    exact absurd h.symm (escape_end s (hm m (by simp)) _ _)
  | n :: ns, [], hn, _, r, r', h => by
    rw [List.flatMap_cons, List.append_assoc] at h
    exact absurd h (escape_end s (hn n (by simp)) _ _)
  | n :: ns, m :: ms, hn, hm, r, r', h => by
    rw [List.flatMap_cons, List.append_assoc, List.flatMap_cons, List.append_assoc] at h
    obtain ⟨h1, h2⟩ := escape_cut s (hn n (by simp)) (hm m (by simp)) h
    obtain ⟨h3, h4⟩ := escapes_cut s (fun z hz => hn z (by simp [hz])) (fun z hz => hm z (by simp [hz])) h2
    exact ⟨by rw [h1, h3], h4⟩

theorem str_cut (s : DebugStd) {bs cs : Bytes} (hb : utf8Valid bs = true) (hc : utf8Valid cs = true) {r r' : Bytes} (h : debugStr s bs ++ r = debugStr s cs ++ r') :
    bs = cs ∧ r = r' := by
  obtain ⟨ns, hns, rfl, e⟩ := debugStr_eq s hb
  obtain ⟨ms, hms, rfl, e'⟩ := debugStr_eq s hc
  rw [e, e'] at h
  simp only [List.append_assoc, List.cons_append, List.nil_append, List.cons.injEq, true_and] at h
  obtain ⟨h1, h2⟩ := escapes_cut s hns hms h
  exact ⟨by rw [h1], h2⟩

/-! ## Brackets -/

theorem sep_stop (m : Mode) (x : Bytes) : Stop (sep m ++ x) := by
  cases m <;> exact .cons (.inl rfl) _

theorem tuple_stop (m : Mode) (x : Bytes) : Stop (behind [] m ++ (ascii! ")" ++ x)) := by
  cases m
  · exact .cons (.inr (.inr (.inl rfl))) _
  · exact .cons (.inl rfl) _

theorem list_stop (m : Mode) (x : Bytes) : Stop (behind [] m ++ (ascii! "]" ++ x)) := by
  cases m
  · exact .cons (.inr (.inr (.inr rfl))) _
  · exact .cons (.inl rfl) _

theorem struct_stop (m : Mode) (x : Bytes) : Stop (behind (ascii! " ") m ++ (ascii! "}" ++ x)) := by
  cases m
  · exact .cons (.inr (.inl rfl)) _
  · exact .cons (.inl rfl) _

theorem sep_ne (m : Mode) (x y : Bytes) : sep m ++ x ≠ behind [] m ++ (ascii! "]" ++ y) := by
  cases m with
  | none => simp [sep, behind]
  | some n =>
    intro h
    have e : ∀ z, nl (n + 1) ++ z = nl n ++ (ascii! "    " ++ z) := fun z => by
      rw [nl, nl, show 4 * (n + 1) = 4 * n + 4 by omega, ← List.replicate_append_replicate]
      simp [List.replicate]
    rw [sep, behind, List.append_assoc, List.append_assoc, e] at h
    have := List.append_cancel_left (List.append_cancel_left h)
    simp at this

theorem tuple_cut {m : Mode} {name x y r r' : Bytes} (h : tupleAt m name x ++ r = tupleAt m name y ++ r')
    (hx : ∀ {q q' : Bytes}, Stop q → Stop q' → x ++ q = y ++ q' → q = q') : r = r' ∧ x = y := by
  simp only [tupleAt, List.append_assoc, List.append_cancel_left_eq] at h
  have := hx (tuple_stop m r) (tuple_stop m r') h
  simp only [List.append_cancel_left_eq] at this
  subst this
  exact ⟨rfl, List.append_cancel_right h⟩

variable {α κ : Type} {text : α → Bytes} {key : α → κ}

theorem joins_cut (m : Mode) {as bs : List α} (ha : as ≠ []) (hb : bs ≠ [])
    (he : ∀ a ∈ as, ∀ b ∈ bs, ∀ {r r' : Bytes}, Stop r → Stop r' → text a ++ r = text b ++ r' → key a = key b ∧ r = r') {r r' : Bytes}
    (h : joinTexts (sep m) (as.map text) ++ (behind [] m ++ (ascii! "]" ++ r)) = joinTexts (sep m) (bs.map text) ++ (behind [] m ++ (ascii! "]" ++ r'))) :
    as.map key = bs.map key ∧ r = r' := by
  induction as generalizing bs with
  | nil => exact absurd rfl ha
  | cons a as ih =>
    cases bs with
    | nil => exact absurd rfl hb
    | cons b bs =>
      cases as with
      | nil =>
        cases bs with
        | nil =>
          obtain ⟨h1, h2⟩ := he a (by simp) b (by simp) (list_stop m r) (list_stop m r') h
          simp only [List.append_cancel_left_eq] at h2
          exact ⟨by simp [h1], h2⟩
        | cons c bs =>
          simp only [List.map_cons, List.map_nil, joinTexts_cons, List.append_assoc] at h
          obtain ⟨_, h2⟩ := he a (by simp) b (by simp) (list_stop m r) (sep_stop m _) h
          exact absurd h2.symm (sep_ne m _ _)
      | cons a' as =>
        cases bs with
        | nil =>
          simp only [List.map_cons, List.map_nil, joinTexts_cons, List.append_assoc] at h
          obtain ⟨_, h2⟩ := he a (by simp) b (by simp) (sep_stop m _) (list_stop m r') h
          exact absurd h2 (sep_ne m _ _)
        | cons b' bs =>
          simp only [List.map_cons, joinTexts_cons, List.append_assoc] at h
          obtain ⟨h1, h2⟩ := he a (by simp) b (by simp) (sep_stop m _) (sep_stop m _) h
          obtain ⟨h3, h4⟩ := ih (bs := b' :: bs) (by simp) (by simp) (fun x hx y hy => he x (by simp [hx]) y (by simp [hy])) (List.append_cancel_left h2)
          exact ⟨by rw [List.map_cons, h1, h3]; rfl, h4⟩

theorem list_cut (m : Mode) {as bs : List α} (hh : ∀ a, a ∈ as ∨ a ∈ bs → ∀ x y, text a ++ x ≠ 93#8 :: y)
    (he : ∀ a ∈ as, ∀ b ∈ bs, ∀ {r r' : Bytes}, Stop r → Stop r' → text a ++ r = text b ++ r' → key a = key b ∧ r = r') {r r' : Bytes}
    (h : listAt m (as.map text) ++ r = listAt m (bs.map text) ++ r') : as.map key = bs.map key ∧ r = r' := by
  have clash : ∀ a as (x y : Bytes), (∀ x y, text a ++ x ≠ 93#8 :: y) → before [] m ++ (joinTexts (sep m) ((a :: as).map text) ++ x) ≠ 93#8 :: y := by
    intro a as x y ht
    cases m with
    | some n => simp [before, nl]
    | none =>
      cases as with
      | nil => exact ht _ _
      | cons b as => simp only [before, List.nil_append, List.map_cons, joinTexts_cons, List.append_assoc]; exact ht _ _
  cases as with
  | nil =>
    cases bs with
    | nil => exact ⟨rfl, List.append_cancel_left h⟩
    | cons b bs =>
      simp only [listAt, List.map_nil, List.isEmpty_nil, List.map_cons, List.isEmpty_cons, Bool.false_eq_true, if_true, if_false, List.append_assoc, List.cons_append, List.nil_append,
        List.cons.injEq, true_and] at h
      exact absurd h.symm (clash b bs _ _ (hh b (by simp)))
  | cons a as =>
    cases bs with
    | nil =>
      simp only [listAt, List.map_nil, List.isEmpty_nil, List.map_cons, List.isEmpty_cons, Bool.false_eq_true, if_true, if_false, List.append_assoc, List.cons_append, List.nil_append,
        List.cons.injEq, true_and] at h
      exact absurd h (clash a as _ _ (hh a (by simp)))
    | cons b bs =>
      refine joins_cut m (as := a :: as) (bs := b :: bs) (by simp) (by simp) he ?_
      simpa only [listAt, List.map_cons, List.isEmpty_cons, Bool.false_eq_true, if_false, List.append_assoc, List.append_cancel_left_eq] using h

end CT.Debug
