import Verif.Model.Print
import Verif.Spec.Print
import Verif.Props.ParquetSchema
/-! # C83: printed schemas -/
namespace CT.Props
open CT Spec CT.Schema

namespace Print

/-! ## Lemmas -/

theorem cut {α : Type} {p : α → Prop} {a b : List α} {c c' : α} {r r' : List α} (ha : ∀ x ∈ a, p x) (hb : ∀ x ∈ b, p x) (hc : ¬ p c) (hc' : ¬ p c')
    (h : a ++ c :: r = b ++ c' :: r') : a = b ∧ c = c' ∧ r = r' := by
  induction a generalizing b with
  | nil =>
    cases b with
    | nil => simpa using h
    | cons y b => simp at h; exact absurd (hb y (by simp)) (h.1 ▸ hc)
  | cons x a ih =>
    cases b with
    | nil => simp at h; exact absurd (ha x (by simp)) (h.1 ▸ hc')
    | cons y b =>
      simp at h
      have := ih (fun z hz => ha z (by simp [hz])) (fun z hz => hb z (by simp [hz])) h.2
      exact ⟨by rw [h.1, this.1], this.2⟩

/-- ASCII digit -/
def Digit (b : Byte) : Prop := 48 ≤ b.toNat ∧ b.toNat ≤ 57

def value (bs : Bytes) : Nat := bs.foldl (fun a b => a * 10 + (b.toNat - 48)) 0

theorem decimalF_digits : ∀ fuel n, ∀ b ∈ decimalF fuel n, Digit b
  | 0, _ => by simp [decimalF]
  | fuel + 1, n => by
    intro b hb
    rw [decimalF, List.mem_append] at hb
    rcases hb with hb | hb
    · split at hb
      · cases hb
      · exact decimalF_digits fuel _ b hb
    · simp at hb
      subst hb
      unfold Digit
      simp only [BitVec.toNat_ofNat]
      omega

theorem decimalF_value : ∀ fuel n, n < fuel → value (decimalF fuel n) = n
  | 0, _, h => by omega
  | fuel + 1, n, h => by
    rw [decimalF]
    unfold value
    rw [List.foldl_append]
    simp only [List.foldl_cons, List.foldl_nil, BitVec.toNat_ofNat]
    have : List.foldl (fun a (b : Byte) => a * 10 + (b.toNat - 48)) 0 (if n < 10 then [] else decimalF fuel (n / 10)) = n / 10 := by
      split
      · simp only [List.foldl_nil]; omega
      · exact decimalF_value fuel (n / 10) (by omega)
    rw [this]
    omega

theorem decimal_digits (n : Nat) : ∀ b ∈ decimal n, Digit b := decimalF_digits _ n

theorem decimal_inj {n m : Nat} (h : decimal n = decimal m) : n = m := by
  have h1 := decimalF_value (n + 1) n (by omega)
  have h2 := decimalF_value (m + 1) m (by omega)
  unfold decimal at h
  rw [h] at h1
  omega

theorem decimal_ne_nil (n : Nat) : decimal n ≠ [] := by unfold decimal decimalF; simp

theorem decimal_cut {n m : Nat} {c c' : Byte} {r r' : Bytes} (hc : ¬ Digit c) (hc' : ¬ Digit c') (h : decimal n ++ c :: r = decimal m ++ c' :: r') :
    n = m ∧ c = c' ∧ r = r' := by
  have := cut (decimal_digits n) (decimal_digits m) hc hc' h
  exact ⟨decimal_inj this.1, this.2⟩

theorem decimal_head {n : Nat} {c : Byte} {r r' : Bytes} (hc : ¬ Digit c) : c :: r ≠ decimal n ++ r' := by
  intro h
  cases e : decimal n with
  | nil => exact decimal_ne_nil n e
  | cons d ds =>
    rw [e] at h
    simp at h
    exact hc (h.1 ▸ decimal_digits n d (by simp [e]))

theorem decimalInt_cut {i j : Int} {c c' : Byte} {r r' : Bytes} (hc : ¬ Digit c) (hc' : ¬ Digit c') (h : decimalInt i ++ c :: r = decimalInt j ++ c' :: r') :
    i = j ∧ c = c' ∧ r = r' := by
  have hm : ¬ Digit (BitVec.ofNat 8 45) := by unfold Digit; decide
  unfold decimalInt at h
  split at h <;> split at h
  · simp only [List.cons_append, List.nil_append, List.cons.injEq, true_and] at h
    obtain ⟨h1, h2⟩ := decimal_cut hc hc' h
    exact ⟨by omega, h2⟩
  · simp only [List.cons_append, List.nil_append] at h
    exact absurd h (decimal_head hm)
  · simp only [List.cons_append, List.nil_append] at h
    exact absurd h.symm (decimal_head hm)
  · obtain ⟨h1, h2⟩ := decimal_cut hc hc' h
    exact ⟨by omega, h2⟩

/-- Visible ASCII characters and spaces -/
def Visible (b : Byte) : Prop := 32 ≤ b.toNat ∧ b.toNat ≤ 126

instance (b : Byte) : Decidable (Visible b) := by unfold Visible; infer_instance

theorem Digit.visible {b : Byte} (h : Digit b) : Visible b := by unfold Digit at h; unfold Visible; omega

theorem decimal_visible (n : Nat) : ∀ b ∈ decimal n, Visible b := fun b hb => (decimal_digits n b hb).visible

theorem decimalInt_visible (i : Int) : ∀ b ∈ decimalInt i, Visible b := by
  intro b hb
  unfold decimalInt at hb
  split at hb
  · rcases List.mem_append.1 hb with hb | hb
    · obtain rfl : b = _ := by simpa using hb
      decide
    · exact decimal_visible _ b hb
  · exact decimal_visible _ b hb

theorem forall_append {α : Type} {p : α → Prop} {a b : List α} (ha : ∀ x ∈ a, p x) (hb : ∀ x ∈ b, p x) : ∀ x ∈ a ++ b, p x :=
  fun x hx => (List.mem_append.1 hx).elim (ha x) (hb x)

theorem physical_visible (p : PhysicalType) : ∀ b ∈ p.debug, Visible b ∧ b ≠ 32#8 := by
  cases p with
  | FIXED_LEN_BYTE_ARRAY len =>
    refine forall_append (forall_append (by decide) fun b hb => ?_) (by decide)
    have := decimal_digits _ b hb
    refine ⟨this.visible, ?_⟩
    rintro rfl
    exact absurd this.1 (by decide)
  | _ => decide

theorem physical_inj {p q : PhysicalType} (h : p.debug = q.debug) : p = q := by
  cases p <;> cases q <;> first
    | rfl
    | (exact absurd h (by decide))
    | (simp only [PhysicalType.debug, List.cons_append, List.nil_append, List.cons.injEq, reduceCtorEq, and_false] at h; done)
    | (simp only [PhysicalType.debug, List.cons_append, List.nil_append, List.cons.injEq] at h; exact absurd h.1 (by decide))
    | skip
  simp only [PhysicalType.debug, List.cons_append, List.nil_append, List.cons.injEq, true_and] at h
  obtain ⟨h, _⟩ := decimal_cut (by unfold Digit; decide) (by unfold Digit; decide) h
  rw [BitVec.eq_of_toNat_eq h]

theorem timeOptions_visible (o : TimeOptions) : ∀ b ∈ o.debug, Visible b := by
  obtain ⟨a, b⟩ := o
  cases a <;> cases b <;> decide

theorem timeOptions_inj {o o' : TimeOptions} (h : o.debug = o'.debug) : o = o' := by
  obtain ⟨a, b⟩ := o
  obtain ⟨a', b'⟩ := o'
  cases a <;> cases b <;> cases a' <;> cases b' <;> first | rfl | exact absurd h (by decide)

theorem decimalOptions_visible (o : DecimalOptions) : ∀ b ∈ o.debug, Visible b :=
  forall_append (forall_append (forall_append (forall_append (by decide) (decimal_visible _)) (by decide)) (decimalInt_visible _)) (by decide)

theorem decimalOptions_inj {o o' : DecimalOptions} (h : o.debug = o'.debug) : o = o' := by
  obtain ⟨a, b⟩ := o
  obtain ⟨a', b'⟩ := o'
  simp only [DecimalOptions.debug, List.append_assoc, List.cons_append, List.nil_append, List.cons.injEq, true_and] at h
  obtain ⟨h1, _, h⟩ := decimal_cut (by unfold Digit; decide) (by unfold Digit; decide) h
  simp only [List.cons.injEq, true_and] at h
  obtain ⟨h2, _⟩ := decimalInt_cut (by unfold Digit; decide) (by unfold Digit; decide) h
  rw [BitVec.eq_of_toNat_eq h1, BitVec.eq_of_toInt_eq h2]

theorem integerOptions_visible (o : IntegerOptions) : ∀ b ∈ o.debug, Visible b := by
  obtain ⟨a, b⟩ := o
  cases b
  · exact forall_append (a := ascii! "u") (by decide) (decimal_visible _)
  · exact forall_append (a := ascii! "i") (by decide) (decimal_visible _)

theorem integerOptions_inj {o o' : IntegerOptions} (h : o.debug = o'.debug) : o = o' := by
  obtain ⟨a, b⟩ := o
  obtain ⟨a', b'⟩ := o'
  cases b <;> cases b'
  case false.true => exact absurd (List.cons.inj h).1 (by decide)
  case true.false => exact absurd (List.cons.inj h).1 (by decide)
  all_goals
    have : a.toNat = a'.toNat := decimal_inj (List.cons.inj h).2
    rw [BitVec.eq_of_toNat_eq this]

theorem leaf_visible (l : PrimitiveLogicalType) : ∀ b ∈ l.debug, Visible b := by
  cases l with
  | Decimal o => exact forall_append (forall_append (by decide) (decimalOptions_visible o)) (by decide)
  | Time o => exact forall_append (forall_append (by decide) (timeOptions_visible o)) (by decide)
  | Timestamp o => exact forall_append (forall_append (by decide) (timeOptions_visible o)) (by decide)
  | Integer o => exact forall_append (forall_append (by decide) (integerOptions_visible o)) (by decide)
  | _ => decide

theorem group_visible (l : GroupLogicalType) : ∀ b ∈ l.debug, Visible b := by
  cases l with
  | Variant v =>
    cases v with
    | none => decide
    | some v => exact forall_append (forall_append (by decide) (decimalInt_visible _)) (by decide)
  | _ => decide

theorem take_eq {α : Type} {a b : List α} (n : Nat) (h : a = b) : a.take n = b.take n := by rw [h]

theorem leaf_inj {l l' : PrimitiveLogicalType} (h : l.debug = l'.debug) : l = l' := by
  have h5 := take_eq 5 h
  cases l <;> cases l' <;> first
    | rfl
    | (exfalso; revert h5; simp [PrimitiveLogicalType.debug]; done)
    | skip
  all_goals
    simp only [PrimitiveLogicalType.debug, List.cons_append, List.nil_append, List.cons.injEq, true_and] at h
  · rw [decimalOptions_inj (List.append_cancel_right h)]
  · rw [timeOptions_inj (List.append_cancel_right h)]
  · rw [timeOptions_inj (List.append_cancel_right h)]
  · rw [integerOptions_inj (List.append_cancel_right h)]

theorem group_inj {l l' : GroupLogicalType} (h : l.debug = l'.debug) : l = l' := by
  cases l with
  | Variant v =>
    cases l' with
    | Variant v' =>
      cases v with
      | none =>
        cases v' with
        | none => rfl
        | some v' => exact absurd (take_eq 35 h) (by simp [GroupLogicalType.debug])
      | some v =>
        cases v' with
        | none => exact absurd (take_eq 35 h) (by simp [GroupLogicalType.debug])
        | some v' =>
          simp only [GroupLogicalType.debug, List.cons_append, List.nil_append, List.cons.injEq, true_and] at h
          obtain ⟨h, _⟩ := decimalInt_cut (by unfold Digit; decide) (by unfold Digit; decide) h
          rw [BitVec.eq_of_toInt_eq h]
    | _ => cases v <;> exact absurd (take_eq 3 h) (by simp [GroupLogicalType.debug])
  | _ =>
    cases l' with
    | Variant v' => cases v' <;> exact absurd (take_eq 3 h) (by simp [GroupLogicalType.debug])
    | _ => first | rfl | exact absurd h (by decide)

theorem printIndent_spaces : ∀ n, ∀ b ∈ printIndent n, b = 32#8
  | 0 => by simp [printIndent]
  | n + 1 => forall_append (by decide) (printIndent_spaces n)

theorem noLf_of_visible {a : Bytes} (h : ∀ b ∈ a, Visible b) : ∀ b ∈ a, b ≠ 10#8 := by
  rintro b hb rfl
  exact absurd (h _ hb).1 (by decide)

theorem repetition_noSpace (r : Repetition) : ∀ b ∈ r.display, Visible b ∧ b ≠ 32#8 := by cases r <;> decide

theorem repetition_inj {r r' : Repetition} (h : r.display = r'.display) : r = r' := by
  cases r <;> cases r' <;> first | rfl | exact absurd h (by decide)

/-- The name and what follows it can be told apart. -/
theorem name_cut : ∀ {n n' : Bytes}, PlainName n → PlainName n' → ∀ {r r' : Bytes}, n ++ 32#8 :: 40#8 :: r = n' ++ 32#8 :: 40#8 :: r' → n = n' ∧ r = r'
  | [], [], _, _, r, r', h => by simpa using h
  | [], [c], _, _, r, r', h => by simp at h
  | [], c :: d :: n', _, h', r, r', h => by
    simp at h
    obtain ⟨rfl, rfl, _⟩ := h
    exact absurd rfl (h'.2 [] n')
  | [c], [], _, _, r, r', h => by simp at h
  | c :: d :: n, [], h', _, r, r', h => by
    simp at h
    obtain ⟨rfl, rfl, _⟩ := h
    exact absurd rfl (h'.2 [] n)
  | c :: n, c' :: n', h1, h2, r, r', h => by
    simp only [List.cons_append, List.cons.injEq] at h
    obtain ⟨rfl, h⟩ := h
    have tail : ∀ {n : Bytes}, PlainName (c :: n) → PlainName n := fun hn => ⟨fun hm => hn.1 (by simp [hm]), fun a b e => hn.2 (c :: a) b (by rw [e]; rfl)⟩
    obtain ⟨rfl, rfl⟩ := name_cut (tail h1) (tail h2) h
    exact ⟨rfl, rfl⟩

theorem logical_cut {α : Type} {debug : α → Bytes} (inj : ∀ {a b}, debug a = debug b → a = b) {n n' : Bytes} (hn : PlainName n) (hn' : PlainName n') {l l' : Option α}
    (h : n ++ printLogical debug l = n' ++ printLogical debug l') : n = n' ∧ l = l' := by
  cases l with
  | none =>
    cases l' with
    | none => simpa [printLogical] using h
    | some l' =>
      simp only [printLogical, List.append_nil, List.cons_append, List.nil_append] at h
      exact absurd h (hn.2 n' _)
  | some l =>
    cases l' with
    | none =>
      simp only [printLogical, List.append_nil, List.cons_append, List.nil_append] at h
      exact absurd h.symm (hn'.2 n _)
    | some l' =>
      simp only [printLogical, List.cons_append, List.nil_append] at h
      obtain ⟨h1, h2⟩ := name_cut hn hn' h
      exact ⟨h1, congrArg some (inj (List.append_cancel_right h2))⟩

theorem logical_noLf {α : Type} {debug : α → Bytes} (vis : ∀ a, ∀ b ∈ debug a, Visible b) (l : Option α) : ∀ b ∈ printLogical debug l, b ≠ 10#8 := by
  cases l with
  | none => simp [printLogical]
  | some l => exact forall_append (forall_append (by decide) (noLf_of_visible (vis l))) (by decide)

/-- The line of a leaf, without indentation and line feed. -/
def leafLine (c : Common) (p : PhysicalType) (l : Option PrimitiveLogicalType) : Bytes :=
  c.repetition.display ++ 32#8 :: (p.debug ++ 32#8 :: (c.name ++ printLogical PrimitiveLogicalType.debug l ++ [59#8]))

/-- The first line of a group, without indentation and line feed. -/
def groupLine (c : Common) (l : Option GroupLogicalType) : Bytes :=
  c.repetition.display ++ 32#8 :: (ascii! "group" ++ 32#8 :: (c.name ++ printLogical GroupLogicalType.debug l ++ ascii! " {"))

theorem print_primitive (c : Common) (p : PhysicalType) (l : Option PrimitiveLogicalType) (i : BitVec 32) (n : Nat) (r : Bytes) :
    prettyPrint (.primitive c p l i) n ++ r = printIndent n ++ leafLine c p l ++ 10#8 :: r := by
  simp [prettyPrint, leafLine]

theorem print_group (c : Common) (fs : List SField) (l : Option GroupLogicalType) (n : Nat) (r : Bytes) :
    prettyPrint (.group c fs l) n ++ r = printIndent n ++ groupLine c l ++ 10#8 :: (prettyPrintAll fs (n + 1) ++ (printIndent n ++ 125#8 :: 10#8 :: r)) := by
  simp [prettyPrint, groupLine]

theorem leafLine_noLf {c : Common} (hn : PlainName c.name) (p : PhysicalType) (l : Option PrimitiveLogicalType) : ∀ b ∈ leafLine c p l, b ≠ 10#8 := by
  unfold leafLine
  refine forall_append (noLf_of_visible fun b hb => (repetition_noSpace _ b hb).1) fun b hb => ?_
  rcases List.mem_cons.1 hb with rfl | hb
  · decide
  · refine forall_append (noLf_of_visible fun b hb => (physical_visible p b hb).1) (fun b hb => ?_) b hb
    rcases List.mem_cons.1 hb with rfl | hb
    · decide
    · exact forall_append (p := fun b => b ≠ 10#8) (forall_append (fun b hb e => hn.1 (e ▸ hb)) (logical_noLf leaf_visible l)) (by decide) b hb

theorem groupLine_noLf {c : Common} (hn : PlainName c.name) (l : Option GroupLogicalType) : ∀ b ∈ groupLine c l, b ≠ 10#8 := by
  unfold groupLine
  refine forall_append (noLf_of_visible fun b hb => (repetition_noSpace _ b hb).1) fun b hb => ?_
  rcases List.mem_cons.1 hb with rfl | hb
  · decide
  · refine forall_append (p := fun b => b ≠ 10#8) (a := ascii! "group") (by decide) (fun b hb => ?_) b hb
    rcases List.mem_cons.1 hb with rfl | hb
    · decide
    · exact forall_append (p := fun b => b ≠ 10#8) (forall_append (fun b hb e => hn.1 (e ▸ hb)) (logical_noLf group_visible l)) (by decide) b hb

theorem line_cut {n : Nat} {a b r r' : Bytes} (ha : ∀ x ∈ a, x ≠ 10#8) (hb : ∀ x ∈ b, x ≠ 10#8)
    (h : printIndent n ++ a ++ 10#8 :: r = printIndent n ++ b ++ 10#8 :: r') : a = b ∧ r = r' := by
  have := cut (p := fun x => x ≠ 10#8) (forall_append (fun x hx => by rw [printIndent_spaces n x hx]; decide) ha)
    (forall_append (fun x hx => by rw [printIndent_spaces n x hx]; decide) hb) (by simp) (by simp) h
  exact ⟨List.append_cancel_left this.1, this.2.2⟩

theorem word_cut {a b r r' : Bytes} (ha : ∀ x ∈ a, Visible x ∧ x ≠ 32#8) (hb : ∀ x ∈ b, Visible x ∧ x ≠ 32#8) (h : a ++ 32#8 :: r = b ++ 32#8 :: r') : a = b ∧ r = r' := by
  have := cut (p := fun x => x ≠ 32#8) (fun x hx => (ha x hx).2) (fun x hx => (hb x hx).2) (by simp) (by simp) h
  exact ⟨this.1, this.2.2⟩

theorem leafLine_inj {c c' : Common} (hn : PlainName c.name) (hn' : PlainName c'.name) {p p' : PhysicalType} {l l' : Option PrimitiveLogicalType}
    (h : leafLine c p l = leafLine c' p' l') : c.repetition = c'.repetition ∧ p = p' ∧ c.name = c'.name ∧ l = l' := by
  unfold leafLine at h
  obtain ⟨h1, h⟩ := word_cut (repetition_noSpace _) (repetition_noSpace _) h
  obtain ⟨h2, h⟩ := word_cut (physical_visible _) (physical_visible _) h
  obtain ⟨h3, h4⟩ := logical_cut leaf_inj hn hn' (List.append_cancel_right h)
  exact ⟨repetition_inj h1, physical_inj h2, h3, h4⟩

theorem groupLine_inj {c c' : Common} (hn : PlainName c.name) (hn' : PlainName c'.name) {l l' : Option GroupLogicalType}
    (h : groupLine c l = groupLine c' l') : c.repetition = c'.repetition ∧ c.name = c'.name ∧ l = l' := by
  unfold groupLine at h
  obtain ⟨h1, h⟩ := word_cut (repetition_noSpace _) (repetition_noSpace _) h
  obtain ⟨_, h⟩ := word_cut (a := ascii! "group") (b := ascii! "group") (by decide) (by decide) h
  obtain ⟨h3, h4⟩ := logical_cut group_inj hn hn' (List.append_cancel_right h)
  exact ⟨repetition_inj h1, h3, h4⟩

theorem leafLine_ne (c c' : Common) (p : PhysicalType) (l : Option PrimitiveLogicalType) (l' : Option GroupLogicalType) : leafLine c p l ≠ groupLine c' l' := by
  intro h
  have h1 : (leafLine c p l).getLast? = some 59#8 := by simp [leafLine, List.getLast?_append, List.getLast?_cons]
  have h2 : (groupLine c' l').getLast? = some 123#8 := by simp [groupLine, List.getLast?_append, List.getLast?_cons]
  rw [h, h2] at h1
  exact absurd h1 (by decide)

/-- Every printed field starts with its indentation and a letter. -/
theorem print_head (f : SField) (n : Nat) (r : Bytes) : ∃ t, prettyPrint f n ++ r = printIndent n ++ t := by
  cases f with
  | group c fs l => exact ⟨_, by rw [print_group, List.append_assoc]⟩
  | primitive c p l i => exact ⟨_, by rw [print_primitive, List.append_assoc]⟩

theorem printIndent_succ (n : Nat) (r : Bytes) : printIndent (n + 1) ++ r = printIndent n ++ 32#8 :: 32#8 :: r := by
  induction n with
  | zero => rfl
  | succ n ih =>
    rw [printIndent, List.append_assoc, ih]
    simp [printIndent]

theorem print_not_close (f : SField) (n : Nat) (r r' : Bytes) : prettyPrint f (n + 1) ++ r ≠ printIndent n ++ 125#8 :: r' := by
  obtain ⟨t, ht⟩ := print_head f (n + 1) r
  rw [ht, printIndent_succ]
  intro h
  have := List.append_cancel_left h
  exact absurd (List.cons.inj this).1 (by decide)

mutual
theorem print_inj : ∀ (f g : SField) (n : Nat) (r r' : Bytes), (∀ x ∈ fieldNames f, PlainName x) → (∀ x ∈ fieldNames g, PlainName x) →
    prettyPrint f n ++ r = prettyPrint g n ++ r' → shown f = shown g ∧ r = r'
  | .primitive c p l i, .primitive c' p' l' i', n, r, r', hf, hg, h => by
    have hc := hf c.name (by simp [fieldNames])
    have hc' := hg c'.name (by simp [fieldNames])
    rw [print_primitive, print_primitive] at h
    obtain ⟨h, hr⟩ := line_cut (leafLine_noLf hc p l) (leafLine_noLf hc' p' l') h
    obtain ⟨h1, h2, h3, h4⟩ := leafLine_inj hc hc' h
    exact ⟨by rw [shown, shown, h1, h2, h3, h4], hr⟩
  | .primitive c p l i, .group c' fs' l', n, r, r', hf, hg, h => by
    have hc := hf c.name (by simp [fieldNames])
    have hc' := hg c'.name (by simp [fieldNames])
    rw [print_primitive, print_group] at h
    exact absurd (line_cut (leafLine_noLf hc p l) (groupLine_noLf hc' l') h).1 (leafLine_ne _ _ _ _ _)
  | .group c fs l, .primitive c' p' l' i', n, r, r', hf, hg, h => by
    have hc := hf c.name (by simp [fieldNames])
    have hc' := hg c'.name (by simp [fieldNames])
    rw [print_primitive, print_group] at h
    exact absurd (line_cut (groupLine_noLf hc l) (leafLine_noLf hc' p' l') h).1.symm (leafLine_ne _ _ _ _ _)
  | .group c fs l, .group c' fs' l', n, r, r', hf, hg, h => by
    have hc := hf c.name (by simp [fieldNames])
    have hc' := hg c'.name (by simp [fieldNames])
    rw [print_group, print_group] at h
    obtain ⟨h, hr⟩ := line_cut (groupLine_noLf hc l) (groupLine_noLf hc' l') h
    obtain ⟨h1, h3, h4⟩ := groupLine_inj hc hc' h
    obtain ⟨hs, hr⟩ := printAll_inj fs fs' n (10#8 :: r) (10#8 :: r') (fun x hx => hf x (by simp [fieldNames, hx])) (fun x hx => hg x (by simp [fieldNames, hx])) hr
    exact ⟨by rw [shown, shown, h1, h3, h4, hs], (List.cons.inj hr).2⟩
theorem printAll_inj : ∀ (fs gs : List SField) (n : Nat) (r r' : Bytes), (∀ x ∈ fieldNamesAll fs, PlainName x) → (∀ x ∈ fieldNamesAll gs, PlainName x) →
    prettyPrintAll fs (n + 1) ++ (printIndent n ++ 125#8 :: r) = prettyPrintAll gs (n + 1) ++ (printIndent n ++ 125#8 :: r') → shownAll fs = shownAll gs ∧ r = r'
  | [], [], n, r, r', hf, hg, h => by
    rw [prettyPrintAll] at h
    exact ⟨rfl, (List.cons.inj (List.append_cancel_left (List.append_cancel_left h))).2⟩
  | [], g :: gs, n, r, r', hf, hg, h => by
    rw [prettyPrintAll, prettyPrintAll, List.nil_append, List.append_assoc] at h
    exact absurd h.symm (print_not_close _ _ _ _)
  | f :: fs, [], n, r, r', hf, hg, h => by
    rw [prettyPrintAll, prettyPrintAll, List.nil_append, List.append_assoc] at h
    exact absurd h (print_not_close _ _ _ _)
  | f :: fs, g :: gs, n, r, r', hf, hg, h => by
    rw [prettyPrintAll, prettyPrintAll, List.append_assoc, List.append_assoc] at h
    obtain ⟨h1, h⟩ := print_inj f g (n + 1) _ _ (fun x hx => hf x (by simp [fieldNamesAll, hx])) (fun x hx => hg x (by simp [fieldNamesAll, hx])) h
    obtain ⟨h2, h⟩ := printAll_inj fs gs n r r' (fun x hx => hf x (by simp [fieldNamesAll, hx])) (fun x hx => hg x (by simp [fieldNamesAll, hx])) h
    exact ⟨by rw [shownAll, shownAll, h1, h2], h⟩
end

mutual
theorem indexes_shown : ∀ (f g : SField), shown f = shown g → (indexes f).length = (indexes g).length
  | .primitive .., .primitive .., _ => rfl
  | .primitive .., .group .., h => by rw [shown, shown] at h; cases h
  | .group .., .primitive .., h => by rw [shown, shown] at h; cases h
  | .group c fs l, .group c' gs l', h => by
    rw [shown, shown] at h
    simp only [SField.group.injEq] at h
    rw [indexes, indexes]
    exact indexesAll_shown fs gs h.2.1
theorem indexesAll_shown : ∀ (fs gs : List SField), shownAll fs = shownAll gs → (indexesAll fs).length = (indexesAll gs).length
  | [], [], _ => rfl
  | [], _ :: _, h => by rw [shownAll, shownAll] at h; cases h
  | _ :: _, [], h => by rw [shownAll, shownAll] at h; cases h
  | f :: fs, g :: gs, h => by
    rw [shownAll, shownAll] at h
    simp only [List.cons.injEq] at h
    rw [indexesAll, indexesAll, List.length_append, List.length_append, indexes_shown f g h.1, indexesAll_shown fs gs h.2]
end

theorem levels_eq {c c' : Common} {d r : Nat} (hr : c.repetition = c'.repetition) (h : c.defLevel.toNat = d + optOf c.repetition) (h' : c'.defLevel.toNat = d + optOf c'.repetition)
    (k : c.repLevel.toNat = r + repOf c.repetition) (k' : c'.repLevel.toNat = r + repOf c'.repetition) : c.defLevel = c'.defLevel ∧ c.repLevel = c'.repLevel := by
  rw [← hr] at h' k'
  exact ⟨BitVec.eq_of_toNat_eq (h.trans h'.symm), BitVec.eq_of_toNat_eq (k.trans k'.symm)⟩

mutual
theorem relabel : ∀ (f g : SField) (d r : Nat), shown f = shown g → LevelsFrom d r f → LevelsFrom d r g → indexes f = indexes g → withoutIds f = withoutIds g
  | .primitive c p l i, .primitive c' p' l' i', d, r, h, hf, hg, hi => by
    rw [shown, shown] at h
    simp only [SField.primitive.injEq, Common.mk.injEq] at h
    rw [indexes, indexes] at hi
    obtain ⟨⟨h1, _, h2, _⟩, h3, h4, _⟩ := h
    obtain ⟨a1, a2⟩ := levelsFrom_primitive.1 hf
    obtain ⟨b1, b2⟩ := levelsFrom_primitive.1 hg
    obtain ⟨e1, e2⟩ := levels_eq h2 a1 b1 a2 b2
    rw [withoutIds, withoutIds, h1, h2, h3, h4, e1, e2, (List.cons.inj hi).1]
  | .primitive .., .group .., _, _, h, _, _, _ => by rw [shown, shown] at h; cases h
  | .group .., .primitive .., _, _, h, _, _, _ => by rw [shown, shown] at h; cases h
  | .group c fs l, .group c' gs l', d, r, h, hf, hg, hi => by
    rw [shown, shown] at h
    simp only [SField.group.injEq, Common.mk.injEq] at h
    rw [indexes, indexes] at hi
    obtain ⟨⟨h1, _, h2, _⟩, h3, h4⟩ := h
    obtain ⟨a1, a2, a3⟩ := levelsFrom_group.1 hf
    obtain ⟨b1, b2, b3⟩ := levelsFrom_group.1 hg
    obtain ⟨e1, e2⟩ := levels_eq h2 a1 b1 a2 b2
    rw [← h2] at b3
    rw [withoutIds, withoutIds, relabelAll fs gs _ _ h3 a3 b3 hi, h1, h2, h4, e1, e2]
theorem relabelAll : ∀ (fs gs : List SField) (d r : Nat), shownAll fs = shownAll gs → (∀ f ∈ fs, LevelsFrom d r f) → (∀ g ∈ gs, LevelsFrom d r g) →
    indexesAll fs = indexesAll gs → withoutIdsAll fs = withoutIdsAll gs
  | [], [], _, _, _, _, _, _ => rfl
  | [], _ :: _, _, _, h, _, _, _ => by rw [shownAll, shownAll] at h; cases h
  | _ :: _, [], _, _, h, _, _, _ => by rw [shownAll, shownAll] at h; cases h
  | f :: fs, g :: gs, d, r, h, hf, hg, hi => by
    rw [shownAll, shownAll] at h
    simp only [List.cons.injEq] at h
    rw [indexesAll, indexesAll] at hi
    obtain ⟨h1, h2⟩ := List.append_inj hi (indexes_shown f g h.1)
    rw [withoutIdsAll, withoutIdsAll, relabel f g d r h.1 (hf f (by simp)) (hg g (by simp)) h1,
      relabelAll fs gs d r h.2 (fun x hx => hf x (by simp [hx])) (fun x hx => hg x (by simp [hx])) h2]
end

mutual
theorem lines_print : ∀ (f : SField) (n : Nat), (∀ x ∈ fieldNames f, PlainName x) → (prettyPrint f n).count 10#8 = lineCount f
  | .primitive c p l i, n, h => by
    have h1 := List.count_eq_zero.2 fun hm => leafLine_noLf (h c.name (by simp [fieldNames])) p l _ hm rfl
    have h2 := List.count_eq_zero.2 fun hm => absurd (printIndent_spaces n 10#8 hm) (by decide)
    rw [← List.append_nil (prettyPrint _ n), print_primitive, List.count_append, List.count_append, h1, h2, lineCount]
    rfl
  | .group c fs l, n, h => by
    have h1 := List.count_eq_zero.2 fun hm => groupLine_noLf (h c.name (by simp [fieldNames])) l _ hm rfl
    have h2 := List.count_eq_zero.2 fun hm => absurd (printIndent_spaces n 10#8 hm) (by decide)
    have h3 := lines_printAll fs (n + 1) fun x hx => h x (by simp [fieldNames, hx])
    rw [← List.append_nil (prettyPrint _ n), print_group, List.count_append, List.count_append, h1, h2, List.count_cons, List.count_append, h3,
      List.count_append, h2, lineCount]
    simp
theorem lines_printAll : ∀ (fs : List SField) (n : Nat), (∀ x ∈ fieldNamesAll fs, PlainName x) → (prettyPrintAll fs n).count 10#8 = lineCountAll fs
  | [], _, _ => rfl
  | f :: fs, n, h => by
    rw [prettyPrintAll, List.count_append, lineCountAll, lines_print f n fun x hx => h x (by simp [fieldNamesAll, hx]),
      lines_printAll fs n fun x hx => h x (by simp [fieldNamesAll, hx])]
end

end Print

/-! ## C83 -/

/-- C83: what is printed determines names, repetitions, physical and logical types and the tree, at any indentation, even with more output behind it, if no name
contains a line feed or an opening parenthesis behind a space. -/
theorem C83_shown {f g : SField} (hf : ∀ x ∈ fieldNames f, PlainName x) (hg : ∀ x ∈ fieldNames g, PlainName x) {n : Nat} {r r' : Bytes}
    (h : prettyPrint f n ++ r = prettyPrint g n ++ r') : shown f = shown g ∧ r = r' := Print.print_inj f g n r r' hf hg h

/-- C83: for schemas from `convert_schema` it determines everything but the field ids: also levels and leaf indexes. -/
theorem C83_schema {cfg cfg' : Cfg} {es es' : List Element} {f g : SField} (hf : convertSchema cfg es = .ok f) (hg : convertSchema cfg' es' = .ok g)
    (hn : ∀ x ∈ fieldNames f, PlainName x) (hn' : ∀ x ∈ fieldNames g, PlainName x) (h : prettyPrint f 0 = prettyPrint g 0) : withoutIds f = withoutIds g := by
  obtain ⟨_, hl, hi, _⟩ := (C46_iff cfg _ _).1 hf
  obtain ⟨_, hl', hi', _⟩ := (C46_iff cfg' _ _).1 hg
  have hs := (C83_shown hn hn' (n := 0) (r := []) (r' := []) (by simpa using h)).1
  refine Print.relabel f g 0 0 hs (fun p x hx => by simpa using hl p x hx) (fun p x hx => by simpa using hl' p x hx) ?_
  unfold IndexesOk at hi hi'
  rw [hi, hi', Print.indexes_shown f g hs]

/-- C83: one line for every leaf and two for every group. -/
theorem C83_lines {f : SField} (hf : ∀ x ∈ fieldNames f, PlainName x) (n : Nat) : (prettyPrint f n).count 10#8 = lineCount f := Print.lines_print f n hf

/-- A name that contains the end of one line and the start of the next. -/
def forged : Bytes := ascii! "a;\n  OPTIONAL INT32 b"

/-- C83: the condition on names is needed: with a line feed in its name one leaf looks like two, also in schemas that were converted. -/
theorem C83_counterexample_line : ∃ f g : SField, convertSchema ⟨true, true, fun _ => true⟩ (flatten f) = .ok f ∧ convertSchema ⟨true, true, fun _ => true⟩ (flatten g) = .ok g ∧
    prettyPrint f 0 = prettyPrint g 0 ∧ lineCount f ≠ lineCount g :=
  ⟨.group ⟨ascii! "r", none, .Required, 0, 0⟩ [.primitive ⟨forged, none, .Optional, 1, 0⟩ .INT32 none 0] none,
   .group ⟨ascii! "r", none, .Required, 0, 0⟩ [.primitive ⟨ascii! "a", none, .Optional, 1, 0⟩ .INT32 none 0, .primitive ⟨ascii! "b", none, .Optional, 1, 0⟩ .INT32 none 1] none,
   rfl, rfl, rfl, by decide⟩

/-- C83: and a name can look like a logical type. -/
theorem C83_counterexample_name : ∃ f g : SField, prettyPrint f 0 = prettyPrint g 0 ∧ f.common.name ≠ g.common.name :=
  ⟨.primitive ⟨ascii! "a", none, .Optional, 1, 0⟩ .BYTE_ARRAY (some .String) 0, .primitive ⟨ascii! "a (String)", none, .Optional, 1, 0⟩ .BYTE_ARRAY none 0, rfl, by decide⟩

set_option maxRecDepth 8000 in
/-- A schema with plain names, and what is printed. -/
example : prettyPrint (.group ⟨ascii! "schema", none, .Required, 0, 0⟩
      [.primitive ⟨ascii! "id", some 1, .Optional, 1, 0⟩ .INT32 (some (.Integer ⟨8, true⟩)) 0,
       .group ⟨ascii! "tags", none, .Optional, 1, 0⟩
         [.primitive ⟨ascii! "t", none, .Repeated, 1, 1⟩ (.FIXED_LEN_BYTE_ARRAY 16) (some (.Decimal ⟨10, 254⟩)) 1] (some (.Variant (some 1)))] none) 0 =
    ascii! "REQUIRED group schema {\n  OPTIONAL INT32 id (Integer(i8));\n  OPTIONAL group tags (Variant { specification_version: Some(1) }) {\n    REPEATED FIXED_LEN_BYTE_ARRAY(16) t (Decimal(DecimalOptions { precision: 10, scale: -2 }));\n  }\n}\n" ∧
    PlainName (ascii! "schema") := by
  refine ⟨rfl, by decide, fun a b h => ?_⟩
  have := congrArg (fun x => decide ((32#8 : Byte) ∈ x)) h
  simp at this

end CT.Props
