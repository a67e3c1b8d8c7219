import Verif.Spec.Text
import Verif.Proofs.Debug
import Verif.Proofs.EncodingSet
/-! # Texts: numbers, builders and layouts -/
namespace CT.Text
open CT CT.Spec CT.Schema CT.Parquet

/-! ## Numbers -/

theorem digit10 {n : Nat} (h : n < 10) : BitVec.ofNat 8 n.digitChar.toNat = (BitVec.ofNat 8 (48 + n) : Byte) := by
  rw [Nat.toNat_digitChar_of_lt_ten h]

theorem digit16 : ∀ n : Nat, n < 16 → BitVec.ofNat 8 n.digitChar.toNat = (BitVec.ofNat 8 (if n < 10 then 48 + n else 87 + n) : Byte) := by
  decide

theorem toDigits_step (b n : Nat) (hb : 1 < b) (hn : ¬ n < b) : Nat.toDigits b n = Nat.toDigits b (n / b) ++ [(n % b).digitChar] := by
  have h := Nat.toDigits_append_toDigits (b := b) (n := n / b) (d := n % b) hb (Nat.div_pos (by omega) (by omega)) (Nat.mod_lt _ (by omega))
  rw [Nat.toDigits_of_lt_base (Nat.mod_lt _ (by omega))] at h
  rw [h, Nat.div_add_mod]

theorem decimalF_eq : ∀ (fuel n : Nat), n < fuel → decimalF fuel n = textBytes (Nat.toDigits 10 n)
  | 0, _, h => absurd h (by omega)
  | fuel + 1, n, h => by
    unfold decimalF
    split
    · next hn => rw [Nat.toDigits_of_lt_base hn]; simp [textBytes, digit10 hn, Nat.mod_eq_of_lt hn]
    · next hn =>
      rw [decimalF_eq fuel (n / 10) (by omega), toDigits_step 10 n (by omega) hn]
      simp [textBytes, digit10 (Nat.mod_lt n (by omega : 0 < 10))]

theorem decimal_eq (n : Nat) : decimal n = textBytes (Nat.toDigits 10 n) := decimalF_eq _ _ (by omega)

theorem decimalInt_eq (i : Int) : decimalInt i = number i := by
  unfold decimalInt number
  rw [decimal_eq]
  split <;> rfl

theorem decimal_number (n : Nat) : decimal n = number n := by
  rw [decimal_eq]
  unfold number
  rw [if_neg (by omega)]
  rfl

theorem hexF_eq : ∀ (fuel n : Nat), n < fuel → hexF fuel n = textBytes (Nat.toDigits 16 n)
  | 0, _, h => absurd h (by omega)
  | fuel + 1, n, h => by
    unfold hexF
    split
    · next hn => rw [Nat.toDigits_of_lt_base hn]; simp [textBytes, digit16 n hn, Nat.mod_eq_of_lt hn]
    · next hn =>
      rw [hexF_eq fuel (n / 16) (by omega), toDigits_step 16 n (by omega) hn]
      simp [textBytes, digit16 (n % 16) (Nat.mod_lt n (by omega : 0 < 16))]

theorem hex_eq (n : Nat) : hex n = textBytes (Nat.toDigits 16 n) := hexF_eq _ _ (by omega)

/-! ## Lines -/

theorem join_eq (sep : Bytes) : ∀ xs : List Bytes, joinTexts sep xs = List.intercalate sep xs
  | [] => rfl
  | [x] => by rw [List.intercalate_singleton]; rfl
  | x :: y :: xs => by rw [List.intercalate_cons_cons, ← join_eq sep (y :: xs)]; rfl

/-- No line contains a line feed. -/
def Clean (ls : List (Nat × Bytes)) : Prop := ∀ l ∈ ls, 10#8 ∉ l.2

def shift (ls : List (Nat × Bytes)) : List (Nat × Bytes) := ls.map fun l => (l.1 + 1, l.2)

theorem printed_nil (w : Nat) : printed w [] = [] := rfl

theorem printed_cons (w : Nat) (l : Nat × Bytes) (ls : List (Nat × Bytes)) :
    printed w (l :: ls) = List.replicate (w * l.1) 32#8 ++ l.2 ++ [10#8] ++ printed w ls := by
  simp [printed, layout]

theorem printed_append (w : Nat) (a b : List (Nat × Bytes)) : printed w (a ++ b) = printed w a ++ printed w b := by
  simp [printed, layout]

theorem layout_printed (w : Nat) : ∀ {ls : List (Nat × Bytes)}, ls ≠ [] → List.intercalate [10#8] (layout w ls) ++ [10#8] = printed w ls
  | [], h => absurd rfl h
  | [l], _ => by simp [printed, layout]
  | l :: m :: ls, _ => by
    rw [printed_cons, ← layout_printed w (ls := m :: ls) (by simp)]
    simp [layout]

theorem comma_printed (w : Nat) : ∀ {ls : List (Nat × Bytes)}, ls ≠ [] → ∃ y, printed w ls = y ++ [10#8] ∧ printed w (withComma ls) = y ++ [44#8, 10#8]
  | [], h => absurd rfl h
  | [l], _ => ⟨List.replicate (w * l.1) 32#8 ++ l.2, by simp [printed, layout], by simp [printed, layout, withComma]⟩
  | l :: m :: ls, _ => by
    obtain ⟨y, h1, h2⟩ := comma_printed w (ls := m :: ls) (by simp)
    refine ⟨List.replicate (w * l.1) 32#8 ++ l.2 ++ [10#8] ++ y, ?_, ?_⟩
    · rw [printed_cons, h1]; simp
    · rw [withComma, printed_cons, h2]
      · simp
      · simp

theorem clean_comma : ∀ {ls : List (Nat × Bytes)}, Clean ls → Clean (withComma ls)
  | [], _ => fun l h => by cases h
  | [l], h => fun m hm => by
    rw [withComma, List.mem_singleton] at hm
    subst hm
    simpa using h l (by simp)
  | l :: m :: ls, h => fun x hx => by
    rw [withComma, List.mem_cons] at hx
    · rcases hx with rfl | hx
      · exact h _ (by simp)
      · exact clean_comma (fun y hy => h y (List.mem_cons_of_mem _ hy)) x hx
    · simp

theorem comma_cons (l m : Nat × Bytes) (ls : List (Nat × Bytes)) : withComma (l :: m :: ls) = l :: withComma (m :: ls) := by
  rw [withComma]; simp

theorem comma_shift : ∀ ls : List (Nat × Bytes), withComma (shift ls) = shift (withComma ls)
  | [] => rfl
  | [l] => rfl
  | l :: m :: ls => by
    have := comma_shift (m :: ls)
    simp only [shift, List.map_cons] at this ⊢
    rw [comma_cons, comma_cons, this]
    rfl

theorem name_shift (n : Bytes) : ∀ ls : List (Nat × Bytes), withName n (shift ls) = shift (withName n ls)
  | [] => rfl
  | _ :: _ => rfl

theorem shift_append (a b : List (Nat × Bytes)) : shift (a ++ b) = shift a ++ shift b := by simp [shift]

theorem clean_shift {ls : List (Nat × Bytes)} (h : Clean ls) : Clean (shift ls) := by
  intro l hl
  obtain ⟨m, hm, rfl⟩ := List.mem_map.1 hl
  exact h m hm

theorem clean_name {n : Bytes} (hn : 10#8 ∉ n) {ls : List (Nat × Bytes)} (h : Clean ls) : Clean (withName n ls) := by
  cases ls with
  | nil => exact h
  | cons l ls =>
    intro m hm
    rw [withName, List.mem_cons] at hm
    rcases hm with rfl | hm
    · simpa using ⟨hn, h l (by simp)⟩
    · exact h m (by simp [hm])

theorem clean_append {a b : List (Nat × Bytes)} (ha : Clean a) (hb : Clean b) : Clean (a ++ b) := by
  intro l hl
  rcases List.mem_append.1 hl with h | h
  · exact ha l h
  · exact hb l h

theorem clean_cons {l : Nat × Bytes} {ls : List (Nat × Bytes)} (h : 10#8 ∉ l.2) (hs : Clean ls) : Clean (l :: ls) := by
  intro m hm
  rcases List.mem_cons.1 hm with rfl | hm
  · exact h
  · exact hs m hm

mutual
theorem lines_shift (k : Nat) : ∀ x : Doc, x.lines (k + 1) = shift (x.lines k)
  | .word w => by simp [Doc.lines, shift]
  | .call n x => by
    rw [Doc.lines, Doc.lines, lines_shift (k + 1) x, comma_shift]
    simp [shift]
  | .record n names xs => by
    rw [Doc.lines, Doc.lines, parts_shift (k + 1) names xs]
    split <;> simp [shift]
  | .seq xs => by
    rw [Doc.lines, Doc.lines, items_shift (k + 1) xs]
    split <;> simp [shift]
theorem items_shift (k : Nat) : ∀ xs : List Doc, itemLines (k + 1) xs = shift (itemLines k xs)
  | [] => by simp [itemLines, shift]
  | x :: xs => by rw [itemLines, itemLines, lines_shift k x, items_shift k xs, comma_shift, shift_append]
theorem parts_shift (k : Nat) : ∀ (names : List Bytes) (xs : List Doc), partLines (k + 1) names xs = shift (partLines k names xs)
  | [], [] => by simp [partLines, shift]
  | [], _ :: _ => by simp [partLines, shift]
  | _ :: _, [] => by simp [partLines, shift]
  | n :: ns, x :: xs => by rw [partLines, partLines, lines_shift k x, parts_shift k ns xs, comma_shift, name_shift, shift_append]
end

theorem lines_head (k : Nat) (x : Doc) : ∃ l ls, x.lines k = (k, l) :: ls := by
  cases x with
  | word w => exact ⟨w, [], by rw [Doc.lines]⟩
  | call n x => exact ⟨_, _, by rw [Doc.lines]⟩
  | record n names xs => rw [Doc.lines]; split <;> exact ⟨_, _, rfl⟩
  | seq xs => rw [Doc.lines]; split <;> exact ⟨_, _, rfl⟩

/-! ## Builders -/

theorem pad_plain : ∀ {x : Bytes} (r : Bytes), 10#8 ∉ x → pad false (x ++ r) = x ++ pad false r
  | [], _, _ => rfl
  | b :: x, r, h => by
    have hb : (b == 10#8) = false := by
      have : b ≠ 10#8 := fun e => h (by simp [e])
      simpa using this
    rw [List.cons_append, pad, hb, pad_plain r (fun hx => h (by simp [hx]))]
    rfl

theorem pad_line {x : Bytes} (r : Bytes) (h : 10#8 ∉ x) : pad true (x ++ 10#8 :: r) = ascii! "    " ++ x ++ 10#8 :: pad true r := by
  cases x with
  | nil => rw [List.nil_append, pad]; rfl
  | cons b x =>
    have hb : (b == 10#8) = false := by
      have : b ≠ 10#8 := fun e => h (by simp [e])
      simpa using this
    rw [List.cons_append, pad, hb, pad_plain _ (fun hx => h (by simp [hx])), pad]
    simp

theorem pad_printed : ∀ {ls : List (Nat × Bytes)}, Clean ls → pad true (printed 4 ls) = printed 4 (shift ls)
  | [], _ => by rw [printed_nil]; rfl
  | l :: ls, h => by
    have h1 : 10#8 ∉ List.replicate (4 * l.1) 32#8 ++ l.2 := by
      rw [List.mem_append, List.mem_replicate]
      rintro (⟨_, hc⟩ | hc)
      · exact absurd hc (by decide)
      · exact h l (by simp) hc
    rw [printed_cons, show List.replicate (4 * l.1) 32#8 ++ l.2 ++ [10#8] ++ printed 4 ls = (List.replicate (4 * l.1) 32#8 ++ l.2) ++ 10#8 :: printed 4 ls by simp,
      pad_line _ h1, pad_printed (fun m hm => h m (by simp [hm]))]
    rw [show shift (l :: ls) = (l.1 + 1, l.2) :: shift ls from rfl, printed_cons]
    rw [show 4 * (l.1 + 1) = 4 * l.1 + 1 + 1 + 1 + 1 by omega]
    simp [List.replicate_succ]

/-- The text is the tree on several lines, and no line is broken. -/
def OnLines (t : Bytes) (x : Doc) : Prop := t ++ [10#8] = printed 4 (x.lines 0) ∧ Clean (x.lines 0)

theorem good_text {t : Bytes} {x : Doc} (h : OnLines t x) : t = x.text true := by
  obtain ⟨l, ls, e⟩ := lines_head 0 x
  have h1 := layout_printed 4 (ls := x.lines 0) (by rw [e]; simp)
  exact List.append_cancel_right (h.1.trans h1.symm)

theorem good_comma {t : Bytes} {x : Doc} (h : OnLines t x) : t ++ [44#8, 10#8] = printed 4 (withComma (x.lines 0)) := by
  obtain ⟨l, ls, e⟩ := lines_head 0 x
  obtain ⟨y, h1, h2⟩ := comma_printed 4 (ls := x.lines 0) (by rw [e]; simp)
  rw [h2, List.append_cancel_right (h.1.trans h1)]

theorem good_word {w : Bytes} (h : 10#8 ∉ w) : OnLines w (.word w) := by
  refine ⟨?_, ?_⟩
  · rw [Doc.lines, printed_cons, printed_nil]; simp
  · rw [Doc.lines]; exact clean_cons h (fun _ h => by cases h)

theorem good_call {n t : Bytes} {x : Doc} (hn : 10#8 ∉ n) (h : OnLines t x) : OnLines (debugTuple true n t) (.call n x) := by
  constructor
  · rw [debugTuple, if_pos rfl, show t ++ ascii! ",\n" = t ++ [44#8, 10#8] from rfl, good_comma h, pad_printed (clean_comma h.2), ← comma_shift, ← lines_shift,
      Doc.lines, printed_cons, printed_append, printed_cons, printed_nil]
    simp
  · rw [Doc.lines, lines_shift]
    exact clean_cons (by simpa using hn) (clean_append (clean_comma (clean_shift h.2)) (clean_cons (by simp) (fun _ h => by cases h)))

theorem good_items : ∀ {ts : List Bytes} {xs : List Doc}, ts.length = xs.length → (∀ (i : Nat) (t : Bytes) (x : Doc), ts[i]? = some t → xs[i]? = some x → OnLines t x) →
    (ts.map fun e => pad true (e ++ ascii! ",\n")).flatten = printed 4 (itemLines 1 xs) ∧ Clean (itemLines 1 xs)
  | [], [], _, _ => by rw [itemLines]; exact ⟨rfl, fun _ h => by cases h⟩
  | t :: ts, x :: xs, hl, h => by
    have h0 := h 0 t x rfl rfl
    obtain ⟨h1, h2⟩ := good_items (ts := ts) (xs := xs) (by simpa using hl) fun i t x ht hx => h (i + 1) t x (by simpa using ht) (by simpa using hx)
    rw [itemLines, List.map_cons, List.flatten_cons, h1, show t ++ ascii! ",\n" = t ++ [44#8, 10#8] from rfl, good_comma h0, pad_printed (clean_comma h0.2), ← comma_shift,
      ← lines_shift, ← printed_append]
    refine ⟨rfl, clean_append (clean_comma ?_) h2⟩
    rw [lines_shift]
    exact clean_shift h0.2
  | [], _ :: _, hl, _ => by cases hl
  | _ :: _, [], hl, _ => by cases hl

theorem good_seq {ts : List Bytes} {xs : List Doc} (hl : ts.length = xs.length) (h : ∀ (i : Nat) (t : Bytes) (x : Doc), ts[i]? = some t → xs[i]? = some x → OnLines t x) :
    OnLines (debugList true ts) (.seq xs) := by
  obtain ⟨h1, h2⟩ := good_items hl h
  rw [debugList, if_pos rfl, h1]
  cases ts with
  | nil =>
    obtain rfl : xs = [] := List.eq_nil_of_length_eq_zero hl.symm
    rw [itemLines]
    refine ⟨?_, ?_⟩
    · rw [Doc.lines, if_pos List.isEmpty_nil, if_pos List.isEmpty_nil, printed_cons, printed_nil]; simp
    · rw [Doc.lines, if_pos List.isEmpty_nil]; exact clean_cons (by simp) (fun _ h => by cases h)
  | cons t ts =>
    cases xs with
    | nil => cases hl
    | cons x xs =>
      refine ⟨?_, ?_⟩
      · rw [Doc.lines, if_neg (by simp), if_neg (by simp), printed_cons, printed_append, printed_cons, printed_nil]; simp
      · rw [Doc.lines, if_neg (by simp)]
        exact clean_cons (by simp) (clean_append h2 (clean_cons (by simp) (fun _ h => by cases h)))

theorem good_parts : ∀ {fs : List (Bytes × Bytes)} {xs : List Doc}, fs.length = xs.length → (∀ f ∈ fs, 10#8 ∉ f.1) →
    (∀ (i : Nat) (f : Bytes × Bytes) (x : Doc), fs[i]? = some f → xs[i]? = some x → OnLines f.2 x) →
    (fs.map fun f => pad true (f.1 ++ ascii! ": " ++ f.2 ++ ascii! ",\n")).flatten = printed 4 (partLines 1 (fs.map (·.1)) xs) ∧ Clean (partLines 1 (fs.map (·.1)) xs)
  | [], [], _, _, _ => by simp only [List.map_nil, partLines]; exact ⟨rfl, fun _ h => by cases h⟩
  | f :: fs, x :: xs, hl, hn, h => by
    have h0 := h 0 f x rfl rfl
    obtain ⟨h1, h2⟩ := good_parts (fs := fs) (xs := xs) (by simpa using hl) (fun f hf => hn f (by simp [hf])) fun i t x ht hx => h (i + 1) t x (by simpa using ht) (by simpa using hx)
    have e : f.1 ++ ascii! ": " ++ f.2 ++ ascii! ",\n" = printed 4 (withName f.1 (withComma (x.lines 0))) := by
      rw [List.append_assoc, show f.2 ++ ascii! ",\n" = f.2 ++ [44#8, 10#8] from rfl, good_comma h0]
      obtain ⟨l, ls, e⟩ := lines_head 0 x
      have : ∃ l ls, withComma (x.lines 0) = (0, l) :: ls := by
        rw [e]
        cases ls with
        | nil => exact ⟨_, _, rfl⟩
        | cons m ls => exact ⟨l, _, by rw [withComma]; simp⟩
      obtain ⟨l, ls, e⟩ := this
      rw [e, withName, printed_cons, printed_cons]
      simp
    have hc : Clean (withName f.1 (withComma (x.lines 0))) := clean_name (hn f (by simp)) (clean_comma h0.2)
    rw [List.map_cons, List.map_cons, List.flatten_cons, h1, e, pad_printed hc, partLines, lines_shift, comma_shift, name_shift, printed_append]
    exact ⟨rfl, clean_append (clean_shift hc) h2⟩
  | [], _ :: _, hl, _, _ => by cases hl
  | _ :: _, [], hl, _, _ => by cases hl

theorem good_record {n : Bytes} {fs : List (Bytes × Bytes)} {xs : List Doc} (hn : 10#8 ∉ n) (hl : fs.length = xs.length) (hf : ∀ f ∈ fs, 10#8 ∉ f.1)
    (h : ∀ (i : Nat) (f : Bytes × Bytes) (x : Doc), fs[i]? = some f → xs[i]? = some x → OnLines f.2 x) :
    OnLines (debugStruct true n fs) (.record n (fs.map (·.1)) xs) := by
  obtain ⟨h1, h2⟩ := good_parts hl hf h
  rw [debugStruct]
  cases fs with
  | nil =>
    refine ⟨?_, ?_⟩
    · rw [Doc.lines, if_pos List.isEmpty_nil, if_pos List.map_nil, printed_cons, printed_nil]; simp
    · rw [Doc.lines, if_pos List.map_nil]; exact clean_cons hn (fun _ h => by cases h)
  | cons f fs =>
    rw [if_neg (by simp), if_pos rfl, h1]
    refine ⟨?_, ?_⟩
    · rw [Doc.lines, if_neg (by simp), printed_cons, printed_append, printed_cons, printed_nil]; simp
    · rw [Doc.lines, if_neg (by simp)]
      exact clean_cons (by simpa using hn) (clean_append h2 (clean_cons (by simp) (fun _ h => by cases h)))

theorem flatAll_eq (xs : List Doc) : flatAll xs = xs.map Doc.flat := by
  induction xs with
  | nil => rfl
  | cons x xs ih => rw [flatAll, ih]; rfl

theorem flat_call (n t : Bytes) (x : Doc) (h : t = x.flat) : debugTuple false n t = (Doc.call n x).flat := by
  rw [Doc.flat, h]; rfl

theorem flat_seq {ts : List Bytes} {xs : List Doc} (h : ts = xs.map Doc.flat) : debugList false ts = (Doc.seq xs).flat := by
  rw [Doc.flat, flatAll_eq, ← h, ← join_eq]; rfl

theorem flat_record {n : Bytes} {fs : List (Bytes × Bytes)} {xs : List Doc} (h : fs.map (·.2) = xs.map Doc.flat) :
    debugStruct false n fs = (Doc.record n (fs.map (·.1)) xs).flat := by
  rw [Doc.flat, flatAll_eq, ← h, ← join_eq, List.zipWith_map, List.zipWith_self, debugStruct]
  cases fs with
  | nil => rfl
  | cons f fs => rw [if_neg (by simp), if_neg (by simp), if_neg (by simp)]

/-! ## Schemas -/

theorem flat_word (w : Bytes) : (Doc.word w).flat = w := by rw [Doc.flat]

theorem indent_eq : ∀ n, printIndent n = List.replicate (2 * n) 32#8
  | 0 => rfl
  | n + 1 => by rw [printIndent, indent_eq n, show 2 * (n + 1) = 2 * n + 1 + 1 by omega]; rfl

theorem repetition_text {r : Repetition} {t : Bytes} (h : RepetitionText r t) : r.display = t := by cases h <;> rfl

theorem physical_text {p : PhysicalType} {x : Doc} (h : PhysicalDoc p x) : p.debug = x.flat := by
  cases h <;> simp [PhysicalType.debug, Doc.flat, decimal_number]

theorem unit_text {u : TimeUnit} {t : Bytes} (h : UnitText u t) : u.debug = t := by cases h <;> rfl

theorem time_text {o : TimeOptions} {x : Doc} (h : TimeDoc o x) : o.debug = x.flat := by
  cases h with
  | mk utc unit u h => cases utc <;> simp [TimeOptions.debug, Doc.flat, flatAll, unit_text h, debugBool]

theorem leaf_text {l : PrimitiveLogicalType} {x : Doc} (h : LeafDoc l x) : l.debug = x.flat := by
  cases h with
  | time o x h => simp [PrimitiveLogicalType.debug, Doc.flat, time_text h]
  | timestamp o x h => simp [PrimitiveLogicalType.debug, Doc.flat, time_text h]
  | decimal p c => simp [PrimitiveLogicalType.debug, DecimalOptions.debug, Doc.flat, flatAll, decimal_number, decimalInt_eq]
  | signed w => simp [PrimitiveLogicalType.debug, IntegerOptions.debug, Doc.flat, decimal_number]
  | unsigned w => simp [PrimitiveLogicalType.debug, IntegerOptions.debug, Doc.flat, decimal_number]
  | _ => simp [PrimitiveLogicalType.debug, Doc.flat]

theorem group_text {l : GroupLogicalType} {x : Doc} (h : GroupDoc l x) : l.debug = x.flat := by
  cases h <;> simp [GroupLogicalType.debug, Doc.flat, flatAll, decimalInt_eq]

theorem logical_text {α : Type} {debug : α → Bytes} {doc : α → Doc → Prop} (hd : ∀ l x, doc l x → debug l = x.flat) {l : Option α} {t : Bytes} (h : LogicalText doc l t) :
    printLogical debug l = t := by
  cases h with
  | none => rfl
  | some l x h => rw [printLogical, hd l x h]

theorem print_lines {d : Nat} {fs : List SField} {ls : List (Nat × Bytes)} (h : SchemaLines d fs ls) : prettyPrintAll fs d = printed 2 ls := by
  induction h with
  | nil d => rw [prettyPrintAll, printed_nil]
  | column d c p l i fs r x y ls hr hp hl _ ih =>
    rw [prettyPrintAll, prettyPrint, ih, printed_cons, repetition_text hr, physical_text hp, logical_text (fun _ _ h => leaf_text h) hl, indent_eq]
    simp
  | group d c gs l fs r y inner ls hr hl _ _ ihg ih =>
    rw [prettyPrintAll, prettyPrint, ih, ihg, printed_cons, printed_append, printed_cons, repetition_text hr, logical_text (fun _ _ h => group_text h) hl, indent_eq]
    simp

theorem repetition_exists (r : Repetition) : ∃ t, RepetitionText r t := by
  cases r
  · exact ⟨_, .required⟩
  · exact ⟨_, .optional⟩
  · exact ⟨_, .repeated⟩

theorem physical_exists (p : PhysicalType) : ∃ x, PhysicalDoc p x := by
  cases p with
  | BOOLEAN => exact ⟨_, .boolean⟩
  | INT32 => exact ⟨_, .int32⟩
  | INT64 => exact ⟨_, .int64⟩
  | INT96 => exact ⟨_, .int96⟩
  | FLOAT => exact ⟨_, .float⟩
  | DOUBLE => exact ⟨_, .double⟩
  | BYTE_ARRAY => exact ⟨_, .byteArray⟩
  | FIXED_LEN_BYTE_ARRAY len => exact ⟨_, .fixed len⟩

theorem time_exists (o : TimeOptions) : ∃ x, TimeDoc o x := by
  obtain ⟨utc, unit⟩ := o
  cases unit
  · exact ⟨_, .mk utc _ _ .millis⟩
  · exact ⟨_, .mk utc _ _ .micros⟩
  · exact ⟨_, .mk utc _ _ .nanos⟩

theorem leaf_exists (l : PrimitiveLogicalType) : ∃ x, LeafDoc l x := by
  cases l with
  | String => exact ⟨_, .string⟩
  | Enum => exact ⟨_, .enum⟩
  | Decimal o => exact ⟨_, .decimal o.precision o.scale⟩
  | Date => exact ⟨_, .date⟩
  | Time o => obtain ⟨x, h⟩ := time_exists o; exact ⟨_, .time o x h⟩
  | Timestamp o => obtain ⟨x, h⟩ := time_exists o; exact ⟨_, .timestamp o x h⟩
  | Interval => exact ⟨_, .interval⟩
  | Integer o =>
    obtain ⟨w, b⟩ := o
    cases b
    · exact ⟨_, .unsigned w⟩
    · exact ⟨_, .signed w⟩
  | Unknown => exact ⟨_, .unknown⟩
  | Json => exact ⟨_, .json⟩
  | Bson => exact ⟨_, .bson⟩
  | UUID => exact ⟨_, .uuid⟩
  | Float16 => exact ⟨_, .float16⟩
  | Geometry => exact ⟨_, .geometry⟩
  | Geography => exact ⟨_, .geography⟩

theorem group_exists (l : GroupLogicalType) : ∃ x, GroupDoc l x := by
  cases l with
  | List => exact ⟨_, .list⟩
  | Map => exact ⟨_, .map⟩
  | MapKeyValue => exact ⟨_, .mapKeyValue⟩
  | Variant v =>
    cases v with
    | none => exact ⟨_, .variant⟩
    | some v => exact ⟨_, .versioned v⟩

theorem logical_exists {α : Type} {doc : α → Doc → Prop} (hd : ∀ l, ∃ x, doc l x) (l : Option α) : ∃ t, LogicalText doc l t := by
  cases l with
  | none => exact ⟨_, .none⟩
  | some l => obtain ⟨x, h⟩ := hd l; exact ⟨_, .some l x h⟩

mutual
theorem lines_before (d : Nat) : ∀ (f : SField) {fs : List SField} {ls : List (Nat × Bytes)}, SchemaLines d fs ls → ∃ ls, SchemaLines d (f :: fs) ls
  | .primitive c p l i, _, _, h => by
    obtain ⟨r, hr⟩ := repetition_exists c.repetition
    obtain ⟨x, hx⟩ := physical_exists p
    obtain ⟨y, hy⟩ := logical_exists leaf_exists l
    exact ⟨_, .column d c p l i _ r x y _ hr hx hy h⟩
  | .group c gs l, _, _, h => by
    obtain ⟨r, hr⟩ := repetition_exists c.repetition
    obtain ⟨y, hy⟩ := logical_exists group_exists l
    obtain ⟨inner, hi⟩ := lines_exist (d + 1) gs
    exact ⟨_, .group d c gs l _ r y inner _ hr hy hi h⟩
theorem lines_exist (d : Nat) : ∀ fs : List SField, ∃ ls, SchemaLines d fs ls
  | [] => ⟨_, .nil d⟩
  | f :: fs => by
    obtain ⟨ls, h⟩ := lines_exist d fs
    exact lines_before d f h
end

theorem print_iff (f : SField) (d : Nat) (t : Bytes) : prettyPrint f d = t ↔ ∃ ls, SchemaLines d [f] ls ∧ t = printed 2 ls := by
  have e : ∀ {ls}, SchemaLines d [f] ls → prettyPrint f d = printed 2 ls := fun h => by
    have := print_lines h
    rwa [prettyPrintAll, prettyPrintAll, List.append_nil] at this
  constructor
  · rintro rfl
    obtain ⟨ls, h⟩ := lines_exist d [f]
    exact ⟨ls, h, e h⟩
  · rintro ⟨ls, h, rfl⟩
    exact e h

theorem head_iff (version : BitVec 32) (rows : BitVec 64) (created : Option Bytes) (t : Bytes) :
    Programs.printHead version rows created = t ↔ ∃ ls, HeadLines version rows created ls ∧ t = printed 2 ls := by
  have e : ∀ {ls}, HeadLines version rows created ls → Programs.printHead version rows created = printed 2 ls := fun h => by
    cases h <;> simp [Programs.printHead, printed_cons, printed_nil, decimalInt_eq]
  constructor
  · rintro rfl
    cases created with
    | none => exact ⟨_, .unknown, e .unknown⟩
    | some x => exact ⟨_, .created x, e (.created x)⟩
  · rintro ⟨ls, h, rfl⟩
    exact e h

end CT.Text
