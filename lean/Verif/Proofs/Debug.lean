import Verif.Spec.Debug
import Verif.Props.Print
import Verif.Proofs.Utf8
/-!
# Proofs about derived `Debug`

The texts with nested padding are rewritten to texts that know their depth (`textAt`).
-/
namespace CT.Debug
open CT CT.Spec CT.Schema CT.Props CT.Props.Print

/-- A new line at a depth -/
def nl (n : Nat) : Bytes := 10#8 :: List.replicate (4 * n) 32#8

/-- How things are put together: `{:?}`, or `{:#?}` at a depth. -/
abbrev Mode := Option Nat

def Mode.next : Mode → Mode
  | .none => .none
  | .some n => .some (n + 1)

/-- between things -/
def sep : Mode → Bytes
  | .none => ascii! ", "
  | .some n => ascii! "," ++ nl (n + 1)

/-- before the first, with a space inside of braces -/
def before (sp : Bytes) : Mode → Bytes
  | .none => sp
  | .some n => nl (n + 1)

/-- behind the last -/
def behind (sp : Bytes) : Mode → Bytes
  | .none => sp
  | .some n => ascii! "," ++ nl n

/-- A struct -/
def structAt (m : Mode) (name : Bytes) (fields : List (Bytes × Bytes)) : Bytes :=
  if fields.isEmpty then name
  else name ++ ascii! " {" ++ before (ascii! " ") m ++ joinTexts (sep m) (fields.map fun f => f.1 ++ ascii! ": " ++ f.2) ++ behind (ascii! " ") m ++ ascii! "}"

/-- A tuple with one field -/
def tupleAt (m : Mode) (name field : Bytes) : Bytes := name ++ ascii! "(" ++ before [] m ++ field ++ behind [] m ++ ascii! ")"

/-- A list -/
def listAt (m : Mode) (es : List Bytes) : Bytes :=
  if es.isEmpty then ascii! "[]" else ascii! "[" ++ before [] m ++ joinTexts (sep m) es ++ behind [] m ++ ascii! "]"

mutual
/-- The text of a value at a depth -/
def textAt (s : DebugStd) (env : List Def) : Mode → Ty → Val → Bytes
  | _, _, .bool b => debugBool b
  | _, _, .i8 x => decimalInt x.toInt
  | _, _, .i16 x => decimalInt x.toInt
  | _, _, .i32 x => decimalInt x.toInt
  | _, _, .i64 x => decimalInt x.toInt
  | _, _, .double x => s.f64 x
  | m, _, .binary bs => listAt m (bs.map fun b => decimal b.toNat)
  | _, _, .string bs => debugStr s bs
  | m, _, .encodingSet mask => listAt m ((encodingSetIter mask).map fun x => tupleAt m.next (ascii! "Encoding") (decimalInt x.toInt))
  | m, .list t, .list vs => listAt m (textsAt s env m.next t vs)
  | _, _, .none => ascii! "None"
  | m, .option t, .some v => tupleAt m (ascii! "Some") (textAt s env m.next t v)
  | m, .box t, .box v => textAt s env m t v
  | m, .rc t, .rc _ v => textAt s env m t v
  | m, .named k, .enum x =>
    match env[k]? with
    | some (.enum name) => tupleAt m (identText name) (decimalInt x.toInt)
    | _ => []
  | m, .named k, .struct vs =>
    match env[k]? with
    | some (.struct name fs) => structAt m (identText name) (fieldsAt s env m.next fs vs)
    | _ => []
  | m, .named k, .union i v =>
    match env[k]? with
    | some (.union _ us) =>
      match us[i]? with
      | some u => tupleAt m (identText u.name) (textAt s env m.next u.ty v)
      | none => []
    | _ => []
  | _, _, _ => []
def textsAt (s : DebugStd) (env : List Def) (m : Mode) (t : Ty) : List Val → List Bytes
  | [] => []
  | v :: vs => textAt s env m t v :: textsAt s env m t vs
def fieldsAt (s : DebugStd) (env : List Def) (m : Mode) : List Field → List Val → List (Bytes × Bytes)
  | f :: fs, v :: vs => (identText f.name, textAt s env m f.rustTy v) :: fieldsAt s env m fs vs
  | _, _ => []
end

/-! ## Padding -/

/-- not empty, not ending with a line feed -/
def Solid (x : Bytes) : Prop := ∃ b, x.getLast? = some b ∧ b ≠ 10#8

theorem Solid.append {x y : Bytes} (h : Solid y) : Solid (x ++ y) := by
  obtain ⟨b, hb, hn⟩ := h
  exact ⟨b, by rw [List.getLast?_append, hb]; rfl, hn⟩

theorem Solid.ne {x : Bytes} (h : Solid x) : x ≠ [] := by
  obtain ⟨b, hb, _⟩ := h
  rintro rfl
  cases hb

theorem Solid.of_noLf {x : Bytes} (hx : x ≠ []) (h : ∀ b ∈ x, b ≠ 10#8) : Solid x :=
  ⟨x.getLast hx, List.getLast?_eq_some_getLast hx, h _ (List.getLast_mem hx)⟩

theorem pad_true {x : Bytes} (h : x ≠ []) : pad true x = ascii! "    " ++ pad false x := by
  cases x with
  | nil => exact absurd rfl h
  | cons b bs => simp [pad]

/-- The state behind a text -/
def lineStart (b : Bool) (x : Bytes) : Bool :=
  match x.getLast? with
  | none => b
  | some c => c == 10#8

theorem pad_append (nl : Bool) (x y : Bytes) : pad nl (x ++ y) = pad nl x ++ pad (lineStart nl x) y := by
  induction x generalizing nl with
  | nil => rfl
  | cons b bs ih =>
    rw [List.cons_append, pad, pad, ih]
    simp only [List.append_assoc, List.cons_append]
    congr 3
    cases bs with
    | nil => simp [lineStart]
    | cons c cs => simp only [lineStart, List.getLast?_cons_cons]; cases h : (c :: cs).getLast? <;> simp_all

theorem pad_solid {x : Bytes} (h : Solid x) (y : Bytes) : pad false (x ++ y) = pad false x ++ pad false y := by
  rw [pad_append]
  obtain ⟨b, hb, hn⟩ := h
  simp [lineStart, hb, show (b == 10#8) = false by simpa using hn]

theorem pad_noLf {x : Bytes} (h : ∀ b ∈ x, b ≠ 10#8) : pad false x = x := by
  induction x with
  | nil => rfl
  | cons b bs ih =>
    rw [pad, show (b == 10#8) = false by simpa using h b (by simp), ih fun c hc => h c (by simp [hc])]
    rfl

theorem pad_line {x : Bytes} (h : ∀ b ∈ x, b ≠ 10#8) (y : Bytes) : pad false (x ++ y) = x ++ pad false y := by
  by_cases hx : x = []
  · subst hx; rfl
  · rw [pad_solid (.of_noLf hx h), pad_noLf h]

theorem pad_nl (n : Nat) {y : Bytes} (h : y ≠ []) : pad false (nl n ++ y) = nl (n + 1) ++ pad false y := by
  rw [nl, List.cons_append, pad]
  simp only [Bool.false_eq_true, if_false, List.nil_append, beq_self_eq_true]
  rw [pad_true (by simp [h]), pad_line (by intro b hb; rw [List.mem_replicate] at hb; rw [hb.2]; decide), nl, show 4 * (n + 1) = 4 + 4 * n by omega,
    ← List.replicate_append_replicate]
  simp [List.replicate]

theorem joinTexts_cons (p x y : Bytes) (xs : List Bytes) : joinTexts p (x :: y :: xs) = x ++ p ++ joinTexts p (y :: xs) := rfl

theorem Solid.join {p : Bytes} : ∀ {xs : List Bytes}, xs ≠ [] → (∀ x ∈ xs, Solid x) → Solid (joinTexts p xs)
  | [], h, _ => absurd rfl h
  | [x], _, h => h x (by simp)
  | x :: y :: xs, _, h => by
    rw [joinTexts_cons]
    exact .append (Solid.join (by simp) fun z hz => h z (by simp [hz]))

theorem pad_join (n : Nat) : ∀ {xs : List Bytes}, (∀ x ∈ xs, Solid x) → pad false (joinTexts (sep (some n)) xs) = joinTexts (sep (some (n + 1))) (xs.map (pad false))
  | [], _ => rfl
  | [x], _ => rfl
  | x :: y :: xs, h => by
    have ih := pad_join n (xs := y :: xs) fun z hz => h z (by simp [hz])
    have hs := Solid.join (p := sep (some n)) (xs := y :: xs) (by simp) fun z hz => h z (by simp [hz])
    rw [joinTexts_cons, List.map_cons, List.map_cons, joinTexts_cons, ← List.map_cons (f := pad false), ← ih]
    revert hs
    generalize joinTexts (sep (some n)) (y :: xs) = J
    intro hs
    rw [List.append_assoc, pad_solid (h x (by simp)), sep, List.append_assoc, pad_line (by decide), pad_nl _ hs.ne]
    simp [sep]

/-- The three kinds of brackets -/
theorem pad_group {n : Nat} {o c : Bytes} (ho : ∀ b ∈ o, b ≠ 10#8) (hc : ∀ b ∈ c, b ≠ 10#8) (hne : c ≠ []) {xs : List Bytes} (hx : xs ≠ []) (h : ∀ x ∈ xs, Solid x) :
    pad false (o ++ (nl (n + 1) ++ (joinTexts (sep (some n)) xs ++ (ascii! "," ++ nl n ++ c)))) =
      o ++ (nl (n + 2) ++ (joinTexts (sep (some (n + 1))) (xs.map (pad false)) ++ (ascii! "," ++ nl (n + 1) ++ c))) := by
  have hs := Solid.join (p := sep (some n)) hx h
  rw [pad_line ho, pad_nl _ (by simp [hs.ne]), pad_solid hs, pad_join n h, List.append_assoc, pad_line (by decide), pad_nl _ hne, pad_noLf hc]
  simp

/-- A padded list of things, each behind the previous one -/
theorem pad_lines {xs : List Bytes} (hx : xs ≠ []) (h : ∀ x ∈ xs, Solid x) :
    10#8 :: (xs.map fun e => pad true (e ++ ascii! ",\n")).flatten = nl 1 ++ joinTexts (sep (some 0)) (xs.map (pad false)) ++ ascii! ",\n" := by
  have one : ∀ x, Solid x → pad true (x ++ ascii! ",\n") = ascii! "    " ++ pad false x ++ ascii! ",\n" := fun x hs => by
    rw [pad_true (by simp), pad_solid hs, List.append_assoc]; rfl
  induction xs with
  | nil => exact absurd rfl hx
  | cons x xs ih =>
    rw [List.map_cons, List.flatten_cons, one x (h x (by simp))]
    cases xs with
    | nil => simp [joinTexts, nl, List.replicate]
    | cons y ys =>
      have := ih (by simp) fun z hz => h z (by simp [hz])
      rw [show joinTexts (sep (some 0)) (List.map (pad false) (x :: y :: ys)) = pad false x ++ sep (some 0) ++ joinTexts (sep (some 0)) (List.map (pad false) (y :: ys)) from rfl]
      revert this
      generalize joinTexts (sep (some 0)) (List.map (pad false) (y :: ys)) = J
      intro this
      have e : ∀ z : Bytes, ascii! "    " ++ pad false x ++ ascii! ",\n" ++ z = ascii! "    " ++ pad false x ++ (ascii! "," ++ 10#8 :: z) := by simp
      rw [e, this]
      simp [sep, nl, List.replicate]

theorem debugList_true {es : List Bytes} (h : ∀ x ∈ es, Solid x) : debugList true es = listAt (some 0) (es.map (pad false)) := by
  cases es with
  | nil => rfl
  | cons x xs =>
    have := pad_lines (xs := x :: xs) (by simp) h
    simp only [debugList, listAt, if_true, List.isEmpty_cons, List.map_cons, Bool.false_eq_true, if_false] at this ⊢
    rw [show ∀ z, ascii! "[" ++ ascii! "\n" ++ z = ascii! "[" ++ 10#8 :: z from fun z => rfl, this]
    simp [before, behind, nl]

theorem debugList_false (es : List Bytes) : debugList false es = listAt none es := by
  cases es with
  | nil => rfl
  | cons x xs => simp [debugList, listAt, before, behind, sep]

theorem debugTuple_true {name x : Bytes} (h : Solid x) : debugTuple true name x = tupleAt (some 0) name (pad false x) := by
  have := pad_lines (xs := [x]) (by simp) (by simpa using h)
  simp only [List.map_cons, List.map_nil, List.flatten_cons, List.flatten_nil, List.append_nil, joinTexts] at this
  simp only [debugTuple, tupleAt, if_true]
  rw [show ∀ z, name ++ ascii! "(\n" ++ z = name ++ ascii! "(" ++ 10#8 :: z from fun z => by simp, this]
  simp [before, behind, nl]

theorem debugTuple_false (name x : Bytes) : debugTuple false name x = tupleAt none name x := by
  simp [debugTuple, tupleAt, before, behind]

theorem field_solid {f : Bytes × Bytes} (h : Solid f.2) : Solid (f.1 ++ ascii! ": " ++ f.2) := .append h

theorem field_pad {f : Bytes × Bytes} (h : ∀ b ∈ f.1, b ≠ 10#8) : pad false (f.1 ++ ascii! ": " ++ f.2) = f.1 ++ ascii! ": " ++ pad false f.2 := by
  rw [List.append_assoc, pad_line h, pad_line (by decide), List.append_assoc]

theorem debugStruct_true {name : Bytes} {fs : List (Bytes × Bytes)} (hn : ∀ f ∈ fs, ∀ b ∈ f.1, b ≠ 10#8) (h : ∀ f ∈ fs, Solid f.2) :
    debugStruct true name fs = structAt (some 0) name (fs.map fun f => (f.1, pad false f.2)) := by
  by_cases he : fs = []
  · subst he; rfl
  · have := pad_lines (xs := fs.map fun f => f.1 ++ ascii! ": " ++ f.2) (by simpa using he) (by
      intro x hx; obtain ⟨f, hf, rfl⟩ := List.mem_map.1 hx; exact field_solid (h f hf))
    rw [List.map_map, List.map_map] at this
    have e : (fs.map ((pad false) ∘ fun f => f.1 ++ ascii! ": " ++ f.2)) = fs.map fun f => f.1 ++ ascii! ": " ++ pad false f.2 :=
      List.map_congr_left fun f hf => field_pad (hn f hf)
    rw [e] at this
    simp only [debugStruct, structAt, List.isEmpty_iff, he, List.map_eq_nil_iff, if_false, if_true, List.map_map, Function.comp_def] at this ⊢
    rw [show ∀ z, name ++ ascii! " {\n" ++ z = name ++ ascii! " {" ++ 10#8 :: z from fun z => by simp, this]
    simp [before, behind, nl]

theorem debugStruct_false (name : Bytes) (fs : List (Bytes × Bytes)) : debugStruct false name fs = structAt none name fs := by
  unfold debugStruct structAt
  split
  · rfl
  · simp [before, behind, sep]

theorem listAt_solid (m : Mode) (es : List Bytes) : Solid (listAt m es) := by
  unfold listAt
  split
  · exact .of_noLf (by decide) (by decide)
  · exact .append (.of_noLf (by decide) (by decide))

theorem tupleAt_solid (m : Mode) (name x : Bytes) : Solid (tupleAt m name x) := .append (.of_noLf (by decide) (by decide))

theorem structAt_solid (m : Mode) {name : Bytes} (hn : Solid name) (fs : List (Bytes × Bytes)) : Solid (structAt m name fs) := by
  unfold structAt
  split
  · exact hn
  · exact .append (.of_noLf (by decide) (by decide))

theorem listAt_pad (n : Nat) {es : List Bytes} (h : ∀ x ∈ es, Solid x) : pad false (listAt (some n) es) = listAt (some (n + 1)) (es.map (pad false)) := by
  by_cases he : es = []
  · subst he; rfl
  · have := pad_group (n := n) (o := ascii! "[") (c := ascii! "]") (by decide) (by decide) (by decide) he h
    simpa only [listAt, List.isEmpty_iff, he, List.map_eq_nil_iff, if_false, before, behind, List.append_assoc] using this

theorem tupleAt_pad (n : Nat) {name x : Bytes} (hn : ∀ b ∈ name, b ≠ 10#8) (h : Solid x) : pad false (tupleAt (some n) name x) = tupleAt (some (n + 1)) name (pad false x) := by
  have := pad_group (n := n) (o := name ++ ascii! "(") (c := ascii! ")") (xs := [x])
    (by intro b hb; rcases List.mem_append.1 hb with hb | hb; (exact hn b hb); (simp at hb; rintro rfl; revert hb; decide)) (by decide) (by decide) (by simp) (by simpa using h)
  simpa only [tupleAt, before, behind, List.append_assoc, joinTexts, List.map_cons, List.map_nil] using this

theorem structAt_pad (n : Nat) {name : Bytes} (hn : ∀ b ∈ name, b ≠ 10#8) {fs : List (Bytes × Bytes)} (hf : ∀ f ∈ fs, ∀ b ∈ f.1, b ≠ 10#8) (h : ∀ f ∈ fs, Solid f.2) :
    pad false (structAt (some n) name fs) = structAt (some (n + 1)) name (fs.map fun f => (f.1, pad false f.2)) := by
  by_cases he : fs = []
  · subst he; exact pad_noLf hn
  · have := pad_group (n := n) (o := name ++ ascii! " {") (c := ascii! "}") (xs := fs.map fun f => f.1 ++ ascii! ": " ++ f.2)
      (by intro b hb; rcases List.mem_append.1 hb with hb | hb; (exact hn b hb); (simp at hb; rintro rfl; revert hb; decide)) (by decide) (by decide) (by simpa using he) (by
      intro x hx; obtain ⟨f, hf, rfl⟩ := List.mem_map.1 hx; exact field_solid (h f hf))
    rw [List.map_map] at this
    have e : (fs.map ((pad false) ∘ fun f => f.1 ++ ascii! ": " ++ f.2)) = fs.map fun f => f.1 ++ ascii! ": " ++ pad false f.2 :=
      List.map_congr_left fun f hf' => field_pad (hf f hf')
    rw [e] at this
    simpa only [structAt, List.isEmpty_iff, he, List.map_eq_nil_iff, if_false, before, behind, List.append_assoc, List.map_map, Function.comp_def] using this

/-! ## Strings -/

theorem nextCodePoint_utf8 {n : Nat} (h : IsScalar n) (t : Bytes) : nextCodePoint (utf8 n ++ t) = some (n, utf8 n, t) := by
  have hn : n < 0x110000 := by unfold IsScalar at h; omega
  unfold utf8
  split
  · simp only [List.cons_append, List.nil_append, nextCodePoint, BitVec.toNat_ofNat]
    rw [if_pos (by omega)]
    simp only [Option.some.injEq, Prod.mk.injEq, and_true]; omega
  · split
    · simp only [List.cons_append, List.nil_append, nextCodePoint, BitVec.toNat_ofNat]
      rw [if_neg (by omega), if_pos (by omega)]
      simp only [Option.some.injEq, Prod.mk.injEq, and_true]; omega
    · split
      · simp only [List.cons_append, List.nil_append, nextCodePoint, BitVec.toNat_ofNat]
        rw [if_neg (by omega), if_neg (by omega), if_pos (by omega)]
        simp only [Option.some.injEq, Prod.mk.injEq, and_true]; omega
      · simp only [List.cons_append, List.nil_append, nextCodePoint, BitVec.toNat_ofNat]
        rw [if_neg (by omega), if_neg (by omega), if_neg (by omega)]
        simp only [Option.some.injEq, Prod.mk.injEq, and_true]; omega

theorem utf8_ne (n : Nat) : utf8 n ≠ [] := by
  unfold utf8
  split
  · simp
  · split
    · simp
    · split <;> simp

theorem escapeAll_utf8 (s : DebugStd) {ns : List Nat} (h : ∀ n ∈ ns, IsScalar n) : ∀ fuel, (ns.flatMap utf8).length ≤ fuel →
    escapeAll s fuel (ns.flatMap utf8) = ns.flatMap fun n => escapeDebug s n (utf8 n) := by
  induction ns with
  | nil => intro fuel _; cases fuel <;> simp [escapeAll, nextCodePoint]
  | cons n ns ih =>
    intro fuel hf
    have hl : 0 < (utf8 n).length := List.length_pos_iff.2 (utf8_ne n)
    rw [List.flatMap_cons, List.length_append] at hf
    cases fuel with
    | zero => omega
    | succ fuel =>
      rw [List.flatMap_cons, escapeAll, nextCodePoint_utf8 (h n (by simp))]
      simp only []
      rw [ih (fun m hm => h m (by simp [hm])) fuel (by omega), List.flatMap_cons]

/-- What a string shows -/
theorem debugStr_eq (s : DebugStd) {bs : Bytes} (h : utf8Valid bs = true) : ∃ ns : List Nat, (∀ n ∈ ns, IsScalar n) ∧ bs = ns.flatMap utf8 ∧
    debugStr s bs = ascii! "\"" ++ (ns.flatMap fun n => escapeDebug s n (utf8 n)) ++ ascii! "\"" := by
  obtain ⟨ns, hs, rfl⟩ := (utf8Valid_iff bs).1 h
  exact ⟨ns, hs, rfl, by rw [debugStr, escapeAll_utf8 s hs _ (Nat.le_refl _)]⟩

/-- The bytes of a character other than an ASCII character are not ASCII. -/
theorem utf8_bytes {n : Nat} (h : IsScalar n) : (n < 128 ∧ utf8 n = [BitVec.ofNat 8 n]) ∨ (128 ≤ n ∧ ∀ b ∈ utf8 n, 128 ≤ b.toNat) := by
  have hn : n < 0x110000 := by unfold IsScalar at h; omega
  unfold utf8
  split
  · exact .inl ⟨by omega, rfl⟩
  · refine .inr ⟨by omega, ?_⟩
    repeat' split
    all_goals
      simp only [List.mem_cons, List.not_mem_nil, or_false]
      rintro b (rfl | rfl | rfl | rfl)
    all_goals
      simp only [BitVec.toNat_ofNat]
      omega

theorem hexF_bytes : ∀ fuel n, ∀ b ∈ hexF fuel n, (48 ≤ b.toNat ∧ b.toNat ≤ 57) ∨ (97 ≤ b.toNat ∧ b.toNat ≤ 102)
  | 0, _, b, h => by simp [hexF] at h
  | fuel + 1, n, b, h => by
    rw [hexF] at h
    rcases List.mem_append.1 h with h | h
    · split at h
      · simp at h
      · exact hexF_bytes fuel _ b h
    · obtain rfl : b = _ := by simpa using h
      rw [BitVec.toNat_ofNat]
      split <;> omega

theorem hex_bytes (n : Nat) : ∀ b ∈ hex n, (48 ≤ b.toNat ∧ b.toNat ≤ 57) ∨ (97 ≤ b.toNat ∧ b.toNat ≤ 102) := hexF_bytes _ n

theorem escape_noLf (s : DebugStd) {n : Nat} (h : IsScalar n) : ∀ b ∈ escapeDebug s n (utf8 n), b ≠ 10#8 := by
  unfold escapeDebug
  iterate 6 (split; · decide)
  split
  · rcases utf8_bytes h with ⟨h1, h2⟩ | ⟨h1, h2⟩
    · rw [h2]
      intro b hb
      obtain rfl : b = _ := by simpa using hb
      intro he
      have := congrArg BitVec.toNat he
      rw [BitVec.toNat_ofNat] at this
      have : n % 256 = 10 := by simpa using this
      omega
    · rintro b hb rfl
      exact absurd (h2 _ hb) (by decide)
  · refine forall_append (forall_append (by decide) ?_) (by decide)
    rintro b hb rfl
    exact absurd (hex_bytes n _ hb) (by decide)

theorem debugStr_noLf (s : DebugStd) {bs : Bytes} (h : utf8Valid bs = true) : ∀ b ∈ debugStr s bs, b ≠ 10#8 := by
  obtain ⟨ns, hs, rfl, he⟩ := debugStr_eq s h
  rw [he]
  refine forall_append (forall_append (by decide) ?_) (by decide)
  intro b hb
  obtain ⟨n, hn, hb⟩ := List.mem_flatMap.1 hb
  exact escape_noLf s (hs n hn) b hb

/-! ## Depth -/

theorem ident_noLf {bs : Bytes} (h : IdentBytes bs) : ∀ b ∈ bs, b ≠ 10#8 := by
  rintro b hb rfl
  exact absurd (h.2 _ hb) (by decide)

theorem ident_solid {bs : Bytes} (h : IdentBytes bs) : Solid bs := .of_noLf h.1 (ident_noLf h)

theorem decimal_solid (n : Nat) : Solid (decimal n) := .of_noLf (decimal_ne_nil n) (noLf_of_visible (decimal_visible n))

theorem decimalInt_ne (i : Int) : decimalInt i ≠ [] := by
  unfold decimalInt; split <;> simp [decimal_ne_nil]

theorem decimalInt_noLf (i : Int) : ∀ b ∈ decimalInt i, b ≠ 10#8 := noLf_of_visible (decimalInt_visible i)

theorem decimalInt_solid (i : Int) : Solid (decimalInt i) := .of_noLf (decimalInt_ne i) (decimalInt_noLf i)

variable {s : DebugStd} {env : List Def}

theorem f64_noLf (hs : StdOk s) (x : BitVec 64) : ∀ b ∈ s.f64 x, b ≠ 10#8 := by
  rintro b hb rfl
  exact absurd (hs.bytes x _ hb) (by decide)

theorem textsAt_eq (m : Mode) (t : Ty) (vs : List Val) : textsAt s env m t vs = vs.map (textAt s env m t) := by
  induction vs with
  | nil => rfl
  | cons v vs ih => rw [textsAt, ih]; rfl

theorem debugVals_eq (alt : Bool) (t : Ty) (vs : List Val) : debugVals s env alt t vs = vs.map (debugVal s env alt t) := by
  induction vs with
  | nil => rfl
  | cons v vs ih => rw [debugVals, ih]; rfl

theorem mem_fieldsAt {m : Mode} {fs : List Field} {vs : List Val} {p : Bytes × Bytes} (h : p ∈ fieldsAt s env m fs vs) :
    ∃ (i : Nat) (f : Field) (v : Val), fs[i]? = some f ∧ vs[i]? = some v ∧ p = (identText f.name, textAt s env m f.rustTy v) := by
  induction fs generalizing vs with
  | nil => simp [fieldsAt] at h
  | cons f fs ih =>
    cases vs with
    | nil => simp [fieldsAt] at h
    | cons v vs =>
      rw [fieldsAt] at h
      rcases List.mem_cons.1 h with rfl | h
      · exact ⟨0, f, v, rfl, rfl, rfl⟩
      · obtain ⟨i, g, w, h1, h2, h3⟩ := ih h
        exact ⟨i + 1, g, w, by simpa using h1, by simpa using h2, h3⟩

theorem fieldsAt_congr {m m' : Mode} {g : Bytes → Bytes} {fs : List Field} {vs : List Val}
    (h : ∀ (i : Nat) (f : Field) (v : Val), fs[i]? = some f → vs[i]? = some v → g (textAt s env m f.rustTy v) = textAt s env m' f.rustTy v) :
    (fieldsAt s env m fs vs).map (fun f => (f.1, g f.2)) = fieldsAt s env m' fs vs := by
  induction fs generalizing vs with
  | nil => simp [fieldsAt]
  | cons f fs ih =>
    cases vs with
    | nil => simp [fieldsAt]
    | cons v vs =>
      rw [fieldsAt, fieldsAt, List.map_cons, h 0 f v rfl rfl, ih fun i f v h1 h2 => h (i + 1) f v (by simpa using h1) (by simpa using h2)]

theorem debugFields_congr {m : Mode} {alt : Bool} {fs : List Field} {vs : List Val}
    (h : ∀ (i : Nat) (f : Field) (v : Val), fs[i]? = some f → vs[i]? = some v → debugVal s env alt f.rustTy v = textAt s env m f.rustTy v) :
    debugFields s env alt fs vs = fieldsAt s env m fs vs := by
  induction fs generalizing vs with
  | nil => simp [fieldsAt, debugFields]
  | cons f fs ih =>
    cases vs with
    | nil => simp [fieldsAt, debugFields]
    | cons v vs =>
      rw [fieldsAt, debugFields, h 0 f v rfl rfl, ih fun i f v h1 h2 => h (i + 1) f v (by simpa using h1) (by simpa using h2)]

/-- What holds of the text of every value -/
structure Deep (s : DebugStd) (env : List Def) (v : Val) (t : Ty) : Prop where
  solid : ∀ m, Solid (textAt s env m t v)
  deeper : ∀ n, pad false (textAt s env (some n) t v) = textAt s env (some (n + 1)) t v
  flat : debugVal s env false t v = textAt s env none t v
  top : debugVal s env true t v = textAt s env (some 0) t v

theorem Deep.line {v : Val} {t : Ty} {x : Bytes} (h1 : ∀ m, textAt s env m t v = x) (h2 : ∀ alt, debugVal s env alt t v = x) (hx : x ≠ []) (hl : ∀ b ∈ x, b ≠ 10#8) :
    Deep s env v t :=
  ⟨fun m => by rw [h1]; exact .of_noLf hx hl, fun n => by rw [h1, h1]; exact pad_noLf hl, by rw [h1, h2], by rw [h1, h2]⟩

theorem deep (hs : StdOk s) (hn : ∀ d ∈ env, DefNamesOk d) {v : Val} {t : Ty} (hv : HasTy env v t) : Deep s env v t := by
  have named : ∀ {k : Nat} {d : Def}, env[k]? = some d → DefNamesOk d := fun h => hn _ (List.mem_of_getElem? h)
  induction hv with
  | bool b => exact .line (fun _ => by rw [textAt]) (fun _ => by rw [debugVal]) (by cases b <;> decide) (by cases b <;> decide)
  | i8 x => exact .line (fun _ => by rw [textAt]) (fun _ => by rw [debugVal]) (decimalInt_ne _) (decimalInt_noLf _)
  | i16 x => exact .line (fun _ => by rw [textAt]) (fun _ => by rw [debugVal]) (decimalInt_ne _) (decimalInt_noLf _)
  | i32 x => exact .line (fun _ => by rw [textAt]) (fun _ => by rw [debugVal]) (decimalInt_ne _) (decimalInt_noLf _)
  | i64 x => exact .line (fun _ => by rw [textAt]) (fun _ => by rw [debugVal]) (decimalInt_ne _) (decimalInt_noLf _)
  | double x => exact .line (fun _ => by rw [textAt]) (fun _ => by rw [debugVal]) (hs.ne x) (f64_noLf hs x)
  | string bs h => exact .line (fun _ => by rw [textAt]) (fun _ => by rw [debugVal]) (by simp [debugStr]) (debugStr_noLf s h)
  | none t => exact .line (fun _ => by rw [textAt]) (fun _ => by rw [debugVal]) (by decide) (by decide)
  | binary bs =>
    have hd : ∀ x ∈ bs.map (fun b => decimal b.toNat), Solid x := by
      intro x hx; obtain ⟨b, _, rfl⟩ := List.mem_map.1 hx; exact decimal_solid _
    have he : (bs.map (fun b => decimal b.toNat)).map (pad false) = bs.map fun b => decimal b.toNat := by
      rw [List.map_map]
      exact List.map_congr_left fun b _ => pad_noLf (noLf_of_visible (decimal_visible _))
    refine ⟨fun m => by rw [textAt]; exact listAt_solid _ _, fun n => ?_, ?_, ?_⟩
    · rw [textAt, textAt, listAt_pad n hd, he]
    · rw [textAt, debugVal, debugList_false]
    · rw [textAt, debugVal, debugList_true hd, he]
  | encodingSet mask h =>
    have hd : ∀ m, ∀ x ∈ (encodingSetIter mask).map (fun x => tupleAt m (ascii! "Encoding") (decimalInt x.toInt)), Solid x := by
      intro m x hx; obtain ⟨b, _, rfl⟩ := List.mem_map.1 hx; exact tupleAt_solid _ _ _
    have he : ∀ n, ((encodingSetIter mask).map (fun x => tupleAt (some n) (ascii! "Encoding") (decimalInt x.toInt))).map (pad false) =
        (encodingSetIter mask).map fun x => tupleAt (some (n + 1)) (ascii! "Encoding") (decimalInt x.toInt) := by
      intro n
      rw [List.map_map]
      exact List.map_congr_left fun b _ => by
        rw [Function.comp, tupleAt_pad n (by decide) (decimalInt_solid _), pad_noLf (decimalInt_noLf _)]
    refine ⟨fun m => by rw [textAt]; exact listAt_solid _ _, fun n => ?_, ?_, ?_⟩
    · rw [textAt, textAt, listAt_pad n (hd _)]
      simp only [Mode.next]
      rw [he]
    · rw [textAt, debugVal, debugList_false]
      simp only [debugTuple_false, Mode.next]
    · have : (encodingSetIter mask).map (fun x => debugTuple true (ascii! "Encoding") (decimalInt x.toInt)) =
          (encodingSetIter mask).map fun x => tupleAt (some 0) (ascii! "Encoding") (decimalInt x.toInt) :=
        List.map_congr_left fun b _ => by rw [debugTuple_true (decimalInt_solid _), pad_noLf (decimalInt_noLf _)]
      rw [textAt, debugVal, this, debugList_true (hd _)]
      simp only [Mode.next]
      rw [he]
  | list t vs h ih =>
    have hd : ∀ m, ∀ x ∈ vs.map (textAt s env m t), Solid x := by
      intro m x hx; obtain ⟨b, hb, rfl⟩ := List.mem_map.1 hx; exact (ih b hb).solid m
    have he : ∀ n, (vs.map (textAt s env (some n) t)).map (pad false) = vs.map (textAt s env (some (n + 1)) t) := by
      intro n
      rw [List.map_map]
      exact List.map_congr_left fun b hb => (ih b hb).deeper n
    refine ⟨fun m => by rw [textAt]; exact listAt_solid _ _, fun n => ?_, ?_, ?_⟩
    · rw [textAt, textAt, textsAt_eq, textsAt_eq, listAt_pad n (hd _)]
      simp only [Mode.next]
      rw [he]
    · rw [textAt, debugVal, debugList_false, textsAt_eq, debugVals_eq]
      congr 1
      exact List.map_congr_left fun b hb => (ih b hb).flat
    · have : vs.map (debugVal s env true t) = vs.map (textAt s env (some 0) t) := List.map_congr_left fun b hb => (ih b hb).top
      rw [textAt, debugVal, textsAt_eq, debugVals_eq, this, debugList_true (hd _)]
      simp only [Mode.next]
      rw [he]
  | some t v h ih =>
    refine ⟨fun m => by rw [textAt]; exact tupleAt_solid _ _ _, fun n => ?_, ?_, ?_⟩
    · rw [textAt, textAt, tupleAt_pad n (by decide) (ih.solid _)]
      simp only [Mode.next]
      rw [ih.deeper]
    · rw [textAt, debugVal, debugTuple_false, ih.flat]; rfl
    · rw [textAt, debugVal, ih.top, debugTuple_true (ih.solid _), ih.deeper]; rfl
  | box t v h ih =>
    exact ⟨fun m => by rw [textAt]; exact ih.solid m, fun n => by rw [textAt, textAt, ih.deeper], by rw [textAt, debugVal, ih.flat], by rw [textAt, debugVal, ih.top]⟩
  | rc t sh v h ih =>
    exact ⟨fun m => by rw [textAt]; exact ih.solid m, fun n => by rw [textAt, textAt, ih.deeper], by rw [textAt, debugVal, ih.flat], by rw [textAt, debugVal, ih.top]⟩
  | enum k name x hk =>
    have hI : IdentBytes (identText name) := named hk
    refine ⟨fun m => by rw [textAt, hk]; exact tupleAt_solid _ _ _, fun n => ?_, ?_, ?_⟩
    · rw [textAt, textAt, hk]
      simp only []
      rw [tupleAt_pad n (ident_noLf hI) (decimalInt_solid _), pad_noLf (decimalInt_noLf _)]
    · rw [textAt, debugVal, hk]
      exact debugTuple_false _ _
    · rw [textAt, debugVal, hk]
      simp only []
      rw [debugTuple_true (decimalInt_solid _), pad_noLf (decimalInt_noLf _)]
  | union k name us i u v hk hu h ih =>
    have hI : IdentBytes (identText u.name) := (named hk).2.1 u (List.mem_of_getElem? hu)
    refine ⟨fun m => by rw [textAt, hk]; simp only []; rw [hu]; exact tupleAt_solid _ _ _, fun n => ?_, ?_, ?_⟩
    · rw [textAt, textAt, hk]
      simp only []
      rw [hu]
      simp only [Mode.next]
      rw [tupleAt_pad n (ident_noLf hI) (ih.solid _), ih.deeper]
    · rw [textAt, debugVal, hk]
      simp only []
      rw [hu]
      simp only []
      rw [debugTuple_false, ih.flat]; rfl
    · rw [textAt, debugVal, hk]
      simp only []
      rw [hu]
      simp only []
      rw [ih.top, debugTuple_true (ih.solid _), ih.deeper]; rfl
  | struct k name fs vs hk hl h ih =>
    have hI := named hk
    have hf : ∀ m, ∀ f ∈ fieldsAt s env m fs vs, ∀ b ∈ f.1, b ≠ 10#8 := by
      intro m f hf
      obtain ⟨i, g, v, h1, h2, rfl⟩ := mem_fieldsAt hf
      exact ident_noLf (hI.2 g (List.mem_of_getElem? h1))
    have hd : ∀ m, ∀ f ∈ fieldsAt s env m fs vs, Solid f.2 := by
      intro m f hf
      obtain ⟨i, g, v, h1, h2, rfl⟩ := mem_fieldsAt hf
      exact (ih i g v h1 h2).solid m
    refine ⟨fun m => by rw [textAt, hk]; exact structAt_solid _ (ident_solid hI.1) _, fun n => ?_, ?_, ?_⟩
    · rw [textAt, textAt, hk]
      simp only [Mode.next]
      rw [structAt_pad n (ident_noLf hI.1) (hf _) (hd _), fieldsAt_congr fun i f v h1 h2 => (ih i f v h1 h2).deeper _]
    · rw [textAt, debugVal, hk]
      simp only [Mode.next]
      rw [debugStruct_false, debugFields_congr fun i f v h1 h2 => (ih i f v h1 h2).flat]
    · rw [textAt, debugVal, hk]
      simp only [Mode.next]
      rw [debugFields_congr fun i f v h1 h2 => (ih i f v h1 h2).top, debugStruct_true (hf _) (hd _), fieldsAt_congr fun i f v h1 h2 => (ih i f v h1 h2).deeper _]

end CT.Debug
