import Verif.Model.GeneratorCode
import Verif.Spec.GeneratorCode
import Verif.Props.ThriftDocument
import Verif.Props.Macros
/-! # C87: the generator and the macros make the same of a document -/
namespace CT.Props
open CT.Gen CT.Gen.Spec CT.Macro CT.Macro.Spec

/-! ## Tokens -/

/-- Several tokens without braces -/
def leaves : List Tok → Option (List TT)
  | [] => some []
  | t :: ts => (rustToken t).bind fun u => (leaves ts).map (u ++ ·)

theorem leaves_append {ts us : List Tok} {a b : List TT} (h1 : leaves ts = some a) (h2 : leaves us = some b) : leaves (ts ++ us) = some (a ++ b) := by
  induction ts generalizing a with
  | nil => cases h1; exact h2
  | cons t ts ih =>
    simp only [leaves, Option.bind_eq_some_iff, Option.map_eq_some_iff] at h1
    obtain ⟨u, hu, v, hv, rfl⟩ := h1
    rw [List.cons_append, leaves, hu, Option.bind_some, ih hv]
    simp

theorem rustTrees_leaf {t : Tok} {a : List TT} (h : rustToken t = some a) (cur : List TT) (outer : List (List TT)) (us : List Tok) :
    rustTrees cur outer (t :: us) = rustTrees (cur ++ a) outer us := by
  have h1 : t ≠ .kw .LBRACE := by rintro rfl; cases h
  have h2 : t ≠ .kw .RBRACE := by rintro rfl; cases h
  rw [rustTrees.eq_def]
  split
  · next hn => cases hn
  · next hn => cases hn
  · next hn => cases hn; exact absurd rfl h1
  · next hn => cases hn; exact absurd rfl h2
  · next hn => cases hn; rw [h]; rfl

theorem rustTrees_leaves {ts : List Tok} {a : List TT} (h : leaves ts = some a) (cur : List TT) (outer : List (List TT)) (us : List Tok) :
    rustTrees cur outer (ts ++ us) = rustTrees (cur ++ a) outer us := by
  induction ts generalizing a cur with
  | nil => cases h; simp
  | cons t ts ih =>
    simp only [leaves, Option.bind_eq_some_iff, Option.map_eq_some_iff] at h
    obtain ⟨u, hu, v, hv, rfl⟩ := h
    rw [List.cons_append, rustTrees_leaf hu, ih hv, List.append_assoc]

theorem rustTrees_brace {ts : List Tok} {a : List TT} (h : leaves ts = some a) (cur : List TT) (outer : List (List TT)) (us : List Tok) :
    rustTrees cur outer (.kw .LBRACE :: (ts ++ (.kw .RBRACE :: us))) = rustTrees (cur ++ [.group .brace a]) outer us := by
  have h1 : ∀ us, rustTrees cur outer (.kw .LBRACE :: us) = rustTrees [] (cur :: outer) us := by
    intro us; cases outer <;> simp [rustTrees]
  rw [h1, rustTrees_leaves h, rustTrees]
  simp

theorem leaves_word {t : List Char} (h : PlainWord t) : leaves [.IDENTIFIER t] = some [.ident (String.ofList t)] := by
  simp [leaves, rustToken, h.1, h.2]

theorem leaves_many {α β : Type} {f : α → List Tok} {P : β → List TT → Prop} {g : α → β} {as : List α} (h : ∀ a ∈ as, ∃ ts, leaves (f a) = some ts ∧ P (g a) ts) :
    ∃ ts, leaves (many f as) = some ts ∧ Many P (as.map g) ts := by
  induction as with
  | nil => exact ⟨[], rfl, .nil⟩
  | cons a as ih =>
    obtain ⟨t1, h1, p1⟩ := h a (by simp)
    obtain ⟨t2, h2, p2⟩ := ih fun b hb => h b (by simp [hb])
    exact ⟨t1 ++ t2, by simpa [many] using leaves_append h1 (by simpa [many] using h2), .cons _ _ _ _ p1 p2⟩

/-! ## Integers -/

/-- The literal an integer is -/
def litOf : IntegerCtx → Literal
  | .dec ('-' :: ds) => .int true (numeral 10 ds)
  | .dec ds => .int false (numeral 10 ds)
  | .hex ('-' :: ds) => .int true (numeral 16 (ds.drop 2))
  | .hex ds => .int false (numeral 16 (ds.drop 2))

theorem leaves_integer {i : IntegerCtx} (hp : PlainInt i) : ∃ ts, leaves (integer i) = some ts ∧ LiteralText (litOf i) ts := by
  cases i with
  | dec t =>
    cases t with
    | nil => exact ⟨_, rfl, .int _⟩
    | cons c t =>
      by_cases hm : c = '-'
      · subst hm; exact ⟨_, rfl, .neg _⟩
      · have hs : c ≠ '+' := by intro e; subst e; exact hp rfl
        have e1 : rustToken (.INTEGER (c :: t)) = some [.lit (.int (numeral 10 (c :: t)))] := by
          rw [rustToken.eq_def]; split <;> simp_all
        have e2 : litOf (.dec (c :: t)) = .int false (numeral 10 (c :: t)) := by
          rw [litOf.eq_def]; split <;> simp_all
        exact ⟨[.lit (.int (numeral 10 (c :: t)))], by simp [integer, leaves, e1], by rw [e2]; exact .int _⟩
  | hex t =>
    cases t with
    | nil => exact ⟨_, rfl, .int _⟩
    | cons c t =>
      by_cases hm : c = '-'
      · subst hm; exact ⟨_, rfl, .neg _⟩
      · have e1 : rustToken (.HEX_INTEGER (c :: t)) = some [.lit (.int (numeral 16 ((c :: t).drop 2)))] := by
          rw [rustToken.eq_def]; split <;> simp_all
        have e2 : litOf (.hex (c :: t)) = .int false (numeral 16 ((c :: t).drop 2)) := by
          rw [litOf.eq_def]; split <;> simp_all
        exact ⟨[.lit (.int (numeral 16 ((c :: t).drop 2)))], by simp [integer, leaves, e1], by rw [e2]; exact .int _⟩

theorem litOf_denotes {i : IntegerCtx} (hp : PlainInt i) : ∃ neg n, litOf i = .int neg n ∧ denotes i = if neg then -(n : Int) else n := by
  cases i with
  | dec t =>
    rw [litOf.eq_def, denotes.eq_def]
    split
    · next h => cases h; exact ⟨true, _, rfl, rfl⟩
    · next h =>
      cases h
      refine ⟨false, _, rfl, ?_⟩
      split
      · next h2 => cases h2; simp_all
      · next h1 h2 => cases h2; exact absurd rfl hp
      · next h2 => cases h2; rfl
      · next h2 => cases h2
      · next h2 => cases h2
    · next h => cases h
    · next h => cases h
  | hex t =>
    rw [litOf.eq_def, denotes.eq_def]
    split
    · next h => cases h
    · next h => cases h
    · next h => cases h; exact ⟨true, _, rfl, rfl⟩
    · next h =>
      cases h
      refine ⟨false, _, rfl, ?_⟩
      split
      · next h2 => cases h2
      · next h2 => cases h2
      · next h2 => cases h2
      · next h2 => cases h2; simp_all
      · next h2 => cases h2; rfl

theorem integer_text {i : IntegerCtx} (h : Texts (integer i)) : ∃ w, ∃ t ∈ integer i, TokText t w := by
  cases i with
  | dec x => obtain ⟨w, hw⟩ := h (.INTEGER x) (by simp [integer]); exact ⟨w, _, by simp [integer], hw⟩
  | hex x => obtain ⟨w, hw⟩ := h (.HEX_INTEGER x) (by simp [integer]); exact ⟨w, _, by simp [integer], hw⟩

theorem intOf_mapInteger {i : IntegerCtx} (hp : PlainInt i) (ht : Texts (integer i)) (hx : ∀ t, i = .hex t → denotes i ≠ -2147483648) : intOf 32 (litOf i) = mapInteger i := by
  obtain ⟨w, hw⟩ := integer_text ht
  rw [C86_integer hw]
  obtain ⟨neg, n, h1, h2⟩ := litOf_denotes hp
  rw [h1]
  have hr : InRange i ↔ -2147483648 ≤ denotes i ∧ denotes i ≤ 2147483647 := by
    cases i with
    | dec t => exact Iff.rfl
    | hex t =>
      have := hx t rfl
      show _ ∧ _ ↔ _
      omega
  rw [h2] at *
  cases neg with
  | false =>
    simp only [Bool.false_eq_true, if_false] at *
    rw [intOf]
    by_cases hn : n < 2 ^ (32 - 1)
    · rw [if_pos hn, if_pos (hr.2 (by omega))]; rfl
    · rw [if_neg hn, if_neg fun h => hn (by have := hr.1 h; omega)]
  | true =>
    simp only [if_true] at *
    rw [intOf]
    by_cases hn : n ≤ 2 ^ (32 - 1)
    · rw [if_pos hn, if_pos (hr.2 (by omega))]
    · rw [if_neg hn, if_neg fun h => hn (by have := hr.1 h; omega)]

theorem idLiteral_ofInt {z : Int} (h1 : -2147483648 ≤ z) (h2 : z ≤ 2147483647) :
    idLiteral (BitVec.ofInt 32 z) = if -32768 ≤ z ∧ z ≤ 32767 then some (BitVec.ofInt 16 z) else none := by
  have ht : (BitVec.ofInt 32 z).toInt = z := by
    rw [BitVec.toInt_ofInt]
    exact Int.bmod_eq_of_le (by omega) (by omega)
  unfold idLiteral
  rw [ht]
  split
  · congr 1
    apply BitVec.eq_of_toNat_eq
    rw [BitVec.toNat_setWidth, BitVec.toNat_ofInt, BitVec.toNat_ofInt]
    omega
  · rfl

theorem intOf_idLiteral {i : IntegerCtx} (hp : PlainInt i) (ht : Texts (integer i)) : intOf 16 (litOf i) = (mapInteger i).bind idLiteral := by
  obtain ⟨w, hw⟩ := integer_text ht
  rw [C86_integer hw]
  obtain ⟨neg, n, h1, h2⟩ := litOf_denotes hp
  rw [h1]
  have hr1 : InRange i → -2147483648 ≤ denotes i ∧ denotes i ≤ 2147483647 := by
    cases i with
    | dec t => exact id
    | hex t => intro h; have : _ ∧ _ := h; omega
  have hr2 : -32768 ≤ denotes i ∧ denotes i ≤ 32767 → InRange i := by
    cases i with
    | dec t => intro h; show _ ∧ _; omega
    | hex t => intro h; show _ ∧ _; omega
  have hb : (if InRange i then some (BitVec.ofInt 32 (denotes i)) else none).bind idLiteral = if -32768 ≤ denotes i ∧ denotes i ≤ 32767 then some (BitVec.ofInt 16 (denotes i)) else none := by
    by_cases h : InRange i
    · rw [if_pos h, Option.bind_some, idLiteral_ofInt (hr1 h).1 (hr1 h).2]
    · rw [if_neg h, if_neg fun h2 => h (hr2 h2)]; rfl
  rw [hb, h2]
  cases neg with
  | false =>
    simp only [Bool.false_eq_true, if_false]
    rw [intOf]
    by_cases hn : n < 2 ^ (16 - 1)
    · rw [if_pos hn, if_pos (by omega)]; rfl
    · rw [if_neg hn, if_neg (by omega)]
  | true =>
    simp only [if_true]
    rw [intOf]
    by_cases hn : n ≤ 2 ^ (16 - 1)
    · rw [if_pos hn, if_pos (by omega)]
    · rw [if_neg hn, if_neg (by omega)]

/-! ## Types -/

theorem named_keyword {t : List Char} (h : Texts [.IDENTIFIER t]) : ∀ k : Kw, t ≠ k.text := by
  obtain ⟨w, hw⟩ := h (.IDENTIFIER t) (by simp)
  cases hw with
  | IDENTIFIER h hk => exact hk

theorem fieldType1_named {t : List Char} (h : Texts [.IDENTIFIER t]) : fieldType1 (String.ofList t) = .path (String.ofList t) := by
  have hk := named_keyword h
  have e : ∀ k : Kw, String.ofList t ≠ String.ofList k.text := fun k he => hk k (String.ofList_injective he)
  have e1 : String.ofList t ≠ "binary" := e .BINARY
  have e2 : String.ofList t ≠ "string" := e .STRING
  have e3 : String.ofList t ≠ "byte" := e .BYTE
  have e4 : String.ofList t ≠ "double" := e .DOUBLE
  unfold fieldType1
  rw [if_neg e1, if_neg e2, if_neg e3, if_neg e4]

/-- The words of a type without arguments -/
def wordOf : PType → String
  | .builtin .BOOL => "bool"
  | .builtin .BYTE => "byte"
  | .builtin .I16 => "i16"
  | .builtin .I32 => "i32"
  | .builtin .I64 => "i64"
  | .builtin .DOUBLE => "double"
  | .builtin .STRING => "string"
  | .builtin .BINARY => "binary"
  | .named t => String.ofList t
  | .list _ _ => "list"
  | .set _ _ => "set"
  | .map _ _ _ => "map"

/-- The element type of a list -/
def elemOf : PType → Option String
  | .list _ e => some (wordOf e)
  | _ => none

theorem leaves_simple {t : PType} (h : (∃ b, t = .builtin b) ∨ ∃ w, t = .named w ∧ PlainWord w) : leaves (Gen.Spec.fieldType t) = some [.ident (wordOf t)] := by
  rcases h with ⟨b, rfl⟩ | ⟨w, rfl, hw⟩
  · cases b <;> rfl
  · exact leaves_word hw

theorem interp_simple {scope : String → Option Ty} (h1 : scope "String" = none) (h2 : scope "u8" = none) {t : PType}
    (h : (∃ b, t = .builtin b) ∨ ∃ w, t = .named w ∧ Texts [.IDENTIFIER w] ∧ PlainWord w) : interp scope (fieldType1 (wordOf t)) = genType scope (mapFieldType t) := by
  rcases h with ⟨b, rfl⟩ | ⟨w, rfl, hw, hp⟩
  · cases b
    case STRING => simp [wordOf, fieldType1, interp, mapFieldType, genType, resolve, h1, builtin]
    case BINARY => simp [wordOf, fieldType1, interp, mapFieldType, genType, isPrim, h2]
    all_goals rfl
  · have hne : String.ofList w ≠ "type" := fun h => hp.2.2 (String.ofList_injective h)
    rw [wordOf, fieldType1_named hw, mapFieldType, genType, if_neg hne]; rfl

theorem fieldType1_byte {t : PType} (h : (∃ b, t = .builtin b) ∨ ∃ w, t = .named w ∧ Texts [.IDENTIFIER w] ∧ PlainWord w) :
    (fieldType1 (wordOf t) = .path "u8") ↔ (mapFieldType t = .base .BYTE ∨ mapFieldType t = .named "u8") := by
  rcases h with ⟨b, rfl⟩ | ⟨w, rfl, hw⟩
  · cases b <;> simp [wordOf, fieldType1, mapFieldType]
  · rw [wordOf, fieldType1_named hw.1]; simp [mapFieldType]

theorem type_same {scope : String → Option Ty} (h1 : scope "String" = none) (h2 : scope "u8" = none) {t : PType} (hp : PlainType t) (ht : Texts (Gen.Spec.fieldType t)) :
    ∃ ts, leaves (Gen.Spec.fieldType t) = some ts ∧ TypeText (wordOf t) (elemOf t) ts ∧ (fieldTypeMacro (wordOf t) (elemOf t)).bind (interp scope) = genType scope (mapFieldType t) := by
  have hsimple : ∀ t, ((∃ b, t = PType.builtin b) ∨ ∃ w, t = .named w ∧ PlainWord w) → Texts (Gen.Spec.fieldType t) →
      ((∃ b, t = PType.builtin b) ∨ ∃ w, t = .named w ∧ Texts [.IDENTIFIER w] ∧ PlainWord w) := by
    rintro t (h | ⟨w, rfl, hw⟩) ht
    · exact .inl h
    · exact .inr ⟨w, rfl, ht, hw⟩
  have hlist : ∀ e, ((∃ b, e = PType.builtin b) ∨ ∃ w, e = .named w ∧ PlainWord w) → Texts (Gen.Spec.fieldType (.list none e)) →
      ∃ ts, leaves (Gen.Spec.fieldType (.list none e)) = some ts ∧ TypeText "list" (some (wordOf e)) ts ∧ (fieldTypeMacro "list" (some (wordOf e))).bind (interp scope) = genType scope (mapFieldType (.list none e)) := by
    intro e he ht
    have hs := hsimple e he fun t h => ht t (by simp [Gen.Spec.fieldType, h])
    refine ⟨[.ident "list", .punct '<', .ident (wordOf e), .punct '>'], ?_, .generic _ _, ?_⟩
    · have l1 : leaves [.kw .LIST, .kw .LT] = some [.ident "list", .punct '<'] := rfl
      have l2 : leaves [.kw .GT] = some [.punct '>'] := rfl
      simpa [Gen.Spec.fieldType, opt] using leaves_append (leaves_append l1 (leaves_simple he)) l2
    · have e1 : fieldTypeMacro "list" (some (wordOf e)) = some (.vec (fieldType1 (wordOf e))) := rfl
      rw [e1, Option.bind_some, interp, mapFieldType, genType, interp_simple h1 h2 hs]
      have hb := fieldType1_byte hs
      by_cases hw : fieldType1 (wordOf e) = .path "u8"
      · have := hb.1 hw
        simp [isPrim, h2, hw, this]
      · have := mt hb.2 hw
        simp only [not_or] at this
        simp [isPrim, h2, hw, this]
  have hone : ∀ t, ((∃ b, t = PType.builtin b) ∨ ∃ w, t = .named w ∧ PlainWord w) → Texts (Gen.Spec.fieldType t) →
      ∃ ts, leaves (Gen.Spec.fieldType t) = some ts ∧ TypeText (wordOf t) (elemOf t) ts ∧ (fieldTypeMacro (wordOf t) (elemOf t)).bind (interp scope) = genType scope (mapFieldType t) := by
    intro t h ht
    have he : elemOf t = none := by rcases h with ⟨b, rfl⟩ | ⟨w, rfl, _⟩ <;> rfl
    rw [he]
    exact ⟨_, leaves_simple h, .plain _, by rw [← interp_simple h1 h2 (hsimple t h ht)]; rfl⟩
  cases t with
  | builtin b => exact hone _ (.inl ⟨b, rfl⟩) ht
  | named w => exact hone _ (.inr ⟨w, rfl, hp⟩) ht
  | map => exact hp.elim
  | set => exact hp.elim
  | list cpp e =>
    cases cpp with
    | some c => cases e <;> exact hp.elim
    | none =>
      cases e with
      | builtin b => exact hlist _ (.inl ⟨b, rfl⟩) ht
      | named w => exact hlist _ (.inr ⟨w, rfl, hp⟩) ht
      | map => exact hp.elim
      | set => exact hp.elim
      | list => exact hp.elim

/-! ## Fields -/

/-- Without what only matters for the text of the type -/
def plainField (scope : String → Option Ty) (f : Gen.Field) : Option CT.Field := do
  let id ← idLiteral f.id
  let ty ← genType scope f.type
  pure ⟨id, f.req == .REQUIRED, f.identifier, ty⟩

def plainVariant (scope : String → Option Ty) (f : Gen.Field) : Option CT.Variant := do
  let id ← idLiteral f.id
  let ty ← genType scope f.type
  pure ⟨id, f.identifier, ty⟩

/-- The id of a field that has one -/
def fieldIdOf (f : PField) : IntegerCtx := f.fieldId.getD (.dec [])

def fieldSyn (f : PField) : FieldSyn :=
  ⟨litOf (fieldIdOf f), if f.requirement = some true then "required" else "optional", wordOf f.type, elemOf f.type, String.ofList f.identifier⟩

def variantSyn (f : PField) : VariantSyn := ⟨litOf (fieldIdOf f), wordOf f.type, elemOf f.type, String.ofList f.identifier⟩

theorem leaves_semi {s : Option Sep} (h : s ≠ some .comma) : ∃ ts, leaves (opt listSeparator s) = some ts ∧ SemiText ts := by
  cases s with
  | none => exact ⟨[], rfl, .absent⟩
  | some x =>
    cases x with
    | comma => exact absurd rfl h
    | semi => exact ⟨_, rfl, .present⟩

theorem leaves_default {v : Option PConst} (h : PlainDefault v) : ∃ ts, leaves (opt (fun v => [.kw .EQ] ++ constValue v) v) = some ts ∧ DefaultText ts := by
  cases v with
  | none => exact ⟨[], rfl, .absent⟩
  | some v =>
    have he : leaves [.kw .EQ] = some [.punct '='] := rfl
    cases v with
    | integer i =>
      obtain ⟨ts, h1, h2⟩ := leaves_integer h
      exact ⟨_, by simpa [opt, constValue] using leaves_append he h1, .present _ _ h2⟩
    | literal t =>
      have h : t.head? = some '"' := h
      exact ⟨[.punct '=', .lit .text], by simp [opt, constValue, leaves, rustToken, rustKw, Kw.text, h], .present _ _ .text⟩
    | identifier t =>
      rcases h with rfl | rfl
      · exact ⟨[.punct '=', .ident "true"], rfl, .present _ _ .true⟩
      · exact ⟨[.punct '=', .ident "false"], rfl, .present _ _ .false⟩
    | double => exact h.elim
    | list => exact h.elim
    | map => exact h.elim

theorem leaves_req (r : Bool) : leaves (fieldRequirement r) = some [.ident (if some r = some true then "required" else "optional")] := by cases r <;> rfl

theorem texts_left {ts us : List Tok} (h : Texts (ts ++ us)) : Texts ts := fun t ht => h t (List.mem_append_left _ ht)
theorem texts_right {ts us : List Tok} (h : Texts (ts ++ us)) : Texts us := fun t ht => h t (List.mem_append_right _ ht)

theorem field_same {scope : String → Option Ty} (h1 : scope "String" = none) (h2 : scope "u8" = none) {f : PField} (hc : CommonField f) (ht : Texts (Gen.Spec.field f)) :
    (∃ ts, leaves (Gen.Spec.field f) = some ts ∧ StructFieldText (fieldSyn f) ts) ∧ ∀ cur, elabField scope (fieldSyn f) = (mapField cur f.toCtx).bind (plainField scope) := by
  obtain ⟨⟨i, hi, hp⟩, hr, hty, hw, hd, hs⟩ := hc
  obtain ⟨r, hr⟩ := Option.ne_none_iff_exists'.1 hr
  have hid : fieldIdOf f = i := by simp [fieldIdOf, hi]
  have htt : Texts (Gen.Spec.fieldType f.type) := fun t h => ht t (by simp [Gen.Spec.field, h])
  have hit : Texts (integer i) := fun t h => ht t (by simp [Gen.Spec.field, hi, opt, h])
  obtain ⟨l1, e1, t1⟩ := leaves_integer hp
  obtain ⟨l2, e2, t2, m2⟩ := type_same h1 h2 hty htt
  obtain ⟨l3, e3, t3⟩ := leaves_default hd
  obtain ⟨l4, e4, t4⟩ := leaves_semi hs
  constructor
  · have hcol : leaves [.kw .COLON] = some [.punct ':'] := rfl
    have hl := leaves_append (leaves_append (leaves_append (leaves_append (leaves_append (leaves_append e1 hcol) (leaves_req r)) e2) (leaves_word hw)) e3) e4
    refine ⟨_, by simpa only [Gen.Spec.field, hi, hr, opt] using hl, ?_⟩
    have := StructFieldText.mk (fieldSyn f) [] l1 l2 l3 l4 .nil (by simpa [fieldSyn, hid] using t1) t2 t3 t4
    simpa [fieldSyn, hr] using this
  · intro cur
    have hq : requiredOf (fieldSyn f).req = some r := by
      simp only [fieldSyn, hr]
      cases r <;> rfl
    have hm : mapField cur f.toCtx = (mapInteger i).map fun v => ⟨v, mapFieldReq r, String.ofList f.identifier, mapFieldType f.type⟩ := by
      simp [mapField, PField.toCtx, hi, hr]
    rw [hm, elabField, hq]
    have hlit : intOf 16 (fieldSyn f).id = (mapInteger i).bind idLiteral := by rw [← intOf_idLiteral hp hit]; simp [fieldSyn, hid]
    have hreq : (mapFieldReq r == FieldReq.REQUIRED) = r := by cases r <;> rfl
    rw [hlit]
    cases mapInteger i with
    | none => rfl
    | some v =>
      simp only [Option.bind_some, Option.map_some, plainField, hreq, ← m2]
      cases idLiteral v with
      | none => rfl
      | some id =>
        simp only [Option.bind_eq_bind, Option.bind_some, Option.bind_assoc]
        rfl

theorem variant_same {scope : String → Option Ty} (h1 : scope "String" = none) (h2 : scope "u8" = none) {f : PField} (hc : CommonVariant f) (ht : Texts (Gen.Spec.field f)) :
    (∃ ts, leaves (Gen.Spec.field f) = some ts ∧ UnionFieldText (variantSyn f) ts) ∧ ∀ cur, elabVariant scope (variantSyn f) = (mapField cur f.toCtx).bind (plainVariant scope) := by
  obtain ⟨⟨i, hi, hp⟩, hr, hty, hw, hd, hs⟩ := hc
  have hid : fieldIdOf f = i := by simp [fieldIdOf, hi]
  have htt : Texts (Gen.Spec.fieldType f.type) := fun t h => ht t (by simp [Gen.Spec.field, h])
  have hit : Texts (integer i) := fun t h => ht t (by simp [Gen.Spec.field, hi, opt, h])
  obtain ⟨l1, e1, t1⟩ := leaves_integer hp
  obtain ⟨l2, e2, t2, m2⟩ := type_same h1 h2 hty htt
  obtain ⟨l4, e4, t4⟩ := leaves_semi hs
  constructor
  · have hcol : leaves [.kw .COLON] = some [.punct ':'] := rfl
    have hl := leaves_append (leaves_append (leaves_append (leaves_append e1 hcol) e2) (leaves_word hw)) e4
    refine ⟨_, by simpa only [Gen.Spec.field, hi, hr, hd, opt, List.append_nil] using hl, ?_⟩
    have := UnionFieldText.mk (variantSyn f) [] l1 l2 l4 .nil (by simpa [variantSyn, hid] using t1) t2 t4
    simpa [variantSyn] using this
  · intro cur
    have hm : mapField cur f.toCtx = (mapInteger i).map fun v => ⟨v, .DEFAULT, String.ofList f.identifier, mapFieldType f.type⟩ := by
      simp [mapField, PField.toCtx, hi, hr]
    rw [hm, elabVariant]
    have hlit : intOf 16 (variantSyn f).id = (mapInteger i).bind idLiteral := by rw [← intOf_idLiteral hp hit]; simp [variantSyn, hid]
    rw [hlit]
    cases mapInteger i with
    | none => rfl
    | some v =>
      simp only [Option.bind_some, Option.map_some, plainVariant, ← m2]
      cases idLiteral v with
      | none => rfl
      | some id =>
        simp only [Option.bind_eq_bind, Option.bind_some, Option.bind_assoc]
        rfl

/-! ## Bodies -/

theorem mapM_bind {α β γ : Type} (f : α → Option β) (g : β → Option γ) : ∀ as : List α, (as.mapM f).bind (fun bs => bs.mapM g) = as.mapM fun a => (f a).bind g
  | [] => rfl
  | a :: as => by
    rw [List.mapM_cons, List.mapM_cons, ← mapM_bind f g as]
    cases f a with
    | none => rfl
    | some b =>
      cases as.mapM f with
      | none => cases h : g b <;> simp [h]
      | some bs => simp [List.mapM_cons]

theorem mapM_map {α β γ : Type} (f : β → Option γ) (g : α → β) (as : List α) : (as.map g).mapM f = as.mapM fun a => f (g a) := by
  induction as with
  | nil => rfl
  | cons a as ih => rw [List.map_cons, List.mapM_cons, List.mapM_cons, ih]

theorem mapM_congr_code {α β : Type} {f g : α → Option β} {as : List α} (h : ∀ a ∈ as, f a = g a) : as.mapM f = as.mapM g := by
  induction as with
  | nil => rfl
  | cons a as ih => rw [List.mapM_cons, List.mapM_cons, h a (by simp), ih fun b hb => h b (by simp [hb])]

theorem mapFields_same {γ : Type} {e : PField → Option γ} {p : Gen.Field → Option γ} : ∀ (fs : List PField) (cur : BitVec 32),
    (∀ f ∈ fs, ∀ cur, e f = (mapField cur f.toCtx).bind p) → (mapFields cur (fs.map PField.toCtx)).bind (fun gs => gs.mapM p) = fs.mapM e
  | [], _, _ => rfl
  | f :: fs, cur, h => by
    rw [List.map_cons, mapFields, List.mapM_cons, h f (by simp) cur]
    cases mapField cur f.toCtx with
    | none => rfl
    | some g =>
      have ih := mapFields_same fs g.id fun x hx => h x (by simp [hx])
      rw [← ih, Option.bind_some]
      generalize mapFields g.id (fs.map PField.toCtx) = o
      cases o with
      | none => cases hg : p g <;> simp [hg]
      | some gs => simp [List.mapM_cons]

theorem mapFields_names : ∀ (fs : List PField) (cur : BitVec 32) (gs : List Gen.Field), mapFields cur (fs.map PField.toCtx) = some gs →
    gs.map (·.identifier) = fs.map fun f => String.ofList f.identifier
  | [], _, gs, h => by cases h; rfl
  | f :: fs, cur, gs, h => by
    simp only [List.map_cons, mapFields, Option.bind_eq_some_iff, Option.map_eq_some_iff] at h
    obtain ⟨g, hg, r, hr, rfl⟩ := h
    have hn : g.identifier = String.ofList f.identifier := by
      unfold mapField at hg
      split at hg
      · cases hg; rfl
      · obtain ⟨v, _, rfl⟩ := Option.map_eq_some_iff.1 hg; rfl
    simp [mapFields_names fs _ _ hr, hn]

theorem nodup_ofList {ts : List (List Char)} (h : ts.Nodup) : (ts.map String.ofList).Nodup :=
  List.Pairwise.map _ (fun _ _ hab he => hab (String.ofList_injective he)) h

/-- The distinct fields of a struct -/
theorem structFields_same {γ : Type} {e : PField → Option γ} {p : Gen.Field → Option γ} {fs : List PField} (h : ∀ f ∈ fs, ∀ cur, e f = (mapField cur f.toCtx).bind p)
    (hn : (fs.map (·.identifier)).Nodup) : (mapStructOrUnionFields (fs.map PField.toCtx)).bind (fun m => (m.map (·.2)).mapM p) = fs.mapM e := by
  rw [← mapFields_same fs (-1) h, mapStructOrUnionFields]
  cases hm : mapFields (-1) (fs.map PField.toCtx) with
  | none => rfl
  | some gs =>
    have hk : (gs.map Gen.Field.identifier).Nodup := by
      rw [mapFields_names fs _ _ hm]
      have := nodup_ofList hn
      simpa [List.map_map, Function.comp_def] using this
    rw [Option.map_some, Option.bind_some, C68_distinct _ _ hk, Option.bind_some]

theorem nodup_names {fs : List PField} (hn : (fs.map (·.identifier)).Nodup) : (fs.map fun f => String.ofList f.identifier).Nodup := by
  have := nodup_ofList hn
  simpa [List.map_map, Function.comp_def] using this

/-- The fields of a document have the names of the fields in the text. -/
theorem structFields_names {fs : List PField} (hn : (fs.map (·.identifier)).Nodup) {m : List (String × Gen.Field)} (h : mapStructOrUnionFields (fs.map PField.toCtx) = some m) :
    m.map (·.2.identifier) = fs.map fun f => String.ofList f.identifier := by
  simp only [mapStructOrUnionFields, Option.map_eq_some_iff] at h
  obtain ⟨gs, h3, rfl⟩ := h
  have h5 := mapFields_names fs _ _ h3
  have h6 := C68_distinct Gen.Field.identifier gs (h5 ▸ nodup_names hn)
  rw [← h5, ← h6, List.map_map, h6]
  rfl

theorem all_names {p : String → Bool} {fs : List PField} {m : List (String × Gen.Field)} (h : m.map (·.2.identifier) = fs.map fun f => String.ofList f.identifier) :
    (∀ f ∈ m, p f.2.identifier = true) ↔ ∀ f ∈ fs, p (String.ofList f.identifier) = true := by
  have h1 : (∀ s ∈ m.map (·.2.identifier), p s = true) ↔ ∀ f ∈ m, p f.2.identifier = true := List.forall_mem_map
  have h2 : (∀ s ∈ fs.map (fun f => String.ofList f.identifier), p s = true) ↔ ∀ f ∈ fs, p (String.ofList f.identifier) = true := List.forall_mem_map
  rw [← h1, h, h2]

/-! ## Names -/

theorem rustIdent_plain {t : List Char} (h : PlainWord t) (ht : Texts [.IDENTIFIER t]) : rustIdent (String.ofList t) = Macro.isName (String.ofList t) := by
  have hm : Matches IDENTIFIER t := by
    obtain ⟨w, hw⟩ := ht (.IDENTIFIER t) (by simp)
    cases hw
    assumption
  obtain ⟨c, u, rfl, hc, hu⟩ := matches_IDENTIFIER.1 hm
  have h1 : (c :: u).all (fun c => isLetter c || isDigit c || c == '_') = true := by
    rw [List.all_eq_true]
    intro d hd
    rcases List.mem_cons.1 hd with rfl | hd'
    · rcases hc with hc | rfl
      · simp [hc]
      · decide
    · have h2 := hu d hd'
      have h3 : d ≠ '.' := fun he => h.1 (he ▸ hd)
      simpa [isIdentChar, h3] using h2
  have h2 : isDigit c = false := by
    rcases hc with hc | rfl
    · refine Bool.eq_false_iff.2 fun hd => ?_
      simp only [isLetter, isDigit, Bool.or_eq_true, Bool.and_eq_true, decide_eq_true_iff, Char.le_def, UInt32.le_iff_toNat_le] at hc hd
      have e1 : '0'.val.toNat = 48 := rfl
      have e2 : '9'.val.toNat = 57 := rfl
      have e3 : 'A'.val.toNat = 65 := rfl
      have e4 : 'a'.val.toNat = 97 := rfl
      omega
    · decide
  simp [rustIdent, h1, h2, h.2.1]

theorem escapedOk_plain {t : List Char} (h : PlainWord t) (ht : Texts [.IDENTIFIER t]) : escapedOk (String.ofList t) = Macro.isName (String.ofList t) := by
  have hne : String.ofList t ≠ "type" := fun he => h.2.2 (String.ofList_injective he)
  simp [escapedOk, hne, rustIdent_plain h ht]

/-! ## Definitions -/

/-- `visitDefinition` without what only matters for the text -/
def plainDef (scope : String → Option Ty) (d : Definition) : Option Def :=
  match d with
  | .typedef _ _ => none
  | .enum identifier fields => if escapedOk identifier ∧ ∀ f ∈ fields, enumNameOk f.2.identifier then some (.enum identifier) else none
  | .struct identifier fields =>
    if escapedOk identifier ∧ ∀ f ∈ fields, escapedOk f.2.identifier then ((fields.map (·.2)).mapM (plainField (withSelf scope identifier))).map (.struct identifier)
    else none
  | .union identifier fields =>
    if rustIdent identifier ∧ fields ≠ [] ∧ ∀ f ∈ fields, rustIdent f.2.identifier then
      ((fields.map (·.2)).mapM (plainVariant (withSelf scope identifier))).map (.union identifier)
    else none

/-- The tokens of a definition -/
structure Same (scope : String → Option Ty) (d : PDef) (it : Item) (ts : List TT) : Prop where
  trees : ∀ cur outer us, rustTrees cur outer (definition d ++ us) = rustTrees (cur ++ ts) outer us
  text : ItemText it ts
  name : it.name = String.ofList (defName d)
  elab' : elabItem scope it = (mapDefinition d).bind (plainDef scope)

theorem trees_def {k : Kw} {w : String} (hk : leaves [.kw k] = some [.ident w]) {x : List Char} (hx : PlainWord x) {body : List Tok} {b : List TT} (hb : leaves body = some b)
    (cur : List TT) (outer : List (List TT)) (us : List Tok) :
    rustTrees cur outer (([.kw k, .IDENTIFIER x, .kw .LBRACE] ++ body ++ [.kw .RBRACE]) ++ us) = rustTrees (cur ++ [.ident w, .ident (String.ofList x), .group .brace b]) outer us := by
  have h1 := leaves_append hk (leaves_word hx)
  have e : ([.kw k, .IDENTIFIER x, .kw .LBRACE] ++ body ++ [.kw .RBRACE]) ++ us = ([.kw k] ++ [.IDENTIFIER x]) ++ (.kw .LBRACE :: (body ++ (.kw .RBRACE :: us))) := by simp
  rw [e, rustTrees_leaves h1, rustTrees_brace hb]
  simp

theorem definition_same {scope : String → Option Ty} (h1 : scope "String" = none) (h2 : scope "u8" = none) {d : PDef} (hc : CommonDef d) (ht : Texts (definition d)) :
    ∃ it ts, Same scope d it ts := by
  cases d with
  | const => exact hc.elim
  | typedef => exact hc.elim
  | exception => exact hc.elim
  | service => exact hc.elim
  | struct x fs =>
    obtain ⟨hx, hf, hn⟩ := hc
    have hs : ∀ f ∈ fs, _ := fun f hm => field_same (scope := withSelf scope (String.ofList x)) h1 h2 (hf f hm) fun t h => ht t (by have := mem_many hm h; simp [definition, this])
    obtain ⟨b, hb, hm⟩ := leaves_many (g := fieldSyn) (P := StructFieldText) fun f hm => (hs f hm).1
    refine ⟨.struct (String.ofList x) b, [.ident "struct", .ident (String.ofList x), .group .brace b], fun cur outer us => ?_, .struct _ _ [] .nil, rfl, ?_⟩
    · exact trees_def (k := .STRUCT) rfl hx hb cur outer us
    · have hr := (C70_struct b _).2 hm
      have hnd : ((fs.map fieldSyn).map (·.name)).Nodup := by
        simpa [List.map_map, Function.comp_def, fieldSyn] using nodup_names hn
      have hex : escapedOk (String.ofList x) = Macro.isName (String.ofList x) := escapedOk_plain hx fun t h => ht t (by simp [definition] at h ⊢; simp [h])
      have hef : ∀ f ∈ fs, escapedOk (String.ofList f.identifier) = Macro.isName (String.ofList f.identifier) := fun f hm =>
        escapedOk_plain (hf f hm).2.2.2.1 fun t h => ht t (by
          have := mem_many (f := Gen.Spec.field) (t := t) hm (by simp [Gen.Spec.field] at h ⊢; simp [h])
          simp [definition, this])
      have hall : (∀ f ∈ fs.map fieldSyn, Macro.isName f.name = true) ↔ ∀ f ∈ fs, escapedOk (String.ofList f.identifier) = true := by
        simp only [List.forall_mem_map, fieldSyn]
        exact forall_congr' fun f => forall_congr' fun hm => by rw [hef f hm]
      rw [elabItem, thriftStruct, hr]
      simp only [Option.bind_eq_bind, Option.bind_some, hall, hnd, and_true, mapM_map, mapDefinition, ← hex]
      rw [← structFields_same (p := plainField (withSelf scope (String.ofList x))) (fun f hm => (hs f hm).2) hn]
      cases hmm : mapStructOrUnionFields (fs.map PField.toCtx) with
      | none => simp
      | some m =>
        simp only [Option.bind_some, Option.map_some, plainDef, all_names (p := escapedOk) (structFields_names hn hmm)]
        split
        · cases (m.map (·.2)).mapM (plainField (withSelf scope (String.ofList x))) <;> rfl
        · rfl
  | union x fs =>
    obtain ⟨hx, hf, hn⟩ := hc
    have hs : ∀ f ∈ fs, _ := fun f hm => variant_same (scope := withSelf scope (String.ofList x)) h1 h2 (hf f hm) fun t h => ht t (by have := mem_many hm h; simp [definition, this])
    obtain ⟨b, hb, hm⟩ := leaves_many (g := variantSyn) (P := UnionFieldText) fun f hm => (hs f hm).1
    refine ⟨.union (String.ofList x) b, [.ident "union", .ident (String.ofList x), .group .brace b], fun cur outer us => ?_, .union _ _ [] .nil, rfl, ?_⟩
    · exact trees_def (k := .UNION) rfl hx hb cur outer us
    · have hr := (C70_union b _).2 hm
      have hnd : ((fs.map variantSyn).map (·.name)).Nodup := by
        simpa [List.map_map, Function.comp_def, variantSyn] using nodup_names hn
      have hex : rustIdent (String.ofList x) = Macro.isName (String.ofList x) := rustIdent_plain hx fun t h => ht t (by simp [definition] at h ⊢; simp [h])
      have hef : ∀ f ∈ fs, rustIdent (String.ofList f.identifier) = Macro.isName (String.ofList f.identifier) := fun f hm =>
        rustIdent_plain (hf f hm).2.2.2.1 fun t h => ht t (by
          have := mem_many (f := Gen.Spec.field) (t := t) hm (by simp [Gen.Spec.field] at h ⊢; simp [h])
          simp [definition, this])
      have hall : (∀ f ∈ fs.map variantSyn, Macro.isName f.name = true) ↔ ∀ f ∈ fs, rustIdent (String.ofList f.identifier) = true := by
        simp only [List.forall_mem_map, variantSyn]
        exact forall_congr' fun f => forall_congr' fun hm => by rw [hef f hm]
      rw [elabItem, thriftUnion, hr]
      simp only [Option.bind_eq_bind, Option.bind_some, hall, hnd, and_true, mapM_map, mapDefinition, ← hex]
      rw [← structFields_same (p := plainVariant (withSelf scope (String.ofList x))) (fun f hm => (hs f hm).2) hn]
      cases hmm : mapStructOrUnionFields (fs.map PField.toCtx) with
      | none => simp
      | some m =>
        have hnm := structFields_names hn hmm
        have hne : fs.map variantSyn ≠ [] ↔ m ≠ [] := by
          have := congrArg List.length hnm
          rw [List.length_map, List.length_map] at this
          rw [← List.length_pos_iff, ← List.length_pos_iff, List.length_map, this]
        simp only [Option.bind_some, Option.map_some, plainDef, all_names (p := rustIdent) hnm, hne]
        split
        · cases (m.map (·.2)).mapM (plainVariant (withSelf scope (String.ofList x))) <;> rfl
        · rfl
  | enum x fs =>
    obtain ⟨hx, hf, hn⟩ := hc
    have hs : ∀ f ∈ fs, (∃ ts, leaves (Gen.Spec.enumField f) = some ts ∧ EnumFieldText (String.ofList f.identifier, litOf f.value) ts) ∧ intOf 32 (litOf f.value) = mapInteger f.value := by
      intro f hm
      obtain ⟨hw, -, -, hi, hr, hsep⟩ := hf f hm
      have hit : Texts (integer f.value) := fun t h => ht t (by
        have : t ∈ many Gen.Spec.enumField fs := mem_many hm (by simp [Gen.Spec.enumField, h])
        simp [definition, this])
      refine ⟨?_, intOf_mapInteger hi hit hr⟩
      obtain ⟨l, h3, h4⟩ := leaves_integer hi
      have heq : leaves [.kw .EQ] = some [.punct '='] := rfl
      have hse : leaves (opt listSeparator f.sep) = some [.punct ';'] := by rw [hsep]; rfl
      have := leaves_append (leaves_append (leaves_append (leaves_word hw) heq) h3) hse
      refine ⟨_, by simpa [Gen.Spec.enumField] using this, ?_⟩
      simpa using EnumFieldText.mk (String.ofList f.identifier) (litOf f.value) [] l .nil h4
    obtain ⟨b, hb, hm⟩ := leaves_many (g := fun f => (String.ofList f.identifier, litOf f.value)) (P := EnumFieldText) fun f hm => (hs f hm).1
    refine ⟨.enum (String.ofList x) b, [.ident "enum", .ident (String.ofList x), .group .brace b], fun cur outer us => ?_, .enum _ _ [] .nil, rfl, ?_⟩
    · exact trees_def (k := .ENUM) rfl hx hb cur outer us
    · have hr := (C70_enum b _).2 hm
      have hnd : ((fs.map fun f => (String.ofList f.identifier, litOf f.value)).map (·.1)).Nodup := by
        have := nodup_ofList hn
        simpa [List.map_map, Function.comp_def] using this
      have hex : escapedOk (String.ofList x) = Macro.isName (String.ofList x) := escapedOk_plain hx fun t h => ht t (by simp [definition] at h ⊢; simp [h])
      have hef : ∀ f ∈ fs, enumNameOk (String.ofList f.identifier) = Macro.isName (String.ofList f.identifier) := fun f hm => by
        obtain ⟨hw, hv, hn, _⟩ := hf f hm
        have h3 : String.ofList f.identifier ≠ "value" := fun he => hv (String.ofList_injective he)
        have h4 : String.ofList f.identifier ≠ "__NAMES" := fun he => hn (String.ofList_injective he)
        rw [enumNameOk, escapedOk_plain hw fun t h => ht t (by
          have := mem_many (f := Gen.Spec.enumField) (t := t) hm (by simp [Gen.Spec.enumField] at h ⊢; simp [h])
          simp [definition, this])]
        rw [bne_iff_ne.2 h3, bne_iff_ne.2 h4, Bool.and_true, Bool.and_true]
      have hall : (∀ f ∈ fs.map fun f => (String.ofList f.identifier, litOf f.value), Macro.isName f.1 = true) ↔ ∀ f ∈ fs, enumNameOk (String.ofList f.identifier) = true := by
        simp only [List.forall_mem_map]
        exact forall_congr' fun f => forall_congr' fun hm => by rw [hef f hm]
      rw [elabItem, thriftEnum, enumConstants, hr]
      simp only [Option.bind_eq_bind, Option.bind_some, hall, hnd, and_true, mapM_map, mapDefinition, mapEnumFields, ← hex]
      have hc : (fs.mapM fun f => (intOf 32 (litOf f.value)).map fun v => (String.ofList f.identifier, v)) = fs.mapM fun f => (mapInteger f.value).map fun v => (String.ofList f.identifier, v) :=
        mapM_congr_code fun f hm => by rw [(hs f hm).2]
      rw [hc]
      have hsome : ∀ gs : List PEnumField, ((gs.mapM fun f => (mapInteger f.value).map fun v => (String.ofList f.identifier, v)).map fun _ => ()) =
          (gs.mapM fun f => (mapInteger f.value).map fun v => EnumField.mk (String.ofList f.identifier) v).map fun _ => () := by
        intro gs
        induction gs with
        | nil => rfl
        | cons g gs ih =>
          rw [List.mapM_cons, List.mapM_cons]
          cases mapInteger g.value with
          | none => rfl
          | some v =>
            simp only [Option.map_some, Option.bind_eq_bind, Option.bind_some]
            revert ih
            cases (gs.mapM fun f => (mapInteger f.value).map fun v => (String.ofList f.identifier, v)) <;>
              cases (gs.mapM fun f => (mapInteger f.value).map fun v => EnumField.mk (String.ofList f.identifier) v) <;> simp
      have hsome := hsome fs
      cases hc1 : (fs.mapM fun f => (mapInteger f.value).map fun v => EnumField.mk (String.ofList f.identifier) v) with
      | none =>
        rw [hc1, Option.map_none, Option.map_eq_none_iff] at hsome
        rw [hsome]
        simp
      | some gs =>
        rw [hc1, Option.map_some, Option.map_eq_some_iff] at hsome
        obtain ⟨cs, hcs, -⟩ := hsome
        have hg : gs.map (·.identifier) = fs.map fun f => String.ofList f.identifier := by
          have : ∀ (fs : List PEnumField) (gs : List EnumField), (fs.mapM fun f => (mapInteger f.value).map fun v => EnumField.mk (String.ofList f.identifier) v) = some gs →
              gs.map (·.identifier) = fs.map fun f => String.ofList f.identifier := by
            intro fs
            induction fs with
            | nil => intro gs h; cases h; rfl
            | cons f fs ih =>
              intro gs h
              simp only [List.mapM_cons, Option.bind_eq_bind, Option.bind_eq_some_iff, Option.pure_def, Option.some.injEq, Option.map_eq_some_iff] at h
              obtain ⟨_, ⟨v, _, rfl⟩, hs, hh, rfl⟩ := h
              simp [ih _ hh]
          exact this _ _ hc1
        have hd := C68_distinct EnumField.identifier gs (by
          rw [hg]
          have := nodup_ofList hn
          simpa [List.map_map, Function.comp_def] using this)
        have hk : (∀ f ∈ associateBy EnumField.identifier gs, enumNameOk f.2.identifier = true) ↔ ∀ f ∈ fs, enumNameOk (String.ofList f.identifier) = true := by
          have e1 : (∀ s ∈ ((associateBy EnumField.identifier gs).map (·.2)).map (·.identifier), enumNameOk s = true) ↔
              ∀ f ∈ associateBy EnumField.identifier gs, enumNameOk f.2.identifier = true := by rw [List.forall_mem_map, List.forall_mem_map]
          have e2 : (∀ s ∈ fs.map (fun f => String.ofList f.identifier), enumNameOk s = true) ↔ ∀ f ∈ fs, enumNameOk (String.ofList f.identifier) = true := List.forall_mem_map
          rw [← e1, hd, hg, e2]
        rw [hcs]
        simp only [Option.map_some, Option.bind_some, plainDef, hk]
        by_cases h3 : escapedOk (String.ofList x) = true
        · by_cases h4 : ∀ f ∈ fs, enumNameOk (String.ofList f.identifier) = true
          · rw [if_pos h3, if_pos h4, if_pos ⟨h3, h4⟩]; rfl
          · rw [if_pos h3, if_neg h4, if_neg fun h => h4 h.2]; rfl
        · rw [if_neg h3, if_neg fun h => h3 h.1]

/-! ## Documents -/

/-- Where all lifetimes can be computed, the texts of all types can be written. -/
theorem rustFieldType_some {document : Gen.Document} {depth : Nat} (hd : ∀ p ∈ document, definitionNeedsLifeTime document depth p.2 ≠ none) :
    ∀ t : FieldType, ∃ ts, rustFieldType document depth t = some ts
  | .named name => by
    rw [rustFieldType]
    cases hg : get? name document with
    | none => exact ⟨_, rfl⟩
    | some d =>
      have hm : (name, d) ∈ document := by
        have : ∀ m : List (String × Definition), get? name m = some d → (name, d) ∈ m := by
          intro m
          induction m with
          | nil => intro h; cases h
          | cons p m ih =>
            obtain ⟨k, v⟩ := p
            intro h
            rw [get?] at h
            split at h
            · next hk => cases h; subst hk; simp
            · exact List.mem_cons_of_mem _ (ih h)
        exact this _ hg
      obtain ⟨b, hb⟩ := Option.ne_none_iff_exists'.1 (hd _ hm)
      exact ⟨_, by rw [lifetimeAnnotation, hb]; rfl⟩
  | .base b => by cases b <;> exact ⟨_, rfl⟩
  | .map k v => by
    obtain ⟨a, ha⟩ := rustFieldType_some hd k
    obtain ⟨b, hb⟩ := rustFieldType_some hd v
    exact ⟨_, by rw [rustFieldType, ha, hb]; rfl⟩
  | .set t => by
    obtain ⟨a, ha⟩ := rustFieldType_some hd t
    exact ⟨_, by rw [rustFieldType, ha]; rfl⟩
  | .list t => by
    obtain ⟨a, ha⟩ := rustFieldType_some hd t
    exact ⟨_, by rw [rustFieldType, ha]; rfl⟩

theorem visitDefinition_plain {document : Gen.Document} {depth : Nat} (hd : ∀ p ∈ document, definitionNeedsLifeTime document depth p.2 ≠ none) (scope : String → Option Ty) {p : String × Definition}
    (hp : p ∈ document) : visitDefinition document depth scope p.2 = plainDef scope p.2 := by
  have hf : ∀ scope f, genField document depth scope f = plainField scope f := by
    intro scope f
    obtain ⟨a, ha⟩ := rustFieldType_some hd f.type
    simp [genField, plainField, rustType, ha]
  have hv : ∀ scope f, genVariant document depth scope f = plainVariant scope f := by
    intro scope f
    obtain ⟨a, ha⟩ := rustFieldType_some hd f.type
    simp [genVariant, plainVariant, rustType, ha]
  obtain ⟨b, hb⟩ := Option.ne_none_iff_exists'.1 (hd _ hp)
  obtain ⟨k, d⟩ := p
  dsimp only at *
  cases d with
  | typedef => rfl
  | enum => rfl
  | struct x fs =>
    simp only [visitDefinition, hb, plainDef, Option.bind_eq_bind, Option.bind_some, funext (hf _)]
    split
    · cases (fs.map (·.2)).mapM (plainField (withSelf scope x)) <;> rfl
    · rfl
  | union x fs =>
    simp only [visitDefinition, hb, plainDef, Option.bind_eq_bind, Option.bind_some, funext (hv _)]
    split
    · cases (fs.map (·.2)).mapM (plainVariant (withSelf scope x)) <;> rfl
    · rfl

theorem mapM_defs {scope : String → Option Ty} {ds : List PDef} (h : ∀ d ∈ ds, ∃ it ts, Same scope d it ts) :
    ∃ its ts, (∀ cur outer us, rustTrees cur outer (many definition ds ++ us) = rustTrees (cur ++ ts) outer us) ∧ Macro.Spec.Document ds.length its ts ∧
      its.map Item.name = ds.map (fun d => String.ofList (defName d)) ∧ its.map (elabItem scope) = ds.map fun d => (mapDefinition d).bind (plainDef scope) := by
  induction ds with
  | nil => exact ⟨[], [], by simp [many], .nil, rfl, rfl⟩
  | cons d ds ih =>
    obtain ⟨it, ts, hs⟩ := h d (by simp)
    obtain ⟨its, us, h1, h2, h3, h4⟩ := ih fun x hx => h x (by simp [hx])
    refine ⟨it :: its, ts ++ us, fun cur outer vs => ?_, .item _ _ _ _ _ hs.text h2, by simp [hs.name, h3], by simp [hs.elab', h4]⟩
    have e : many definition (d :: ds) ++ vs = definition d ++ (many definition ds ++ vs) := by simp [many]
    rw [e, hs.trees, h1, List.append_assoc]

theorem headers_same {hs : List PHeader} (h : ∀ x ∈ hs, ∃ l y, x = .namespace (some l) y ∧ PlainWord l ∧ PlainWord y) :
    ∃ ts, leaves (many header hs) = some ts ∧ ∀ {n its us}, Macro.Spec.Document n its us → Macro.Spec.Document (hs.length + n) its (ts ++ us) := by
  induction hs with
  | nil => exact ⟨[], rfl, by simp⟩
  | cons x hs ih =>
    obtain ⟨l, y, rfl, hl, hy⟩ := h x (by simp)
    obtain ⟨ts, h1, h2⟩ := ih fun z hz => h z (by simp [hz])
    have hk : leaves [.kw .NAMESPACE] = some [.ident "namespace"] := rfl
    refine ⟨[.ident "namespace", .ident (String.ofList l), .ident (String.ofList y)] ++ ts, ?_, fun {n its us} hd => ?_⟩
    · simpa [many, header] using leaves_append (leaves_append (leaves_append hk (leaves_word hl)) (leaves_word hy)) h1
    · have := Macro.Spec.Document.namespace _ _ [] (String.ofList l) (String.ofList y) _ .nil (h2 hd)
      simpa [Nat.add_right_comm] using this

theorem mapHeaders_common : ∀ (hs : List PHeader) (h : Header), (∀ x ∈ hs, ∃ l y, x = .namespace (some l) y ∧ PlainWord l ∧ PlainWord y) → ∃ r, mapHeaders h hs = some r
  | [], h, _ => ⟨h, rfl⟩
  | x :: hs, h, hx => by
    obtain ⟨l, y, rfl, _⟩ := hx x (by simp)
    exact mapHeaders_common hs _ fun z hz => hx z (by simp [hz])

/-- Looking up the items by their names in order is going through them. -/
theorem mapM_find {β : Type} {f : Item → Option β} : ∀ {its : List Item}, (its.map Item.name).Nodup →
    (its.map Item.name).mapM (fun n => (its.find? fun i => i.name = n).bind f) = its.mapM f := by
  intro its hn
  have : ∀ js : List Item, (∀ j ∈ js, j ∈ its) → (js.map Item.name).mapM (fun n => (its.find? fun i => i.name = n).bind f) = js.mapM f := by
    intro js hj
    rw [mapM_map]
    refine mapM_congr_code fun j hm => ?_
    have : (its.find? fun i => i.name = j.name) = some j := by
      replace hj := hj j hm
      clear hm
      induction its with
      | nil => cases hj
      | cons a its ih =>
        rw [List.find?_cons]
        split
        · next ha =>
          rcases List.mem_cons.1 hj with rfl | hj
          · rfl
          · exfalso
            rw [List.map_cons, List.nodup_cons] at hn
            exact hn.1 (List.mem_map.2 ⟨j, hj, (by simpa using ha : a.name = j.name).symm⟩)
        · next ha =>
          rcases List.mem_cons.1 hj with rfl | hj
          · simp at ha
          · rw [List.map_cons, List.nodup_cons] at hn
            exact ih hn.2 hj
    rw [this]; rfl
  exact this its fun _ h => h

/-- C87: a document both front ends understand means the same to the generator and to `thrift!`: both refuse it or give the same definitions. -/
theorem C87_same {s : List Char} {ts : List Tok} {d : PDoc} (hs : tokens s = some ts) (hp : parse ts = some d) (hc : Common d) {depth : Nat}
    (hd : ∀ h document, mapDoc d = some (h, document) → ∀ p ∈ document, definitionNeedsLifeTime document depth p.2 ≠ none) {limit : Nat}
    (hl : d.headers.length + d.definitions.length < limit) :
    ∃ tts, rustTokens ts = some tts ∧
      expand (fun _ => none) (d.definitions.map fun x => String.ofList (defName x)) limit tts = (readDocument s).bind fun r => generate r.2 depth := by
  obtain rfl := parse_sound hp
  have htx : Texts (document d) := tokens_texts hs
  obtain ⟨hch, hcd, hnd, hres⟩ := hc
  have hr : readDocument s = mapDoc d := readDocument_eq hs
  rw [hr]
  generalize ho : (d.definitions.map fun x => String.ofList (defName x)) = order
  have hon : order.Nodup := by
    have := nodup_ofList hnd
    rw [← ho]
    simpa [List.map_map, Function.comp_def] using this
  generalize hsc : (fun s => if s ∈ order then some (Ty.named (order.idxOf s)) else none) = scope
  have hno : ∀ w : List Char, (∀ x ∈ d.definitions, defName x ≠ w) → scope (String.ofList w) = none := by
    intro w hw
    rw [← hsc]
    refine if_neg fun hm => ?_
    rw [← ho] at hm
    obtain ⟨x, hx, he⟩ := List.mem_map.1 hm
    exact hw x hx (String.ofList_injective he)
  have hS : scope "String" = none := hno _ fun x hx => (hres x hx).1
  have hU : scope "u8" = none := hno _ fun x hx => (hres x hx).2
  obtain ⟨its, t2, htr, hdoc, hnm, hel⟩ := mapM_defs (scope := scope) fun x hx => definition_same hS hU (hcd x hx) fun t ht => htx t (by
    have := mem_many hx ht
    simp [document, this])
  obtain ⟨t1, hl1, hdh⟩ := headers_same hch
  refine ⟨t1 ++ t2, ?_, ?_⟩
  · have h1 := rustTrees_leaves hl1 [] [] (many definition d.definitions)
    have h2 := htr ([] ++ t1) [] []
    rw [rustTokens, document, h1]
    rw [List.append_nil] at h2
    rw [h2]
    simp [rustTrees]
  · have hth := (C70_document limit (t1 ++ t2) its).2 ⟨_, hl, hdh hdoc⟩
    have hnames : its.map Item.name = order := by rw [hnm, ho]
    rw [expand, hth]
    simp only [Option.bind_eq_bind, Option.bind_some, hnames]
    rw [if_pos (by simp [hon]), hsc, ← hnames, mapM_find (hnames ▸ hon)]
    have e1 : its.mapM (elabItem scope) = d.definitions.mapM fun x => (mapDefinition x).bind (plainDef scope) := by
      have a := mapM_map (fun o : Option Def => o) (elabItem scope) its
      have b := mapM_map (fun o : Option Def => o) (fun x => (mapDefinition x).bind (plainDef scope)) d.definitions
      rw [← a, hel, b]
    rw [e1, ← mapM_bind]
    obtain ⟨h, hh⟩ := mapHeaders_common d.headers ⟨[], []⟩ hch
    cases hm : d.definitions.mapM mapDefinition with
    | none => simp [mapDoc, mapHeader, hh, hm]
    | some ds =>
      have hmd : mapDoc d = some (h, mapDocument ds) := by simp [mapDoc, mapHeader, hh, hm]
      rw [hmd, Option.bind_some, Option.bind_some]
      have hdn : ds.map Definition.identifier = order := by
        rw [← ho]
        have : ∀ (xs : List PDef) (ys : List Definition), xs.mapM mapDefinition = some ys → ys.map Definition.identifier = xs.map fun x => String.ofList (defName x) := by
          intro xs
          induction xs with
          | nil => intro ys h; cases h; rfl
          | cons x xs ih =>
            intro ys h
            simp only [List.mapM_cons, Option.bind_eq_bind, Option.bind_eq_some_iff, Option.pure_def, Option.some.injEq] at h
            obtain ⟨y, hy, zs, hz, rfl⟩ := h
            have hyx : y.identifier = String.ofList (defName x) := by
              cases x with
              | const => cases hy
              | typedef => cases hy; rfl
              | exception => cases hy
              | service => cases hy
              | enum => obtain ⟨m, _, rfl⟩ := Option.map_eq_some_iff.1 hy; rfl
              | struct => obtain ⟨m, _, rfl⟩ := Option.map_eq_some_iff.1 hy; rfl
              | union => obtain ⟨m, _, rfl⟩ := Option.map_eq_some_iff.1 hy; rfl
            simp [hyx, ih _ hz]
        exact this _ _ hm
      have hval : (mapDocument ds).map (·.2) = ds := C68_distinct _ _ (by rw [hdn]; exact hon)
      have hkey : (mapDocument ds).map (·.1) = order := by
        rw [← hdn, ← hval, List.map_map, hval]
        exact List.map_congr_left fun p hp => ((keyed_associateBy Definition.identifier ds).1 p hp).symm
      rw [generate, hkey]
      simp only [hsc]
      rw [mapM_map, mapM_congr_code fun p hp => visitDefinition_plain (hd _ _ hmd) scope hp]
      have := mapM_map (plainDef scope) (·.2) (mapDocument ds)
      rw [hval] at this
      exact this

/-- C87: what the macro accepts of these documents, the generator makes the same of. -/
theorem C87_accepted {s : List Char} {ts : List Tok} {d : PDoc} (hs : tokens s = some ts) (hp : parse ts = some d) (hc : Common d) {depth : Nat}
    (hd : ∀ h document, mapDoc d = some (h, document) → ∀ p ∈ document, definitionNeedsLifeTime document depth p.2 ≠ none) {limit : Nat}
    (hl : d.headers.length + d.definitions.length < limit) {tts : List TT} (ht : rustTokens ts = some tts) {env : List Def}
    (he : expand (fun _ => none) (d.definitions.map fun x => String.ofList (defName x)) limit tts = some env) :
    ∃ h document, readDocument s = some (h, document) ∧ generate document depth = some env := by
  obtain ⟨tts', h1, h2⟩ := C87_same hs hp hc hd hl
  obtain rfl := Option.some.inj (ht.symm.trans h1)
  rw [he] at h2
  obtain ⟨r, h3, h4⟩ := Option.bind_eq_some_iff.1 h2.symm
  exact ⟨r.1, r.2, h3, h4⟩

/-! An example -/

instance decidablePlainWord (t : List Char) : Decidable (PlainWord t) := by unfold PlainWord; infer_instance
instance decidablePlainInt (i : IntegerCtx) : Decidable (PlainInt i) := by cases i <;> (unfold PlainInt; infer_instance)
instance decidablePlainType (t : PType) : Decidable (PlainType t) := by unfold PlainType; split <;> infer_instance
instance decidablePlainDefault (v : Option PConst) : Decidable (PlainDefault v) := by unfold PlainDefault; split <;> infer_instance
instance decidablePlainId (o : Option IntegerCtx) : Decidable (∃ i, o = some i ∧ PlainInt i) :=
  match o with
  | none => .isFalse (by simp)
  | some i => if h : PlainInt i then .isTrue ⟨i, rfl, h⟩ else .isFalse (by rintro ⟨j, e, hj⟩; cases e; exact h hj)
instance decidableNoValue (v : Option PConst) : Decidable (v = none) :=
  match v with
  | none => .isTrue rfl
  | some _ => .isFalse (by simp)
instance decidableHex (i : IntegerCtx) : Decidable (∀ t, i = .hex t → denotes i ≠ -2147483648) :=
  match i with
  | .dec _ => .isTrue (by simp)
  | .hex t => if h : denotes (.hex t) ≠ -2147483648 then .isTrue (by intro _ _; exact h) else .isFalse (fun g => h (g t rfl))
instance decidableCommonField (f : PField) : Decidable (CommonField f) := by unfold CommonField; infer_instance
instance decidableCommonVariant (f : PField) : Decidable (CommonVariant f) := by unfold CommonVariant; infer_instance
instance decidableCommonConstant (f : PEnumField) : Decidable (CommonConstant f) := by unfold CommonConstant; infer_instance
instance decidableCommonDef (d : PDef) : Decidable (CommonDef d) := by unfold CommonDef; split <;> infer_instance
instance decidableCommonHeader (h : PHeader) : Decidable (∃ l x, h = .namespace (some l) x ∧ PlainWord l ∧ PlainWord x) :=
  match h with
  | .namespace (some l) x => if g : PlainWord l ∧ PlainWord x then .isTrue ⟨l, x, rfl, g⟩ else .isFalse (by rintro ⟨_, _, e, h⟩; cases e; exact g h)
  | .namespace none _ => .isFalse (by rintro ⟨_, _, e, _⟩; cases e)
  | .include _ => .isFalse (by rintro ⟨_, _, e, _⟩; cases e)
  | .cppInclude _ => .isFalse (by rintro ⟨_, _, e, _⟩; cases e)
instance decidableCommon (d : PDoc) : Decidable (Common d) := by unfold Common; infer_instance

/-- `namespace rs x enum E { A = 1; B = -0x2; } struct S { 1: required list<E> a 2: optional string b = "x"; } union U { 1: S s }` -/
def commonTree : PDoc :=
  ⟨[.namespace (some ['r', 's']) ['x']],
   [.enum ['E'] [⟨['A'], .dec ['1'], some .semi⟩, ⟨['B'], .hex ['-', '0', 'x', '2'], some .semi⟩],
    .struct ['S'] [⟨some (.dec ['1']), some true, .list none (.named ['E']), ['a'], none, none⟩,
      ⟨some (.dec ['2']), some false, .builtin .STRING, ['b'], some (.literal ['"', 'x', '"']), some .semi⟩],
    .union ['U'] [⟨some (.dec ['1']), none, .named ['S'], ['s'], none, none⟩]]⟩

example : Common commonTree := by decide

/-- `fieldNeedsLifeTime` by structural recursion, given the answers for names -/
def lifeIn (named : String → Option Bool) : FieldType → Option Bool
  | .base b => some (b == .BINARY || b == .STRING)
  | .named name => named name
  | .list t => lifeIn named t
  | .set t => lifeIn named t
  | .map k v => match lifeIn named k with
    | none => none
    | some true => some true
    | some false => lifeIn named v

def life (document : Document) : Nat → FieldType → Option Bool
  | 0 => lifeIn fun _ => none
  | n + 1 => lifeIn fun name => anyField (life document n) (fieldsOf document name)

theorem fieldNeedsLifeTime_eq (document : Document) : ∀ (n : Nat) (t : FieldType), fieldNeedsLifeTime document n t = life document n t := by
  intro n
  induction n with
  | zero =>
    intro t
    induction t with
    | base b => rw [fieldNeedsLifeTime]; rfl
    | named a => rw [fieldNeedsLifeTime]; rfl
    | set t ih => rw [fieldNeedsLifeTime, ih]; rfl
    | list t ih => rw [fieldNeedsLifeTime, ih]; rfl
    | map k v ih₁ ih₂ => rw [fieldNeedsLifeTime, ih₁, ih₂]; rfl
  | succ n ih =>
    have hf : (fun t => fieldNeedsLifeTime document n t) = life document n := funext ih
    intro t
    induction t with
    | base b => rw [fieldNeedsLifeTime]; rfl
    | named a => rw [fieldNeedsLifeTime, hf]; rfl
    | set t ih => rw [fieldNeedsLifeTime, ih]; rfl
    | list t ih => rw [fieldNeedsLifeTime, ih]; rfl
    | map k v ih₁ ih₂ => rw [fieldNeedsLifeTime, ih₁, ih₂]; rfl

theorem definitionNeedsLifeTime_ok {d : PDoc} {depth : Nat}
    (h : (mapDoc d).all (fun r => r.2.all fun p => (anyField (life r.2 depth) p.2.typedFields).isSome) = true) :
    ∀ h document, mapDoc d = some (h, document) → ∀ p ∈ document, definitionNeedsLifeTime document depth p.2 ≠ none := by
  intro hs document hm p hp
  rw [hm] at h
  simp only [Option.all_some, List.all_eq_true] at h
  have := h p hp
  rw [definitionNeedsLifeTime, funext (fieldNeedsLifeTime_eq document depth)]
  exact fun hn => by rw [hn] at this; cases this

/-- Two levels of calls are enough for it. -/
example : ∀ h document, mapDoc commonTree = some (h, document) → ∀ p ∈ document, definitionNeedsLifeTime document 2 p.2 ≠ none :=
  definitionNeedsLifeTime_ok (by decide +kernel)

/-- A text with that tree -/
example : ∃ ts, tokens "namespace rs x enum E { A = 1; B = -0x2; } // no more\n struct S { 1: required list<E> a 2: optional string b = \"x\"; } union U { 1: S s }".toList =
    some ts ∧ parse ts = some commonTree := ⟨_, by decide +kernel, parse_complete commonTree⟩

example : ((rustTokens (document commonTree)).bind fun tts => expand (fun _ => none) ["E", "S", "U"] 128 tts) =
    some [.enum "E", .struct "S" [⟨1, true, "a", .list (.named 0)⟩, ⟨2, false, "b", .string⟩], .union "U" [⟨1, "s", .named 1⟩]] := by decide +kernel

/-! ## Differences -/

/-- `struct Node { 1: required list<Node> children }` -/
def nodeTree : PDoc := ⟨[], [.struct ['N', 'o', 'd', 'e'] [⟨some (.dec ['1']), some true, .list none (.named ['N', 'o', 'd', 'e']), ['c', 'h', 'i', 'l', 'd', 'r', 'e', 'n'], none, none⟩]]⟩

/-- C87: a recursive struct is fine for the macro, the generator overflows its stack. -/
theorem C87_counterexample_recursive :
    Common nodeTree ∧
    ((rustTokens (document nodeTree)).bind fun tts => expand (fun _ => none) ["Node"] 128 tts) = some [.struct "Node" [⟨1, true, "children", .list (.named 0)⟩]] ∧
    ∀ depth, ((mapDoc nodeTree).bind fun r => generate r.2 depth) = none := by
  refine ⟨?_, by decide +kernel, fun depth => ?_⟩
  · refine ⟨by simp [nodeTree], fun x hx => ?_, by decide, by decide⟩
    obtain rfl := List.mem_singleton.1 hx
    refine ⟨⟨by decide, by decide⟩, fun f hf => ?_, by decide⟩
    obtain rfl := List.mem_singleton.1 hf
    exact ⟨⟨_, rfl, by simp [PlainInt]⟩, by decide, ⟨by decide, by decide⟩, ⟨by decide, by decide⟩, trivial, by decide⟩
  · have hm : mapDoc nodeTree = some (⟨[], []⟩, [("Node", .struct "Node" [("children", ⟨1, .REQUIRED, "children", .list (.named "Node")⟩)])]) := by rfl
    rw [hm, Option.bind_some]
    generalize hdoc : [("Node", Definition.struct "Node" [("children", (⟨1, .REQUIRED, "children", .list (.named "Node")⟩ : Gen.Field))])] = doc
    have hn : ∀ n, fieldNeedsLifeTime doc n (.named "Node") = none := by
      intro n
      induction n with
      | zero => rw [fieldNeedsLifeTime]
      | succ n ih =>
        rw [fieldNeedsLifeTime, ← hdoc, show fieldsOf _ "Node" = [⟨1, .REQUIRED, "children", .list (.named "Node")⟩] from rfl, hdoc]
        simp only [anyField]
        rw [fieldNeedsLifeTime, ih]
    have hd : definitionNeedsLifeTime doc depth (.struct "Node" [("children", ⟨1, .REQUIRED, "children", .list (.named "Node")⟩)]) = none := by
      simp only [definitionNeedsLifeTime, Definition.typedFields, List.map_cons, List.map_nil, anyField]
      rw [fieldNeedsLifeTime, hn]
    rw [generate, ← hdoc]
    simp only [List.map_cons, List.map_nil, List.mapM_cons, visitDefinition]
    rw [hdoc, hd]
    rfl

/-- `struct Bag { 1: required set<i32> items }` -/
def bagTree : PDoc := ⟨[], [.struct ['B', 'a', 'g'] [⟨some (.dec ['1']), some true, .set none (.builtin .I32), ['i', 't', 'e', 'm', 's'], none, none⟩]]⟩

/-- C87: to the macro a set is a vector; the code of the generator for it has no implementation. -/
theorem C87_counterexample_set :
    ((rustTokens (document bagTree)).bind fun tts => expand (fun _ => none) ["Bag"] 128 tts) = some [.struct "Bag" [⟨1, true, "items", .list .i32⟩]] ∧
    ∀ depth, ((mapDoc bagTree).bind fun r => generate r.2 depth) = none := by
  refine ⟨by decide +kernel, fun depth => ?_⟩
  have hm : mapDoc bagTree = some (⟨[], []⟩, [("Bag", .struct "Bag" [("items", ⟨1, .REQUIRED, "items", .set (.base .I32)⟩)])]) := by rfl
  rw [hm, Option.bind_some, generate]
  simp only [List.map_cons, List.map_nil, List.mapM_cons, List.mapM_nil, visitDefinition, genField, genType]
  cases definitionNeedsLifeTime _ depth _ with
  | none => rfl
  | some b =>
    simp only [Option.bind_eq_bind, Option.bind_some]
    cases rustType _ depth _ _ with
    | none => rfl
    | some t => simp

/-- `struct Point { i32 x  1: i32 y }` -/
def pointTree : PDoc := ⟨[], [.struct ['P', 'o', 'i', 'n', 't'] [⟨none, none, .builtin .I32, ['x'], none, none⟩, ⟨some (.dec ['1']), none, .builtin .I32, ['y'], none, none⟩]]⟩

/-- C87: fields without id or requirement only the generator understands: ids count from 0, and the fields are optional. -/
theorem C87_counterexample_default :
    ((rustTokens (document pointTree)).bind fun tts => expand (fun _ => none) ["Point"] 128 tts) = none ∧
    ((mapDoc pointTree).bind fun r => generate r.2 1) = some [.struct "Point" [⟨0, false, "x", .i32⟩, ⟨1, false, "y", .i32⟩]] := by
  refine ⟨by decide +kernel, ?_⟩
  have hm : mapDoc pointTree = some (⟨[], []⟩, [("Point", .struct "Point" [("x", ⟨0, .DEFAULT, "x", .base .I32⟩), ("y", ⟨1, .DEFAULT, "y", .base .I32⟩)])]) := by rfl
  rw [hm, Option.bind_some, generate]
  have hl : ∀ doc, fieldNeedsLifeTime doc 1 (.base .I32) = some false := fun doc => by rw [fieldNeedsLifeTime]; rfl
  have hP : escapedOk "Point" = true := by decide +kernel
  have hx : escapedOk "x" = true := by decide +kernel
  have hy : escapedOk "y" = true := by decide +kernel
  have h0 : idLiteral 0#32 = some 0 := by decide
  have h1 : idLiteral 1#32 = some 1 := by decide
  simp [visitDefinition, genField, genType, resolve, builtin, definitionNeedsLifeTime, Definition.typedFields, anyField, hl, rustType, rustFieldType, h0, h1, hP, hx, hy, withSelf]

/-- `struct Page { 1: required i32 type }` -/
def pageTree : PDoc := ⟨[], [.struct ['P', 'a', 'g', 'e'] [⟨some (.dec ['1']), some true, .builtin .I32, ['t', 'y', 'p', 'e'], none, none⟩]]⟩

/-- C87: the generator escapes the field name `type`, the macro leaves it to the compiler, which refuses it. -/
theorem C87_counterexample_type :
    ((rustTokens (document pageTree)).bind fun tts => expand (fun _ => none) ["Page"] 128 tts) = none ∧
    ((mapDoc pageTree).bind fun r => generate r.2 1) = some [.struct "Page" [⟨1, true, "type", .i32⟩]] := by
  refine ⟨by decide +kernel, ?_⟩
  have hm : mapDoc pageTree = some (⟨[], []⟩, [("Page", .struct "Page" [("type", ⟨1, .REQUIRED, "type", .base .I32⟩)])]) := by rfl
  rw [hm, Option.bind_some, generate]
  have hl : ∀ doc, fieldNeedsLifeTime doc 1 (.base .I32) = some false := fun doc => by rw [fieldNeedsLifeTime]; rfl
  have hP : escapedOk "Page" = true := by decide +kernel
  have hx : escapedOk "type" = true := by decide +kernel
  have h1 : idLiteral 1#32 = some 1 := by decide
  simp [visitDefinition, genField, genType, resolve, builtin, definitionNeedsLifeTime, Definition.typedFields, anyField, hl, rustType, rustFieldType, h1, hP, hx, withSelf]

/-- `enum Kind { value = 1; }` -/
def kindTree : PDoc := ⟨[], [.enum ['K', 'i', 'n', 'd'] [⟨['v', 'a', 'l', 'u', 'e'], .dec ['1'], some .semi⟩]]⟩

/-- C87: a constant `value` is fine for the macro; in the generated code it is declared twice. -/
theorem C87_counterexample_value :
    ((rustTokens (document kindTree)).bind fun tts => expand (fun _ => none) ["Kind"] 128 tts) = some [.enum "Kind"] ∧
    ∀ depth, ((mapDoc kindTree).bind fun r => generate r.2 depth) = none := by
  refine ⟨by decide +kernel, fun depth => ?_⟩
  have hm : mapDoc kindTree = some (⟨[], []⟩, [("Kind", .enum "Kind" [("value", ⟨"value", 1⟩)])]) := by rfl
  rw [hm, Option.bind_some, generate]
  simp [visitDefinition, enumNameOk]

end CT.Props
