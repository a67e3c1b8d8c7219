import Verif.Spec.ThriftDocument
import Verif.Props.ThriftParser
import Verif.Props.ThriftLexer
import Verif.Props.Generator
/-! # C86: from the text to the document -/
namespace CT.Props
open CT.Gen CT.Gen.Spec

/-! ## Integers -/

theorem char_le {a b : Char} : a ≤ b ↔ a.toNat ≤ b.toNat := by
  rw [Char.le_def, UInt32.le_iff_toNat_le]; rfl

theorem digitOf_dec {c : Char} (h : isDigit c = true) : digitOf 10 c = some (digitValue c) := by
  simp only [isDigit, Bool.and_eq_true, decide_eq_true_eq] at h
  have h2 := char_le.1 h.2
  unfold digitOf digitValue
  simp only [h.1, h.2, and_self, if_true]
  rw [Option.bind_some, if_pos]
  · rfl
  · have : '9'.toNat = 57 := rfl
    omega

theorem digitOf_hex {c : Char} (h : isHexDigit c = true) : digitOf 16 c = some (digitValue c) := by
  have n0 : '0'.toNat = 48 := rfl
  have n9 : '9'.toNat = 57 := rfl
  have na : 'a'.toNat = 97 := rfl
  have nf : 'f'.toNat = 102 := rfl
  have nz : 'z'.toNat = 122 := rfl
  have nA : 'A'.toNat = 65 := rfl
  have nF : 'F'.toNat = 70 := rfl
  have nZ : 'Z'.toNat = 90 := rfl
  simp only [isHexDigit, isDigit, Bool.or_eq_true, Bool.and_eq_true, decide_eq_true_eq, char_le] at h
  unfold digitOf digitValue
  simp only [char_le, n0, n9, na, nf, nz, nA, nF, nZ] at *
  rcases h with (h | h) | h
  · rw [if_pos h, if_pos h, Option.bind_some, if_pos (by omega)]
  · rw [if_neg (by omega), if_neg (by omega), if_pos (by omega), if_neg (by omega), if_neg (by omega), Option.bind_some, if_pos (by omega)]
    congr 1; omega
  · rw [if_neg (by omega), if_pos (by omega), if_neg (by omega), if_pos (by omega), Option.bind_some, if_pos (by omega)]
    congr 1; omega

theorem digitsValue_numeral {radix : Nat} : ∀ (cs : List Char) (acc : Nat), (∀ c ∈ cs, digitOf radix c = some (digitValue c)) →
    digitsValue radix acc cs = some ((cs.map digitValue).foldl (fun acc d => acc * radix + d) acc)
  | [], _, _ => rfl
  | c :: cs, acc, h => by
    rw [digitsValue, h c (by simp)]
    exact digitsValue_numeral cs _ fun c hc => h c (by simp [hc])

theorem magnitude_numeral {radix : Nat} {cs : List Char} (hne : cs ≠ []) (h : ∀ c ∈ cs, digitOf radix c = some (digitValue c)) :
    magnitude radix cs = some (numeral radix cs) := by
  unfold magnitude
  rw [if_neg hne]
  exact digitsValue_numeral cs 0 h

theorem not_sign {c : Char} (h : isHexDigit c = true) : c ≠ '-' ∧ c ≠ '+' := by
  constructor <;> (rintro rfl; revert h; decide)

theorem hex_of_dec {c : Char} (h : isDigit c = true) : isHexDigit c = true := by simp [isHexDigit, h]

instance decidableInteger (i : IntegerCtx) : Decidable (InRange i) := by cases i <;> (unfold InRange; infer_instance)

/-- C86: the integers of a document denote their values if these fit 32 bits, otherwise the generator fails; it also fails for `-0x80000000`. -/
theorem C86_integer {i : IntegerCtx} {w : List Char} (h : ∃ t ∈ integer i, TokText t w) : mapInteger i = if InRange i then some (BitVec.ofInt 32 (denotes i)) else none := by
  obtain ⟨t, ht, h⟩ := h
  cases i with
  | dec text =>
    simp only [integer, List.mem_singleton] at ht
    subst ht
    cases h with
    | INTEGER h =>
      obtain ⟨g, ds, rfl, hg, hne, hds⟩ := matches_INTEGER.1 h
      have hm := magnitude_numeral (radix := 10) hne fun c hc => digitOf_dec (hds c hc)
      rcases matches_sign.1 hg with rfl | rfl | rfl
      · show (magnitude 10 ds).bind _ = _
        rw [hm, Option.bind_some]
        have hd : denotes (.dec (['+'] ++ ds)) = numeral 10 ds := rfl
        simp only [InRange, hd]
        split <;> rename_i h1
        · rw [if_pos (by omega)]; rfl
        · rw [if_neg (by omega)]
      · show (magnitude 10 ds).bind _ = _
        rw [hm, Option.bind_some]
        have hd : denotes (.dec (['-'] ++ ds)) = -(numeral 10 ds : Int) := rfl
        simp only [InRange, hd]
        split <;> rename_i h1
        · rw [if_pos (by omega)]
        · rw [if_neg (by omega)]
      · obtain ⟨c, cs, rfl⟩ := List.exists_cons_of_ne_nil hne
        have hs := not_sign (hex_of_dec (hds c (by simp)))
        show toInt 10 (c :: cs) = _
        rw [toInt_absent (by simpa using hs.1) (by simpa using hs.2), hm, Option.bind_some]
        have hd : denotes (.dec ([] ++ c :: cs)) = numeral 10 (c :: cs) := by
          rw [List.nil_append]
          unfold denotes
          split
          · next h => simp only [IntegerCtx.dec.injEq, List.cons.injEq] at h; exact absurd h.1 hs.1
          · next h => simp only [IntegerCtx.dec.injEq, List.cons.injEq] at h; exact absurd h.1 hs.2
          · next h => cases h; rfl
          · next h => cases h
          · next h => cases h
        simp only [InRange, hd]
        split <;> rename_i h1
        · rw [if_pos (by omega)]; rfl
        · rw [if_neg (by omega)]
  | hex text =>
    simp only [integer, List.mem_singleton] at ht
    subst ht
    cases h with
    | HEX_INTEGER h =>
      obtain ⟨g, ds, rfl, hg, hne, hds⟩ := matches_HEX.1 h
      have hm := magnitude_numeral (radix := 16) hne fun c hc => digitOf_hex (hds c hc)
      have ht : toInt 16 ds = if numeral 16 ds ≤ 2147483647 then some (BitVec.ofNat 32 (numeral 16 ds)) else none := by
        obtain ⟨c, cs, rfl⟩ := List.exists_cons_of_ne_nil hne
        have hs := not_sign (hds c (by simp))
        rw [toInt_absent (by simpa using hs.1) (by simpa using hs.2), hm, Option.bind_some]
      rcases hg with rfl | rfl
      · show (toInt 16 ds).map (fun v => -v) = _
        have hd : denotes (.hex (['-'] ++ '0' :: 'x' :: ds)) = -(numeral 16 ds : Int) := rfl
        simp only [InRange, hd, ht]
        split <;> rename_i h1
        · rw [if_pos (by omega), Option.map_some, BitVec.ofInt_neg]; rfl
        · rw [if_neg (by omega)]; rfl
      · show (toInt 16 ds).map (fun v => if False then -v else v) = _
        simp only [if_false]
        have hd : denotes (.hex ([] ++ '0' :: 'x' :: ds)) = (numeral 16 ds : Int) := rfl
        simp only [InRange, hd, ht]
        by_cases h1 : numeral 16 ds ≤ 2147483647
        · rw [if_pos h1, if_pos (by omega)]; rfl
        · rw [if_neg h1, if_neg (by omega)]; rfl

/-- Upper and lower case. -/
example : mapInteger (.hex ['-', '0', 'x', '1', 'F']) = some (-31) ∧ mapInteger (.hex ['0', 'x', '7', 'f', 'F', 'f', 'F', 'f', 'F', 'f']) = some 2147483647 := by decide

example : ∃ t ∈ integer (.hex ['-', '0', 'x', '1', 'F']), TokText t ['-', '0', 'x', '1', 'F'] :=
  ⟨_, by simp [integer], .HEX_INTEGER (matches_HEX.2 ⟨['-'], ['1', 'F'], rfl, .inl rfl, by simp, by decide⟩)⟩

/-! ## The tokens of a text -/

theorem tokens_texts {s : List Char} {ts : List Tok} (h : tokens s = some ts) : ∀ t ∈ ts, ∃ w, TokText t w := by
  obtain ⟨us, hu, rfl⟩ := Option.map_eq_some_iff.1 h
  rw [C84_lex] at hu
  have : ∀ {rest s : List Char} {us : List Token}, LexedTo rest s us → ∀ t ∈ us.filterMap Token.toTok, ∃ w, TokText t w := by
    intro rest s us h
    induction h with
    | nil => simp
    | @cons k w s us hF _ ih =>
      intro t ht
      rw [List.mem_filterMap] at ht
      obtain ⟨a, ha, hat⟩ := ht
      rcases List.mem_cons.1 ha with rfl | ha
      · have hr := hF.rule
        cases k with
        | kw k => cases hat; exact ⟨_, .kw k⟩
        | INTEGER => cases hat; exact ⟨_, .INTEGER hr⟩
        | HEX_INTEGER => cases hat; exact ⟨_, .HEX_INTEGER hr⟩
        | DOUBLE =>
          cases hat
          refine ⟨_, .DOUBLE hr fun hi => ?_⟩
          have := hF.earliest .INTEGER hi
          simp [position] at this
        | LITERAL => cases hat; exact ⟨_, .LITERAL hr⟩
        | IDENTIFIER =>
          cases hat
          refine ⟨_, .IDENTIFIER hr fun k hk => ?_⟩
          have := hF.earliest (.kw k) hk
          simp [position] at this
        | COMMA => cases hat; exact ⟨_, .COMMA⟩
        | _ => cases hat
      · exact ih t (List.mem_filterMap.2 ⟨a, ha, hat⟩)
  exact this hu

theorem readDocument_eq {s : List Char} {d : PDoc} (h : tokens s = some (document d)) : readDocument s = mapDoc d := by
  simp [readDocument, h, parse_complete]

theorem readDocument_some {s : List Char} {r : Header × Document} (h : readDocument s = some r) : ∃ d, tokens s = some (document d) ∧ mapDoc d = some r := by
  simp only [readDocument, Option.bind_eq_bind, Option.bind_eq_some_iff] at h
  obtain ⟨ts, h1, d, h2, h3⟩ := h
  exact ⟨d, by rw [h1, parse_sound h2], h3⟩

/-! ## What is supported -/

theorem mapHeaders_some : ∀ (hs : List PHeader) (h : Header), (∃ r, mapHeaders h hs = some r) ↔ ∀ t, PHeader.cppInclude t ∉ hs
  | [], h => by simp [mapHeaders]
  | .namespace l x :: hs, h => by simp [mapHeaders, mapHeaders_some hs]
  | .include t :: hs, h => by simp [mapHeaders, mapHeaders_some hs]
  | .cppInclude t :: hs, h => by
    constructor
    · rintro ⟨_, h⟩; cases h
    · intro h; exact absurd (by simp) (h t)

theorem map_some {α β : Type} {o : Option α} {f : α → β} : (∃ r, o.map f = some r) ↔ ∃ r, o = some r := by cases o <;> simp

theorem mapM_some {α β : Type} {f : α → Option β} : ∀ {xs : List α}, (∃ ys, xs.mapM f = some ys) ↔ ∀ x ∈ xs, ∃ y, f x = some y
  | [] => by simp
  | x :: xs => by
    rw [List.mapM_cons]
    constructor
    · rintro ⟨ys, h⟩
      simp only [Option.bind_eq_bind, Option.bind_eq_some_iff, Option.pure_def, Option.some.injEq] at h
      obtain ⟨y, hy, zs, hz, rfl⟩ := h
      intro a ha
      rcases List.mem_cons.1 ha with rfl | ha
      · exact ⟨y, hy⟩
      · exact mapM_some.1 ⟨zs, hz⟩ a ha
    · intro h
      obtain ⟨y, hy⟩ := h x (by simp)
      obtain ⟨zs, hz⟩ := mapM_some (xs := xs).2 fun a ha => h a (by simp [ha])
      exact ⟨y :: zs, by simp [hy, hz]⟩

theorem mapInteger_some {i : IntegerCtx} (h : ∀ t ∈ integer i, ∃ w, TokText t w) : (∃ v, mapInteger i = some v) ↔ InRange i := by
  have : ∃ w, ∃ t ∈ integer i, TokText t w := by
    cases i with
    | dec x => obtain ⟨w, hw⟩ := h (.INTEGER x) (by simp [integer]); exact ⟨w, _, by simp [integer], hw⟩
    | hex x => obtain ⟨w, hw⟩ := h (.HEX_INTEGER x) (by simp [integer]); exact ⟨w, _, by simp [integer], hw⟩
  obtain ⟨w, hw⟩ := this
  rw [C86_integer hw]
  split <;> simp_all

theorem mem_many {α : Type} {f : α → List Tok} {a : α} {as : List α} (h : a ∈ as) {t : Tok} (ht : t ∈ f a) : t ∈ many f as := by
  unfold many
  exact List.mem_flatten.2 ⟨f a, List.mem_map.2 ⟨a, h, rfl⟩, ht⟩

theorem mapFields_some {fs : List PField} (h : ∀ t ∈ many field fs, ∃ w, TokText t w) :
    (∃ r, mapStructOrUnionFields (fs.map PField.toCtx) = some r) ↔ ∀ f ∈ fs, ∀ i, f.fieldId = some i → InRange i := by
  have e : (∃ r, mapStructOrUnionFields (fs.map PField.toCtx) = some r) ↔ ∃ r, mapFields (-1) (fs.map PField.toCtx) = some r := by
    rw [mapStructOrUnionFields, map_some]
  rw [e, C54_total]
  constructor
  · intro h2 f hf i hi
    refine (mapInteger_some fun t ht => h t (mem_many hf ?_)).1 (h2 _ (List.mem_map.2 ⟨f, hf, rfl⟩) i hi)
    simp [field, hi, opt, ht]
  · intro h2 c hc i hi
    obtain ⟨f, hf, rfl⟩ := List.mem_map.1 hc
    refine (mapInteger_some fun t ht => h t (mem_many hf ?_)).2 (h2 f hf i hi)
    have hi : f.fieldId = some i := hi
    simp [field, hi, opt, ht]

theorem mapDefinition_some {d : PDef} (h : ∀ t ∈ definition d, ∃ w, TokText t w) : (∃ r, mapDefinition d = some r) ↔ SupportedDef d := by
  cases d with
  | const => simp [mapDefinition, SupportedDef]
  | typedef => simp [mapDefinition, SupportedDef]
  | exception => simp [mapDefinition, SupportedDef]
  | service => simp [mapDefinition, SupportedDef]
  | enum x fs =>
    have e : (∃ r, mapDefinition (.enum x fs) = some r) ↔ ∃ r, (fs.map fun f => (String.ofList f.identifier, f.value)).mapM (fun f => (mapInteger f.2).map fun v => EnumField.mk f.1 v) = some r := by
      rw [mapDefinition, map_some, mapEnumFields, map_some]
    rw [e, mapM_some]
    have hi : ∀ f ∈ fs, (∃ v, mapInteger f.value = some v) ↔ InRange f.value := fun f hf => mapInteger_some fun t ht => h t (by
      have : t ∈ many enumField fs := mem_many hf (by simp [enumField, ht])
      simp [definition, this])
    constructor
    · intro h2 f hf
      obtain ⟨y, hy⟩ := h2 (String.ofList f.identifier, f.value) (List.mem_map.2 ⟨f, hf, rfl⟩)
      obtain ⟨v, hv, _⟩ := Option.map_eq_some_iff.1 hy
      exact (hi f hf).1 ⟨v, hv⟩
    · intro h2 x hx
      obtain ⟨f, hf, rfl⟩ := List.mem_map.1 hx
      obtain ⟨v, hv⟩ := (hi f hf).2 (h2 f hf)
      exact ⟨⟨String.ofList f.identifier, v⟩, by simp [hv]⟩
  | struct x fs =>
    have e : (∃ r, mapDefinition (.struct x fs) = some r) ↔ ∃ r, mapStructOrUnionFields (fs.map PField.toCtx) = some r := by
      rw [mapDefinition, map_some]
    rw [e]
    exact mapFields_some fun t ht => h t (by simp [definition, ht])
  | union x fs =>
    have e : (∃ r, mapDefinition (.union x fs) = some r) ↔ ∃ r, mapStructOrUnionFields (fs.map PField.toCtx) = some r := by
      rw [mapDefinition, map_some]
    rw [e]
    exact mapFields_some fun t ht => h t (by simp [definition, ht])

theorem mapDoc_some {d : PDoc} (h : ∀ t ∈ document d, ∃ w, TokText t w) : (∃ r, mapDoc d = some r) ↔ Supported d := by
  have hd : (∃ r, d.definitions.mapM mapDefinition = some r) ↔ ∀ x ∈ d.definitions, SupportedDef x := by
    rw [mapM_some]
    have hx : ∀ x ∈ d.definitions, (∃ r, mapDefinition x = some r) ↔ SupportedDef x := fun x hx =>
      mapDefinition_some fun t ht => h t (by
        have := mem_many hx ht
        simp [document, this])
    exact ⟨fun h x m => (hx x m).1 (h x m), fun h x m => (hx x m).2 (h x m)⟩
  have hh := mapHeaders_some d.headers ⟨[], []⟩
  unfold Supported
  rw [← hd, ← hh]
  constructor
  · rintro ⟨r, h⟩
    simp only [mapDoc, mapHeader, Option.bind_eq_bind, Option.bind_eq_some_iff] at h
    obtain ⟨a, ha, b, hb, _⟩ := h
    exact ⟨⟨a, ha⟩, ⟨b, hb⟩⟩
  · rintro ⟨⟨a, ha⟩, ⟨b, hb⟩⟩
    exact ⟨(a, mapDocument b), by simp [mapDoc, mapHeader, ha, hb]⟩

/-- C86: exactly those texts are read that are a sentence of the grammar without constants, exceptions, services, `cpp_include` and integers out of range. -/
theorem C86_reads (s : List Char) : (∃ r, readDocument s = some r) ↔ ∃ d, tokens s = some (document d) ∧ Supported d := by
  constructor
  · rintro ⟨r, h⟩
    obtain ⟨d, h1, h2⟩ := readDocument_some h
    exact ⟨d, h1, (mapDoc_some (tokens_texts h1)).1 ⟨r, h2⟩⟩
  · rintro ⟨d, h1, h2⟩
    rw [readDocument_eq h1]
    exact (mapDoc_some (tokens_texts h1)).2 h2

/-! ## What does not matter -/

theorem mapFieldType_bare : ∀ t : PType, mapFieldType (bareType t) = mapFieldType t
  | .builtin _ => rfl
  | .named _ => rfl
  | .map _ k v => by simp [bareType, mapFieldType, mapFieldType_bare k, mapFieldType_bare v]
  | .set _ e => by simp [bareType, mapFieldType, mapFieldType_bare e]
  | .list _ e => by simp [bareType, mapFieldType, mapFieldType_bare e]

theorem toCtx_bare (f : PField) : (bareField f).toCtx = f.toCtx := by simp [bareField, PField.toCtx, mapFieldType_bare]

theorem mapDefinition_bare (d : PDef) : mapDefinition (bareDef d) = mapDefinition d := by
  cases d with
  | typedef t x => simp [bareDef, mapDefinition, mapFieldType_bare]
  | enum x fs => simp [bareDef, mapDefinition, Function.comp_def, bareEnumField]
  | struct x fs => simp [bareDef, mapDefinition, Function.comp_def, toCtx_bare]
  | union x fs => simp [bareDef, mapDefinition, Function.comp_def, toCtx_bare]
  | _ => rfl

/-- C86: list separators, `cpp_type` and default values have no influence. -/
theorem C86_bare {d e : PDoc} (h : bareDoc d = bareDoc e) : mapDoc d = mapDoc e := by
  have hb : ∀ d, mapDoc (bareDoc d) = mapDoc d := by
    intro d
    have : (d.definitions.map bareDef).mapM mapDefinition = d.definitions.mapM mapDefinition := by
      rw [List.mapM_map]
      congr 1
      funext x; exact mapDefinition_bare x
    simp [mapDoc, bareDoc, this]
  rw [← hb d, h, hb e]

/-- C86: texts with the same tokens, up to these, give the same document. -/
theorem C86_layout {s u : List Char} {d e : PDoc} (hs : tokens s = some (document d)) (hu : tokens u = some (document e)) (h : bareDoc d = bareDoc e) : readDocument s = readDocument u := by
  rw [readDocument_eq hs, readDocument_eq hu, C86_bare h]

/-! ## Every document can be written -/

theorem natText_digits : ∀ n : Nat, ∃ ds : List Nat, natText n = ds.map digitChar ∧ ds ≠ [] ∧ (∀ d ∈ ds, d < 10) ∧ ofDigits 10 ds = n := by
  intro n
  induction n using natText.induct with
  | case1 n h => exact ⟨[n], by rw [natText, if_pos h]; rfl, by simp, by simpa using h, by simp [ofDigits]⟩
  | case2 n h ih =>
    obtain ⟨ds, h1, h2, h3, h4⟩ := ih
    refine ⟨ds ++ [n % 10], by rw [natText, if_neg h, h1]; simp, by simp, ?_, ?_⟩
    · intro d hd
      rcases List.mem_append.1 hd with hd | hd
      · exact h3 d hd
      · simp only [List.mem_singleton] at hd; omega
    · unfold ofDigits at *
      rw [List.foldl_append, h4]
      simp only [List.foldl_cons, List.foldl_nil]
      omega

theorem intText_digits (v : BitVec 32) : ∃ (s : Sign) (ds : List Nat), intText v = s.text ++ ds.map digitChar ∧ ds ≠ [] ∧ (∀ d ∈ ds, d < 10) ∧ s.apply (ofDigits 10 ds) = v.toInt := by
  obtain ⟨ds, h1, h2, h3, h4⟩ := natText_digits v.toInt.natAbs
  unfold intText
  split
  · refine ⟨.minus, ds, by rw [h1]; rfl, h2, h3, ?_⟩
    show -((ofDigits 10 ds : Nat) : Int) = _
    omega
  · refine ⟨.absent, ds, by rw [h1]; rfl, h2, h3, ?_⟩
    show ((ofDigits 10 ds : Nat) : Int) = _
    omega

theorem mapInteger_intText (v : BitVec 32) : mapInteger (.dec (intText v)) = some v := by
  obtain ⟨s, ds, h1, h2, h3, h4⟩ := intText_digits v
  rw [h1, C67_decimal s h2 h3, h4, if_pos, BitVec.ofInt_toInt]
  have h5 := v.le_toInt
  have h6 := v.toInt_lt
  constructor
  · exact h5
  · simp at h6; omega

theorem mapFieldType_unparse : ∀ t : FieldType, mapFieldType (unparseType t) = t
  | .base _ => rfl
  | .named n => by simp [unparseType, mapFieldType]
  | .set e => by simp [unparseType, mapFieldType, mapFieldType_unparse e]
  | .list e => by simp [unparseType, mapFieldType, mapFieldType_unparse e]
  | .map k v => by simp [unparseType, mapFieldType, mapFieldType_unparse k, mapFieldType_unparse v]

theorem mapField_unparse (cur : BitVec 32) (f : Field) : mapField cur (unparseField f).toCtx = some f := by
  obtain ⟨i, r, x, t⟩ := f
  simp only [unparseField, PField.toCtx, mapField, mapInteger_intText, mapFieldType_unparse, String.ofList_toList, Option.map_some]
  cases r <;> rfl

theorem mapFields_unparse : ∀ (fs : List Field) (cur : BitVec 32), mapFields cur (fs.map fun f => (unparseField f).toCtx) = some fs
  | [], _ => rfl
  | f :: fs, cur => by simp [mapFields, mapField_unparse, mapFields_unparse fs]

theorem associateBy_keyed {α : Type} {key : α → String} {m : List (String × α)} (h : Keyed key m) : associateBy key (m.map (·.2)) = m := by
  have hk : (m.map (·.2)).map key = m.map (·.1) := by
    rw [List.map_map]
    exact List.map_congr_left fun p hp => h.1 p hp
  unfold associateBy
  rw [foldl_put_distinct key _ [] (by simpa [hk] using h.2), List.nil_append, List.map_map]
  conv => rhs; rw [← List.map_id m]
  exact List.map_congr_left fun p hp => by simp [h.1 p hp]

theorem mapStruct_unparse {fs : List (String × Field)} (h : Keyed Field.identifier fs) :
    mapStructOrUnionFields ((fs.map fun f => unparseField f.2).map PField.toCtx) = some fs := by
  have e : ((fs.map fun f => unparseField f.2).map PField.toCtx) = (fs.map (·.2)).map fun f => (unparseField f).toCtx := by simp
  unfold mapStructOrUnionFields
  rw [e, mapFields_unparse, Option.map_some, associateBy_keyed h]

theorem mapEnum_unparse {fs : List (String × EnumField)} (h : Keyed EnumField.identifier fs) :
    mapEnumFields ((fs.map fun f => unparseEnumField f.2).map fun f => (String.ofList f.identifier, f.value)) = some fs := by
  have e : ∀ gs : List EnumField, (gs.map fun g => (String.ofList (unparseEnumField g).identifier, (unparseEnumField g).value)).mapM
      (fun f : String × IntegerCtx => (mapInteger f.2).map fun v => EnumField.mk f.1 v) = some gs := by
    intro gs
    induction gs with
    | nil => rfl
    | cons g gs ih =>
      rw [List.map_cons, List.mapM_cons, ih]
      simp [unparseEnumField, mapInteger_intText]
  have e2 : ((fs.map fun f => unparseEnumField f.2).map fun f => (String.ofList f.identifier, f.value)) =
      (fs.map (·.2)).map fun g => (String.ofList (unparseEnumField g).identifier, (unparseEnumField g).value) := by simp
  unfold mapEnumFields
  rw [e2, e, Option.map_some, associateBy_keyed h]

theorem mapDefinition_unparse {d : Definition} (h : KeyedDef d) : mapDefinition (unparseDef d) = some d := by
  cases d with
  | typedef x t => simp [unparseDef, mapDefinition, mapFieldType_unparse]
  | enum x fs => rw [unparseDef, mapDefinition, mapEnum_unparse h]; simp
  | struct x fs => rw [unparseDef, mapDefinition, mapStruct_unparse h]; simp
  | union x fs => rw [unparseDef, mapDefinition, mapStruct_unparse h]; simp

theorem mapHeaders_append : ∀ (hs gs : List PHeader) (h : Header), mapHeaders h (hs ++ gs) = (mapHeaders h hs).bind fun h => mapHeaders h gs
  | [], _, _ => rfl
  | .namespace l x :: hs, gs, h => by simp [mapHeaders, mapHeaders_append hs]
  | .include t :: hs, gs, h => by simp [mapHeaders, mapHeaders_append hs]
  | .cppInclude t :: hs, gs, h => by simp [mapHeaders]

theorem mapHeaders_includes : ∀ (ts : List String) (h : Header), mapHeaders h (ts.map fun t => .include t.toList) = some ⟨h.namespaces, h.includes ++ ts⟩
  | [], h => by simp [mapHeaders]
  | t :: ts, h => by simp [mapHeaders, mapHeaders_includes ts]

theorem mapHeaders_namespaces : ∀ (ns : List (String × String)) (h : Header), (h.namespaces.map (·.1) ++ ns.map (·.1)).Nodup →
    mapHeaders h (ns.map fun n => .namespace (if n.1 = "*" then none else some n.1.toList) n.2.toList) = some ⟨h.namespaces ++ ns, h.includes⟩
  | [], h, _ => by simp [mapHeaders]
  | (k, v) :: ns, h, hd => by
    have hk : k ∉ h.namespaces.map (·.1) := fun hk => (List.nodup_append.1 hd).2.2 _ hk _ (by simp) rfl
    have hn : String.ofList ((if k = "*" then none else some k.toList : Option (List Char)).getD ['*']) = k := by
      by_cases hs : k = "*"
      · rw [if_pos hs, hs]; rfl
      · rw [if_neg hs]; simp
    rw [List.map_cons, mapHeaders]
    dsimp only
    rw [hn, String.ofList_toList, put_append _ _ _ hk, mapHeaders_namespaces ns _ (by simpa using hd)]
    simp

theorem mapHeader_unparse {h : Header} (hd : (h.namespaces.map (·.1)).Nodup) : mapHeader (unparseHeader h) = some h := by
  unfold mapHeader unparseHeader
  rw [mapHeaders_append, mapHeaders_namespaces _ _ (by simpa using hd), Option.bind_some, mapHeaders_includes]
  simp

theorem mapDoc_unparse {h : Header} {d : Document} (hk : KeyedDoc h d) : mapDoc (unparse h d) = some (h, d) := by
  have hm : (d.map fun p => unparseDef p.2).mapM mapDefinition = some (d.map (·.2)) := by
    have : ∀ ps : List (String × Definition), (∀ p ∈ ps, KeyedDef p.2) → (ps.map fun p => unparseDef p.2).mapM mapDefinition = some (ps.map (·.2)) := by
      intro ps hp
      induction ps with
      | nil => rfl
      | cons p ps ih =>
        rw [List.map_cons, List.mapM_cons, mapDefinition_unparse (hp p (by simp)), ih fun q hq => hp q (by simp [hq])]
        simp
    exact this d hk.2.2
  simp [mapDoc, unparse, mapHeader_unparse hk.1, hm, mapDocument, associateBy_keyed hk.2.1]

/-- C86: however the text of a document is laid out, it is read as this document. -/
theorem C86_round_trip {h : Header} {d : Document} (hk : KeyedDoc h d) {s : List Char} (hs : Laid [] (document (unparse h d)) s) : readDocument s = some (h, d) := by
  rw [readDocument_eq (C84_document hs), mapDoc_unparse hk]

/-! There is such a text. -/

theorem space_gap : Gap [' '] := .white (w := [' ']) (by simp) .nil

theorem laid_spaces : ∀ ts : List Tok, (∀ t ∈ ts, ∃ w, TokText t w) → ∃ s, Laid [] ts (' ' :: s)
  | [], _ => ⟨[], .nil (g := [' ']) space_gap⟩
  | t :: ts, h => by
    obtain ⟨w, hw⟩ := h t (by simp)
    obtain ⟨s, hs⟩ := laid_spaces ts fun t ht => h t (by simp [ht])
    refine ⟨w ++ ' ' :: s, .cons (g := [' ']) space_gap hw (.inr ?_) hs⟩
    intro c r h; cases h; rw [inWord_iff]; decide

theorem text_integer (v : BitVec 32) : TokText (.INTEGER (intText v)) (intText v) := by
  obtain ⟨s, ds, h1, h2, h3, _⟩ := intText_digits v
  rw [h1]
  refine .INTEGER (matches_INTEGER.2 ⟨s.text, ds.map digitChar, rfl, matches_sign.2 (by cases s <;> simp [Sign.text]), by simpa using h2, ?_⟩)
  intro c hc
  obtain ⟨d, hd, rfl⟩ := List.mem_map.1 hc
  have : ∀ d : Fin 10, isDigit (digitChar d) = true := by decide
  exact this ⟨d, h3 d hd⟩

/-- Every token is one of the lexer. -/
def Texts (ts : List Tok) : Prop := ∀ t ∈ ts, ∃ w, TokText t w

theorem texts_append {ts us : List Tok} (h1 : Texts ts) (h2 : Texts us) : Texts (ts ++ us) := fun t ht => (List.mem_append.1 ht).elim (h1 t) (h2 t)
theorem texts_nil : Texts [] := fun _ h => nomatch h
theorem texts_cons {t : Tok} {w : List Char} {ts : List Tok} (h1 : TokText t w) (h2 : Texts ts) : Texts (t :: ts) := by
  intro u hu
  rcases List.mem_cons.1 hu with rfl | hu
  · exact ⟨w, h1⟩
  · exact h2 u hu
theorem texts_kw {k : Kw} {ts : List Tok} (h : Texts ts) : Texts (.kw k :: ts) := texts_cons (.kw k) h
theorem texts_many {α : Type} {f : α → List Tok} {as : List α} (h : ∀ a ∈ as, Texts (f a)) : Texts (many f as) := by
  intro t ht
  unfold many at ht
  obtain ⟨l, hl, ht⟩ := List.mem_flatten.1 ht
  obtain ⟨a, ha, rfl⟩ := List.mem_map.1 hl
  exact h a ha t ht

theorem texts_type : ∀ t : FieldType, NamedType t → Texts (fieldType (unparseType t))
  | .base b, _ => by cases b <;> exact texts_kw texts_nil
  | .named n, h => texts_cons h texts_nil
  | .set e, h => by
    simp only [unparseType, fieldType, opt]
    exact texts_append (texts_append (texts_append (texts_append (texts_kw texts_nil) texts_nil) (texts_kw texts_nil)) (texts_type e h)) (texts_kw texts_nil)
  | .list e, h => by
    simp only [unparseType, fieldType, opt]
    exact texts_append (texts_append (texts_append (texts_append (texts_kw texts_nil) texts_nil) (texts_kw texts_nil)) (texts_type e h)) (texts_kw texts_nil)
  | .map k v, h => by
    simp only [unparseType, fieldType, opt]
    exact texts_append (texts_append (texts_append (texts_append (texts_append (texts_append (texts_kw texts_nil) texts_nil) (texts_kw texts_nil)) (texts_type k h.1))
      (texts_cons .COMMA texts_nil)) (texts_type v h.2)) (texts_kw texts_nil)

theorem texts_field {f : Field} (h1 : IsName f.identifier) (h2 : NamedType f.type) : Texts (field (unparseField f)) := by
  simp only [field, unparseField, opt]
  refine texts_append (texts_append (texts_append (texts_append (texts_append (texts_append (texts_cons (text_integer _) texts_nil) (texts_kw texts_nil)) ?_) (texts_type _ h2))
    (texts_cons h1 texts_nil)) texts_nil) texts_nil
  cases f.req with
  | DEFAULT => exact texts_nil
  | OPTIONAL => exact texts_kw texts_nil
  | REQUIRED => exact texts_kw texts_nil

theorem texts_fields {fs : List (String × Field)} (h : ∀ f ∈ fs, IsName f.2.identifier ∧ NamedType f.2.type) : Texts (many field (fs.map fun f => unparseField f.2)) := by
  refine texts_many fun a ha => ?_
  obtain ⟨f, hf, rfl⟩ := List.mem_map.1 ha
  exact texts_field (h f hf).1 (h f hf).2

theorem texts_def {d : Definition} (h : NamedDef d) : Texts (definition (unparseDef d)) := by
  cases d with
  | typedef x t => exact texts_append (texts_append (texts_kw texts_nil) (texts_type _ h.2)) (texts_cons h.1 texts_nil)
  | enum x fs =>
    refine texts_append (texts_append (texts_kw (texts_cons h.1 (texts_kw texts_nil))) (texts_many fun a ha => ?_)) (texts_kw texts_nil)
    obtain ⟨f, hf, rfl⟩ := List.mem_map.1 ha
    exact texts_append (texts_append (texts_cons (h.2 f hf) (texts_kw texts_nil)) (texts_cons (text_integer _) texts_nil)) texts_nil
  | struct x fs => exact texts_append (texts_append (texts_kw (texts_cons h.1 (texts_kw texts_nil))) (texts_fields h.2)) (texts_kw texts_nil)
  | union x fs => exact texts_append (texts_append (texts_kw (texts_cons h.1 (texts_kw texts_nil))) (texts_fields h.2)) (texts_kw texts_nil)

theorem texts_doc {h : Header} {d : Document} (hn : NamedDoc h d) : Texts (document (unparse h d)) := by
  refine texts_append (texts_many fun a ha => ?_) (texts_many fun a ha => ?_)
  · rcases List.mem_append.1 ha with ha | ha
    · obtain ⟨n, hm, rfl⟩ := List.mem_map.1 ha
      have := hn.1 n hm
      split
      · exact texts_kw (texts_kw (texts_cons this.2 texts_nil))
      · next hs => exact texts_kw (texts_cons (this.1.resolve_left hs) (texts_cons this.2 texts_nil))
    · obtain ⟨t, ht, rfl⟩ := List.mem_map.1 ha
      exact texts_kw (texts_cons (.LITERAL (hn.2.1 t ht)) texts_nil)
  · obtain ⟨p, hp, rfl⟩ := List.mem_map.1 ha
    exact texts_def (hn.2.2 p hp)

/-- C86: every document is that of some text, if its names are names of the grammar and the included files are quoted. -/
theorem C86_every {h : Header} {d : Document} (hk : KeyedDoc h d) (hn : NamedDoc h d) : ∃ s, Laid [] (document (unparse h d)) s ∧ readDocument s = some (h, d) := by
  obtain ⟨s, hs⟩ := laid_spaces _ (texts_doc hn)
  exact ⟨_, hs, C86_round_trip hk hs⟩

/-! ## What is read is such a document -/

theorem put_keyed {α : Type} {key : α → String} {m : List (String × α)} (h : Keyed key m) (x : α) : Keyed key (put (key x) x m) := by
  constructor
  · have : ∀ m : List (String × α), (∀ p ∈ m, key p.2 = p.1) → ∀ p ∈ put (key x) x m, key p.2 = p.1 := by
      intro m
      induction m with
      | nil => simp [put]
      | cons q m ih =>
        intro hm p hp
        unfold put at hp
        split at hp
        · rcases List.mem_cons.1 hp with rfl | hp
          · rfl
          · exact hm p (by simp [hp])
        · rcases List.mem_cons.1 hp with rfl | hp
          · exact hm _ (by simp)
          · exact ih (fun p hp => hm p (by simp [hp])) p hp
    exact this m h.1
  · rw [keys_put]
    split
    · exact h.2
    · next hk => exact List.nodup_append.2 ⟨h.2, by simp, fun a ha b hb hab => hk (by simp only [List.mem_singleton] at hb; rw [← hb, ← hab]; exact ha)⟩

theorem keyed_associateBy {α : Type} (key : α → String) (xs : List α) : Keyed key (associateBy key xs) := by
  have : ∀ (xs : List α) (m : List (String × α)), Keyed key m → Keyed key (xs.foldl (fun m x => put (key x) x m) m) := by
    intro xs
    induction xs with
    | nil => exact fun _ h => h
    | cons x xs ih => exact fun m h => ih _ (put_keyed h x)
  exact this xs [] ⟨by simp, by simp⟩

theorem mapDefinition_keyed {p : PDef} {d : Definition} (h : mapDefinition p = some d) : KeyedDef d := by
  cases p with
  | typedef => cases h; trivial
  | enum x fs =>
    obtain ⟨m, hm, rfl⟩ := Option.map_eq_some_iff.1 h
    obtain ⟨gs, _, rfl⟩ := Option.map_eq_some_iff.1 hm
    exact keyed_associateBy _ _
  | struct x fs =>
    obtain ⟨m, hm, rfl⟩ := Option.map_eq_some_iff.1 h
    obtain ⟨gs, _, rfl⟩ := Option.map_eq_some_iff.1 hm
    exact keyed_associateBy _ _
  | union x fs =>
    obtain ⟨m, hm, rfl⟩ := Option.map_eq_some_iff.1 h
    obtain ⟨gs, _, rfl⟩ := Option.map_eq_some_iff.1 hm
    exact keyed_associateBy _ _
  | _ => cases h

theorem mapHeaders_nodup : ∀ (hs : List PHeader) (h r : Header), (h.namespaces.map (·.1)).Nodup → mapHeaders h hs = some r → (r.namespaces.map (·.1)).Nodup
  | [], h, r, hd, e => by cases e; exact hd
  | .namespace l x :: hs, h, r, hd, e => by
    refine mapHeaders_nodup hs _ r ?_ e
    dsimp only
    rw [keys_put]
    split
    · exact hd
    · next hk => exact List.nodup_append.2 ⟨hd, by simp, fun a ha b hb hab => hk (by simp only [List.mem_singleton] at hb; rw [← hb, ← hab]; exact ha)⟩
  | .include t :: hs, h, r, hd, e => by
    rw [mapHeaders] at e
    exact mapHeaders_nodup hs ⟨h.namespaces, h.includes ++ [String.ofList t]⟩ r hd e
  | .cppInclude t :: hs, h, r, hd, e => by cases e

theorem mem_associateBy {α : Type} {key : α → String} {xs : List α} : ∀ p ∈ associateBy key xs, p.2 ∈ xs := by
  have hp : ∀ (k : String) (x : α) (m : List (String × α)), ∀ p ∈ put k x m, p = (k, x) ∨ p ∈ m := by
    intro k x m
    induction m with
    | nil => simp [put]
    | cons q m ih =>
      intro p hp
      unfold put at hp
      split at hp
      · rcases List.mem_cons.1 hp with rfl | hp
        · exact .inl rfl
        · exact .inr (by simp [hp])
      · rcases List.mem_cons.1 hp with rfl | hp
        · exact .inr (by simp)
        · rcases ih p hp with h | h
          · exact .inl h
          · exact .inr (by simp [h])
  have : ∀ (ys : List α) (m : List (String × α)), (∀ p ∈ m, p.2 ∈ xs) → (∀ y ∈ ys, y ∈ xs) → ∀ p ∈ ys.foldl (fun m x => put (key x) x m) m, p.2 ∈ xs := by
    intro ys
    induction ys with
    | nil => exact fun m hm _ => hm
    | cons y ys ih =>
      intro m hm hy
      refine ih _ ?_ fun z hz => hy z (by simp [hz])
      intro p h
      rcases hp _ _ _ p h with rfl | h
      · exact hy y (by simp)
      · exact hm p h
  exact this xs [] (by simp) fun _ h => h

/-- C86: what is read is a document as in `C86_every`: reading, printing and reading again gives the same. -/
theorem C86_keyed {s : List Char} {h : Header} {d : Document} (hr : readDocument s = some (h, d)) : KeyedDoc h d ∧ ∀ u, Laid [] (document (unparse h d)) u → readDocument u = some (h, d) := by
  have : KeyedDoc h d := by
    obtain ⟨t, _, h2⟩ := readDocument_some hr
    simp only [mapDoc, mapHeader, Option.bind_eq_bind, Option.bind_eq_some_iff, Option.pure_def, Option.some.injEq, Prod.mk.injEq] at h2
    obtain ⟨a, ha, ds, hds, rfl, rfl⟩ := h2
    refine ⟨mapHeaders_nodup _ _ _ (by simp) ha, keyed_associateBy _ _, fun p hp => ?_⟩
    have hp2 := mem_associateBy p hp
    have : ∀ (xs : List PDef) (ys : List Definition), xs.mapM mapDefinition = some ys → ∀ y ∈ ys, KeyedDef y := by
      intro xs
      induction xs with
      | nil => intro ys h; cases h; simp
      | cons x xs ih =>
        intro ys h
        rw [List.mapM_cons] at h
        simp only [Option.bind_eq_bind, Option.bind_eq_some_iff, Option.pure_def, Option.some.injEq] at h
        obtain ⟨y, hy, zs, hz, rfl⟩ := h
        intro w hw
        rcases List.mem_cons.1 hw with rfl | hw
        · exact mapDefinition_keyed hy
        · exact ih _ hz w hw
    exact this _ _ hds _ hp2
  exact ⟨this, fun u hu => C86_round_trip this hu⟩

/-! ## Included files -/

theorem mapHeaders_mem : ∀ (hs : List PHeader) (h r : Header), mapHeaders h hs = some r → ∀ t ∈ r.includes, t ∈ h.includes ∨ ∃ u, PHeader.include u ∈ hs ∧ t = String.ofList u
  | [], h, r, e => by cases e; exact fun t ht => .inl ht
  | .namespace l x :: hs, h, r, e => by
    intro t ht
    rcases mapHeaders_mem hs _ r e t ht with h | ⟨u, hu, rfl⟩
    · exact .inl h
    · exact .inr ⟨u, by simp [hu], rfl⟩
  | .include u :: hs, h, r, e => by
    intro t ht
    rcases mapHeaders_mem hs _ r e t ht with h | ⟨u, hu, rfl⟩
    · rcases List.mem_append.1 h with h | h
      · exact .inl h
      · simp only [List.mem_singleton] at h; exact .inr ⟨u, by simp, h⟩
    · exact .inr ⟨u, by simp [hu], rfl⟩
  | .cppInclude t :: hs, h, r, e => by cases e

/-- C86, a defect: the names of included files are read with their quotes, so that the line `use crate::…;` written for each of them (Generator.kt:129-131) contains a quoted
string, which is not Rust. -/
theorem C86_counterexample_include {s : List Char} {h : Header} {d : Document} (hr : readDocument s = some (h, d)) : ∀ t ∈ h.includes, ∃ q u, (q = '"' ∨ q = '\'') ∧ t.toList = q :: (u ++ [q]) := by
  intro t ht
  obtain ⟨p, h1, h2⟩ := readDocument_some hr
  simp only [mapDoc, mapHeader, Option.bind_eq_bind, Option.bind_eq_some_iff, Option.pure_def, Option.some.injEq, Prod.mk.injEq] at h2
  obtain ⟨a, ha, ds, hds, rfl, rfl⟩ := h2
  rcases mapHeaders_mem _ _ _ ha t ht with h | ⟨u, hu, rfl⟩
  · cases h
  · obtain ⟨w, hw⟩ := tokens_texts h1 (.LITERAL u) (by
      have : Tok.LITERAL u ∈ many header p.headers := mem_many hu (by simp [header])
      simp [document, this])
    cases hw with
    | LITERAL h =>
      obtain ⟨q, v, hq, rfl, _⟩ := matches_LITERAL.1 h
      exact ⟨q, v, hq, by simp⟩

/-! ## Examples -/

def sampleHead : Header := ⟨[("*", "a.b"), ("rust", "c")], ["\"f.thrift\""]⟩

def sampleRead : Document :=
  [("E", .enum "E" [("A", ⟨"A", -5⟩), ("B", ⟨"B", 17⟩)]),
   ("S", .struct "S" [("a", ⟨1, .REQUIRED, "a", .list (.named "E")⟩), ("m", ⟨2, .DEFAULT, "m", .map (.base .STRING) (.base .I64)⟩)]),
   ("T", .typedef "T" (.set (.base .BINARY))),
   ("U", .union "U" [("x", ⟨30, .OPTIONAL, "x", .named "S"⟩)])]

example : KeyedDoc sampleHead sampleRead := by
  refine ⟨by decide, ⟨by decide, by decide⟩, ?_⟩
  intro p hp
  simp only [sampleRead, List.mem_cons, List.not_mem_nil, or_false] at hp
  rcases hp with rfl | rfl | rfl | rfl
  · exact ⟨by decide, by decide⟩
  · exact ⟨by decide, by decide⟩
  · trivial
  · exact ⟨by decide, by decide⟩

theorem isName {s : String} {c : Char} {u : List Char} (h : s.toList = c :: u) (hc : isLetter c = true ∧ u.all isIdentChar = true ∧ keywords.all (fun k => k.text != c :: u) = true) : IsName s := by
  unfold IsName
  rw [h]
  refine .IDENTIFIER (matches_IDENTIFIER.2 ⟨c, u, rfl, .inl hc.1, by simpa using hc.2.1⟩) fun k hk => ?_
  have := List.all_eq_true.1 hc.2.2 k (mem_keywords k)
  simp [hk] at this

example : NamedDoc sampleHead sampleRead := by
  have name : ∀ (s : String) (c : Char) (u : List Char), s.toList = c :: u ∧ isLetter c = true ∧ u.all isIdentChar = true ∧ keywords.all (fun k => k.text != c :: u) = true → IsName s :=
    fun _ _ _ h => isName h.1 h.2
  refine ⟨?_, ?_, ?_⟩
  · intro n hn
    simp only [sampleHead, List.mem_cons, List.not_mem_nil, or_false] at hn
    rcases hn with rfl | rfl
    · exact ⟨.inl rfl, name _ 'a' ['.', 'b'] (by decide +kernel)⟩
    · exact ⟨.inr (name _ 'r' ['u', 's', 't'] (by decide +kernel)), name _ 'c' [] (by decide +kernel)⟩
  · intro t ht
    simp only [sampleHead, List.mem_cons, List.not_mem_nil, or_false] at ht
    subst ht
    have : Quoted '"' ['f', '.', 't', 'h', 'r', 'i', 'f', 't'] :=
      have one : ∀ c ∈ ['f', '.', 't', 'h', 'r', 'i', 'f', 't'], Matches (.alt ESC_SEQ (.noneOf ['\\', '"'])) [c] := fun c hc =>
        .right (matches_one.2 ⟨c, rfl, by revert c; decide⟩)
      have go : ∀ w : List Char, (∀ c ∈ w, Matches (.alt ESC_SEQ (.noneOf ['\\', '"'])) [c]) → Matches (.star (.alt ESC_SEQ (.noneOf ['\\', '"']))) w := by
        intro w
        induction w with
        | nil => exact fun _ => .nil
        | cons c w ih => exact fun h => .more (u := [c]) (h c (by simp)) (ih fun d hd => h d (by simp [hd]))
      go _ one
    exact matches_LITERAL.2 ⟨'"', ['f', '.', 't', 'h', 'r', 'i', 'f', 't'], .inl rfl, by decide +kernel, this⟩
  · intro p hp
    simp only [sampleRead, List.mem_cons, List.not_mem_nil, or_false] at hp
    have one : ∀ c ∈ ['E', 'A', 'B', 'S', 'a', 'm', 'T', 'U', 'x'], IsName (String.ofList [c]) := by
      intro c hc
      refine name _ c [] ?_
      revert c
      decide +kernel
    rcases hp with rfl | rfl | rfl | rfl
    · refine ⟨one 'E' (by decide), ?_⟩
      simp only [List.mem_cons, List.not_mem_nil, or_false, forall_eq_or_imp, forall_eq]
      exact ⟨one 'A' (by decide), one 'B' (by decide)⟩
    · refine ⟨one 'S' (by decide), ?_⟩
      simp only [List.mem_cons, List.not_mem_nil, or_false, forall_eq_or_imp, forall_eq]
      exact ⟨⟨one 'a' (by decide), one 'E' (by decide)⟩, one 'm' (by decide), trivial, trivial⟩
    · exact ⟨one 'T' (by decide), trivial⟩
    · refine ⟨one 'U' (by decide), ?_⟩
      simp only [List.mem_cons, List.not_mem_nil, or_false, forall_eq]
      exact ⟨one 'x' (by decide), one 'S' (by decide)⟩

/-- Read from a text with separators, default values, comments and identifiers left out. -/
example : readDocument ("// c\nnamespace * a.b;".toList) = none ∧
    readDocument "namespace * x include \"f.thrift\" namespace rust c namespace * a.b\nenum E { A = -5; B = 0x11 }\nstruct S { 1: required list<E> a = [], map cpp_type \"M\" <string, i64> m; }typedef set<binary> T /* c */ union U{30:optional S x}".toList =
      some (sampleHead, sampleRead) := by
  constructor <;> decide +kernel

end CT.Props
