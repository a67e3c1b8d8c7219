import Verif.Spec.ErrorText
import Verif.Props.Errors
import Verif.Props.Programs
import Verif.Props.FieldName
/-! # C101: the texts of errors -/
namespace CT.Props
open CT CT.Spec CT.Schema CT.Debug CT.Props.Print CT.Parquet CT.Programs

theorem stringBytes_eq (s : String) : stringBytes s = encodeString s := by
  unfold stringBytes encodeString
  congr 1
  funext c
  exact C07_spec_agrees c

theorem stringBytes_utf8 (s : String) : utf8Valid (stringBytes s) = true := by
  rw [stringBytes_eq, utf8Valid_iff]; exact encodeString_utf8 s

theorem utf8s_inj : ∀ {ns ms : List Nat}, (∀ n ∈ ns, IsScalar n) → (∀ n ∈ ms, IsScalar n) → ns.flatMap utf8 = ms.flatMap utf8 → ns = ms
  | [], [], _, _, _ => rfl
  | [], m :: ms, _, _, h => by
    rw [List.flatMap_nil, List.flatMap_cons] at h
    exact absurd (List.append_eq_nil_iff.1 h.symm).1 (utf8_ne m)
  | n :: ns, [], _, _, h => by
    rw [List.flatMap_nil, List.flatMap_cons] at h
    exact absurd (List.append_eq_nil_iff.1 h).1 (utf8_ne n)
  | n :: ns, m :: ms, hn, hm, h => by
    rw [List.flatMap_cons, List.flatMap_cons] at h
    have e1 := nextCodePoint_utf8 (hn n (by simp)) (ns.flatMap utf8)
    have e2 := nextCodePoint_utf8 (hm m (by simp)) (ms.flatMap utf8)
    rw [h, e2] at e1
    simp only [Option.some.injEq, Prod.mk.injEq] at e1
    rw [e1.1, utf8s_inj (fun x hx => hn x (by simp [hx])) (fun x hx => hm x (by simp [hx])) e1.2.2.symm]

theorem stringBytes_inj {s t : String} (h : stringBytes s = stringBytes t) : s = t := by
  rw [stringBytes_eq, stringBytes_eq] at h
  unfold encodeString at h
  have key : ∀ s : String, (s.toList.flatMap fun c => utf8 c.toNat) = (s.toList.map Char.toNat).flatMap utf8 := fun s => by rw [List.flatMap_map]
  rw [key, key] at h
  have sc : ∀ s : String, ∀ n ∈ s.toList.map Char.toNat, IsScalar n := fun s n hn => by
    obtain ⟨c, _, rfl⟩ := List.mem_map.1 hn
    exact char_scalar c
  have := utf8s_inj (sc s) (sc t) h
  have := (List.map_inj_right (f := Char.toNat) fun a b h => Char.toNat_inj.1 h).1 this
  exact String.toList_inj.1 this

theorem plain_bytes {s : String} (h : PlainString s) : ∀ b ∈ stringBytes s, PlainByte b := by
  rw [stringBytes_eq]
  intro b hb
  obtain ⟨c, hc, hb⟩ := List.mem_flatMap.1 hb
  obtain ⟨h1, h2, h3, h4⟩ := h c hc
  rw [utf8, if_pos (by omega), List.mem_singleton] at hb
  subst hb
  unfold PlainByte
  rw [BitVec.toNat_ofNat, Nat.mod_eq_of_lt (by omega)]
  exact ⟨h1, h2, h3, h4⟩

theorem pad_inj : ∀ (nl : Bool) {x y : Bytes}, pad nl x = pad nl y → x = y
  | _, [], [], _ => rfl
  | nl, [], b :: y, h => by rw [pad, pad] at h; cases nl <;> simp at h
  | nl, a :: x, [], h => by rw [pad, pad] at h; cases nl <;> simp at h
  | nl, a :: x, b :: y, h => by
    rw [pad, pad] at h
    have := List.append_cancel_left h
    simp only [List.cons.injEq] at this
    obtain ⟨rfl, h⟩ := this
    rw [pad_inj _ h]

theorem tuple_inj {alt : Bool} {name x y : Bytes} (h : debugTuple alt name x = debugTuple alt name y) : x = y := by
  unfold debugTuple at h
  split at h
  · have := pad_inj _ (List.append_cancel_left (List.append_cancel_right h))
    exact List.append_cancel_right this
  · exact List.append_cancel_left (List.append_cancel_right h)

/-- Texts as a name and what it is applied to -/
def errorShown (alt : Bool) (p : Bytes × Option Bytes) : Bytes :=
  match p.2 with
  | none => p.1
  | some x => debugTuple alt p.1 x

theorem errorShown_inj {alt : Bool} {p q : Bytes × Option Bytes} (hp : ∀ b ∈ p.1, IdentByte b) (hq : ∀ b ∈ q.1, IdentByte b) (h : errorShown alt p = errorShown alt q) : p = q := by
  have split : ∀ p : Bytes × Option Bytes, ∃ r, errorShown alt p = p.1 ++ r ∧ (r = [] ↔ p.2 = none) ∧ ∀ b, r.head? = some b → b = 40#8 := by
    rintro ⟨n, o⟩
    cases o with
    | none => exact ⟨[], by simp [errorShown], by simp, by simp⟩
    | some x =>
      unfold errorShown debugTuple
      cases alt
      · exact ⟨ascii! "(" ++ x ++ ascii! ")", by simp, by simp, by simp⟩
      · exact ⟨ascii! "(\n" ++ pad true (x ++ ascii! ",\n") ++ ascii! ")", by simp, by simp, by simp⟩
  obtain ⟨r, e, hr, hr'⟩ := split p
  obtain ⟨r', e', hs, hs'⟩ := split q
  have key : ∀ (a b r r' : Bytes), (∀ x ∈ a, IdentByte x) → (∀ x ∈ b, IdentByte x) → (∀ x, r.head? = some x → x = 40#8) → (∀ x, r'.head? = some x → x = 40#8) →
      a ++ r = b ++ r' → a = b ∧ r = r' := by
    intro a
    induction a with
    | nil =>
      intro b r r' _ hb hr _ h
      cases b with
      | nil => exact ⟨rfl, h⟩
      | cons x b =>
        rw [List.nil_append] at h
        have := hr x (by rw [h]; rfl)
        exact absurd (hb x (by simp)) (by rw [this]; decide)
    | cons y a ih =>
      intro b r r' ha hb hr hr' h
      cases b with
      | nil =>
        rw [List.nil_append] at h
        have := hr' y (by rw [← h]; rfl)
        exact absurd (ha y (by simp)) (by rw [this]; decide)
      | cons x b =>
        simp only [List.cons_append, List.cons.injEq] at h
        obtain ⟨h1, h2⟩ := ih b r r' (fun x hx => ha x (by simp [hx])) (fun x hx => hb x (by simp [hx])) hr hr' h.2
        exact ⟨by rw [h.1, h1], h2⟩
  obtain ⟨h1, h2⟩ := key _ _ _ _ hp hq hr' hs' (e ▸ e' ▸ h)
  obtain ⟨n, o⟩ := p
  obtain ⟨n', o'⟩ := q
  dsimp only at h1
  subst h1
  subst h2
  cases o with
  | none => cases o' with
    | none => rfl
    | some y => exact absurd (hs.1 (hr.2 rfl)) (by simp)
  | some x => cases o' with
    | none => exact absurd (hr.1 (hs.2 rfl)) (by simp)
    | some y =>
      unfold errorShown at h
      rw [tuple_inj h]

variable {s : ErrorStd}

/-- Name and argument of an error -/
def errorParts (s : ErrorStd) : ThriftError → Bytes × Option Bytes
  | .invalidNumber => (ascii! "InvalidNumber", none)
  | .invalidString => (ascii! "InvalidString", none)
  | .invalidBinaryLen n => (ascii! "InvalidBinaryLen", some (decimal n))
  | .invalidCollectionLen => (ascii! "InvalidCollectionLen", none)
  | .missingField name => (ascii! "MissingField", some (s.cstr (stringBytes name)))
  | .missingValue => (ascii! "MissingValue", none)
  | .missingStop => (ascii! "MissingStop", none)
  | .duplicateField => (ascii! "DuplicateField", none)
  | .invalidType => (ascii! "InvalidType", none)
  | .reserveError => (ascii! "ReserveError", none)
  | .io k => (ascii! "IO", some (debugKind s k))

theorem debugError_eq (alt : Bool) (e : ThriftError) : debugError s alt e = errorShown alt (errorParts s e) := by cases e <;> rfl

theorem errorParts_ident (e : ThriftError) : ∀ b ∈ (errorParts s e).1, IdentByte b := by
  cases e <;> (dsimp only [errorParts]; decide)

theorem kind_inj (hs : ErrorStdOk s) {k l : ErrorKind} (h : debugKind s k = debugKind s l) : k = l := by
  cases k <;> cases l <;> first
    | rfl
    | exact congrArg _ (hs.inj _ _ h)
    | (exact absurd h (by dsimp only [debugKind]; decide))
    | (rename_i n; exact absurd (by rw [show s.kind n = _ from h]; simp [debugKind]) (hs.other n))
    | (rename_i n; exact absurd (by rw [show s.kind n = _ from h.symm]; simp [debugKind]) (hs.other n))

/-- **C101** Different errors have different texts. -/
theorem C101_distinct (hs : ErrorStdOk s) {alt : Bool} {e e' : ThriftError} (he : PlainError e) (he' : PlainError e') (h : debugError s alt e = debugError s alt e') : e = e' := by
  rw [debugError_eq, debugError_eq] at h
  have h := errorShown_inj (errorParts_ident e) (errorParts_ident e') h
  cases e <;> cases e' <;> first
    | rfl
    | (exact absurd (congrArg Prod.fst h) (by dsimp only [errorParts]; decide))
    | skip
  · simp only [errorParts, Prod.mk.injEq, Option.some.injEq, true_and] at h; rw [decimal_inj h]
  · simp only [errorParts, Prod.mk.injEq, Option.some.injEq, true_and] at h
    rw [hs.cstr _ (plain_bytes he), hs.cstr _ (plain_bytes he')] at h
    rw [stringBytes_inj (List.append_cancel_left (List.append_cancel_right h))]
  · simp only [errorParts, Prod.mk.injEq, Option.some.injEq, true_and] at h; rw [kind_inj hs h]

/-- **C101** The text `{:?}` or `{}` of an error is one line without control characters. -/
theorem C101_line (hs : ErrorStdOk s) {e : ThriftError} (he : PlainError e) : ∀ b ∈ debugError s false e, 32 ≤ b.toNat := by
  have ident : ∀ b, IdentByte b → 32 ≤ b.toNat := fun b h => by unfold IdentByte at h; omega
  have arg : ∀ x, (errorParts s e).2 = some x → ∀ b ∈ x, 32 ≤ b.toNat := by
    intro x hx b hb
    cases e with
    | invalidBinaryLen n => cases hx; have := decimal_digits n b hb; unfold Digit at this; omega
    | missingField name =>
      cases hx
      rw [hs.cstr _ (plain_bytes he)] at hb
      simp only [List.mem_append, List.mem_singleton] at hb
      rcases hb with (rfl | hb) | rfl
      · decide
      · exact (plain_bytes he b hb).1
      · decide
    | io k =>
      cases hx
      cases k with
      | other n => exact ident b ((hs.kind n).2 b hb)
      | _ => revert b; dsimp only [debugKind]; decide
    | _ => cases hx
  rw [debugError_eq]
  intro b hb
  unfold errorShown at hb
  split at hb
  · exact ident b (errorParts_ident e b hb)
  · rename_i x hx
    unfold debugTuple at hb
    simp only [Bool.false_eq_true, if_false, List.mem_append, List.mem_singleton] at hb
    rcases hb with ((hb | rfl) | hb) | rfl
    · exact ident b (errorParts_ident e b hb)
    · decide
    · exact arg x hx b hb
    · decide

theorem plain_append {a b : String} (ha : PlainString a) (hb : PlainString b) : PlainString (a ++ b) := by
  intro c hc
  rw [String.toList_append, List.mem_append] at hc
  exact hc.elim (ha c) (hb c)

theorem plain_canFail {alloc : Nat → Bool} {env : List Def} (hn : ∀ d ∈ env, PlainNames d) {t : Ty} {e : ThriftError} (h : CanFail alloc env t e) : PlainError e := by
  induction h with
  | skip _ _ _ _ _ h => cases h <;> trivial
  | missing k name fs f hk hm hr =>
    have := hn _ (List.mem_of_getElem? hk)
    exact plain_append (plain_append this.1 (by decide)) (this.2 f hm)
  | otherVariant => exact (by decide : PlainString "$struct_name")
  | elem _ _ _ ih | option _ _ _ ih | box _ _ _ ih | rc _ _ _ ih => exact ih
  | field _ _ _ _ _ _ _ _ ih | variant _ _ _ _ _ _ _ _ ih => exact ih
  | _ => trivial

theorem plain_read {cfg : Cfg} {env : List Def} (hn : ∀ d ∈ env, PlainNames d) {t : Ty} {bs : Bytes} {e : ThriftError} (h : readThrift cfg (sliceInput cfg) env t bs = .error (.err e)) :
    PlainError e := by
  rcases C100_slice cfg env t bs e h with rfl | h
  · trivial
  · exact plain_canFail hn h

/-- **C101** The text tells which error a read reported, whatever was read. -/
theorem C101_read (hs : ErrorStdOk s) {alt : Bool} {cfg cfg' : Cfg} {env env' : List Def} (hn : ∀ d ∈ env, PlainNames d) (hn' : ∀ d ∈ env', PlainNames d) {t t' : Ty} {bs bs' : Bytes} {e e' : ThriftError}
    (h : readThrift cfg (sliceInput cfg) env t bs = .error (.err e)) (h' : readThrift cfg' (sliceInput cfg') env' t' bs' = .error (.err e'))
    (he : displayError s alt e = displayError s alt e') : e = e' :=
  C101_distinct hs (plain_read hn h) (plain_read hn' h') he

/-- **C101** A missing field is shown by its name and the name of its struct. -/
theorem C101_missing (hs : ErrorStdOk s) {a b : String} (ha : PlainString a) (hb : PlainString b) :
    displayError s false (.missingField (a ++ "::" ++ b)) = ascii! "MissingField(\"" ++ stringBytes a ++ ascii! "::" ++ stringBytes b ++ ascii! "\")" := by
  have hc : stringBytes (a ++ "::" ++ b) = stringBytes a ++ ascii! "::" ++ stringBytes b := by
    unfold stringBytes
    rw [String.toList_append, String.toList_append, List.flatMap_append, List.flatMap_append]
    rfl
  show debugTuple false (ascii! "MissingField") (s.cstr (stringBytes (a ++ "::" ++ b))) = _
  unfold debugTuple
  rw [hs.cstr _ (plain_bytes (plain_append (plain_append ha (by decide)) hb)), hc]
  simp

/-! ## Errors of the Parquet functions -/

/-- Name and argument of an error -/
def parquetParts (s : ErrorStd) (alt : Bool) : ParquetError → Bytes × Option Bytes
  | .thrift e => (ascii! "Thrift", some (debugError s alt e))
  | .invalidMagic => (ascii! "InvalidMagic", none)
  | .io k => (ascii! "Io", some (s.io alt k))
  | .invalidOffset => (ascii! "InvalidOffset", none)
  | .schema msg => (ascii! "Schema", some (debugStr s.base (stringBytes msg)))
  | .unknownType id => (ascii! "UnknownType", some (decimalInt id.toInt))

theorem debugParquet_eq (alt : Bool) (e : ParquetError) : debugParquetError s alt e = errorShown alt (parquetParts s alt e) := by cases e <;> rfl

theorem parquetParts_ident (alt : Bool) (e : ParquetError) : ∀ b ∈ (parquetParts s alt e).1, IdentByte b := by
  cases e <;> (dsimp only [parquetParts]; decide)

/-- A name in the error is plain. -/
def PlainParquet : ParquetError → Prop
  | .thrift e => PlainError e
  | _ => True

/-- **C101** The same for the errors of the Parquet functions; what is shown of an `io::Error` is up to the system. -/
theorem C101_parquet (hs : ErrorStdOk s) {alt : Bool} {e e' : ParquetError} (he : PlainParquet e) (he' : PlainParquet e')
    (h : debugParquetError s alt e = debugParquetError s alt e') : e = e' ∨ ∃ k k', e = .io k ∧ e' = .io k' ∧ s.io alt k = s.io alt k' := by
  rw [debugParquet_eq, debugParquet_eq] at h
  have h := errorShown_inj (parquetParts_ident alt e) (parquetParts_ident alt e') h
  cases e <;> cases e' <;> first
    | exact .inl rfl
    | (exact absurd (congrArg Prod.fst h) (by dsimp only [parquetParts]; decide))
    | skip
  · simp only [parquetParts, Prod.mk.injEq, Option.some.injEq, true_and] at h
    rw [C101_distinct hs he he' h]; exact .inl rfl
  · simp only [parquetParts, Prod.mk.injEq, Option.some.injEq, true_and] at h
    exact .inr ⟨_, _, rfl, rfl, h⟩
  · simp only [parquetParts, Prod.mk.injEq, Option.some.injEq, true_and] at h
    rw [stringBytes_inj (str_cut s.base (stringBytes_utf8 _) (stringBytes_utf8 _) (congrArg (· ++ []) h)).1]; exact .inl rfl
  · simp only [parquetParts, Prod.mk.injEq, Option.some.injEq, true_and] at h
    rw [BitVec.eq_of_toInt_eq (decimalInt_inj h)]; exact .inl rfl

/-- No error of the one kind is shown as one of the other. -/
theorem kinds_differ {alt : Bool} (e : ThriftError) (e' : ParquetError) : debugError s alt e ≠ debugParquetError s alt e' := by
  intro h
  rw [debugError_eq, debugParquet_eq] at h
  have h := congrArg Prod.fst (errorShown_inj (errorParts_ident e) (parquetParts_ident alt e') h)
  cases e <;> cases e' <;> exact absurd h (by dsimp only [errorParts, parquetParts]; decide)

/-! ## Messages of the programs -/

theorem metadata_errors {cfg : Cfg} {f : File} {e : ParquetError} (h : getMetadataChunk cfg f = .error (.err e)) : (∃ k, e = .io k) ∨ e = .invalidMagic := by
  have hg := goes_getMetadataChunk cfg f
  rcases hg with ⟨k, _, hk⟩ | ⟨_, _, _, _, hk⟩ | ⟨x, hq, hk⟩
  · rw [hk] at h; cases h; exact .inl ⟨k, rfl⟩
  · rw [hk] at h; cases h
  · rw [hk] at h; cases h
    unfold chunkOutcome at hq
    split at hq
    · simp at hq
    · rename_i h
      split at h
      · cases h; cases hq; exact .inl ⟨_, rfl⟩
      · split at h
        · cases h; cases hq; exact .inr rfl
        · split at h
          · cases h; cases hq; exact .inl ⟨_, rfl⟩
          · split at h
            · cases h
            · cases h; cases hq

/-- How the message shows the error: as a `ParquetError`, as a `ThriftError`, or as the `io::Error` of opening the file. -/
inductive ShowsError (s : ErrorStd) (a : Except ErrorKind File) : ParquetError → Bytes → Prop where
  | parquet (e) (h : ∀ t, e ≠ .thrift t) : ShowsError s a e (unwrapMessage (debugParquetError s false e))
  | thrift (e) (h : PlainError e) : ShowsError s a (.thrift e) (unwrapMessage (debugError s false e))
  | openFile (k) (h : a = .error k) : ShowsError s a (.io k) (unwrapMessage (s.io false k))

theorem format_plain : ∀ d ∈ Format.parquetEnv, PlainNames d := by
  have : Format.parquetEnv.all (fun d => decide (PlainNames d)) = true := by decide
  intro d hd
  exact of_decide_eq_true (List.all_eq_true.1 this d hd)

theorem readMessage_iff (s : ErrorStd) (cfg : Cfg) (a : Except ErrorKind File) :
    (∃ e m, readFile cfg a = .error (.err e) ∧ readMessage s cfg a = some m ∧ ShowsError s a e m) ∨
    ((∀ e, readFile cfg a ≠ .error (.err e)) ∧ readMessage s cfg a = none) := by
  unfold readFile readMessage
  cases a with
  | error k => exact .inl ⟨_, _, rfl, rfl, .openFile k rfl⟩
  | ok f =>
    dsimp only
    cases h : getMetadataChunk cfg f with
    | error x =>
      cases x with
      | err e =>
        refine .inl ⟨_, _, rfl, rfl, .parquet e fun t ht => ?_⟩
        rcases metadata_errors h with ⟨k, rfl⟩ | rfl <;> cases ht
      | _ => exact .inr ⟨nofun, rfl⟩
    | ok p =>
      obtain ⟨data, f'⟩ := p
      dsimp only
      cases h' : readThrift cfg (sliceInput cfg) Format.parquetEnv Format.tFileMetaData data with
      | error x =>
        cases x with
        | err e => exact .inl ⟨_, _, rfl, rfl, .thrift e (plain_read format_plain h')⟩
        | _ => exact .inr ⟨nofun, rfl⟩
      | ok q => exact .inr ⟨nofun, rfl⟩

/-- **C101** `schema` ends in `unwrap` with a message that shows its error, or does not end in `unwrap`. Every build. -/
theorem C101_schema (s : ErrorStd) (cfg : Cfg) (a : Except ErrorKind File) :
    (∃ e m, (schemaMain cfg a).exit = .error (.err e) ∧ schemaMessage s cfg a = some m ∧ ShowsError s a e m) ∨
    ((∀ e, (schemaMain cfg a).exit ≠ .error (.err e)) ∧ schemaMessage s cfg a = none) := by
  rcases readMessage_iff s cfg a with ⟨e, m, h1, h2, h3⟩ | ⟨h1, h2⟩
  · exact .inl ⟨e, m, by unfold schemaMain; rw [h1], by unfold schemaMessage; rw [h2], h3⟩
  · have e0 : schemaMessage s cfg a = convertMessage s cfg a := by unfold schemaMessage; rw [h2]
    rw [e0]
    unfold convertMessage schemaMain
    cases h : readFile cfg a with
    | error x => exact .inr ⟨fun e he => by cases he; exact h1 e h, rfl⟩
    | ok fmd =>
      have ht := Programs.readFile_typed h
      obtain ⟨v, sch, r, c, hf⟩ := Programs.typed_fields ht
      obtain ⟨es, he⟩ := Programs.typed_elements ht hf
      dsimp only
      rw [(Programs.fields_head hf).1, (Programs.fields_head hf).2, he]
      dsimp only
      rcases C50_only_errors cfg es with ⟨_, e⟩ | ⟨_, e⟩ | ⟨_, e⟩ <;> rw [e]
      · exact .inr ⟨nofun, rfl⟩
      · exact .inl ⟨_, _, rfl, rfl, .parquet _ nofun⟩
      · exact .inl ⟨_, _, rfl, rfl, .parquet _ nofun⟩

/-- **C101** The same for `dump`. -/
theorem C101_dump (s : ErrorStd) (cfg : Cfg) (a : Except ErrorKind File) :
    (∃ e m, (dumpMain s.base cfg a).exit = .error (.err e) ∧ dumpMessage s cfg a = some m ∧ ShowsError s a e m) ∨
    ((∀ e, (dumpMain s.base cfg a).exit ≠ .error (.err e)) ∧ dumpMessage s cfg a = none) := by
  rcases readMessage_iff s cfg a with ⟨e, m, h1, h2, h3⟩ | ⟨h1, h2⟩
  · exact .inl ⟨e, m, by unfold dumpMain; rw [h1], h2, h3⟩
  · refine .inr ⟨fun e he => ?_, h2⟩
    unfold dumpMain at he
    cases h : readFile cfg a with
    | error x => rw [h] at he; cases he; exact h1 e h
    | ok fmd => rw [h] at he; cases he

/-- **C101** For files that could be opened the message tells the error, but for which `io::Error` it was. -/
theorem C101_message (hs : ErrorStdOk s) {f g : File} {e e' : ParquetError} {m : Bytes} (h : ShowsError s (.ok f) e m) (h' : ShowsError s (.ok g) e' m) :
    e = e' ∨ ∃ k k', e = .io k ∧ e' = .io k' ∧ s.io false k = s.io false k' := by
  have plain : ∀ {e : ParquetError}, (∀ t, e ≠ .thrift t) → PlainParquet e := fun {e} h => by
    cases e with
    | thrift t => exact absurd rfl (h t)
    | _ => trivial
  cases h with
  | parquet _ hp =>
    generalize hm : unwrapMessage (debugParquetError s false e) = m at h'
    cases h' with
    | parquet _ hp' => exact C101_parquet hs (plain hp) (plain hp') (List.append_cancel_left hm)
    | thrift t _ => exact absurd (List.append_cancel_left hm).symm (kinds_differ t e)
    | openFile k h => cases h
  | thrift t ht =>
    generalize hm : unwrapMessage (debugError s false t) = m at h'
    cases h' with
    | parquet _ hp' => exact absurd (List.append_cancel_left hm) (kinds_differ t e')
    | thrift t' ht' => exact .inl (congrArg _ (C101_distinct hs ht ht' (List.append_cancel_left hm)))
    | openFile k h => cases h
  | openFile k h => cases h

/-! ## Cases -/

/-- A choice of what is left open -/
def plainErrors : ErrorStd where
  base := plainStd
  cstr bs := ascii! "\"" ++ bs ++ ascii! "\""
  kind n := ascii! "Other" ++ decimal n
  io _ _ := ascii! "Kind(InvalidInput)"

/-- It meets the conditions. -/
theorem plainErrors_ok : ErrorStdOk plainErrors where
  cstr _ _ := rfl
  kind n := ⟨by simp [plainErrors], fun b hb => by
    simp only [plainErrors, List.mem_append] at hb
    rcases hb with hb | hb
    · revert b; decide
    · exact .inl (decimal_digits n b hb)⟩
  inj n m h := decimal_inj (List.append_cancel_left h)
  other n h := by
    simp only [plainErrors, List.mem_cons, List.not_mem_nil, or_false] at h
    rcases h with h | h | h | h <;> simp at h

/-- The message for a missing field; the `PageLocation` is empty. -/
example : ∃ e, readThrift ⟨false, false, fun _ => true⟩ (sliceInput ⟨false, false, fun _ => true⟩) Format.parquetEnv Format.tPageLocation [0#8] = .error (.err e) ∧
    displayError plainErrors false e = ascii! "MissingField(\"PageLocation::offset\")" := ⟨_, rfl, by decide⟩

/-- A file of four bytes. -/
example : schemaMessage plainErrors ⟨true, true, fun _ => true⟩ (.ok ⟨ascii! "PAR1", 0, [], []⟩) =
    some (ascii! "called `Result::unwrap()` on an `Err` value: Io(Kind(InvalidInput))") := by decide

/-- A file with metadata of one byte. -/
example : schemaMessage plainErrors ⟨true, true, fun _ => true⟩ (.ok ⟨0x00#8 :: 0x01#8 :: 0x00#8 :: 0x00#8 :: 0x00#8 :: ascii! "PAR1", 0, [], []⟩) =
    some (ascii! "called `Result::unwrap()` on an `Err` value: MissingField(\"FileMetaData::version\")") := by decide

end CT.Props
