import Verif.Proofs.Text
import Verif.Props.ErrorText
/-! # C103: the texts of values, errors and schemas, to the letter -/
namespace CT.Props
open CT CT.Spec CT.Schema CT.Debug CT.Props.Print CT.Parquet CT.Programs CT.Text

theorem charText_eq (s : DebugStd) (n : Nat) : charText s n = escapeDebug s n (utf8 n) := by
  unfold charText escapeDebug
  rw [hex_eq]
  by_cases h0 : n = 0
  · subst h0; rfl
  by_cases h1 : n = 9
  · subst h1; rfl
  by_cases h2 : n = 10
  · subst h2; rfl
  by_cases h3 : n = 13
  · subst h3; rfl
  by_cases h4 : n = 34
  · subst h4; rfl
  by_cases h5 : n = 92
  · subst h5; rfl
  have e : ∀ m, n ≠ m → (n == m) = false := fun m h => by simpa using h
  simp [List.lookup, e 0 h0, e 9 h1, e 10 h2, e 13 h3, e 34 h4, e 92 h5, h0, h1, h2, h3, h4, h5]

theorem literal_eq (s : DebugStd) {ns : List Nat} (h : ∀ n ∈ ns, IsScalar n) : debugStr s (ns.flatMap utf8) = literal s ns := by
  unfold debugStr literal
  rw [escapeAll_utf8 s h _ (Nat.le_refl _), show charText s = fun n => escapeDebug s n (utf8 n) from funext (charText_eq s)]

theorem literal_noLf (s : DebugStd) {ns : List Nat} (h : ∀ n ∈ ns, IsScalar n) : 10#8 ∉ literal s ns := by
  rw [← literal_eq s h]
  intro hc
  exact debugStr_noLf s (utf8Valid_iff _ |>.2 ⟨ns, h, rfl⟩) _ hc rfl

theorem shownName_eq (name : String) : shownName name = identText name := by
  unfold shownName identText
  rw [show (fun c : Char => utf8 c.toNat) = fun c => (String.utf8EncodeChar c).map UInt8.toBitVec from funext fun c => (C07_spec_agrees c).symm]
  have e : (['r', '#'].isPrefixOf name.toList = true) ↔ name.toList.take 2 = ['r', '#'] := by
    rw [List.isPrefixOf_iff_prefix, List.prefix_iff_eq_take]
    exact eq_comm
  by_cases h : name.toList.take 2 = ['r', '#']
  · rw [if_pos (e.2 h)]; dsimp only; rw [if_pos h]
  · rw [if_neg (fun hc => h (e.1 hc))]; dsimp only; rw [if_neg h]

theorem number_noLf (i : Int) : 10#8 ∉ number i := by
  rw [← decimalInt_eq]
  intro h
  exact decimalInt_noLf i _ h rfl

variable {s : DebugStd} {env : List Def}

theorem debugFields_eq (alt : Bool) : ∀ (fs : List Field) (vs : List Val), vs.length = fs.length →
    debugFields s env alt fs vs = List.zipWith (fun (f : Field) v => (identText f.name, debugVal s env alt f.rustTy v)) fs vs
  | [], [], _ => by rw [debugFields]; simp; simp
  | f :: fs, v :: vs, h => by rw [debugFields, debugFields_eq alt fs vs (by simpa using h)]; rfl
  | [], _ :: _, h => by cases h
  | _ :: _, [], h => by cases h

theorem zip_fst {α β γ δ : Type} (f : α → γ) (g : α → β → δ) : ∀ (xs : List α) (ys : List β), ys.length = xs.length →
    (List.zipWith (fun x y => (f x, g x y)) xs ys).map (·.1) = xs.map f
  | [], [], _ => rfl
  | x :: xs, y :: ys, h => by simp [zip_fst f g xs ys (by simpa using h)]
  | [], _ :: _, h => by cases h
  | _ :: _, [], h => by cases h

/-- What both formats show -/
def Shown (s : DebugStd) (env : List Def) (t : Ty) (v : Val) (x : Doc) : Prop :=
  debugVal s env false t v = x.flat ∧ OnLines (debugVal s env true t v) x

theorem shown_word {t : Ty} {v : Val} {w : Bytes} (h : ∀ alt, debugVal s env alt t v = w) (hw : 10#8 ∉ w) : Shown s env t v (.word w) :=
  ⟨(h false).trans (by rw [Doc.flat]), by rw [h true]; exact good_word hw⟩

theorem map_eq_of_getElem {α β γ : Type} {f : α → γ} {g : β → γ} : ∀ {xs : List α} {ys : List β}, ys.length = xs.length →
    (∀ (i : Nat) (x : α) (y : β), xs[i]? = some x → ys[i]? = some y → f x = g y) → xs.map f = ys.map g
  | [], [], _, _ => rfl
  | x :: xs, y :: ys, hl, h => by
    rw [List.map_cons, List.map_cons, h 0 x y rfl rfl,
      map_eq_of_getElem (xs := xs) (ys := ys) (by simpa using hl) fun i x y hx hy => h (i + 1) x y (by simpa using hx) (by simpa using hy)]
  | [], _ :: _, h, _ => by cases h
  | _ :: _, [], h, _ => by cases h

theorem shown_of_doc (hs : StdOk s) (hn : ∀ d ∈ env, DefNamesOk d) {t : Ty} {v : Val} {x : Doc} (h : ValDoc s env t v x) : Shown s env t v x := by
  have named : ∀ {k : Nat} {d : Def}, env[k]? = some d → DefNamesOk d := fun h => hn _ (List.mem_of_getElem? h)
  have ident : ∀ {bs : Bytes}, IdentBytes bs → 10#8 ∉ bs := fun h hc => ident_noLf h _ hc rfl
  induction h with
  | bool b => exact shown_word (fun alt => by rw [debugVal]; rfl) (by cases b <;> decide)
  | i8 x => exact shown_word (fun alt => by rw [debugVal, decimalInt_eq]) (number_noLf _)
  | i16 x => exact shown_word (fun alt => by rw [debugVal, decimalInt_eq]) (number_noLf _)
  | i32 x => exact shown_word (fun alt => by rw [debugVal, decimalInt_eq]) (number_noLf _)
  | i64 x => exact shown_word (fun alt => by rw [debugVal, decimalInt_eq]) (number_noLf _)
  | double x => exact shown_word (fun alt => by rw [debugVal]) (fun hc => f64_noLf hs x _ hc rfl)
  | binary bs =>
    constructor
    · rw [debugVal]
      refine flat_seq ?_
      rw [List.map_map]
      exact List.map_congr_left fun b _ => by rw [Function.comp, Doc.flat, decimal_number]
    · rw [debugVal]
      refine good_seq (by simp) fun i t x ht hx => ?_
      rw [List.getElem?_map] at ht hx
      cases e : bs[i]? with
      | none => rw [e] at ht; cases ht
      | some b =>
        rw [e] at ht hx
        cases ht; cases hx
        dsimp only
        rw [decimal_number]
        exact good_word (number_noLf _)
  | string ns hn => exact shown_word (fun alt => by rw [debugVal, literal_eq s hn]) (literal_noLf s hn)
  | encodingSet mask =>
    have e : ∀ i ∈ members mask, decimalInt (BitVec.ofNat 32 i).toInt = number i := fun i hi => by
      have : i < 32 := by simp [members] at hi; exact hi.1
      rw [decimalInt_eq, BitVec.toInt, BitVec.toNat_ofNat, Nat.mod_eq_of_lt (by omega), if_pos (by omega)]
    constructor
    · rw [debugVal]
      refine flat_seq ?_
      rw [encodingSetIter_eq, List.map_map, List.map_map]
      exact List.map_congr_left fun i hi => by
        simp only [Function.comp]
        rw [e i hi]
        exact flat_call _ _ _ (by rw [Doc.flat])
    · rw [debugVal, encodingSetIter_eq, List.map_map]
      refine good_seq (by simp) fun j t x ht hx => ?_
      rw [List.getElem?_map] at ht hx
      cases h : (members mask)[j]? with
      | none => rw [h] at ht; cases ht
      | some i =>
        rw [h] at ht hx
        cases ht; cases hx
        simp only [Function.comp]
        rw [e i (List.mem_of_getElem? h)]
        exact good_call (by decide) (good_word (number_noLf _))
  | list t vs xs hl _ ih =>
    constructor
    · rw [debugVal, debugVals_eq]
      exact flat_seq (map_eq_of_getElem hl fun i v x hv hx => (ih i v x hv hx).1)
    · rw [debugVal, debugVals_eq]
      refine good_seq (by simp [hl]) fun i t x ht hx => ?_
      rw [List.getElem?_map] at ht
      cases e : vs[i]? with
      | none => rw [e] at ht; cases ht
      | some v => rw [e] at ht; cases ht; exact (ih i v x e hx).2
  | none t => exact shown_word (fun alt => by rw [debugVal]) (by decide)
  | some t v x _ ih =>
    exact ⟨by rw [debugVal]; exact flat_call _ _ _ ih.1, by rw [debugVal]; exact good_call (by decide) ih.2⟩
  | box t v x _ ih => exact ⟨by rw [debugVal]; exact ih.1, by rw [debugVal]; exact ih.2⟩
  | rc t b v x _ ih => exact ⟨by rw [debugVal]; exact ih.1, by rw [debugVal]; exact ih.2⟩
  | enum k name y hk =>
    constructor
    · rw [debugVal, hk, shownName_eq]; simp only []; rw [decimalInt_eq]; exact flat_call _ _ _ (by rw [Doc.flat])
    · rw [debugVal, hk, shownName_eq]; simp only []; rw [decimalInt_eq]; exact good_call (ident (named hk)) (good_word (number_noLf _))
  | struct k name fs vs xs hk hv hl _ ih =>
    have hf : ∀ alt, (debugFields s env alt fs vs).map (·.1) = fs.map fun f => shownName f.name := fun alt => by
      rw [debugFields_eq alt fs vs hv, zip_fst (fun f : Field => identText f.name) (fun f v => debugVal s env alt f.rustTy v) fs vs hv]
      exact List.map_congr_left fun f _ => (shownName_eq _).symm
    constructor
    · rw [debugVal, hk, shownName_eq]
      simp only []
      rw [← hf false]
      refine flat_record (map_eq_of_getElem (by rw [debugFields_eq false fs vs hv]; simp [hl, hv]) fun i p x hp hx => ?_)
      rw [debugFields_eq false fs vs hv, List.getElem?_zipWith] at hp
      cases e1 : fs[i]? with
      | none => rw [e1] at hp; cases hp
      | some f =>
        cases e2 : vs[i]? with
        | none => rw [e1, e2] at hp; cases hp
        | some v => rw [e1, e2] at hp; cases hp; exact (ih i f v x e1 e2 hx).1
    · rw [debugVal, hk, shownName_eq]
      simp only []
      rw [← hf true]
      refine good_record (ident (named hk).1) (by rw [debugFields_eq true fs vs hv]; simp [hl, hv]) (fun p hp => ?_) fun i p x hp hx => ?_
      · have : p.1 ∈ (debugFields s env true fs vs).map (·.1) := List.mem_map_of_mem hp
        rw [hf true] at this
        obtain ⟨f, hf, e⟩ := List.mem_map.1 this
        rw [← e, shownName_eq]
        exact ident ((named hk).2 f hf)
      · rw [debugFields_eq true fs vs hv, List.getElem?_zipWith] at hp
        cases e1 : fs[i]? with
        | none => rw [e1] at hp; cases hp
        | some f =>
          cases e2 : vs[i]? with
          | none => rw [e1, e2] at hp; cases hp
          | some v => rw [e1, e2] at hp; cases hp; exact (ih i f v x e1 e2 hx).2
  | union k name us i u v x hk hu _ ih =>
    constructor
    · rw [debugVal, hk, shownName_eq]; simp only []; rw [hu]; exact flat_call _ _ _ ih.1
    · rw [debugVal, hk, shownName_eq]; simp only []; rw [hu]; exact good_call (ident ((named hk).2.1 u (List.mem_of_getElem? hu))) ih.2

theorem list_of_exists {α β : Type} {p : Nat → α → β → Prop} : ∀ {xs : List α}, (∀ (i : Nat) (x : α), xs[i]? = some x → ∃ y, p i x y) →
    ∃ ys : List β, ys.length = xs.length ∧ ∀ (i : Nat) (x : α) (y : β), xs[i]? = some x → ys[i]? = some y → p i x y := by
  intro xs
  induction xs generalizing p with
  | nil => exact fun _ => ⟨[], rfl, fun i x y h => by simp at h⟩
  | cons x xs ih =>
    intro h
    obtain ⟨y, hy⟩ := h 0 x rfl
    obtain ⟨ys, h1, h2⟩ := ih (p := fun i => p (i + 1)) fun i x hx => h (i + 1) x (by simpa using hx)
    refine ⟨y :: ys, by simp [h1], fun i x' y' hx hy' => ?_⟩
    cases i with
    | zero => simp at hx hy'; subst hx hy'; exact hy
    | succ i => exact h2 i x' y' (by simpa using hx) (by simpa using hy')

theorem doc_exists {t : Ty} {v : Val} (hv : HasTy env v t) : ∃ x, ValDoc s env t v x := by
  induction hv with
  | bool b => exact ⟨_, .bool b⟩
  | i8 x => exact ⟨_, .i8 x⟩
  | i16 x => exact ⟨_, .i16 x⟩
  | i32 x => exact ⟨_, .i32 x⟩
  | i64 x => exact ⟨_, .i64 x⟩
  | double x => exact ⟨_, .double x⟩
  | binary bs => exact ⟨_, .binary bs⟩
  | string bs h => obtain ⟨ns, h1, rfl⟩ := (utf8Valid_iff _).1 h; exact ⟨_, .string ns h1⟩
  | encodingSet mask h => exact ⟨_, .encodingSet mask⟩
  | list t vs h ih =>
    obtain ⟨xs, h1, h2⟩ := list_of_exists (p := fun _ v x => ValDoc s env t v x) fun i v hv => ih v (List.mem_of_getElem? hv)
    exact ⟨_, .list t vs xs h1 h2⟩
  | none t => exact ⟨_, .none t⟩
  | some t v h ih => obtain ⟨x, h⟩ := ih; exact ⟨_, .some t v x h⟩
  | box t v h ih => obtain ⟨x, h⟩ := ih; exact ⟨_, .box t v x h⟩
  | rc t sh v h ih => obtain ⟨x, h⟩ := ih; exact ⟨_, .rc t sh v x h⟩
  | enum k name z hk => exact ⟨_, .enum k name z hk⟩
  | union k name us i u v hk hu h ih => obtain ⟨x, h⟩ := ih; exact ⟨_, .union k name us i u v x hk hu h⟩
  | struct k name fs vs hk hl h ih =>
    obtain ⟨xs, h1, h2⟩ := list_of_exists (xs := vs) (p := fun i v x => ∀ f, fs[i]? = some f → ValDoc s env f.rustTy v x) fun i v hv => by
      cases e : fs[i]? with
      | none => exact ⟨.word [], fun f h => by cases h⟩
      | some f => obtain ⟨x, hx⟩ := ih i f v e hv; exact ⟨x, fun g hg => by cases hg; exact hx⟩
    exact ⟨_, .struct k name fs vs xs hk hl (h1.trans hl) fun i f v x hf hv hx => h2 i v x hv hx f hf⟩

/-- **C103** `{:?}` and `{:#?}` of a value show the tree of the specification, on one line or on several. -/
theorem C103_value (hs : StdOk s) (hn : ∀ d ∈ env, DefNamesOk d) {t : Ty} {v : Val} (hv : HasTy env v t) :
    (∃ x, ValDoc s env t v x) ∧ ∀ x, ValDoc s env t v x → ∀ alt, debugVal s env alt t v = x.text alt := by
  refine ⟨doc_exists hv, fun x hx alt => ?_⟩
  obtain ⟨h1, h2⟩ := shown_of_doc hs hn hx
  cases alt
  · exact h1
  · exact good_text h2

/-! ## Errors -/

/-- An error other than one with an unusual name has a tree. -/
theorem error_doc {e : ErrorStd} {x : ThriftError} (hx : PlainError x) : ∃ d, ErrorDoc e x d := by
  cases x with
  | missingField name => exact ⟨_, .missingField name hx⟩
  | invalidNumber => exact ⟨_, .invalidNumber⟩
  | invalidString => exact ⟨_, .invalidString⟩
  | invalidBinaryLen n => exact ⟨_, .invalidBinaryLen n⟩
  | invalidCollectionLen => exact ⟨_, .invalidCollectionLen⟩
  | missingValue => exact ⟨_, .missingValue⟩
  | missingStop => exact ⟨_, .missingStop⟩
  | duplicateField => exact ⟨_, .duplicateField⟩
  | invalidType => exact ⟨_, .invalidType⟩
  | reserveError => exact ⟨_, .reserveError⟩
  | io k => exact ⟨_, .io k⟩

theorem plain_text {name : String} (h : PlainString name) : stringBytes name = textBytes name.toList := by
  rw [stringBytes_eq]
  unfold encodeString textBytes
  unfold PlainString at h
  generalize name.toList = cs at h ⊢
  induction cs with
  | nil => rfl
  | cons c cs ih =>
    rw [List.flatMap_cons, List.map_cons, ih fun x hx => h x (by simp [hx]), utf8, if_pos (by have := (h c (by simp)).2.1; omega)]
    rfl

theorem kind_noLf {e : ErrorStd} (hs : ErrorStdOk e) (k : ErrorKind) : 10#8 ∉ kindText e k := by
  cases k with
  | other n => exact fun hc => ident_noLf (hs.kind n) _ hc rfl
  | _ => dsimp only [kindText]; decide

theorem kindText_eq (e : ErrorStd) (k : ErrorKind) : debugKind e k = kindText e k := by cases k <;> rfl

theorem error_shown {e : ErrorStd} (hs : ErrorStdOk e) {x : ThriftError} {d : Doc} (h : ErrorDoc e x d) : debugError e false x = d.flat ∧ OnLines (debugError e true x) d := by
  have word : ∀ {x : ThriftError} {w : Bytes}, (∀ alt, debugError e alt x = w) → 10#8 ∉ w → debugError e false x = (Doc.word w).flat ∧ OnLines (debugError e true x) (.word w) :=
    fun h hw => ⟨by rw [h, flat_word], by rw [h]; exact good_word hw⟩
  have call : ∀ {x : ThriftError} {n w : Bytes}, (∀ alt, debugError e alt x = debugTuple alt n w) → 10#8 ∉ n → 10#8 ∉ w →
      debugError e false x = (Doc.call n (.word w)).flat ∧ OnLines (debugError e true x) (.call n (.word w)) :=
    fun h hn hw => ⟨by rw [h]; exact flat_call _ _ _ (flat_word _).symm, by rw [h]; exact good_call hn (good_word hw)⟩
  cases h with
  | invalidBinaryLen n => exact call (fun alt => by rw [debugError, decimal_number]) (by decide) (number_noLf _)
  | missingField name hp =>
    refine call (fun alt => by rw [debugError, hs.cstr _ (plain_bytes hp), plain_text hp]) (by decide) ?_
    rw [← plain_text hp]
    intro hc
    simp only [List.mem_append, List.mem_singleton] at hc
    rcases hc with (hc | hc) | hc
    · exact absurd hc (by decide)
    · have := plain_bytes hp _ hc; revert this; unfold PlainByte; decide
    · exact absurd hc (by decide)
  | io k => exact call (fun alt => by rw [debugError, kindText_eq]) (by decide) (kind_noLf hs k)
  | _ => exact word (fun alt => rfl) (by decide)

/-- **C103** An error with a plain name shows the tree of the specification, with `{:?}` and `{}` on one line, with `{:#?}` and `{:#}` on several. -/
theorem C103_error {e : ErrorStd} (hs : ErrorStdOk e) {x : ThriftError} (hx : PlainError x) :
    (∃ d, ErrorDoc e x d) ∧ ∀ d, ErrorDoc e x d → ∀ alt, debugError e alt x = d.text alt ∧ displayError e alt x = d.text alt := by
  refine ⟨error_doc hx, fun d hd alt => ?_⟩
  obtain ⟨h1, h2⟩ := error_shown hs hd
  cases alt
  · exact ⟨h1, h1⟩
  · exact ⟨good_text h2, good_text h2⟩

/-- **C103** The same for the errors of the Parquet functions, other than an `io::Error`. -/
theorem C103_parquet {e : ErrorStd} (hs : ErrorStdOk e) {x : ParquetError} (hx : PlainParquet x) :
    ((∃ k, x = .io k) ∨ ∃ d, ParquetErrorDoc e x d) ∧ ∀ d, ParquetErrorDoc e x d → ∀ alt, debugParquetError e alt x = d.text alt := by
  constructor
  · cases x with
    | io k => exact .inl ⟨k, rfl⟩
    | thrift x => obtain ⟨d, h⟩ := error_doc (e := e) (show PlainError x from hx); exact .inr ⟨_, .thrift x d h⟩
    | invalidMagic => exact .inr ⟨_, .invalidMagic⟩
    | invalidOffset => exact .inr ⟨_, .invalidOffset⟩
    | schema msg => exact .inr ⟨_, .schema msg⟩
    | unknownType y => exact .inr ⟨_, .unknownType y⟩
  · intro d hd
    have both : ∀ {x : ParquetError} {d : Doc}, debugParquetError e false x = d.flat → OnLines (debugParquetError e true x) d → ∀ alt, debugParquetError e alt x = d.text alt :=
      fun h1 h2 alt => by
        cases alt
        · exact h1
        · exact good_text h2
    cases hd with
    | thrift x d h =>
      obtain ⟨h1, h2⟩ := error_shown hs h
      exact both (by rw [debugParquetError]; exact flat_call _ _ _ h1) (by rw [debugParquetError]; exact good_call (by decide) h2)
    | invalidMagic => exact both (by rw [debugParquetError, flat_word]) (by rw [debugParquetError]; exact good_word (by decide))
    | invalidOffset => exact both (by rw [debugParquetError, flat_word]) (by rw [debugParquetError]; exact good_word (by decide))
    | schema msg =>
      have hns : ∀ n ∈ msg.toList.map Char.toNat, IsScalar n := fun n hn => by
        obtain ⟨c, _, rfl⟩ := List.mem_map.1 hn
        exact char_scalar c
      have he : debugStr e.base (stringBytes msg) = literal e.base (msg.toList.map Char.toNat) := by
        rw [← literal_eq _ hns, stringBytes_eq, encodeString, List.flatMap_map]
      exact both (by rw [debugParquetError, he]; exact flat_call _ _ _ (flat_word _).symm)
        (by rw [debugParquetError, he]; exact good_call (by decide) (good_word (literal_noLf _ hns)))
    | unknownType y =>
      exact both (by rw [debugParquetError, decimalInt_eq]; exact flat_call _ _ _ (flat_word _).symm)
        (by rw [debugParquetError, decimalInt_eq]; exact good_call (by decide) (good_word (number_noLf _)))

/-- **C103** The message of the panics of `schema` and `dump`: the text of `unwrap`, then the error on one line. -/
theorem C103_message {e : ErrorStd} (hs : ErrorStdOk e) {a : Except ErrorKind File} {x : ParquetError} {m : Bytes} (h : ShowsError e a x m) :
    ∃ text, m = ascii! "called `Result::unwrap()` on an `Err` value: " ++ text ∧
      ((∃ d, ParquetErrorDoc e x d ∧ text = d.flat) ∨ (∃ t d, x = .thrift t ∧ ErrorDoc e t d ∧ text = d.flat) ∨
       ∃ k, x = .io k ∧ (text = ascii! "Io(" ++ e.io false k ++ ascii! ")" ∨ (a = .error k ∧ text = e.io false k))) := by
  cases h with
  | parquet _ hp =>
    refine ⟨_, rfl, ?_⟩
    have hx : PlainParquet x := by
      cases x with
      | thrift t => exact absurd rfl (hp t)
      | _ => trivial
    obtain ⟨h1, h2⟩ := C103_parquet hs hx
    rcases h1 with ⟨k, rfl⟩ | ⟨d, hd⟩
    · exact .inr (.inr ⟨k, rfl, .inl rfl⟩)
    · exact .inl ⟨d, hd, h2 d hd false⟩
  | thrift t ht =>
    obtain ⟨⟨d, hd⟩, h2⟩ := C103_error hs ht
    exact ⟨_, rfl, .inr (.inl ⟨t, d, rfl, hd, (h2 d hd false).1⟩)⟩
  | openFile k ha => exact ⟨_, rfl, .inr (.inr ⟨k, rfl, .inr ⟨ha, rfl⟩⟩)⟩

/-- **C103** `dump` prints the metadata of the file on several lines, indented by four spaces. -/
theorem C103_dump {cfg : Cfg} (hov : cfg.overflowChecks = false) (h2 : cfg.sse2 = false) (ha : ∀ n, cfg.alloc n = true) {f : File} (hq : Quiet f) (hs : StdOk s) :
    ((¬ ∃ fmd, HoldsMetadata f.data fmd) ∧ ∃ e, dumpMain s cfg (.ok f) = ⟨[], .error (.err e)⟩) ∨
    ∃ fmd x, HoldsMetadata f.data fmd ∧ ValDoc s Format.parquetEnv Format.tFileMetaData fmd x ∧ dumpMain s cfg (.ok f) = ⟨printed 4 (x.lines 0), .ok ()⟩ := by
  rcases C99_dump hov h2 ha hq s with h | ⟨fmd, hm, e⟩
  · exact .inl h
  · have hr : readFile cfg (.ok f) = .ok fmd := (CT.Props.Programs.readFile_ok hov h2 ha hq).2 hm
    obtain ⟨x, hx⟩ := doc_exists (s := s) (CT.Props.Programs.readFile_typed hr)
    exact .inr ⟨fmd, x, hm, hx, by rw [e, ← (shown_of_doc hs format_names hx).2.1]⟩

/-! ## Schemas -/

/-- **C103** A schema is printed as the lines of the specification, indented by two spaces. -/
theorem C103_schema (f : SField) (n : Nat) (t : Bytes) : prettyPrint f n = t ↔ ∃ ls, SchemaLines n [f] ls ∧ t = printed 2 ls := print_iff f n t

/-- A struct with a number, an optional list of strings, and an empty struct -/
def shownFields : List Field := [⟨1#16, true, "r#type", .i8⟩, ⟨2#16, false, "names", .list .string⟩, ⟨3#16, true, "e", .named 1⟩]

def shownEnv : List Def := [.struct "S" shownFields, .struct "E" []]

def shownVals : List Val := [.i8 0xFB#8, .some (.list [.string [97#8, 10#8], .string []]), .struct []]

/-- What is shown of the fields -/
def shownDocs : List Doc := [.word (ascii! "-5"), .call (ascii! "Some") (.seq [.word (ascii! "\"a\\n\""), .word (ascii! "\"\"")]), .record (ascii! "E") [] []]

/-- What is shown of the value -/
theorem shownVal_doc : ValDoc plainStd shownEnv (.named 0) (.struct shownVals) (.record (ascii! "S") [ascii! "type", ascii! "names", ascii! "e"] shownDocs) := by
  refine ValDoc.struct 0 "S" shownFields shownVals shownDocs rfl rfl rfl fun i f v x hf hv hx => ?_
  unfold shownFields at hf
  unfold shownVals at hv
  unfold shownDocs at hx
  match i with
  | 0 => simp at hf hv hx; subst hf hv hx; exact .i8 0xFB#8
  | 1 =>
    simp at hf hv hx; subst hf hv hx
    refine .some _ _ _ (.list _ _ _ rfl fun i v x hv hx => ?_)
    match i with
    | 0 => simp at hv hx; subst hv hx; exact .string [97, 10] (by decide)
    | 1 => simp at hv hx; subst hv hx; exact .string [] (by decide)
    | i + 2 => simp at hv
  | 2 =>
    simp at hf hv hx; subst hf hv hx
    exact .struct 1 "E" [] [] [] rfl rfl rfl fun i f v x hf => by simp at hf
  | i + 3 => simp at hf

/-- The conditions of C103 hold, and the texts are what one expects. -/
example : StdOk plainStd ∧ (∀ d ∈ shownEnv, DefNamesOk d) ∧ HasTy shownEnv (.struct shownVals) (.named 0) ∧
    debugVal plainStd shownEnv false (.named 0) (.struct shownVals) = ascii! "S { type: -5, names: Some([\"a\\n\", \"\"]), e: E }" ∧
    debugVal plainStd shownEnv true (.named 0) (.struct shownVals) =
      ascii! "S {\n    type: -5,\n    names: Some(\n        [\n            \"a\\n\",\n            \"\",\n        ],\n    ),\n    e: E,\n}" := by
  have hn : ∀ d ∈ shownEnv, DefNamesOk d := by
    intro d hd
    simp only [shownEnv, List.mem_cons, List.not_mem_nil, or_false] at hd
    rcases hd with rfl | rfl
    · exact ⟨by unfold IdentBytes; decide, by unfold IdentBytes; decide⟩
    · exact ⟨by unfold IdentBytes; decide, by unfold IdentBytes; decide⟩
  have hv : HasTy shownEnv (.struct shownVals) (.named 0) := by
    refine .struct 0 "S" shownFields shownVals rfl rfl fun i f v hf hv => ?_
    unfold shownFields at hf
    unfold shownVals at hv
    match i with
    | 0 => simp at hf hv; subst hf hv; exact .i8 0xFB#8
    | 1 =>
      simp at hf hv; subst hf hv
      refine .some _ _ (.list _ _ fun v hv => ?_)
      simp only [List.mem_cons, List.not_mem_nil, or_false] at hv
      rcases hv with rfl | rfl
      · exact .string _ rfl
      · exact .string _ rfl
    | 2 =>
      simp at hf hv; subst hf hv
      exact .struct 1 "E" [] [] rfl rfl fun i f v hf => by simp at hf
    | i + 3 => simp at hf
  have h := (C103_value plainStd_ok hn hv).2 _ shownVal_doc
  exact ⟨plainStd_ok, hn, hv, (h false).trans rfl, (h true).trans rfl⟩

/-- An error with a number. -/
example : displayError plainErrors false (.invalidBinaryLen 70000) = ascii! "InvalidBinaryLen(70000)" :=
  (((C103_error plainErrors_ok (x := .invalidBinaryLen 70000) trivial).2 _ (.invalidBinaryLen 70000)) false).2.trans rfl

/-- A schema of one column, from the lines of the specification. -/
example : prettyPrint (.group ⟨ascii! "s", none, .Required, 0, 0⟩ [.primitive ⟨ascii! "id", some 1, .Optional, 1, 0⟩ .INT32 none 0] none) 0 =
    ascii! "REQUIRED group s {\n  OPTIONAL INT32 id;\n}\n" :=
  (C103_schema _ _ _).2 ⟨_, .group 0 _ _ none [] _ _ _ _ .required .none (.column 1 _ .INT32 none 0 [] _ _ _ _ .optional .int32 .none (.nil 1)) (.nil 0), rfl⟩

end CT.Props
