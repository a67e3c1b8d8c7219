import Verif.Proofs.ErrorsOccur
import Verif.Proofs.Sse2
import Verif.Props.ParquetTypes
/-! # C100: the errors a read can report -/
namespace CT.Props
open CT Spec

theorem errs_dflt {In : ThriftError → Prop} {cfg : Cfg} {env : List Def} {t : Ty} {e : ThriftError} (h : Errs In cfg env t (dflt env t) e) : In e ∨ CanFail cfg.alloc env t e :=
  h.imp id fun h => h.elim id fun h => absurd (dflt_free env t).2 h.2.2

/-- C100: when reading from a slice reports an error, the input has ended, or it is one of the errors of the type. Every build. -/
theorem C100_slice (cfg : Cfg) (env : List Def) (t : Ty) (s : Bytes) (e : ThriftError) (h : readThrift cfg (sliceInput cfg) env t s = .error (.err e)) :
    e = .io .unexpectedEof ∨ CanFail cfg.alloc env t e :=
  errs_dflt ((ev_fillThrift (slice_errs cfg) cfg env t (dflt_free env t).1).run trivial |>.2 _ h e rfl)

/-- C100: when reading from a reader reports an error, the input has ended, or the reader reported it (and it is not `Interrupted`), or it is one of the errors of the type. -/
theorem C100_reader (cfg : Cfg) (env : List Def) (t : Ty) (evs : List REvent) (e : ThriftError) (h : readThrift cfg (readerInput cfg) env t evs = .error (.err e)) :
    e = .io .unexpectedEof ∨ (∃ k, .error k ∈ evs ∧ k ≠ .interrupted ∧ e = .io k) ∨ CanFail cfg.alloc env t e := by
  have := errs_dflt ((ev_fillThrift (reader_errs (K := fun k => .error k ∈ evs) cfg) cfg env t (dflt_free env t).1).run (fun _ h => h) |>.2 _ h e rfl)
  exact this.elim (fun h => h.imp id .inl) fun h => .inr (.inr h)

/-- C100: when a value is read into an existing one that shares nothing, the same errors are possible and, only if the type can be read once only, `DuplicateField`. -/
theorem C100_fill (cfg : Cfg) (env : List Def) (t : Ty) (v : Val) (hv : Unshared v) (s : Bytes) (e : ThriftError) (h : fillThrift cfg (sliceInput cfg) env t v s = .error (.err e)) :
    e = .io .unexpectedEof ∨ CanFail cfg.alloc env t e ∨ (e = .duplicateField ∧ Once t) :=
  ((ev_fillThrift (slice_errs cfg) cfg env t hv).run trivial |>.2 _ h e rfl).imp id fun h => h.imp id fun h => ⟨h.1, h.2.1⟩

/-- C100: each of the errors of the type is reported for some bytes, with SSE2 and without. -/
theorem C100_possible {cfg : Cfg} (hov : cfg.overflowChecks = false) (ha : AllocOk cfg) {env : List Def} (hs : schemaOk env = true) (hcl : envClosed env = true) (hf : envOptionFree env = true)
    (hsp : ∀ d ∈ env, ∃ id, defSpare id d = true) {t : Ty} (ht : tyClosed env t = true) {e : ThriftError} (h : CanFail cfg.alloc env t e) :
    ∃ s, readThrift cfg (sliceInput cfg) env t s = .error (.err e) := by
  obtain ⟨_, hc⟩ := reads_unchecked hov
  obtain ⟨s, N, h⟩ := canFail_occurs hc ha hs hcl hf hsp h ht
  refine ⟨s, ?_⟩
  have := h (N + s.length + 1) (by omega) _ (isDefault_dflt (schemaOk_defaults hs) ht)
  rwa [fillTy_canon (slice_measured_nd cfg) env (s := s) (by show s.length + 1 ≤ _; omega)] at this

theorem fill_nothing (cfg : Cfg) {env : List Def} (hd : defaultsDefined env = true) (n : Nat) : ∀ (t : Ty), tyClosed env t = true → ∀ d, IsDefault env t d →
    fillTy cfg (sliceInput cfg) env (fillNamed cfg (sliceInput cfg) env (n + 1)) t d [] = .error (.err (.io .unexpectedEof)) := by
  intro t
  induction t with
  | option t ih => intro ht d h; cases h; rw [fillTy, Rd.bind_err (ih ht _ (isDefault_dflt hd ht))]
  | box t ih => intro ht d h; cases h with | box _ v h => rw [fillTy, Rd.bind_err (ih ht _ h)]
  | rc t ih => intro ht d h; cases h with | rc _ v h => rw [fillTy, if_neg (by simp), Rd.bind_err (ih ht _ h)]
  | named k =>
    intro ht d h
    cases h with
    | enum _ _ hk => rw [fillTy, fillNamed_enum hk]; rfl
    | struct _ _ _ vs hk hl h => rw [fillTy, fillNamed_struct hk]; rfl
    | union _ _ _ _ _ hk h => rw [fillTy, fillNamed_union hk]; rfl
  | _ => intro _ d _; rfl

/-- C100: for every type there is input that ends too early. -/
theorem C100_end (cfg : Cfg) {env : List Def} (hd : defaultsDefined env = true) {t : Ty} (ht : tyClosed env t = true) :
    readThrift cfg (sliceInput cfg) env t [] = .error (.err (.io .unexpectedEof)) :=
  fill_nothing cfg hd 0 t ht _ (isDefault_dflt hd ht)

/-- The errors about contents are never I/O errors, nor `MissingValue`. -/
theorem C100_never {alloc : Nat → Bool} {env : List Def} {t : Ty} {e : ThriftError} (h : CanFail alloc env t e) : e ≠ .missingValue ∧ ∀ k, e ≠ .io k := by
  induction h with
  | skip _ _ _ _ _ h => cases h <;> exact ⟨by simp, by simp⟩
  | elem _ _ _ ih | option _ _ _ ih | box _ _ _ ih | rc _ _ _ ih => exact ih
  | field _ _ _ _ _ _ _ _ ih | variant _ _ _ _ _ _ _ _ ih => exact ih
  | _ => exact ⟨by simp, by simp⟩

/-- The definitions of format.rs meet the conditions of `C100_possible`. -/
theorem parquet_conditions : schemaOk Format.parquetEnv = true ∧ envClosed Format.parquetEnv = true ∧ envOptionFree Format.parquetEnv = true ∧
    ∀ d ∈ Format.parquetEnv, ∃ id, defSpare id d = true :=
  ⟨by decide, by decide, by decide, fun d hd => ⟨1000#16, List.all_eq_true.1 (by decide : Format.parquetEnv.all (defSpare 1000#16) = true) d hd⟩⟩

/-- C100: exactly which errors reading a type of format.rs can report, with SSE2 and without. -/
theorem C100_parquet {cfg : Cfg} (hov : cfg.overflowChecks = false) (ha : AllocOk cfg) {t : Ty} (ht : tyClosed Format.parquetEnv t = true) (e : ThriftError) :
    (∃ s, readThrift cfg (sliceInput cfg) Format.parquetEnv t s = .error (.err e)) ↔ e = .io .unexpectedEof ∨ CanFail cfg.alloc Format.parquetEnv t e := by
  obtain ⟨h1, h2, h3, h4⟩ := parquet_conditions
  constructor
  · rintro ⟨s, h⟩; exact C100_slice cfg _ t s e h
  · rintro (rfl | h)
    · exact ⟨[], C100_end cfg (schemaOk_defaults h1) ht⟩
    · exact C100_possible hov ha h1 h2 h3 h4 ht h

/-- A `PageLocation` (three required numbers) is refused for a skipped field or a missing one, and for nothing else. -/
example {alloc : Nat → Bool} {e : ThriftError} : CanFail alloc Format.parquetEnv Format.tPageLocation e ↔
    SkipError e ∨ e = .missingField "PageLocation::offset" ∨ e = .missingField "PageLocation::compressed_page_size" ∨ e = .missingField "PageLocation::first_row_index" := by
  have hk : Format.parquetEnv[58]? = some Format.dPageLocation := rfl
  constructor
  · intro h
    cases h with
    | skip _ _ _ _ _ h => exact .inl h
    | missing _ name fs f hk' hm _ =>
      rw [hk] at hk'; cases hk'
      simp only [List.mem_cons, List.not_mem_nil, or_false] at hm
      rcases hm with rfl | rfl | rfl
      · exact .inr (.inl rfl)
      · exact .inr (.inr (.inl rfl))
      · exact .inr (.inr (.inr rfl))
    | repeated _ name fs f hk' hm h =>
      rw [hk] at hk'; cases hk'
      simp only [List.mem_cons, List.not_mem_nil, or_false] at hm
      rcases hm with rfl | rfl | rfl <;> cases h
    | field _ name fs f _ hk' hm h =>
      rw [hk] at hk'; cases hk'
      simp only [List.mem_cons, List.not_mem_nil, or_false] at hm
      rcases hm with rfl | rfl | rfl <;> cases h
    | noVariant _ _ _ hk' => rw [hk] at hk'; cases hk'
    | otherVariant _ _ _ hk' => rw [hk] at hk'; cases hk'
    | noStop _ _ _ _ hk' => rw [hk] at hk'; cases hk'
    | variant _ _ _ _ _ hk' => rw [hk] at hk'; cases hk'
  · rintro (h | rfl | rfl | rfl)
    · exact .skip _ _ _ _ hk h
    · exact .missing _ "PageLocation" _ ⟨1, true, "offset", .i64⟩ hk (by simp) rfl
    · exact .missing _ "PageLocation" _ ⟨2, true, "compressed_page_size", .i32⟩ hk (by simp) rfl
    · exact .missing _ "PageLocation" _ ⟨3, true, "first_row_index", .i64⟩ hk (by simp) rfl

/-- A reader that breaks. -/
example : readThrift ⟨true, true, fun _ => true⟩ (readerInput ⟨true, true, fun _ => true⟩) [] .i64 [.data [0x80#8], .error (.other 7)] = .error (.err (.io (.other 7))) := rfl

/-- Filling what is filled already. -/
example : Unshared (.some (.i8 1#8)) ∧ Once (.option .i8) ∧
    fillThrift ⟨true, true, fun _ => true⟩ (sliceInput ⟨true, true, fun _ => true⟩) [] (.option .i8) (.some (.i8 1#8)) [0x01#8] = .error (.err .duplicateField) := ⟨trivial, trivial, rfl⟩

end CT.Props
