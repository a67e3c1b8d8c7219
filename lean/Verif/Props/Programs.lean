import Verif.Proofs.Text
import Verif.Model.Programs
import Verif.Spec.Programs
import Verif.Spec.Debug
import Verif.Props.ParquetFile
import Verif.Props.Print
import Verif.Props.Debug
import Verif.Props.Decoding
/-!
# C99: the programs
-/
namespace CT.Props
open CT CT.Spec CT.Parquet CT.Schema CT.Programs CT.Props.Print

namespace Programs

/-! ## Reading the file -/

theorem footer_det {d mb mb' : Bytes} (h : HasFooter d mb) (h' : HasFooter d mb') : mb = mb' := by
  rw [((hasFooter_iff _ _).1 h).2.2.2, ((hasFooter_iff _ _).1 h').2.2.2]

theorem holds_det {d : Bytes} {v w : Val} (h : HoldsMetadata d v) (h' : HoldsMetadata d w) : v = w := by
  obtain ⟨mb, p, r, hf, e, hd⟩ := h
  obtain ⟨mb', p', r', hf', e', hd'⟩ := h'
  have := footer_det hf hf'
  exact (C76_unambiguous (by decide) (by decide) hd hd' (by rw [← e, ← e', this])).2.1

theorem readFile_reads {cfg : Cfg} {int : Bytes → Prop} (hc : SliceReads cfg int) (ha : ∀ n, cfg.alloc n = true) {f : File} (hq : Quiet f) {fmd : Val} :
    readFile cfg (.ok f) = .ok fmd ↔ HoldsMetadataOf int f.data fmd := by
  have rd := fun s s' => read_reads (cfg := cfg) hc (fun n _ => ha n) (env := Format.parquetEnv) (t := Format.tFileMetaData) (by decide) (by decide) fmd s s'
  unfold readFile
  dsimp only
  constructor
  · intro h
    cases h1 : getMetadataChunk cfg f with
    | error x => rw [h1] at h; cases h
    | ok t =>
      obtain ⟨mb, f'⟩ := t
      rw [h1] at h
      dsimp only at h
      cases h2 : readThrift cfg (sliceInput cfg) Format.parquetEnv Format.tFileMetaData mb with
      | error x => rw [h2] at h; cases h
      | ok t =>
        obtain ⟨v, rest⟩ := t
        rw [h2] at h
        cases h
        obtain ⟨p, e, hd⟩ := (rd mb rest).1 h2
        exact ⟨mb, p, rest, (C41_ok_iff hq (ha _)).1 ⟨f', h1⟩, e, hd⟩
  · rintro ⟨mb, p, rest, hf, e, hd⟩
    obtain ⟨f', h1⟩ := (C41_ok_iff hq (ha _)).2 hf
    have h2 := (rd mb rest).2 ⟨p, e, hd⟩
    rw [h1]
    dsimp only
    rw [h2]

theorem readFile_ok {cfg : Cfg} (hov : cfg.overflowChecks = false) (hs : cfg.sse2 = false) (ha : ∀ n, cfg.alloc n = true) {f : File} (hq : Quiet f) {fmd : Val} :
    readFile cfg (.ok f) = .ok fmd ↔ HoldsMetadata f.data fmd := readFile_reads (Plain.reads ⟨hov, hs⟩) ha hq

theorem readFile_error {cfg : Cfg} {a : Except ErrorKind File} {x : PFail} (h : readFile cfg a = .error x) :
    (∃ e, x = .err e) ∨ (x = .panic ∧ (cfg.overflowChecks = true ∨ cfg.sse2 = true)) ∨ (x = .ub ∧ cfg.sse2 = true) ∨ (x = .abort ∧ ∃ n, cfg.alloc n = false) := by
  unfold readFile at h
  cases a with
  | error k => cases h; exact .inl ⟨_, rfl⟩
  | ok f =>
    dsimp only at h
    rcases C41_no_panic cfg f with ⟨mb, f', h1⟩ | ⟨e, h1⟩ | ⟨h1, n, _, hn⟩
    · rw [h1] at h
      dsimp only at h
      cases h2 : readThrift cfg (sliceInput cfg) Format.parquetEnv Format.tFileMetaData mb with
      | ok t => rw [h2] at h; cases h
      | error y =>
        rw [h2] at h
        cases h
        have hf := (fillable_dflt_closed (env := Format.parquetEnv) (t := Format.tFileMetaData) (by decide) (by decide)).seed
        rcases (C16_any_build (cfg := cfg) (by decide) (by decide) hf).2 mb h2 with h | ⟨rfl, h⟩ | ⟨rfl, h⟩
        · cases y with
          | err e => exact .inl ⟨_, rfl⟩
          | _ => obtain ⟨_, h⟩ := h; cases h
        · exact .inr (.inl ⟨rfl, h⟩)
        · exact .inr (.inr (.inl ⟨rfl, h⟩))
    · rw [h1] at h; cases h; exact .inl ⟨_, rfl⟩
    · rw [h1] at h; cases h; exact .inr (.inr (.inr ⟨rfl, n, hn⟩))

theorem readFile_typed {cfg : Cfg} {a : Except ErrorKind File} {v : Val} (h : readFile cfg a = .ok v) : HasTy Format.parquetEnv v Format.tFileMetaData := by
  unfold readFile at h
  cases a with
  | error k => cases h
  | ok f =>
    dsimp only at h
    cases h1 : getMetadataChunk cfg f with
    | error x => rw [h1] at h; cases h
    | ok t =>
      obtain ⟨mb, f'⟩ := t
      rw [h1] at h
      dsimp only at h
      cases h2 : readThrift cfg (sliceInput cfg) Format.parquetEnv Format.tFileMetaData mb with
      | error x => rw [h2] at h; cases h
      | ok t =>
        obtain ⟨v, rest⟩ := t
        rw [h2] at h
        cases h
        exact C35_typed (cfg := cfg) (by decide) (by decide) (.inl ⟨_, _, h2⟩)

/-! ## The fields -/

theorem fields_head {fmd : Val} {v : BitVec 32} {sch : List Val} {r : BitVec 64} {c : Option Bytes} (h : MetadataFields fmd v sch r c) :
    headOfVal fmd = some (v, r, c) ∧ schemaOfVal fmd = sch.mapM elementOfVal := by
  obtain ⟨_, _, _, _, _, rfl⟩ := h
  cases c <;> exact ⟨rfl, rfl⟩

theorem typed_fields {fmd : Val} (h : HasTy Format.parquetEnv fmd Format.tFileMetaData) : ∃ v sch r c, MetadataFields fmd v sch r c := by
  cases h with
  | enum _ _ _ hk => cases hk
  | union _ _ _ _ _ _ hk => cases hk
  | struct _ _ fs vs hk hl h =>
    cases hk
    match vs, hl, h with
    | [a, b, c, d, e, f, g, i, j], _, h =>
      have h0 := h 0 _ _ rfl rfl
      have h1 := h 1 _ _ rfl rfl
      have h2 := h 2 _ _ rfl rfl
      have h5 := h 5 _ _ rfl rfl
      change HasTy _ a .i32 at h0
      change HasTy _ b (.list Format.tSchemaElement) at h1
      change HasTy _ c .i64 at h2
      change HasTy _ f (.option .string) at h5
      cases h0; cases h1; cases h2
      cases h5 with
      | none => exact ⟨_, _, _, none, _, _, _, _, _, rfl⟩
      | some _ _ h5 => cases h5; exact ⟨_, _, _, some _, _, _, _, _, _, rfl⟩

theorem typed_elements {fmd : Val} (h : HasTy Format.parquetEnv fmd Format.tFileMetaData) {v : BitVec 32} {sch : List Val} {r : BitVec 64} {c : Option Bytes}
    (hf : MetadataFields fmd v sch r c) : ∃ es, sch.mapM elementOfVal = some es := by
  obtain ⟨es, he⟩ := schemaOfVal_typed h
  exact ⟨es, by rw [← he, (fields_head hf).2]⟩

/-! ## What is printed -/

/-- What may follow a line feed of a schema -/
def Next : Bytes → Prop
  | [] => True
  | b :: _ => b = 32#8 ∨ b = 125#8

/-- Line feeds are followed by nothing, by a space or by a closing brace. -/
def Tame : Bytes → Prop
  | [] => True
  | b :: bs => (b = 10#8 → Next bs) ∧ Tame bs

theorem Tame.line : ∀ {a b : Bytes}, (∀ x ∈ a, x ≠ 10#8) → Tame b → Tame (a ++ b)
  | [], _, _, h => h
  | x :: a, _, ha, h => ⟨fun e => absurd e (ha x (by simp)), Tame.line (fun y hy => ha y (by simp [hy])) h⟩

theorem Tame.after : ∀ {k q : Bytes}, Tame (k ++ 10#8 :: q) → Next q
  | [], _, h => h.1 rfl
  | _ :: _, _, h => Tame.after h.2

theorem Next.indent {n : Nat} {t : Bytes} : Next (printIndent (n + 1) ++ t) := .inl rfl

mutual
theorem tame_print : ∀ (f : SField) (n : Nat) (r : Bytes), (∀ x ∈ fieldNames f, PlainName x) → Next r → Tame r → Tame (prettyPrint f n ++ r)
  | .primitive c p l i, n, r, hf, hn, hr => by
    rw [print_primitive]
    exact Tame.line (forall_append (fun x hx => by rw [printIndent_spaces n x hx]; decide) (leafLine_noLf (hf c.name (by simp [fieldNames])) p l)) ⟨fun _ => hn, hr⟩
  | .group c fs l, n, r, hf, hn, hr => by
    rw [print_group]
    refine Tame.line (forall_append (fun x hx => by rw [printIndent_spaces n x hx]; decide) (groupLine_noLf (hf c.name (by simp [fieldNames])) l)) ?_
    have h1 : Tame (printIndent n ++ 125#8 :: 10#8 :: r) :=
      Tame.line (fun x hx => by rw [printIndent_spaces n x hx]; decide) ⟨fun e => absurd e (by decide), fun _ => hn, hr⟩
    have h2 : Next (printIndent n ++ 125#8 :: 10#8 :: r) := by
      cases n with
      | zero => exact .inr rfl
      | succ n => exact .inl rfl
    have := tame_printAll fs n _ (fun x hx => hf x (by simp [fieldNames, hx])) h2 h1
    exact ⟨fun _ => this.1, this.2⟩
theorem tame_printAll : ∀ (fs : List SField) (n : Nat) (r : Bytes), (∀ x ∈ fieldNamesAll fs, PlainName x) → Next r → Tame r →
    Next (prettyPrintAll fs (n + 1) ++ r) ∧ Tame (prettyPrintAll fs (n + 1) ++ r)
  | [], n, r, hf, hn, hr => by rw [prettyPrintAll]; exact ⟨hn, hr⟩
  | f :: fs, n, r, hf, hn, hr => by
    rw [prettyPrintAll, List.append_assoc]
    have ih := tame_printAll fs n r (fun x hx => hf x (by simp [fieldNamesAll, hx])) hn hr
    refine ⟨?_, tame_print f (n + 1) _ (fun x hx => hf x (by simp [fieldNamesAll, hx])) ih.1 ih.2⟩
    obtain ⟨t, ht⟩ := print_head f (n + 1) (prettyPrintAll fs (n + 1) ++ r)
    rw [ht]
    exact .indent
end

theorem print_start (f : SField) : ∃ t, prettyPrint f 0 = 82#8 :: t ∨ prettyPrint f 0 = 79#8 :: t := by
  have : ∀ r : Repetition, ∃ t, r.display = 82#8 :: t ∨ r.display = 79#8 :: t := fun r => by
    cases r
    · exact ⟨_, .inl rfl⟩
    · exact ⟨_, .inr rfl⟩
    · exact ⟨_, .inl rfl⟩
  obtain ⟨t, h⟩ := this f.common.repetition
  cases f with
  | group c fs l =>
    have e := print_group c fs l 0 []
    rw [List.append_nil] at e
    rw [e]
    rcases h with h | h <;> simp only [SField.common] at h <;> rw [groupLine, h]
    · exact ⟨_, .inl rfl⟩
    · exact ⟨_, .inr rfl⟩
  | primitive c p l i =>
    have e := print_primitive c p l i 0 []
    rw [List.append_nil] at e
    rw [e]
    rcases h with h | h <;> simp only [SField.common] at h <;> rw [leafLine, h]
    · exact ⟨_, .inl rfl⟩
    · exact ⟨_, .inr rfl⟩

/-- A schema behind whole lines is where the last line without indentation starts. -/
theorem head_cut {a b : Bytes} {f g : SField} (hf : ∀ x ∈ fieldNames f, PlainName x) (hg : ∀ x ∈ fieldNames g, PlainName x)
    (h : a ++ 10#8 :: prettyPrint f 0 = b ++ 10#8 :: prettyPrint g 0) : a = b ∧ prettyPrint f 0 = prettyPrint g 0 := by
  have key : ∀ {a c : Bytes} {f g : SField}, (∀ x ∈ fieldNames f, PlainName x) → prettyPrint f 0 = c ++ 10#8 :: prettyPrint g 0 → False := by
    intro a c f g hf h
    have ht := tame_print f 0 [] hf trivial trivial
    rw [List.append_nil, h] at ht
    have := Tame.after ht
    obtain ⟨t, e | e⟩ := print_start g
    · rw [e] at this; rcases this with h | h <;> exact absurd h (by decide)
    · rw [e] at this; rcases this with h | h <;> exact absurd h (by decide)
  rcases List.append_eq_append_iff.1 h with ⟨c, h1, h2⟩ | ⟨c, h1, h2⟩
  · cases c with
    | nil => exact ⟨by simpa using h1.symm, (List.cons.inj h2).2⟩
    | cons x c => exact (key (a := a) hf (List.cons.inj h2).2).elim
  · cases c with
    | nil => exact ⟨by simpa using h1, (List.cons.inj h2).2.symm⟩
    | cons x c => exact (key (a := a) hg (List.cons.inj h2).2).elim

/-- The first lines, without their last line feed -/
def headText (v : BitVec 32) (r : BitVec 64) (c : Option Bytes) : Bytes :=
  ascii! "version: " ++ (decimalInt v.toInt ++ 10#8 :: (ascii! "num of rows: " ++ (decimalInt r.toInt ++
    match c with | some x => 10#8 :: (ascii! "created by: " ++ x) | none => [])))

theorem printHead_eq (v : BitVec 32) (r : BitVec 64) (c : Option Bytes) (t : Bytes) : printHead v r c ++ t = headText v r c ++ 10#8 :: t := by
  cases c <;> simp [printHead, headText]

theorem headText_inj {v v' : BitVec 32} {r r' : BitVec 64} {c c' : Option Bytes} (h : headText v r c = headText v' r' c') : v = v' ∧ r = r' ∧ c = c' := by
  unfold headText at h
  obtain ⟨h1, h⟩ := decimalInt_cut (by unfold Digit; decide) (by unfold Digit; decide) (List.append_cancel_left h)
  have h := List.append_cancel_left h.2
  have h2 : decimalInt r.toInt ++ 10#8 :: (match c with | some x => ascii! "created by: " ++ x ++ [10#8] | none => []) =
      decimalInt r'.toInt ++ 10#8 :: (match c' with | some x => ascii! "created by: " ++ x ++ [10#8] | none => []) := by
    have := congrArg (· ++ [10#8]) h
    cases c <;> cases c' <;> simpa using this
  obtain ⟨h3, h4⟩ := decimalInt_cut (by unfold Digit; decide) (by unfold Digit; decide) h2
  refine ⟨BitVec.eq_of_toInt_eq h1, BitVec.eq_of_toInt_eq h3, ?_⟩
  cases c with
  | none =>
    cases c' with
    | none => rfl
    | some y => cases h4.2
  | some x =>
    cases c' with
    | none => cases h4.2
    | some y => rw [List.append_cancel_left (List.append_cancel_right h4.2)]

end Programs
open Programs

/-! ## Statements -/

/-- What `schema` prints once the metadata are read -/
theorem schema_prints {cfg : Cfg} {a : Except ErrorKind File} {fmd : Val} (h : readFile cfg a = .ok fmd) :
    ∃ version schema rows created elements, MetadataFields fmd version schema rows created ∧ schema.mapM elementOfVal = some elements ∧
      ((∃ root head body, Flat root elements ∧ LevelsOk root ∧ IndexesOk root ∧ height root ≤ 127 ∧ root.common.repetition = .Required ∧
          HeadLines version rows created head ∧ SchemaLines 0 [root] body ∧ schemaMain cfg a = ⟨printed 2 (head ++ body), .ok ()⟩) ∨
       ((¬ ∃ root, Flat root elements ∧ LevelsOk root ∧ IndexesOk root ∧ height root ≤ 127 ∧ root.common.repetition = .Required) ∧
          ∃ head e, HeadLines version rows created head ∧ schemaMain cfg a = ⟨printed 2 head, .error (.err e)⟩)) := by
  unfold schemaMain
  rw [h]
  have ht := readFile_typed h
  obtain ⟨v, sch, r, c, hf⟩ := typed_fields ht
  obtain ⟨es, he⟩ := typed_elements ht hf
  refine ⟨v, sch, r, c, es, hf, he, ?_⟩
  dsimp only
  rw [(fields_head hf).1, (fields_head hf).2, he]
  dsimp only
  obtain ⟨head, hh, eh⟩ := (Text.head_iff v r c _).1 rfl
  cases hc : convertSchema cfg es with
  | ok root =>
    obtain ⟨h1, h2, h3, h4, h5⟩ := (C46_iff cfg es root).1 hc
    obtain ⟨body, hb, eb⟩ := (Text.print_iff root 0 _).1 rfl
    exact .inl ⟨root, head, body, h1, h2, h3, h4, h5, hh, hb, by dsimp only; rw [eh, eb, Text.printed_append]⟩
  | error x =>
    refine .inr ⟨fun ⟨root, hr⟩ => ?_, ?_⟩
    · rw [(C46_iff cfg es root).2 hr] at hc; cases hc
    · rcases C50_only_errors cfg es with ⟨_, e⟩ | ⟨_, e⟩ | ⟨_, e⟩ <;> rw [hc] at e <;> cases e <;> exact ⟨head, _, hh, by rw [← eh]⟩

/-- **C99** `schema` on a file that makes no trouble, in a build without overflow checks and SSE2: without metadata nothing is printed and the program panics;
with metadata the first lines are printed, then the schema if the elements are the flattened form of one, and a panic otherwise. -/
theorem C99_schema {cfg : Cfg} (hov : cfg.overflowChecks = false) (hs : cfg.sse2 = false) (ha : ∀ n, cfg.alloc n = true) {f : File} (hq : Quiet f) :
    ((¬ ∃ fmd, HoldsMetadata f.data fmd) ∧ ∃ e, schemaMain cfg (.ok f) = ⟨[], .error (.err e)⟩) ∨
    ∃ fmd version schema rows created elements, HoldsMetadata f.data fmd ∧ MetadataFields fmd version schema rows created ∧
      schema.mapM elementOfVal = some elements ∧
      ((∃ root head body, Flat root elements ∧ LevelsOk root ∧ IndexesOk root ∧ height root ≤ 127 ∧ root.common.repetition = .Required ∧
          HeadLines version rows created head ∧ SchemaLines 0 [root] body ∧ schemaMain cfg (.ok f) = ⟨printed 2 (head ++ body), .ok ()⟩) ∨
       ((¬ ∃ root, Flat root elements ∧ LevelsOk root ∧ IndexesOk root ∧ height root ≤ 127 ∧ root.common.repetition = .Required) ∧
          ∃ head e, HeadLines version rows created head ∧ schemaMain cfg (.ok f) = ⟨printed 2 head, .error (.err e)⟩)) := by
  unfold schemaMain
  cases h : readFile cfg (.ok f) with
  | error x =>
    left
    refine ⟨fun ⟨fmd, hm⟩ => ?_, ?_⟩
    · rw [(readFile_ok hov hs ha hq).2 hm] at h; cases h
    · rcases readFile_error h with ⟨e, rfl⟩ | ⟨_, h | h⟩ | ⟨_, h⟩ | ⟨_, n, h⟩
      · exact ⟨e, rfl⟩
      · rw [hov] at h; cases h
      · rw [hs] at h; cases h
      · rw [hs] at h; cases h
      · rw [ha] at h; cases h
  | ok fmd =>
    obtain ⟨v, sch, r, c, es, hf, he, h'⟩ := schema_prints h
    exact .inr ⟨fmd, v, sch, r, c, es, (readFile_ok hov hs ha hq).1 h, hf, he, by rw [schemaMain, h] at h'; exact h'⟩

/-- **C99** `dump` prints the metadata or, if there are none, nothing. -/
theorem C99_dump {cfg : Cfg} (hov : cfg.overflowChecks = false) (hs : cfg.sse2 = false) (ha : ∀ n, cfg.alloc n = true) {f : File} (hq : Quiet f) (s : DebugStd) :
    ((¬ ∃ fmd, HoldsMetadata f.data fmd) ∧ ∃ e, dumpMain s cfg (.ok f) = ⟨[], .error (.err e)⟩) ∨
    ∃ fmd, HoldsMetadata f.data fmd ∧ dumpMain s cfg (.ok f) = ⟨debugVal s Format.parquetEnv true Format.tFileMetaData fmd ++ [10#8], .ok ()⟩ := by
  unfold dumpMain
  cases h : readFile cfg (.ok f) with
  | error x =>
    left
    refine ⟨fun ⟨fmd, hm⟩ => ?_, ?_⟩
    · rw [(readFile_ok hov hs ha hq).2 hm] at h; cases h
    · rcases readFile_error h with ⟨e, rfl⟩ | ⟨_, h | h⟩ | ⟨_, h⟩ | ⟨_, n, h⟩
      · exact ⟨e, rfl⟩
      · rw [hov] at h; cases h
      · rw [hs] at h; cases h
      · rw [hs] at h; cases h
      · rw [ha] at h; cases h
  | ok fmd => exact .inr ⟨fmd, (readFile_ok hov hs ha hq).1 h, rfl⟩

/-- **C99** In every build and with every file: the programs end, with an error that was unwrapped, or without having printed anything in the ways that
reading can go wrong: by an overflow check, by the SSE2 skip, or by an allocation that fails. -/
theorem C99_any_build (cfg : Cfg) (a : Except ErrorKind File) (s : DebugStd) : ∀ run ∈ [schemaMain cfg a, dumpMain s cfg a],
    run.exit = .ok () ∨ (∃ e, run.exit = .error (.err e)) ∨
    run.out = [] ∧ (run.exit = .error .panic ∧ (cfg.overflowChecks = true ∨ cfg.sse2 = true) ∨ run.exit = .error .ub ∧ cfg.sse2 = true ∨
      run.exit = .error .abort ∧ ∃ n, cfg.alloc n = false) := by
  intro run hr
  simp only [List.mem_cons, List.not_mem_nil, or_false] at hr
  cases h : readFile cfg a with
  | error x =>
    have : run = ⟨[], .error x⟩ := by
      rcases hr with rfl | rfl
      · unfold schemaMain; rw [h]
      · unfold dumpMain; rw [h]
    subst this
    rcases readFile_error h with ⟨e, rfl⟩ | ⟨rfl, h'⟩ | ⟨rfl, h'⟩ | ⟨rfl, h'⟩
    · exact .inr (.inl ⟨e, rfl⟩)
    · exact .inr (.inr ⟨rfl, .inl ⟨rfl, h'⟩⟩)
    · exact .inr (.inr ⟨rfl, .inr (.inl ⟨rfl, h'⟩)⟩)
    · exact .inr (.inr ⟨rfl, .inr (.inr ⟨rfl, h'⟩)⟩)
  | ok fmd =>
    rcases hr with rfl | rfl
    · have ht := readFile_typed h
      obtain ⟨v, sch, r, c, hf⟩ := typed_fields ht
      obtain ⟨es, he⟩ := typed_elements ht hf
      unfold schemaMain
      rw [h]
      dsimp only
      rw [(fields_head hf).1, (fields_head hf).2, he]
      dsimp only
      rcases C50_only_errors cfg es with ⟨_, e⟩ | ⟨_, e⟩ | ⟨_, e⟩ <;> rw [e]
      · exact .inl rfl
      · exact .inr (.inl ⟨_, rfl⟩)
      · exact .inr (.inl ⟨_, rfl⟩)
    · unfold dumpMain; rw [h]; exact .inl rfl

/-- **C99** What `schema` prints determines version, number of rows, the program that created the file, and the schema but for field ids. The name of the
program may contain anything, even lines that look like a schema. -/
theorem C99_schema_shows {cfg cfg' : Cfg} {es es' : List Element} {f g : SField} (hf : convertSchema cfg es = .ok f) (hg : convertSchema cfg' es' = .ok g)
    (hn : ∀ x ∈ fieldNames f, PlainName x) (hn' : ∀ x ∈ fieldNames g, PlainName x) {v v' : BitVec 32} {r r' : BitVec 64} {c c' : Option Bytes}
    {head head' body body' : List (Nat × Bytes)} (hh : HeadLines v r c head) (hh' : HeadLines v' r' c' head') (hb : SchemaLines 0 [f] body) (hb' : SchemaLines 0 [g] body')
    (h : printed 2 (head ++ body) = printed 2 (head' ++ body')) : v = v' ∧ r = r' ∧ c = c' ∧ withoutIds f = withoutIds g := by
  rw [Text.printed_append, Text.printed_append, ← (Text.head_iff v r c _).2 ⟨_, hh, rfl⟩, ← (Text.head_iff v' r' c' _).2 ⟨_, hh', rfl⟩,
    ← (Text.print_iff f 0 _).2 ⟨_, hb, rfl⟩, ← (Text.print_iff g 0 _).2 ⟨_, hb', rfl⟩, printHead_eq, printHead_eq] at h
  obtain ⟨h1, h2⟩ := head_cut hn hn' h
  obtain ⟨rfl, rfl, rfl⟩ := headText_inj h1
  exact ⟨rfl, rfl, rfl, C83_schema hf hg hn hn' h2⟩

/-- **C99** What `dump` prints determines the metadata of the file, but for which NaN a number is. -/
theorem C99_dump_shows {s : DebugStd} (hs : StdOk s) {cfg cfg' : Cfg} {a b : Except ErrorKind File} (ha : (dumpMain s cfg a).exit = .ok ())
    (hb : (dumpMain s cfg' b).exit = .ok ()) (h : (dumpMain s cfg a).out = (dumpMain s cfg' b).out) :
    ∃ v w, readFile cfg a = .ok v ∧ readFile cfg' b = .ok w ∧ visible v = visible w := by
  unfold dumpMain at ha hb h
  cases h1 : readFile cfg a with
  | error x => rw [h1] at ha; cases ha
  | ok v =>
    cases h2 : readFile cfg' b with
    | error x => rw [h2] at hb; cases hb
    | ok w =>
      rw [h1, h2] at h
      exact ⟨v, w, rfl, rfl, C98_format hs (readFile_typed h1) (readFile_typed h2) (List.append_cancel_right h)⟩

/-- A file: nothing but metadata with version 1, the schema of two elements, no rows, and who created it. -/
def tinyFile (elements : Bytes) : File :=
  ⟨footer ([0x15#8, 0x02#8, 0x19#8, 0x2C#8] ++ elements ++ [0x16#8, 0x00#8, 0x19#8, 0x0C#8, 0x28#8, 0x01#8, 0x78#8, 0x00#8]), 0, [], []⟩

/-- A group named `r` with one child named `a`, of the given type -/
def tinySchema (type : Byte) : Bytes :=
  [0x35#8, 0x00#8, 0x18#8, 0x01#8, 0x72#8, 0x15#8, 0x02#8, 0x00#8] ++ [0x15#8, type, 0x25#8, 0x02#8, 0x18#8, 0x01#8, 0x61#8, 0x00#8]

set_option maxRecDepth 100000 in
/-- What `schema` and `dump` print; with an element of an unknown type `schema` panics after the first lines, and without a footer before. -/
example : let cfg : Cfg := ⟨false, false, fun _ => true⟩
    schemaMain cfg (.ok (tinyFile (tinySchema 2))) = ⟨ascii! "version: 1\nnum of rows: 0\ncreated by: x\nREQUIRED group r {\n  OPTIONAL INT32 a;\n}\n", .ok ()⟩ ∧
    (schemaMain cfg (.ok (tinyFile (tinySchema 100)))) = ⟨ascii! "version: 1\nnum of rows: 0\ncreated by: x\n", .error (.err (.unknownType 50))⟩ ∧
    (dumpMain plainStd cfg (.ok (tinyFile (tinySchema 2)))).exit = .ok () ∧
    schemaMain cfg (.ok ⟨tinySchema 2, 0, [], []⟩) = ⟨[], .error (.err .invalidMagic)⟩ ∧
    dumpMain plainStd cfg (.error (.other 2)) = ⟨[], .error (.err (.io (.other 2)))⟩ := ⟨rfl, rfl, rfl, rfl, rfl⟩

set_option maxRecDepth 100000 in
/-- The file makes no trouble and holds metadata. -/
example : Quiet (tinyFile (tinySchema 2)) ∧ ∃ fmd, HoldsMetadata (tinyFile (tinySchema 2)).data fmd :=
  have q : Quiet (tinyFile (tinySchema 2)) := ⟨by simp [tinyFile], by simp [tinyFile]⟩
  ⟨q, _, (readFile_ok (cfg := ⟨false, false, fun _ => true⟩) rfl rfl (fun _ => rfl) q).1 rfl⟩

/-- A schema with one column -/
def oneColumn : SField := .group ⟨ascii! "r", none, .Required, 0, 0⟩ [.primitive ⟨ascii! "a", none, .Optional, 1, 0⟩ .INT32 none 0] none

set_option maxRecDepth 100000 in
/-- The name of the program that wrote a file can look like a schema; the text is still that of one file only. -/
example : ∀ v r c f es head body, convertSchema ⟨false, false, fun _ => true⟩ es = .ok f → (∀ x ∈ fieldNames f, PlainName x) →
      HeadLines v r c head → SchemaLines 0 [f] body → printed 2 (head ++ body) =
        ascii! "version: 1\nnum of rows: 0\ncreated by: x\nREQUIRED group r {\n  OPTIONAL INT32 a;\n}\nREQUIRED group r {\n  OPTIONAL INT32 a;\n}\n" →
      c = some (ascii! "x\nREQUIRED group r {\n  OPTIONAL INT32 a;\n}") := by
  intro v r c f es head body hf hn hh hb h
  have one : ∀ b : Byte, b ≠ 10#8 → PlainName [b] := fun b hb => ⟨by simpa using Ne.symm hb, fun a c e => by
    have := congrArg List.length e
    simp at this
    omega⟩
  have hn' : ∀ x ∈ fieldNames oneColumn, PlainName x := by
    intro x hx
    simp only [oneColumn, fieldNames, fieldNamesAll, List.append_nil, List.mem_cons, List.not_mem_nil, or_false] at hx
    rcases hx with rfl | rfl <;> exact one _ (by decide)
  refine (C99_schema_shows hf (show convertSchema ⟨false, false, fun _ => true⟩ (flatten oneColumn) = .ok oneColumn from rfl) hn hn' (v' := 1) (r' := 0)
    (c' := some (ascii! "x\nREQUIRED group r {\n  OPTIONAL INT32 a;\n}")) hh (.created _) hb (.group _ _ _ _ _ _ _ _ _ .required .none (.column _ _ _ _ _ _ _ _ _ _ .optional .int32 .none (.nil _)) (.nil _))
    (h.trans ?_)).2.2.1
  simp [printed, layout, number, textBytes, Doc.flat]
  rfl

end CT.Props
