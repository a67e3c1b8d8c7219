import Verif.Proofs.Conform
import Verif.Props.RoundTrip
/-! # C19, C37, C38, C62: what is written, and how writing fails -/
namespace CT.Props
open CT Spec

/-! ## C19 -/

/-- C19 for a value whose present fields have ascending ids, in any build: skipping its type inside a collection, and, unless it
is a `bool`, as a field, consumes exactly its bytes. -/
theorem C19_value (cfg : Cfg) {env : List Def} (hb : noBoxedBool env = true) {t : Ty} {v : Val} {bytes : Bytes}
    (he : Enc env Ascends (.value t v) bytes) (ins : Bool) (hins : ins = true ∨ isBoolish t = false) (suf : Bytes) :
    Reads cfg (fun I => I.skip cfg (wireType env t) ins) bytes suf () := by
  refine Reads.of_slice (generic_skip (wireType env t) ins) (fun cfg => ?_) cfg
  have h := skips_enc cfg hb he
  obtain ⟨N, hN⟩ : SkipsAs cfg (wireType env t) ins bytes := by
    cases ins with
    | true => exact h.1
    | false => exact h.2 (by simpa using hins)
  rw [← (C17_bound_irrelevant_slice cfg (bytes ++ suf) (N + 2 * (bytes ++ suf).length + 2)).1 (by omega)]
  exact hN _ (by omega) suf

/-- C19: for every schema with ascending positive field ids and no boxed `bool` fields, skipping what the writer
produced consumes exactly that, on slices (with or without SSE2) and readers, with and without overflow checks. -/
theorem C19_skip_written (cfg : Cfg) {env : List Def} (hs : schemaOk env = true) (ha : ascending env = true)
    (hb : noBoxedBool env = true) {t : Ty} {v : Val} (hv : HasTy env v t) {bytes : Bytes} (he : encode env t v = .ok bytes)
    (ins : Bool) (hins : ins = true ∨ isBoolish t = false) (suf : Bytes) :
    Reads cfg (fun I => I.skip cfg (wireType env t) ins) bytes suf () :=
  C19_value cfg hb (enc_stepsWith (fun _ _ h => of_decide_eq_true h) hs ha (enc_of_encode hv he)) ins hins suf

example : schemaOk nodeEnv = true ∧ ascending nodeEnv = true ∧ noBoxedBool nodeEnv = true := by decide

/-- All Parquet types can be skipped by what the writer produced for them. -/
theorem C19_parquet (cfg : Cfg) {t : Ty} {v : Val} (hv : HasTy Format.parquetEnv v t) {bytes : Bytes}
    (he : encode Format.parquetEnv t v = .ok bytes) (ins : Bool) (hins : ins = true ∨ isBoolish t = false) (suf : Bytes) :
    Reads cfg (fun I => I.skip cfg (wireType Format.parquetEnv t) ins) bytes suf () :=
  C19_skip_written cfg (by decide) (by decide) (by decide) hv he ins hins suf

/-- C19: one written field, header included, after any earlier field: reading the header gives its type, and skipping that type
consumes exactly the rest of the field. -/
theorem C19_field (cfg : Cfg) {env : List Def} (hb : noBoxedBool env = true) {t : Ty} (ht : boxedBool t = false) {v : Val}
    {id last : BitVec 16} {bytes : Bytes} (he : Enc env Ascends (.field t v id last) bytes) (hp : present v = true) (suf : Bytes) :
    Reads cfg (fun I => do
      let (ft, _) ← I.readFieldHeader cfg last
      I.skip cfg ft false) bytes suf () := by
  refine Reads.of_slice (f := fun c _ I => do
      let (ft, _) ← I.readFieldHeader c last
      I.skip c ft false)
    (fun hc hI => Sim.bind (Sim.readFieldHeader hc hI last) fun a => Sim.skip hc hI a.1 false) (fun cfg => ?_) cfg
  rcases skips_enc cfg hb he ht with ⟨h, _⟩ | ⟨_, ha, ft, q, rfl, h1, h2, N, hN⟩
  · rw [hp] at h; cases h
  · obtain ⟨rl', hh, _⟩ := readHeader_ascends cfg ft h2 (ne_zero_of_toNat h1) (rl := last) ha ⟨ha.1, Int.le_refl _⟩ (q ++ suf)
    rw [List.append_assoc, Rd.bind_ok hh]
    dsimp only
    rw [← (C17_bound_irrelevant_slice cfg (q ++ suf) (N + 2 * (q ++ suf).length + 2)).1 (by omega)]
    exact hN _ (by omega) suf

/-! ## C62 -/

/-- C62: what is written is a well-formed value of the protocol of the type written in its header. -/
theorem C62_conforming {env : List Def} (hs : schemaOk env = true) (hf : headersFormed env = true) (hb : noBoxedBool env = true)
    {t : Ty} {v : Val} (hv : HasTy env v t) {bytes : Bytes} (he : encode env t v = .ok bytes) (ins : Bool)
    (hins : ins = true ∨ isBoolish t = false) : Wire strictStop (.value (wireType env t).toNat ins) bytes := by
  have h := conforms_enc hb (enc_stepsWith (fun _ _ h => of_decide_eq_true h) hs hf (enc_of_encode hv he))
  cases ins with
  | true => exact h.1
  | false => exact h.2 (by simpa using hins)

theorem C62_parquet {t : Ty} {v : Val} (hv : HasTy Format.parquetEnv v t) {bytes : Bytes}
    (he : encode Format.parquetEnv t v = .ok bytes) (ins : Bool) (hins : ins = true ∨ isBoolish t = false) :
    Wire strictStop (.value (wireType Format.parquetEnv t).toNat ins) bytes :=
  C62_conforming (by decide) (by decide) (by decide) hv he ins hins

example : headersFormed nodeEnv = true := by decide

/-! ## C37 -/

/-- The script contains a reason to fail with this kind: a hard error, or a `write` accepting nothing. -/
def Caused (script : List WEvent) (k : ErrorKind) : Prop :=
  (k ≠ .interrupted ∧ .error k ∈ script) ∨ (k = .writeZero ∧ .accept 0 ∈ script)

theorem writeAllLoop_spec : ∀ (script : List WEvent) (bs out : Bytes), ∃ sent rest script', bs = sent ++ rest ∧
    (∀ e ∈ script', e ∈ script) ∧
    ((writeAllLoop script bs out = (.ok (), ⟨script', out ++ sent⟩) ∧ rest = []) ∨
     (∃ k, writeAllLoop script bs out = (.error (.err (.io k)), ⟨script', out ++ sent⟩) ∧ rest ≠ [] ∧ Caused script k)) := by
  intro script
  induction script with
  | nil =>
    intro bs out
    cases bs with
    | nil => exact ⟨[], [], [], rfl, fun _ h => h, .inl ⟨by simp [writeAllLoop], rfl⟩⟩
    | cons b bs => exact ⟨b :: bs, [], [], by simp, fun _ h => h, .inl ⟨by simp [writeAllLoop], rfl⟩⟩
  | cons ev script ih =>
    intro bs out
    cases bs with
    | nil => exact ⟨[], [], ev :: script, rfl, fun _ h => h, .inl ⟨by simp [writeAllLoop], rfl⟩⟩
    | cons b bs =>
      cases ev with
      | accept n =>
        rw [writeAllLoop]
        split
        · rename_i h
          subst h
          exact ⟨[], b :: bs, script, rfl, fun e he => by simp [he], .inr ⟨.writeZero, by simp, by simp, .inr ⟨rfl, by simp⟩⟩⟩
        · obtain ⟨sent, rest, script', h1, h2, h3⟩ := ih ((b :: bs).drop n) (out ++ (b :: bs).take n)
          refine ⟨(b :: bs).take n ++ sent, rest, script', ?_, fun e he => by simp [h2 e he], ?_⟩
          · rw [List.append_assoc, ← h1, List.take_append_drop]
          · rw [← List.append_assoc]
            rcases h3 with h3 | ⟨k, h3, h4, h5⟩
            · exact .inl h3
            · refine .inr ⟨k, h3, h4, ?_⟩
              rcases h5 with ⟨h5, h6⟩ | ⟨h5, h6⟩
              · exact .inl ⟨h5, by simp [h6]⟩
              · exact .inr ⟨h5, by simp [h6]⟩
      | error k =>
        rw [writeAllLoop]
        split
        · obtain ⟨sent, rest, script', h1, h2, h3⟩ := ih (b :: bs) out
          refine ⟨sent, rest, script', h1, fun e he => by simp [h2 e he], ?_⟩
          rcases h3 with h3 | ⟨k, h3, h4, h5⟩
          · exact .inl h3
          · refine .inr ⟨k, h3, h4, ?_⟩
            rcases h5 with ⟨h5, h6⟩ | ⟨h5, h6⟩
            · exact .inl ⟨h5, by simp [h6]⟩
            · exact .inr ⟨h5, by simp [h6]⟩
        · rename_i h
          exact ⟨[], b :: bs, script, rfl, fun e he => by simp [he], .inr ⟨k, by simp, by simp, .inl ⟨h, by simp⟩⟩⟩

theorem runChunks_spec : ∀ (cs : List Bytes) (script : List WEvent) (out : Bytes), ∃ sent rest script', cs.flatten = sent ++ rest ∧
    (∀ e ∈ script', e ∈ script) ∧
    ((runChunks writerSink cs ⟨script, out⟩ = (.ok (), ⟨script', out ++ sent⟩) ∧ rest = []) ∨
     (∃ k, runChunks writerSink cs ⟨script, out⟩ = (.error (.err (.io k)), ⟨script', out ++ sent⟩) ∧ rest ≠ [] ∧ Caused script k)) := by
  intro cs
  induction cs with
  | nil => exact fun script out => ⟨[], [], script, rfl, fun _ h => h, .inl ⟨by simp [runChunks], rfl⟩⟩
  | cons c cs ih =>
    intro script out
    obtain ⟨s1, r1, script1, h1, h2, h3⟩ := writeAllLoop_spec script c out
    have e : runChunks writerSink (c :: cs) ⟨script, out⟩ = (writerSink.writeAll c >>= fun _ => runChunks writerSink cs) ⟨script, out⟩ := rfl
    have ew : writerSink.writeAll c ⟨script, out⟩ = writeAllLoop script c out := rfl
    rw [e, Wr.bind_apply, ew]
    rcases h3 with ⟨h3, rfl⟩ | ⟨k, h3, h4, h5⟩
    · rw [h3]
      dsimp only
      obtain ⟨s2, r2, script2, g1, g2, g3⟩ := ih script1 (out ++ s1)
      refine ⟨s1 ++ s2, r2, script2, by simp [h1, g1], fun e he => h2 e (g2 e he), ?_⟩
      rw [← List.append_assoc]
      rcases g3 with g3 | ⟨k, g3, g4, g5⟩
      · exact .inl g3
      · refine .inr ⟨k, g3, g4, ?_⟩
        rcases g5 with ⟨h5, h6⟩ | ⟨h5, h6⟩
        · exact .inl ⟨h5, h2 _ h6⟩
        · exact .inr ⟨h5, h2 _ h6⟩
    · rw [h3]
      exact ⟨s1, r1 ++ cs.flatten, script1, by simp [h1], h2, .inr ⟨k, rfl, by simp [h4], h5⟩⟩

/-- C37: whatever the sink does (short writes, `Interrupted`, hard errors), it has received a prefix of the bytes a `Vec` would
receive. Either it received all of them and the result is the same as for the `Vec`, or some are missing and the result is an I/O error
with a kind the sink returned (`WriteZero` if it accepted nothing). -/
theorem C37_prefix {env : List Def} {t : Ty} {v : Val} (hv : HasTy env v t) (script : List WEvent) (out : Bytes) :
    ∃ sent rest, (writeTy vecSink env t v []).2 = sent ++ rest ∧
      (writeTy writerSink env t v ⟨script, out⟩).2.out = out ++ sent ∧
      (((writeTy writerSink env t v ⟨script, out⟩).1 = (writeTy vecSink env t v []).1 ∧ rest = []) ∨
       ∃ k, (writeTy writerSink env t v ⟨script, out⟩).1 = .error (.err (.io k)) ∧ rest ≠ [] ∧ Caused script k) := by
  have ho : ∃ bs r, Outs (fun _ S => writeTy S env t v) bs r := by
    rcases (enc_or_refused hv).1 with ⟨q, hq⟩ | ⟨e, _, bs, ho⟩
    · exact ⟨_, _, outs_of_enc hq⟩
    · exact ⟨_, _, ho⟩
  obtain ⟨bs, r, ho⟩ := ho
  have hvec : writeTy vecSink env t v [] = (r, [] ++ bs) := Outs.vec ho []
  obtain ⟨cs, hcs, ho⟩ := ho
  have hw := ho WState writerSink ⟨script, out⟩
  dsimp only at hw
  obtain ⟨sent, rest, script', h1, _, h3⟩ := runChunks_spec cs script out
  refine ⟨sent, rest, by rw [hvec, ← h1, hcs]; rfl, ?_⟩
  rcases h3 with ⟨h3, rfl⟩ | ⟨k, h3, h4, h5⟩
  · rw [hw, h3, hvec]
    exact ⟨rfl, .inl ⟨rfl, rfl⟩⟩
  · rw [hw, h3]
    exact ⟨rfl, .inr ⟨k, rfl, h4, h5⟩⟩

/-- C37: for a value with an encoding, `Ok` is returned exactly if the sink received the whole encoding. -/
theorem C37_ok_iff {env : List Def} {t : Ty} {v : Val} (hv : HasTy env v t) {bytes : Bytes} (he : Encodes env t v bytes)
    (script : List WEvent) (out : Bytes) :
    (writeTy writerSink env t v ⟨script, out⟩).1 = .ok () ↔ (writeTy writerSink env t v ⟨script, out⟩).2.out = out ++ bytes := by
  have hvec : writeTy vecSink env t v [] = (.ok (), [] ++ bytes) := Outs.vec (outs_of_enc he) []
  obtain ⟨sent, rest, h1, h2, h3⟩ := C37_prefix hv script out
  rw [hvec] at h1 h3
  have h1 : bytes = sent ++ rest := h1
  rw [h2, h1]
  rcases h3 with ⟨h3, rfl⟩ | ⟨k, h3, h4, _⟩
  · rw [h3]; simp
  · rw [h3]
    constructor
    · intro h; cases h
    · intro h
      have := List.append_cancel_left h
      exact absurd (List.self_eq_append_right.1 this) h4

/-- A sink accepting three bytes, interrupted once, accepting two more, then failing, given a double (eight bytes). -/
example : writeTy writerSink [] .double (.double 0x0807060504030201#64)
      ⟨[.accept 3, .error .interrupted, .accept 2, .error (.other 0)], []⟩ =
    (.error (.err (.io (.other 0))), ⟨[], [1#8, 2#8, 3#8, 4#8, 5#8]⟩) := by
  rw [writeTy]
  rfl

/-! ## C38 -/

/-- What is not refused, for each item. -/
def UnrefusedItem (env : List Def) : EItem → Prop
  | .value t v => ∀ e, ¬ Refused env t v e
  | .field t v _ _ => ∀ e, ¬ RefusedField env t v e
  | .elems t vs => ∀ w ∈ vs, ∀ e, ¬ Refused env t w e
  | .fields fs vs _ => ∀ (i : Nat) (f : Field) (v : Val), fs[i]? = some f → vs[i]? = some v → ∀ e, ¬ RefusedField env f.rustTy v e

theorem unrefused_of_enc {env : List Def} {ok : BitVec 16 → BitVec 16 → Prop} {i : EItem} {p : Bytes} (h : Enc env ok i p) :
    UnrefusedItem env i := by
  induction h with
  | bool b => exact fun e h => nomatch h
  | i8 x => exact fun e h => nomatch h
  | i16 x => exact fun e h => nomatch h
  | i32 x => exact fun e h => nomatch h
  | i64 x => exact fun e h => nomatch h
  | double x => exact fun e h => nomatch h
  | binary bs h => intro e hr; cases hr; omega
  | string bs h => intro e hr; cases hr; omega
  | encodingSet mask => exact fun e h => nomatch h
  | list t vs p hl hp ih =>
    intro e hr
    cases hr with
    | length _ _ h => omega
    | elem _ _ w _ hw h => exact ih w hw e h
  | some t v p hp ih => intro e hr; cases hr with | some _ _ _ h => exact ih e h
  | box t v p hp ih => intro e hr; cases hr with | box _ _ _ h => exact ih e h
  | rc t b v p hp ih => intro e hr; cases hr with | rc _ _ _ _ h => exact ih e h
  | enum k name x hk => exact fun e h => nomatch h
  | struct k name fs vs p hk hp ih =>
    intro e hr
    cases hr with
    | struct _ name' fs' _ i f v _ hk' hf hv h =>
      rw [hk] at hk'; cases hk'
      exact ih i f v hf hv e h
  | union k name us i u v p hk hu hp ih =>
    intro e hr
    cases hr with
    | union _ _ _ _ u' _ _ hk' hu' h =>
      rw [hk] at hk'; cases hk'
      rw [hu] at hu'; cases hu'
      exact ih e h
  | elemsNil t => intro w hw; cases hw
  | elemsCons t v vs p q hp hq ihp ihq =>
    intro w hw
    cases hw with
    | head => exact ihp
    | tail _ hw => exact ihq w hw
  | fieldBool b id last h =>
    intro e hr
    cases hr with
    | value _ _ _ _ h => cases h
  | fieldNone t id last =>
    intro e hr
    cases hr with
    | value _ _ _ h1 _ => exact h1 t rfl
  | fieldSome t v id last p hp ih =>
    intro e hr
    cases hr with
    | some _ _ _ h => exact ih e h
    | value _ _ _ h1 _ => exact h1 t rfl
  | fieldValue t v id last p h1 h2 h hp ih =>
    intro e hr
    cases hr with
    | some t' _ _ _ => exact h2 t' rfl
    | value _ _ _ _ h => exact ih e h
  | fieldsNil last => intro i f v hf; simp at hf
  | fieldsCons f fs v vs last p q hp hq ihp ihq =>
    intro i g w hg hw
    cases i with
    | zero => simp at hg hw; subst hg hw; exact ihp
    | succ i => exact ihq i g w (by simpa using hg) (by simpa using hw)

/-- C38: writing a well-typed value into memory either succeeds with its encoding, and then nothing in it is refused, or fails with the error
of a part that must be refused; there are no other failures. -/
theorem C38_outcome {env : List Def} {t : Ty} {v : Val} (hv : HasTy env v t) :
    (∃ bytes, encode env t v = .ok bytes ∧ Encodes env t v bytes ∧ ∀ e, ¬ Refused env t v e) ∨
    (∃ e, encode env t v = .error (.err e) ∧ Refused env t v e) := by
  rcases (enc_or_refused hv).1 with ⟨q, hq⟩ | ⟨e, hr, bs, ho⟩
  · exact .inl ⟨q, encode_of_enc hq, hq, unrefused_of_enc hq⟩
  · refine .inr ⟨e, ?_, hr⟩
    unfold encode
    rw [show writeTy vecSink env t v [] = _ from Outs.vec ho []]

/-- C38: in particular writing succeeds exactly if there is nothing to refuse. -/
theorem C38_ok_iff {env : List Def} {t : Ty} {v : Val} (hv : HasTy env v t) :
    (∃ bytes, encode env t v = .ok bytes) ↔ ∀ e, ¬ Refused env t v e := by
  rcases C38_outcome hv with ⟨b, h1, _, h3⟩ | ⟨e, h1, h2⟩
  · exact ⟨fun _ => h3, fun _ => ⟨b, h1⟩⟩
  · constructor
    · rintro ⟨b, h⟩; rw [h1] at h; cases h
    · exact fun h => absurd h2 (h e)

/-- C38: the only errors of writing into memory. -/
theorem C38_errors {env : List Def} {t : Ty} {v : Val} (hv : HasTy env v t) {f : Fail} (h : encode env t v = .error f) :
    f = .err .invalidCollectionLen ∨ f = .err .missingValue ∨ ∃ n, 16777216 < n ∧ f = .err (.invalidBinaryLen n) := by
  rcases C38_outcome hv with ⟨b, h1, _⟩ | ⟨e, h1, h2⟩
  · rw [h1] at h; cases h
  · rw [h1] at h; cases h
    have key : ∀ {t v e}, Refused env t v e → (e = .invalidCollectionLen ∨ e = .missingValue ∨ ∃ n, 16777216 < n ∧ e = .invalidBinaryLen n) := by
      intro t v e h
      refine Refused.rec (motive_1 := fun _ _ e _ => (e = .invalidCollectionLen ∨ e = .missingValue ∨ ∃ n, 16777216 < n ∧ e = .invalidBinaryLen n))
        (motive_2 := fun _ _ e _ => (e = .invalidCollectionLen ∨ e = .missingValue ∨ ∃ n, 16777216 < n ∧ e = .invalidBinaryLen n))
        ?_ ?_ ?_ ?_ ?_ ?_ ?_ ?_ ?_ ?_ ?_ ?_ h
      · exact fun bs h => .inr (.inr ⟨_, h, rfl⟩)
      · exact fun bs h => .inr (.inr ⟨_, h, rfl⟩)
      · exact fun _ _ _ => .inl rfl
      · exact fun _ _ _ _ _ _ ih => ih
      · exact fun _ => .inr (.inl rfl)
      · exact fun _ _ _ _ ih => ih
      · exact fun _ _ _ _ ih => ih
      · exact fun _ _ _ _ _ ih => ih
      · exact fun _ _ _ _ _ _ _ _ _ _ _ _ ih => ih
      · exact fun _ _ _ _ _ _ _ _ _ _ ih => ih
      · exact fun _ _ _ _ ih => ih
      · exact fun _ _ _ _ _ ih => ih
    rcases key h2 with h | h | ⟨n, h, h'⟩
    · exact .inl (by rw [h])
    · exact .inr (.inl (by rw [h]))
    · exact .inr (.inr ⟨n, h, by rw [h']⟩)

/-- Both cases of C38: a list holding a `None` is refused, the same list with a value is not. -/
example : encode [] (.list (.option .i8)) (.list [.some (.i8 1#8), .none]) = .error (.err .missingValue) ∧
    encode [] (.list (.option .i8)) (.list [.some (.i8 1#8)]) = .ok [0x13#8, 1#8] := by
  constructor
  · unfold encode
    rw [writeTy, writeElems, writeElems, writeTy, writeTy, writeTy]
    rfl
  · unfold encode
    rw [writeTy, writeElems, writeElems, writeTy, writeTy]
    rfl

end CT.Props
