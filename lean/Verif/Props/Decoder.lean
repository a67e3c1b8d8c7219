import Verif.Proofs.Decoder
import Verif.Props.Inputs
import Verif.Props.Reading
import Verif.Props.RoundTrip
import Verif.Props.Writing
/-!
# C115: every program written by hand over the input

C11 to C17 and C22 speak of single requests. Here the same for all programs over the trait `CompactThriftInput`: any sequence of requests, each depending on the answers so
far, with loops over fields, and for values written one after the other.
-/
namespace CT.Props
open CT Spec

/-- A struct with an `i32` (id 1) and a list of strings (id 2), read by hand; other fields are skipped, a list of more than 3 is refused. -/
def exDecoder : Decoder (BitVec 32 × List Bytes) :=
  .fields (0#32, []) (fun g ft id =>
    if id = 1#16 then .ask .i32 fun x => .done (x, g.2)
    else if id = 2#16 then .ask .collection fun h =>
      if h.1 = 0 then .done (g.1, [])
      else if h.1 = 1 then .ask .string fun s => .done (g.1, [s])
      else .stop .invalidCollectionLen nofun
    else .ask (.skipField ft) fun _ => .done g) .done

/-- `a = 1`, an unknown field 5 of wire type i64, field 2 with one string, stop, and a further byte. -/
def exHand : Bytes := [0x15#8, 0x02#8, 0x46#8, 0x80#8, 0x01#8, 0x09#8, 0x04#8, 0x18#8, 0x01#8, 0x78#8, 0x00#8, 0xAA#8]

example : exDecoder.run exCfg (sliceInput exCfg) exHand = .ok ((1#32, [[0x78#8]]), [0xAA#8]) := by rfl
example : exDecoder.run exCfg (readerInput exCfg) [.data (exHand.take 4), .error .interrupted, .data (exHand.drop 4)] =
    .ok ((1#32, [[0x78#8]]), [.data [0xAA#8]]) := by rfl

/-- C115: without the SSE2 skip a program gives the same on a slice as on any reader that delivers the same bytes: the same result with the same bytes left, or the same
failure. -/
theorem C115_slice_reader {α : Type} (cfg : Cfg) (h : cfg.sse2 = false) (d : Decoder α) (s : Bytes) (evs : List REvent) (he : Delivers evs s) :
    Same (fun s' evs' => Delivers evs' s') (d.run cfg (sliceInput cfg) s) (d.run cfg (readerInput cfg) evs) := by
  have := decoder_same cfg d he
  rwa [noSse2_eq h] at this

/-- C115: the way a reader cuts the bytes into chunks, and where it is interrupted, does not matter to a program. -/
theorem C115_chunking {α : Type} (cfg : Cfg) (d : Decoder α) (s : Bytes) (evs₁ evs₂ : List REvent) (h₁ : Delivers evs₁ s) (h₂ : Delivers evs₂ s) :
    Same (fun e₁ e₂ => ∃ rest, Delivers e₁ rest ∧ Delivers e₂ rest) (d.run cfg (readerInput cfg) evs₁) (d.run cfg (readerInput cfg) evs₂) := by
  have a := decoder_same cfg d h₁
  have b := decoder_same cfg d h₂
  revert a b
  generalize d.run cfg.noSse2 (sliceInput cfg.noSse2) s = x
  generalize d.run cfg (readerInput cfg) evs₁ = y
  generalize d.run cfg (readerInput cfg) evs₂ = z
  intro a b
  rcases x with f | ⟨v, s'⟩ <;> rcases y with g | ⟨v₁, e₁⟩ <;> rcases z with k | ⟨v₂, e₂⟩ <;> simp only [Same] at *
  · exact a.symm.trans b
  · obtain ⟨rfl, ha⟩ := a
    obtain ⟨rfl, hb⟩ := b
    exact ⟨rfl, s', ha, hb⟩

/-- C115: a reader that breaks with the error `k` after the bytes `s`, against one that ends there: the same result, or the same failure, except that the end of the
input has become `k`. -/
theorem C115_io_error {α : Type} (cfg : Cfg) (d : Decoder α) (k : ErrorKind) (s : Bytes) (evs₁ evs₂ : List REvent) (h₁ : Delivers evs₁ s)
    (h₂ : Breaks k evs₂ s) :
    match d.run cfg (readerInput cfg) evs₁, d.run cfg (readerInput cfg) evs₂ with
    | .ok (a, e₁), .ok (b, e₂) => a = b ∧ ∃ rest, Delivers e₁ rest ∧ Breaks k e₂ rest
    | .error f, .error g => (f = .err (.io .unexpectedEof) ∧ g = .err (.io k)) ∨ (f ≠ .err (.io .unexpectedEof) ∧ g = f)
    | _, _ => False := by
  have a := decoder_same cfg d h₁
  have b := decoder_breaks cfg d h₂
  revert a b
  generalize d.run cfg.noSse2 (sliceInput cfg.noSse2) s = x
  generalize d.run cfg (readerInput cfg) evs₁ = y
  generalize d.run cfg (readerInput cfg) evs₂ = z
  intro a b
  rcases x with f | ⟨v, s'⟩
  · simp only at b
    subst b
    rcases y with g | ⟨w, e⟩ <;> simp only [Same] at a
    subst a
    simp only [eofTo]
    by_cases hf : f = .err (.io .unexpectedEof)
    · left; exact ⟨hf, by rw [if_pos hf]⟩
    · right; exact ⟨hf, by rw [if_neg hf]⟩
  · obtain ⟨e', rfl, hb⟩ := b
    rcases y with g | ⟨w, e⟩ <;> simp only [Same] at a
    obtain ⟨rfl, ha⟩ := a
    exact ⟨rfl, s', ha, hb⟩

example : Breaks (.other 7) [.data (exHand.take 4), .error (.other 7)] (exHand.take 4) ∧
    exDecoder.run exCfg (readerInput exCfg) [.data (exHand.take 4), .error (.other 7)] = .error (.err (.io (.other 7))) :=
  ⟨.data _ _ [] (by decide) (.error _ (by decide)), rfl⟩

/-- C115: a program that succeeds on a slice has consumed a prefix of it, and its result depends on nothing else. -/
theorem C115_local_slice {α : Type} (cfg : Cfg) (d : Decoder α) (s s' : Bytes) (a : α) (h : d.run cfg (sliceInput cfg) s = .ok (a, s')) :
    ∃ p, s = p ++ s' ∧ ∀ suf, d.run cfg (sliceInput cfg) (p ++ suf) = .ok (a, suf) :=
  slice_local (generic_decoder d) (decoder_slice_notDiverge cfg d) h

/-- C115: the same for readers. -/
theorem C115_local_reader {α : Type} (cfg : Cfg) (d : Decoder α) (s : Bytes) (evs evs' : List REvent) (a : α) (he : Delivers evs s)
    (h : d.run cfg (readerInput cfg) evs = .ok (a, evs')) :
    ∃ p s', s = p ++ s' ∧ Delivers evs' s' ∧ ∀ suf e, Delivers e (p ++ suf) → ∃ e', d.run cfg (readerInput cfg) e = .ok (a, e') ∧ Delivers e' suf := by
  have b := decoder_same cfg d he
  rw [h] at b
  cases e : d.run cfg.noSse2 (sliceInput cfg.noSse2) s with
  | error f => rw [e] at b; exact b.elim
  | ok q =>
    obtain ⟨w, s'⟩ := q
    rw [e] at b
    obtain ⟨rfl, hd⟩ := b
    obtain ⟨p, rfl, hp⟩ := C115_local_slice cfg.noSse2 d s s' w e
    exact ⟨p, s', rfl, hd, fun suf e he => reader_ok (generic_decoder d) (hp suf) he⟩

/-- C115: with any of the bytes a program consumed cut off, it fails: on readers with the end of the input, on slices likewise, or, with the SSE2 skip, possibly with a
panic or an access outside the slice. -/
theorem C115_truncated {α : Type} (cfg : Cfg) (d : Decoder α) (q r suf : Bytes) (a : α) (hr : r ≠ []) :
    (d.run cfg (sliceInput cfg) (q ++ r ++ suf) = .ok (a, suf) →
      d.run cfg (sliceInput cfg) q = .error (.err (.io .unexpectedEof)) ∨
      (cfg.sse2 = true ∧ (d.run cfg (sliceInput cfg) q = .error .panic ∨ d.run cfg (sliceInput cfg) q = .error .ub))) ∧
    (∀ full rest evs, Delivers full (q ++ r ++ suf) → Delivers rest suf → d.run cfg (readerInput cfg) full = .ok (a, rest) → Delivers evs q →
      d.run cfg (readerInput cfg) evs = .error (.err (.io .unexpectedEof))) := by
  have sl : ∀ cfg : Cfg, d.run cfg (sliceInput cfg) (q ++ r ++ suf) = .ok (a, suf) →
      d.run cfg (sliceInput cfg) q = .error (.err (.io .unexpectedEof)) ∨
      (cfg.sse2 = true ∧ (d.run cfg (sliceInput cfg) q = .error .panic ∨ d.run cfg (sliceInput cfg) q = .error .ub)) := by
    intro cfg h
    obtain ⟨e, h1, h2⟩ := slice_truncated (generic_decoder d) (decoder_slice_notDiverge cfg d) hr h
    rcases h2 with rfl | ⟨hs, rfl | rfl⟩
    · exact .inl h1
    · exact .inr ⟨hs, .inl h1⟩
    · exact .inr ⟨hs, .inr h1⟩
  refine ⟨sl cfg, fun full rest evs hf hrest h he => ?_⟩
  have b := decoder_same cfg d hf
  rw [h] at b
  cases e : d.run cfg.noSse2 (sliceInput cfg.noSse2) (q ++ r ++ suf) with
  | error f => rw [e] at b; exact b.elim
  | ok x =>
    obtain ⟨w, s'⟩ := x
    rw [e] at b
    obtain ⟨rfl, hd⟩ := b
    obtain rfl := Delivers.det hd hrest
    rcases sl cfg.noSse2 e with h1 | ⟨h1, _⟩
    · exact reader_error (generic_decoder d) h1 (by nofun) he
    · cases h1

example : exDecoder.run exCfg (sliceInput exCfg) (exHand.take 7 ++ (exHand.take 11).drop 7 ++ exHand.drop 11) = .ok ((1#32, [[0x78#8]]), exHand.drop 11) ∧
    (exHand.take 11).drop 7 ≠ [] ∧ exDecoder.run exCfg (sliceInput exCfg) (exHand.take 7) = .error (.err (.io .unexpectedEof)) := ⟨rfl, by decide, rfl⟩

/-- C115: programs end, on every slice and every reader: no bound of the model is ever reached. -/
theorem C115_ends {α : Type} (cfg : Cfg) (d : Decoder α) :
    (∀ s, d.run cfg (sliceInput cfg) s ≠ .error .diverge) ∧ (∀ evs, d.run cfg (readerInput cfg) evs ≠ .error .diverge) :=
  ⟨decoder_slice_notDiverge cfg d, decoder_reader_notDiverge cfg d⟩

/-- A program asks only for values of types that exist, and fills only values of the type (`Seed`). -/
def AsksTyped : {α : Type} → Decoder α → Prop
  | _, .done _ => True
  | _, .stop _ _ => True
  | _, .ask (.read env t) next => (schemaReads env = true ∧ tyClosed env t = true) ∧ ∀ b, AsksTyped (next b)
  | _, .ask (.fill env t v) next => (schemaReads env = true ∧ tyClosed env t = true ∧ Seed env t v) ∧ ∀ b, AsksTyped (next b)
  | _, .ask (.fillField env t v _) next => (schemaReads env = true ∧ tyClosed env t = true ∧ Seed env t v) ∧ ∀ b, AsksTyped (next b)
  | _, .ask _ next => ∀ b, AsksTyped (next b)
  | _, .fields _ field next => (∀ g ft id, AsksTyped (field g ft id)) ∧ ∀ g, AsksTyped (next g)

theorem AsksTyped.fits {E : Fail → Prop} (he : ∀ e, E (.err e)) {α : Type} {d : Decoder α} (h : AsksTyped d) : d.Fits E := by
  induction d with
  | done a => trivial
  | stop e _ => exact he e
  | ask r next ih =>
    cases r with
    | read env t =>
      obtain ⟨⟨h1, h2⟩, h3⟩ := h
      rw [schemaReads_iff] at h1
      exact ⟨.inr ⟨h1.2, h1.1, h2⟩, fun b => ih b (h3 b)⟩
    | fill env t v =>
      obtain ⟨⟨h1, h2, h4⟩, h3⟩ := h
      rw [schemaReads_iff] at h1
      exact ⟨.inr ⟨h1.2, h1.1, h2, h4⟩, fun b => ih b (h3 b)⟩
    | fillField env t v ft =>
      obtain ⟨⟨h1, h2, h4⟩, h3⟩ := h
      rw [schemaReads_iff] at h1
      exact ⟨.inr ⟨h1.2, h1.1, h2, h4⟩, fun b => ih b (h3 b)⟩
    | _ => exact ⟨trivial, fun b => ih b (h b)⟩
  | fields start field next ih1 ih2 => exact ⟨fun g ft id => ih1 g ft id (h.1 g ft id), fun g => ih2 g (h.2 g)⟩

/-- C115: without overflow checks a program returns a value or an error, whatever the reader does; without the SSE2 skip also on every slice. -/
theorem C115_returns {α : Type} {cfg : Cfg} (h : cfg.overflowChecks = false) (d : Decoder α) (hd : AsksTyped d) :
    (∀ evs, Returns (d.run cfg (readerInput cfg) evs)) ∧ (cfg.sse2 = false → ∀ s, Returns (d.run cfg (sliceInput cfg) s)) :=
  ⟨fun _ => returns_of_tri (shrinks_decoder (allowed_isErr h) (reader_counted (allowed_isErr h)) d (hd.fits fun e => ⟨e, rfl⟩) _) (Nat.le_refl _),
   fun h2 _ => returns_of_tri (shrinks_decoder (allowed_isErr h) (slice_counted (allowed_isErr h) (by simp [h2])) d (hd.fits fun e => ⟨e, rfl⟩) _) (Nat.le_refl _)⟩

/-- C115: in every build the only other failures are the known ones. -/
theorem C115_any_build {α : Type} {cfg : Cfg} (d : Decoder α) (hd : AsksTyped d) {f : Fail} :
    (∀ evs, d.run cfg (readerInput cfg) evs = .error f → knownDefect cfg false f) ∧
    (∀ s, d.run cfg (sliceInput cfg) s = .error f → knownDefect cfg cfg.sse2 f) := by
  constructor
  · intro evs h
    exact (shrinks_decoder (allowed_knownDefect cfg false) (reader_counted (allowed_knownDefect cfg false)) d (hd.fits fun e => .inl ⟨e, rfl⟩) _).error
      (Nat.le_refl _) h
  · intro s h
    refine (shrinks_decoder (allowed_knownDefect cfg cfg.sse2) (slice_counted (allowed_knownDefect cfg cfg.sse2) fun h2 => ?_) d
      (hd.fits fun e => .inl ⟨e, rfl⟩) _).error (Nat.le_refl _) h
    rw [h2]
    exact ⟨.inr (.inl ⟨rfl, .inr rfl⟩), .inr (.inr ⟨rfl, rfl⟩)⟩

theorem exDecoder_typed : AsksTyped exDecoder := by
  refine ⟨fun g ft id => ?_, fun g => trivial⟩
  dsimp only
  split
  · exact fun _ => trivial
  · split
    · intro h
      dsimp only
      split
      · trivial
      · split
        · exact fun _ => trivial
        · trivial
    · exact fun _ => trivial

example : AsksTyped exDecoder ∧ (exCfg.overflowChecks = false) := ⟨exDecoder_typed, rfl⟩

/-! ## Values one after the other -/

/-- C115: writing values one after the other into a vector appends their encodings, in order. -/
theorem C115_written {env : List Def} (items : List (Ty × Val × Bytes)) (hv : ∀ i ∈ items, HasTy env i.2.1 i.1)
    (he : ∀ i ∈ items, encode env i.1 i.2.1 = .ok i.2.2) (out : Bytes) :
    writeInTurn vecSink env (items.map fun i => (i.1, i.2.1)) out = (.ok (), out ++ (items.map (·.2.2)).flatten) := by
  induction items generalizing out with
  | nil => simp [writeInTurn, Wr.pure_apply]
  | cons i items ih =>
    rcases write_cases (hv i (by simp)) with ⟨p, h1, h2⟩ | ⟨e, bs, h1, _⟩
    · rw [he i (by simp)] at h1
      cases h1
      rw [List.map_cons, writeInTurn, Wr.bind_ok (h2 out), ih (fun i hi => hv i (by simp [hi])) (fun i hi => he i (by simp [hi]))]
      simp
    · rw [he i (by simp)] at h1; cases h1

/-- C115: if writing all values succeeds, each has an encoding of its own, and the vector has grown by exactly these. -/
theorem C115_written_each {env : List Def} (items : List (Ty × Val)) (hv : ∀ i ∈ items, HasTy env i.2 i.1) {out out' : Bytes}
    (hw : writeInTurn vecSink env items out = (.ok (), out')) :
    ∃ ps : List Bytes, ps.length = items.length ∧ (∀ (k : Nat) (i : Ty × Val) (p : Bytes), items[k]? = some i → ps[k]? = some p → encode env i.1 i.2 = .ok p) ∧
      out' = out ++ ps.flatten := by
  induction items generalizing out with
  | nil =>
    rw [writeInTurn] at hw
    cases hw
    exact ⟨[], rfl, by simp, by simp⟩
  | cons i items ih =>
    obtain ⟨t, v⟩ := i
    rcases write_cases (hv (t, v) (by simp)) with ⟨p, h1, h2⟩ | ⟨e, bs, _, h2⟩
    · rw [writeInTurn, Wr.bind_ok (h2 out)] at hw
      obtain ⟨ps, h3, h4, rfl⟩ := ih (fun i hi => hv i (by simp [hi])) hw
      refine ⟨p :: ps, by simp [h3], ?_, by simp⟩
      intro k i q hi hq
      cases k with
      | zero => simp at hi hq; subst hi hq; exact h1
      | succ k => exact h4 k i q (by simpa using hi) (by simpa using hq)
    · rw [writeInTurn, Wr.bind_err (h2 out)] at hw
      cases hw

/-- C115: of values written one after the other, each can be read or skipped; those read come back (up to reference counts), in order, and what follows is left as it
was, on slices and readers. -/
theorem C115_in_turn {cfg : Cfg} (ha : AllocOk cfg) {env : List Def} (hs : schemaOk env = true) (hst : stepsOk cfg.overflowChecks env = true)
    (items : List (Bool × Ty × Val)) (hv : ∀ i ∈ items, HasTy env i.2.2 i.2.1)
    (hk : ∀ i ∈ items, i.1 = false → ascending env = true ∧ noBoxedBool env = true ∧ isBoolish i.2.1 = false) {bytes : Bytes}
    (hw : writeInTurn vecSink env (items.map (·.2)) [] = (.ok (), bytes)) (suf : Bytes) :
    Reads cfg (fun I => (inTurn env (items.map fun i => (i.1, i.2.1))).run cfg I) bytes suf ((items.filter (·.1)).map (·.2.2.unshare)) := by
  suffices H : ∀ (items : List (Bool × Ty × Val)) (out bytes : Bytes), (∀ i ∈ items, HasTy env i.2.2 i.2.1) →
      (∀ i ∈ items, i.1 = false → ascending env = true ∧ noBoxedBool env = true ∧ isBoolish i.2.1 = false) →
      writeInTurn vecSink env (items.map (·.2)) out = (.ok (), bytes) →
      ∃ p, bytes = out ++ p ∧ Reads cfg (fun I => (inTurn env (items.map fun i => (i.1, i.2.1))).run cfg I) p suf ((items.filter (·.1)).map (·.2.2.unshare)) by
    obtain ⟨p, rfl, h⟩ := H items [] bytes hv hk hw
    exact h
  intro items
  induction items with
  | nil =>
    intro out bytes _ _ hw
    rw [List.map_nil, writeInTurn] at hw
    cases hw
    exact ⟨[], by simp, rfl, fun evs he => ⟨evs, rfl, he⟩⟩
  | cons i items ih =>
    intro out bytes hv hk hw
    obtain ⟨b, t, v⟩ := i
    have hv0 : HasTy env v t := hv (b, t, v) (by simp)
    rcases write_cases hv0 with ⟨p, h1, h2⟩ | ⟨e, bs, _, h2⟩
    · rw [List.map_cons, writeInTurn, Wr.bind_ok (h2 out)] at hw
      obtain ⟨q, rfl, h3⟩ := ih _ _ (fun i hi => hv i (by simp [hi])) (fun i hi => hk i (by simp [hi])) hw
      refine ⟨p ++ q, by simp, ?_⟩
      cases b with
      | true =>
        rw [List.filter_cons_of_pos rfl]
        exact Reads.ask (r := .read env t) (C22_round_trip ha hs hst hv0 h1 (q ++ suf)) (Reads.map h3)
      | false =>
        obtain ⟨h4, h5, h6⟩ := hk (false, t, v) (by simp) rfl
        rw [List.filter_cons_of_neg (by simp)]
        exact Reads.ask (r := .skipField (wireType env t)) (C19_skip_written cfg hs h4 h5 hv0 h1 false (.inr h6) (q ++ suf)) h3
    · rw [List.map_cons, writeInTurn, Wr.bind_err (h2 out)] at hw
      cases hw

/-- C115: two rows of values of the same types with the same bytes are the same values (up to reference counts). -/
theorem C115_unique {env : List Def} (hs : schemaOk env = true) (hst : stepsOk false env = true) (xs ys : List (Ty × Val)) (hxy : xs.map (·.1) = ys.map (·.1))
    (hx : ∀ i ∈ xs, HasTy env i.2 i.1) (hy : ∀ i ∈ ys, HasTy env i.2 i.1) {bytes : Bytes}
    (hwx : writeInTurn vecSink env xs [] = (.ok (), bytes)) (hwy : writeInTurn vecSink env ys [] = (.ok (), bytes)) :
    xs.map (·.2.unshare) = ys.map (·.2.unshare) := by
  let cfg : Cfg := ⟨false, false, fun _ => true⟩
  have key : ∀ zs : List (Ty × Val), (∀ i ∈ zs, HasTy env i.2 i.1) → writeInTurn vecSink env zs [] = (.ok (), bytes) →
      Reads cfg (fun I => (inTurn env ((zs.map (·.1)).map fun t => (true, t))).run cfg I) bytes [] (zs.map (·.2.unshare)) := by
    intro zs hz hwz
    have := C115_in_turn (cfg := cfg) (fun _ _ => rfl) hs hst (zs.map fun i => (true, i)) (by simp only [List.mem_map]; rintro _ ⟨i, hi, rfl⟩; exact hz i hi) (by simp) (bytes := bytes)
      (by rw [List.map_map, show ((fun i : Bool × Ty × Val => i.2) ∘ fun i => (true, i)) = id from rfl, List.map_id]; exact hwz) []
    simpa [List.map_map, Function.comp_def, List.filter_map, List.filter_eq_self.2] using this
  have h1 := key xs hx hwx
  rw [hxy] at h1
  exact (Reads.unique h1 (key ys hy hwy) rfl).1

/-- A node and a string in a row, the node skipped and the string read, meet the hypotheses. -/
example : schemaOk nodeEnv = true ∧ stepsOk true nodeEnv = true ∧ ascending nodeEnv = true ∧ noBoxedBool nodeEnv = true ∧ isBoolish (.named 0) = false ∧
    HasTy nodeEnv (.struct [.string [], .none, .none]) (.named 0) ∧ HasTy nodeEnv (.string [0x61#8]) .string ∧
    ∃ bytes, writeInTurn vecSink nodeEnv [(.named 0, .struct [.string [], .none, .none]), (.string, .string [0x61#8])] [] = (.ok (), bytes) := by
  have leaf : HasTy nodeEnv (.struct [.string [], .none, .none]) (.named 0) := by
    refine .struct 0 _ _ _ rfl rfl fun i f v hf hv => ?_
    match i with
    | 0 => simp at hf hv; subst hf hv; exact .string _ rfl
    | 1 => simp at hf hv; subst hf hv; exact .none _
    | 2 => simp at hf hv; subst hf hv; exact .none _
    | i + 3 => simp at hf
  obtain ⟨p, leafEnc⟩ : ∃ p, Enc nodeEnv anyStep (.value (.named 0) (.struct [.string [], .none, .none])) p :=
    ⟨_, .struct 0 _ _ _ _ rfl (.fieldsCons _ _ _ _ _ _ _ (.fieldValue .string _ _ _ _ (by simp) (by simp) trivial (.string _ (by simp)))
      (.fieldsCons _ _ _ _ _ _ _ (.fieldNone _ _ _) (.fieldsCons _ _ _ _ _ _ _ (.fieldNone _ _ _) (.fieldsNil _))))⟩
  obtain ⟨q, strEnc⟩ : ∃ q, Enc nodeEnv anyStep (.value .string (.string [0x61#8])) q := ⟨_, .string _ (by simp)⟩
  refine ⟨by decide, by decide, by decide, by decide, rfl, leaf, .string _ rfl, _,
    C115_written [(.named 0, _, p), (.string, _, q)] ?_ ?_ []⟩
  · intro i hi
    simp only [List.mem_cons, List.not_mem_nil, or_false] at hi
    rcases hi with rfl | rfl
    · exact leaf
    · exact .string _ rfl
  · intro i hi
    simp only [List.mem_cons, List.not_mem_nil, or_false] at hi
    rcases hi with rfl | rfl
    · exact encode_of_enc leafEnc
    · exact encode_of_enc strEnc

end CT.Props
