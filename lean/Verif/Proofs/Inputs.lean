import Verif.Proofs.Sim
import Verif.Proofs.Adequate
import Verif.Proofs.Uleb
import Verif.Spec.Delivery
/-!
# The concrete inputs: sizes, and simulations between them
-/
namespace CT
open Spec

/-! ## Slices are measured -/

section Measured
variable {E : Fail → Prop} {cfg : Cfg} (hE : Allowed E cfg)
include hE

theorem slice_readByte_tri (n : Nat) :
    Tri (fun s : Bytes => s.length ≤ n) Slice.readByte (fun _ s => s.length + 1 ≤ n) E := by
  intro s hs
  cases s with
  | nil => exact hE.err _ (by simp)
  | cons b s => exact hs

theorem slice_readLen_tri (n : Nat) :
    Tri (fun s : Bytes => s.length ≤ n) (Slice.readLen cfg) (fun _ s => s.length + 1 ≤ n) E :=
  Tri.bind (Tri.decodeUleb hE (slice_readByte_tri hE) n) fun _ => Tri.pure fun _ h => h

theorem slice_measured (h2 : cfg.sse2 = true → E .panic ∧ E .ub) : Measured E (sliceInput cfg) where
  readByte := slice_readByte_tri hE
  readDouble n := by
    show Tri (fun s : Bytes => s.length ≤ n) Slice.readDouble (fun _ s => s.length ≤ n) E
    intro s hs
    unfold Slice.readDouble
    by_cases h : s.length < 8
    · simp only [h, if_true]; exact hE.err _ (by simp)
    · simp only [h, if_false, List.length_drop]; omega
  readBinary n := by
    show Tri (fun s : Bytes => s.length ≤ n) (Slice.readBinary cfg) (fun _ s => s.length ≤ n) E
    refine Tri.bind (slice_readLen_tri hE n) fun len => Tri.ite (fun _ => Tri.throw (hE.err _ (by simp))) fun _ => ?_
    intro s hs
    rw [Rd.of_apply]
    by_cases h : s.length < len
    · simp only [h, if_true]; exact hE.err _ (by simp)
    · simp only [h, if_false, List.length_drop]; omega
  skipInteger n := by
    show Tri (fun s : Bytes => s.length ≤ n) (Slice.skipInteger cfg) (fun _ s => s.length ≤ n) E
    unfold Slice.skipInteger
    refine Tri.ite (fun hs2 => ?_) fun _ => ?_
    · intro s hs
      rw [Rd.of_apply]
      by_cases h16 : 16 ≤ s.length
      · simp only [h16, if_true]
        unfold skipUlebSse2
        dsimp only
        by_cases h : trailingZeros (~~~(movemask (List.take 16 s)) <<< 1) ≤ s.length
        · simp only [h, if_true, List.length_drop]; omega
        · simp only [h, if_false]; exact (h2 hs2).2
      · simp only [h16, if_false]
        unfold skipUlebFallback
        dsimp only
        by_cases h : scanContinuation s + 1 ≤ s.length
        · simp only [h, if_true, List.length_drop]; omega
        · simp only [h, if_false]; exact (h2 hs2).1
    · exact Tri.bind (Tri.decodeUleb hE (slice_readByte_tri hE) n) fun _ => Tri.pure fun _ h => by omega
  skipBinary n := by
    show Tri (fun s : Bytes => s.length ≤ n) (Slice.skipBinary cfg) (fun _ s => s.length ≤ n) E
    refine Tri.bind (slice_readLen_tri hE n) fun len => Tri.ite (fun _ => Tri.throw (hE.err _ (by simp))) fun _ => ?_
    intro s hs
    rw [Rd.of_apply]
    by_cases h : s.length < len
    · simp only [h, if_true]; exact hE.err _ (by simp)
    · simp only [h, if_false, List.length_drop]; omega

end Measured

/-! ## Readers are measured -/

theorem readExact_zero (evs : List REvent) : readExact 0 evs = .ok ([], evs) := by
  cases evs <;> rfl

theorem readExact_ok : ∀ (evs : List REvent) (n : Nat) (x : Bytes) (evs' : List REvent),
    readExact n evs = .ok (x, evs') → x.length = n ∧ readerSize evs' + n = readerSize evs := by
  intro evs
  induction evs with
  | nil =>
    intro n x evs' h
    cases n with
    | zero => simp [readExact] at h; obtain ⟨rfl, rfl⟩ := h; simp
    | succ n => simp [readExact, eof] at h
  | cons e r ih =>
    intro n x evs' h
    cases n with
    | zero => simp [readExact] at h; obtain ⟨rfl, rfl⟩ := h; simp
    | succ n =>
      cases e with
      | data bs =>
        simp only [readExact] at h
        by_cases h0 : bs = []
        · simp [h0, eof] at h
        · simp only [h0, if_false] at h
          by_cases h1 : bs.length ≤ n + 1
          · simp only [h1, if_true] at h
            cases hr : readExact (n + 1 - bs.length) r with
            | error e => simp [hr] at h
            | ok p =>
              obtain ⟨y, r'⟩ := p
              simp only [hr, Except.ok.injEq, Prod.mk.injEq] at h
              obtain ⟨rfl, rfl⟩ := h
              obtain ⟨h2, h3⟩ := ih _ _ _ hr
              simp only [List.length_append, readerSize, h0, if_false]; omega
          · simp only [h1, if_false, Except.ok.injEq, Prod.mk.injEq] at h
            obtain ⟨rfl, rfl⟩ := h
            have : bs.drop (n + 1) ≠ [] := by
              intro hd; rw [List.drop_eq_nil_iff] at hd; omega
            simp only [List.length_take, readerSize, this, h0, if_false, List.length_drop]; omega
      | error k =>
        simp only [readExact] at h
        by_cases hk : k = .interrupted
        · simp only [hk, if_true] at h
          obtain ⟨h2, h3⟩ := ih _ _ _ h
          simp only [readerSize, hk, if_true]; exact ⟨h2, h3⟩
        · simp [hk] at h

theorem readExact_error : ∀ (evs : List REvent) (n : Nat) (f : Fail),
    readExact n evs = .error f → ∃ k, f = .err (.io k) := by
  intro evs
  induction evs with
  | nil =>
    intro n f h
    cases n with
    | zero => simp [readExact] at h
    | succ n => simp [readExact, eof] at h; exact ⟨_, h.symm⟩
  | cons e r ih =>
    intro n f h
    cases n with
    | zero => simp [readExact] at h
    | succ n =>
      cases e with
      | data bs =>
        simp only [readExact] at h
        by_cases h0 : bs = []
        · simp [h0, eof] at h; exact ⟨_, h.symm⟩
        · simp only [h0, if_false] at h
          by_cases h1 : bs.length ≤ n + 1
          · simp only [h1, if_true] at h
            cases hr : readExact (n + 1 - bs.length) r with
            | error e => simp [hr] at h; subst h; exact ih _ _ hr
            | ok p => simp [hr] at h
          · simp [h1] at h
      | error k =>
        simp only [readExact] at h
        by_cases hk : k = .interrupted
        · simp only [hk, if_true] at h; exact ih _ _ h
        · simp [hk] at h; exact ⟨_, h.symm⟩

theorem readExact_tri {E : Fail → Prop} (hE : ∀ e, e ≠ .reserveError → E (.err e)) (n k : Nat) :
    Tri (fun s => readerSize s ≤ n) (readExact k) (fun x s => readerSize s + k ≤ n ∧ x.length = k) E := by
  intro s hs
  cases h : readExact k s with
  | error f => obtain ⟨e, rfl⟩ := readExact_error _ _ _ h; exact hE _ (by simp)
  | ok p => obtain ⟨x, s'⟩ := p; have := readExact_ok _ _ _ _ h; dsimp only; omega

theorem reader_readByte_tri {E : Fail → Prop} (hE : ∀ e, e ≠ .reserveError → E (.err e)) (n : Nat) :
    Tri (fun s => readerSize s ≤ n) Reader.readByte (fun _ s => readerSize s + 1 ≤ n) E := by
  intro s hs
  have h := readExact_tri hE n 1 s hs
  unfold Reader.readByte
  cases hx : readExact 1 s with
  | error f => rw [hx] at h; exact h
  | ok p =>
    obtain ⟨x, s'⟩ := p
    rw [hx] at h
    obtain ⟨h1, h2⟩ := h
    match x, h2 with
    | [b], _ => exact h1

theorem reader_measured {E : Fail → Prop} {cfg : Cfg} (hE : Allowed E cfg) : Measured E (readerInput cfg) where
  readByte := reader_readByte_tri hE.err
  readDouble n := by
    show Tri (fun s => readerSize s ≤ n) Reader.readDouble (fun _ s => readerSize s ≤ n) E
    intro s hs
    have h := readExact_tri hE.err n 8 s hs
    unfold Reader.readDouble
    cases hx : readExact 8 s with
    | error f => rw [hx] at h; exact h
    | ok p => obtain ⟨x, s'⟩ := p; rw [hx] at h; dsimp only at h ⊢; omega
  readBinary n := by
    show Tri (fun s => readerSize s ≤ n) (Reader.readBinary cfg) (fun _ s => readerSize s ≤ n) E
    refine Tri.bind (Tri.decodeUleb hE (reader_readByte_tri hE.err) n) fun len =>
      Tri.ite (fun _ => Tri.throw (hE.err _ (by simp))) fun _ => ?_
    exact (readExact_tri hE.err n _).weaken (by intro s hs; omega) (by intro _ s hs; omega) (fun _ h => h)
  skipInteger n :=
    Tri.bind (Tri.decodeUleb hE (reader_readByte_tri hE.err) n) fun _ => Tri.pure fun (s : List REvent) h => by
      show readerSize s ≤ n; omega
  skipBinary n := by
    show Tri (fun s => readerSize s ≤ n) (do let _ ← Reader.readBinary cfg; Pure.pure ()) (fun _ s => readerSize s ≤ n) E
    refine Tri.bind (Q := fun _ s => readerSize s ≤ n) ?_ fun _ => Tri.pure fun _ h => h
    refine Tri.bind (Tri.decodeUleb hE (reader_readByte_tri hE.err) n) fun len =>
      Tri.ite (fun _ => Tri.throw (hE.err _ (by simp))) fun _ => ?_
    exact (readExact_tri hE.err n _).weaken (by intro s hs; omega) (by intro _ s hs; omega) (fun _ h => h)

/-- never out of fuel -/
def notDiverge (f : Fail) : Prop := f ≠ .diverge

theorem allowed_notDiverge (cfg : Cfg) : Allowed notDiverge cfg where
  err e _ := by simp [notDiverge]
  panic _ := by simp [notDiverge]
  reserve _ _ _ := by simp [notDiverge]

theorem stuck_notDiverge : notDiverge .stuck := by simp [notDiverge]

theorem slice_measured_nd (cfg : Cfg) : Measured notDiverge (sliceInput cfg) :=
  slice_measured (allowed_notDiverge cfg) fun _ => by simp [notDiverge]

theorem reader_measured_nd (cfg : Cfg) : Measured notDiverge (readerInput cfg) :=
  reader_measured (allowed_notDiverge cfg)

/-! ## Slice against reader -/

theorem readExact_delivers : ∀ {evs : List REvent} {s : Bytes}, Delivers evs s → ∀ n,
    (n ≤ s.length → ∃ evs', readExact n evs = .ok (s.take n, evs') ∧ Delivers evs' (s.drop n)) ∧
    (s.length < n → readExact n evs = eof) := by
  intro evs s h
  induction h with
  | nil =>
    intro n; cases n with
    | zero => exact ⟨fun _ => ⟨[], rfl, .nil⟩, by simp⟩
    | succ n => exact ⟨by simp, fun _ => rfl⟩
  | eof r =>
    intro n; cases n with
    | zero => exact ⟨fun _ => ⟨_, rfl, .eof r⟩, by simp⟩
    | succ n => exact ⟨by simp, fun _ => by simp [readExact]⟩
  | data bs r s h0 hr ih =>
    intro n
    cases n with
    | zero => exact ⟨fun _ => ⟨_, rfl, .data bs r s h0 hr⟩, by simp⟩
    | succ n =>
      simp only [readExact, h0, if_false]
      by_cases h1 : bs.length ≤ n + 1
      · simp only [h1, if_true, List.length_append]
        obtain ⟨ih1, ih2⟩ := ih (n + 1 - bs.length)
        refine ⟨fun hle => ?_, fun hlt => ?_⟩
        · obtain ⟨evs', h2, h3⟩ := ih1 (by omega)
          refine ⟨evs', ?_, ?_⟩
          · rw [h2, List.take_append, List.take_of_length_le h1]
          · rw [List.drop_append, List.drop_of_length_le h1, List.nil_append]; exact h3
        · rw [ih2 (by omega)]; rfl
      · simp only [h1, if_false, List.length_append]
        refine ⟨fun hle => ⟨.data (bs.drop (n + 1)) :: r, ?_, ?_⟩, fun hlt => by omega⟩
        · rw [List.take_append_of_le_length (by omega)]
        · rw [List.drop_append_of_le_length (by omega)]
          exact .data _ _ _ (by intro hd; rw [List.drop_eq_nil_iff] at hd; omega) hr
  | interrupted r s hr ih =>
    intro n
    cases n with
    | zero => exact ⟨fun _ => ⟨_, rfl, .interrupted r s hr⟩, by simp⟩
    | succ n => simp only [readExact, if_true]; exact ih (n + 1)

theorem delivers_size {evs : List REvent} {s : Bytes} (h : Delivers evs s) : readerSize evs = s.length := by
  induction h with
  | nil => rfl
  | eof r => simp [readerSize]
  | data bs r s h0 hr ih => simp [readerSize, h0, ih]
  | interrupted r s hr ih => simp [readerSize, ih]

theorem readExact_breaks {k : ErrorKind} : ∀ {evs : List REvent} {s : Bytes}, Breaks k evs s → ∀ n,
    (n ≤ s.length → ∃ evs', readExact n evs = .ok (s.take n, evs') ∧ Breaks k evs' (s.drop n)) ∧
    (s.length < n → readExact n evs = .error (.err (.io k))) := by
  intro evs s h
  induction h with
  | error r hk =>
    intro n; cases n with
    | zero => exact ⟨fun _ => ⟨_, rfl, .error r hk⟩, by simp⟩
    | succ n => exact ⟨by simp, fun _ => by simp [readExact, hk]⟩
  | data bs r s h0 hr ih =>
    intro n
    cases n with
    | zero => exact ⟨fun _ => ⟨_, rfl, .data bs r s h0 hr⟩, by simp⟩
    | succ n =>
      simp only [readExact, h0, if_false]
      by_cases h1 : bs.length ≤ n + 1
      · simp only [h1, if_true, List.length_append]
        obtain ⟨ih1, ih2⟩ := ih (n + 1 - bs.length)
        refine ⟨fun hle => ?_, fun hlt => ?_⟩
        · obtain ⟨evs', h2, h3⟩ := ih1 (by omega)
          refine ⟨evs', ?_, ?_⟩
          · rw [h2, List.take_append, List.take_of_length_le h1]
          · rw [List.drop_append, List.drop_of_length_le h1, List.nil_append]; exact h3
        · rw [ih2 (by omega)]
      · simp only [h1, if_false, List.length_append]
        refine ⟨fun hle => ⟨.data (bs.drop (n + 1)) :: r, ?_, ?_⟩, fun hlt => by omega⟩
        · rw [List.take_append_of_le_length (by omega)]
        · rw [List.drop_append_of_le_length (by omega)]
          exact .data _ _ _ (by intro hd; rw [List.drop_eq_nil_iff] at hd; omega) hr
  | interrupted r s hr ih =>
    intro n
    cases n with
    | zero => exact ⟨fun _ => ⟨_, rfl, .interrupted r s hr⟩, by simp⟩
    | succ n => simp only [readExact, if_true]; exact ih (n + 1)

theorem breaks_size {k : ErrorKind} {evs : List REvent} {s : Bytes} (h : Breaks k evs s) : readerSize evs = s.length := by
  induction h with
  | error r hk => simp [readerSize, hk]
  | data bs r s h0 hr ih => simp [readerSize, h0, ih]
  | interrupted r s hr ih => simp [readerSize, ih]

/-- `Slice` operations that just take `n` bytes. -/
def sliceTake (n : Nat) : Rd Bytes Bytes := fun s => if s.length < n then eof else .ok (s.take n, s.drop n)

theorem Sim.map {σ₁ σ₂ α β : Type} {P : SimP σ₁ σ₂} {x : Rd σ₁ α} {y : Rd σ₂ α}
    (h : Sim P x y) (f : α → β) : Sim P (x >>= fun a => Pure.pure (f a)) (y >>= fun a => Pure.pure (f a)) :=
  Sim.bind h fun _ => Sim.pure _

theorem slice_readByte_eq : Slice.readByte = (sliceTake 1 >>= fun x => Pure.pure (x.headD 0#8)) := by
  funext s
  cases s with
  | nil => rfl
  | cons b s => simp [Slice.readByte, Rd.bind_apply, sliceTake]

theorem slice_readDouble_eq : Slice.readDouble = (sliceTake 8 >>= fun x => Pure.pure (fromLeBytes x)) := by
  funext s
  by_cases h : s.length < 8
  · simp [Slice.readDouble, Rd.bind_apply, sliceTake, h, eof]
  · simp [Slice.readDouble, Rd.bind_apply, sliceTake, h]

theorem reader_readByte_eq : Reader.readByte = (readExact 1 >>= fun x => Pure.pure (x.headD 0#8)) := by
  funext s
  unfold Reader.readByte
  rw [Rd.bind_apply]
  cases h : readExact 1 s with
  | error e => rfl
  | ok p =>
    obtain ⟨x, s'⟩ := p
    have := (readExact_ok _ _ _ _ h).1
    match x, this with
    | [b], _ => rfl

theorem reader_readDouble_eq : Reader.readDouble = (readExact 8 >>= fun x => Pure.pure (fromLeBytes x)) := by
  funext s
  unfold Reader.readDouble
  rw [Rd.bind_apply]
  cases h : readExact 8 s with
  | error e => rfl
  | ok p => rfl

theorem slice_readBinary_eq (cfg : Cfg) : Slice.readBinary cfg = (do
    let len ← decodeUleb cfg List.length Slice.readByte
    if MAX_BINARY_LEN < len.toNat then Rd.throw (.invalidBinaryLen len.toNat) else sliceTake len.toNat) := by
  funext s
  unfold Slice.readBinary Slice.readLen
  simp only [Rd.bind_apply]
  cases h : decodeUleb cfg List.length Slice.readByte s with
  | error e => rfl
  | ok p => rfl

theorem slice_skipBinary_eq (cfg : Cfg) : Slice.skipBinary cfg = (do let _ ← Slice.readBinary cfg; Pure.pure ()) := by
  funext s
  unfold Slice.readBinary Slice.skipBinary Slice.readLen
  simp only [Rd.bind_apply]
  cases h : decodeUleb cfg List.length Slice.readByte s with
  | error e => rfl
  | ok p =>
    simp only [Rd.pure_apply]
    by_cases h1 : MAX_BINARY_LEN < p.1.toNat
    · simp [h1]
    · by_cases h2 : p.2.length < p.1.toNat <;> simp [h1, h2, eof]

/-- Assembling a simulation of inputs from "take n bytes" operations. -/
theorem inputSim_of_take {σ₁ σ₂ : Type} {P : SimP σ₁ σ₂} (hd : P.A .diverge)
    {c₁ c₂ : Cfg} (hc : CfgSim P.A c₁ c₂) {I₁ : Input σ₁} {I₂ : Input σ₂}
    (hcl : Closed P.D c₂ I₂) (take₁ : Nat → Rd σ₁ Bytes) (take₂ : Nat → Rd σ₂ Bytes)
    (hsize : ∀ s t, P.R s t → I₁.size s ≤ I₂.size t)
    (h : ∀ n, Sim P (take₁ n) (take₂ n))
    (hb₁ : I₁.readByte = (take₁ 1 >>= fun x => Pure.pure (x.headD 0#8)))
    (hb₂ : I₂.readByte = (take₂ 1 >>= fun x => Pure.pure (x.headD 0#8)))
    (hd₁ : I₁.readDouble = (take₁ 8 >>= fun x => Pure.pure (fromLeBytes x)))
    (hd₂ : I₂.readDouble = (take₂ 8 >>= fun x => Pure.pure (fromLeBytes x)))
    (hbin₁ : I₁.readBinary = (do
      let len ← decodeUleb c₁ I₁.size I₁.readByte
      if MAX_BINARY_LEN < len.toNat then Rd.throw (.invalidBinaryLen len.toNat) else take₁ len.toNat))
    (hbin₂ : I₂.readBinary = (do
      let len ← decodeUleb c₂ I₂.size I₂.readByte
      if MAX_BINARY_LEN < len.toNat then Rd.throw (.invalidBinaryLen len.toNat) else take₂ len.toNat))
    (hs₁ : I₁.skipBinary = (do let _ ← I₁.readBinary; Pure.pure ()))
    (hs₂ : I₂.skipBinary = (do let _ ← I₂.readBinary; Pure.pure ()))
    (hint : Sim P (do let _ ← decodeUleb c₁ I₁.size I₁.readByte; Pure.pure ())
        (do let _ ← decodeUleb c₂ I₂.size I₂.readByte; Pure.pure ()) → Sim P I₁.skipInteger I₂.skipInteger) :
    InputSim P c₂ I₁ I₂ := by
  have hbyte : Sim P I₁.readByte I₂.readByte := by rw [hb₁, hb₂]; exact Sim.map (h 1) _
  have hbin : Sim P I₁.readBinary I₂.readBinary := by
    rw [hbin₁, hbin₂]
    exact Sim.bind (Sim.decodeUleb hc hd hsize hcl.uleb hbyte) fun _ => Sim.ite (Sim.throw _) (h _)
  refine ⟨hd, hcl, hsize, hbyte, ?_, hbin, ?_, ?_⟩
  · rw [hd₁, hd₂]; exact Sim.map (h 8) _
  · exact hint (Sim.discard (Sim.decodeUleb hc hd hsize hcl.uleb hbyte))
  · rw [hs₁, hs₂]; exact Sim.discard hbin

/-- A configuration with the SSE2 skip switched off. -/
def Cfg.noSse2 (cfg : Cfg) : Cfg := { cfg with sse2 := false }

theorem slice_skipInteger_noSse2 {cfg : Cfg} (h : cfg.sse2 = false) :
    (sliceInput cfg).skipInteger = (do let _ ← decodeUleb cfg List.length Slice.readByte; Pure.pure ()) := by
  show Slice.skipInteger cfg = _
  unfold Slice.skipInteger
  rw [h]; rfl

/-- The slice without SSE2 skip is simulated by any reader delivering the same bytes. -/
theorem slice_reader_sim {A : Fail → Prop} (hA : A .diverge) {c₁ c₂ : Cfg} (hc : CfgSim A c₁ c₂)
    (h1 : c₁.sse2 = false) :
    InputSim (SimP.std A fun s evs => Delivers evs s) c₂ (sliceInput c₁) (readerInput c₂) := by
  refine inputSim_of_take (c₁ := c₁) (c₂ := c₂) hA hc (Closed.trivial _ _) sliceTake readExact ?_ ?_ slice_readByte_eq
    reader_readByte_eq slice_readDouble_eq reader_readDouble_eq (slice_readBinary_eq c₁) rfl (slice_skipBinary_eq c₁) rfl ?_
  · intro s t h; exact Nat.le_of_eq (delivers_size h).symm
  · refine fun n => ⟨fun s evs hR => ?_, fun _ _ _ _ _ => trivial⟩
    obtain ⟨h1, h2⟩ := readExact_delivers hR n
    unfold sliceTake
    by_cases h : s.length < n
    · simp only [h, if_true, eof]; right; right; exact h2 h
    · simp only [h, if_false]; exact h1 (by omega)
  · intro h; rw [slice_skipInteger_noSse2 h1]; exact h

/-- End of file replaced by the I/O error `k`. -/
def eofTo (k : ErrorKind) (f : Fail) : Fail := if f = .err (.io .unexpectedEof) then .err (.io k) else f

/-- The slice without SSE2 skip is simulated by any reader delivering the same bytes and then breaking with `k`,
up to the replacement of end of file by that error. -/
theorem slice_breaks_sim (k : ErrorKind) {A : Fail → Prop} (hA : A .diverge) {c₁ c₂ : Cfg} (hc : CfgSim A c₁ c₂)
    (h1 : c₁.sse2 = false) :
    InputSim ⟨A, fun _ => False, fun _ => True, fun s evs => Breaks k evs s, eofTo k,
      fun f h => by unfold eofTo; rw [if_neg (h _)]⟩ c₂ (sliceInput c₁) (readerInput c₂) := by
  refine inputSim_of_take (c₁ := c₁) (c₂ := c₂) hA hc (Closed.trivial _ _) sliceTake readExact ?_ ?_ slice_readByte_eq
    reader_readByte_eq slice_readDouble_eq reader_readDouble_eq (slice_readBinary_eq c₁) rfl (slice_skipBinary_eq c₁) rfl ?_
  · intro s t h; exact Nat.le_of_eq (breaks_size h).symm
  · refine fun n => ⟨fun s evs hR => ?_, fun _ _ _ _ _ => trivial⟩
    obtain ⟨h1, h2⟩ := readExact_breaks hR n
    unfold sliceTake
    by_cases h : s.length < n
    · simp only [h, if_true, eof]; right; right; rw [h2 h]; rfl
    · simp only [h, if_false]; exact h1 (by omega)
  · intro h; rw [slice_skipInteger_noSse2 h1]; exact h

/-- Slice operations never lengthen the slice. -/
theorem slice_closed (cfg : Cfg) (k : Nat) : Closed (fun t : Bytes => t.length < k) cfg (sliceInput cfg) := by
  have hE : Allowed (fun _ => True) cfg := ⟨fun _ _ => trivial, fun _ => trivial, fun _ _ _ => trivial⟩
  have hm : Measured (fun _ => True) (sliceInput cfg) := slice_measured hE fun _ => ⟨trivial, trivial⟩
  have key : ∀ {α : Type} {x : Rd Bytes α},
      (∀ n, Tri (fun s : Bytes => s.length ≤ n) x (fun _ s => s.length ≤ n) (fun _ => True)) →
      Pres (fun t : Bytes => t.length < k) x := by
    intro α x h t a t' hD e
    have := (h t.length).ok (Nat.le_refl _) e
    omega
  refine Closed.of_pres cfg (key fun n => ?_) (key hm.readDouble) (key hm.readBinary) (key hm.skipInteger)
    (key hm.skipBinary)
  exact (hm.readByte n).post fun _ s (h : s.length + 1 ≤ n) => by omega

/-- A slice is simulated by any extension of it, up to truncation (failures in `B`), in which case the extension, if
successful, reads into `suf`. -/
abbrev extendP (A B : Fail → Prop) (suf : Bytes) : SimP Bytes Bytes :=
  ⟨A, B, fun t => t.length < suf.length, fun s t => t = s ++ suf, id, fun _ _ => rfl⟩

theorem slice_extend_sim (suf : Bytes) {A B : Fail → Prop} (hA : A .diverge) (hEof : B (.err (.io .unexpectedEof)))
    {c₁ c₂ : Cfg} (hc : CfgSim A c₁ c₂)
    (hint : Sim (extendP A B suf) (do let _ ← decodeUleb c₁ List.length Slice.readByte; Pure.pure ())
        (do let _ ← decodeUleb c₂ List.length Slice.readByte; Pure.pure ()) →
      Sim (extendP A B suf) (Slice.skipInteger c₁) (Slice.skipInteger c₂)) :
    InputSim (extendP A B suf) c₂ (sliceInput c₁) (sliceInput c₂) := by
  refine inputSim_of_take (P := extendP A B suf) (c₁ := c₁) (c₂ := c₂) hA hc (slice_closed c₂ _) sliceTake sliceTake ?_ ?_
    slice_readByte_eq slice_readByte_eq
    slice_readDouble_eq slice_readDouble_eq (slice_readBinary_eq c₁) (slice_readBinary_eq c₂)
    (slice_skipBinary_eq c₁) (slice_skipBinary_eq c₂) hint
  · rintro s t rfl; simp [sliceInput]
  · refine fun n => ⟨?_, fun t a t' hD e => ?_⟩
    · rintro s t rfl
      unfold sliceTake
      by_cases h : s.length < n
      · simp only [h, if_true, eof]
        refine .inr (.inl ⟨hEof, fun a t' e => ?_⟩)
        by_cases h' : (s ++ suf).length < n
        · rw [if_pos h'] at e; cases e
        · rw [if_neg h'] at e
          simp only [Except.ok.injEq, Prod.mk.injEq] at e
          rw [← e.2]
          simp only [List.length_append, Nat.not_lt] at h'
          show (List.drop n (s ++ suf)).length < suf.length
          simp only [List.length_drop, List.length_append]; omega
      · simp only [h, if_false]
        refine ⟨s.drop n ++ suf, ?_, rfl⟩
        rw [if_neg (by simp; omega), List.take_append_of_le_length (by omega), List.drop_append_of_le_length (by omega)]
    · unfold sliceTake at e
      by_cases h' : t.length < n
      · rw [if_pos h'] at e; cases e
      · rw [if_neg h'] at e
        simp only [Except.ok.injEq, Prod.mk.injEq] at e
        rw [← e.2]
        have : t.length < suf.length := hD
        show (List.drop n t).length < suf.length
        simp only [List.length_drop]; omega

end CT
