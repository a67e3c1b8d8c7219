import Verif.Proofs.Wire
import Verif.Props.Inputs
/-!
# C18, C21, C60, C61: skipping and the wire grammar; build configurations
-/
namespace CT.Props
open CT Spec

/-! ## C60, C61: what overflow checks and allocation failures can change -/

/-- The same build without overflow checks. -/
def unchecked (cfg : Cfg) : Cfg := { cfg with overflowChecks := false }

/-- The same machine with an allocator that never fails. -/
def unlimited (cfg : Cfg) : Cfg := { cfg with alloc := fun _ => true }

theorem reader_cfg_sim {A : Fail → Prop} (hA : A .diverge) {c₁ c₂ : Cfg} (hc : CfgSim A c₁ c₂) :
    InputSim (SimP.std A fun s t => s = t) c₂ (readerInput c₁) (readerInput c₂) := by
  refine inputSim_of_take (c₁ := c₁) (c₂ := c₂) hA hc (Closed.trivial _ _) readExact readExact ?_ ?_
    reader_readByte_eq reader_readByte_eq reader_readDouble_eq reader_readDouble_eq rfl rfl rfl rfl fun h => h
  · rintro s t rfl; exact Nat.le_refl _
  · refine fun n => ⟨?_, fun _ _ _ _ _ => trivial⟩
    rintro s t rfl
    cases h : readExact n s with
    | error f => exact .inr (.inr rfl)
    | ok p => exact ⟨_, rfl, rfl⟩

theorem reader_cfg_same {A : Fail → Prop} (hA : A .diverge) {c₁ c₂ : Cfg} (hc : CfgSim A c₁ c₂) (op : Op)
    (evs : List REvent) :
    (∃ f, A f ∧ op.run c₁ (readerInput c₁) evs = .error f) ∨
      op.run c₁ (readerInput c₁) evs = op.run c₂ (readerInput c₂) evs := by
  have hI := reader_cfg_sim hA hc
  have h := (generic_op op (P := SimP.std A _) hc hI).run evs evs rfl
  dsimp only at h
  cases e : op.run c₁ (readerInput c₁) evs with
  | error f =>
    rw [e] at h
    rcases h with h | h | h
    · exact .inl ⟨f, h, rfl⟩
    · exact h.1.elim
    · exact .inr h.symm
  | ok p =>
    rw [e] at h
    obtain ⟨t, h1, h2⟩ := h
    subst h2
    exact .inr h1.symm

theorem slice_cfg_sim {A : Fail → Prop} (hA : A .diverge) {c₁ c₂ : Cfg} (hc : CfgSim A c₁ c₂) (hs : c₁.sse2 = c₂.sse2) :
    InputSim (SimP.std A fun s t => s = t) c₂ (sliceInput c₁) (sliceInput c₂) := by
  refine inputSim_of_take (c₁ := c₁) (c₂ := c₂) hA hc (Closed.trivial _ _) sliceTake sliceTake ?_ ?_
    slice_readByte_eq slice_readByte_eq slice_readDouble_eq slice_readDouble_eq (slice_readBinary_eq c₁)
    (slice_readBinary_eq c₂) (slice_skipBinary_eq c₁) (slice_skipBinary_eq c₂) fun h => ?_
  · rintro s t rfl; exact Nat.le_refl _
  · refine fun n => ⟨?_, fun _ _ _ _ _ => trivial⟩
    rintro s t rfl
    cases h : sliceTake n s with
    | error f => exact .inr (.inr rfl)
    | ok p => exact ⟨_, rfl, rfl⟩
  · cases h2 : c₂.sse2 with
    | false =>
      rw [slice_skipInteger_noSse2 h2, slice_skipInteger_noSse2 (hs.trans h2)]; exact h
    | true =>
      have e : (sliceInput c₁).skipInteger = (sliceInput c₂).skipInteger := by
        show Slice.skipInteger c₁ = Slice.skipInteger c₂
        unfold Slice.skipInteger
        rw [hs, h2]; rfl
      rw [e]
      refine ⟨?_, fun _ _ _ _ _ => trivial⟩
      rintro s t rfl
      cases h : (sliceInput c₂).skipInteger s with
      | error f => exact .inr (.inr rfl)
      | ok p => exact ⟨_, rfl, rfl⟩

theorem slice_cfg_same {A : Fail → Prop} (hA : A .diverge) {c₁ c₂ : Cfg} (hc : CfgSim A c₁ c₂) (hs : c₁.sse2 = c₂.sse2)
    (op : Op) (s : Bytes) :
    (∃ f, A f ∧ op.run c₁ (sliceInput c₁) s = .error f) ∨
      op.run c₁ (sliceInput c₁) s = op.run c₂ (sliceInput c₂) s := by
  have hI := slice_cfg_sim hA hc hs
  have h := (generic_op op (P := SimP.std A _) hc hI).run s s rfl
  dsimp only at h
  cases e : op.run c₁ (sliceInput c₁) s with
  | error f =>
    rw [e] at h
    rcases h with h | h | h
    · exact .inl ⟨f, h, rfl⟩
    · exact h.1.elim
    · exact .inr h.symm
  | ok p =>
    rw [e] at h
    obtain ⟨t, h1, h2⟩ := h
    subst h2
    exact .inr h1.symm

theorem cfgSim_unchecked (cfg : Cfg) : CfgSim (fun f => f = .diverge ∨ f = .panic) cfg (unchecked cfg) where
  ov h := nomatch h
  ovA _ _ := .inr rfl
  alloc _ h := h
  allocA n h h' := by
    have : cfg.alloc n = true := h'
    rw [h] at this; cases this

theorem cfgSim_unlimited (cfg : Cfg) :
    CfgSim (fun f => f = .diverge ∨ f = .err .reserveError) cfg (unlimited cfg) where
  ov h := h
  ovA h h' := by
    have : cfg.overflowChecks = false := h'
    rw [h] at this; cases this
  alloc _ _ := rfl
  allocA _ _ _ := .inr rfl

/-- C60: a build with overflow checks panics or does exactly what the build without them does. -/
theorem C60_overflow_checks (cfg : Cfg) (op : Op) :
    (∀ s, op.run cfg (sliceInput cfg) s = .error .panic ∨
      op.run cfg (sliceInput cfg) s = op.run (unchecked cfg) (sliceInput (unchecked cfg)) s) ∧
    (∀ evs, op.run cfg (readerInput cfg) evs = .error .panic ∨
      op.run cfg (readerInput cfg) evs = op.run (unchecked cfg) (readerInput (unchecked cfg)) evs) := by
  refine ⟨fun s => ?_, fun evs => ?_⟩
  · rcases slice_cfg_same (A := fun f => f = .diverge ∨ f = .panic) (.inl rfl) (cfgSim_unchecked cfg) rfl op s with ⟨f, h | h, e⟩ | h
    · exact absurd (h ▸ e) (op_slice_notDiverge cfg op s)
    · exact .inl (h ▸ e)
    · exact .inr h
  · rcases reader_cfg_same (A := fun f => f = .diverge ∨ f = .panic) (.inl rfl) (cfgSim_unchecked cfg) op evs with ⟨f, h | h, e⟩ | h
    · exact absurd (h ▸ e) (op_reader_notDiverge cfg op evs)
    · exact .inl (h ▸ e)
    · exact .inr h

/-- The two builds do differ: two headers adding up to a field id beyond `i16` (long form 32767, then a delta). -/
example : (Op.skip 12#8 false).run ⟨true, false, fun _ => true⟩ (sliceInput ⟨true, false, fun _ => true⟩)
      [0x03#8, 0xFE#8, 0xFF#8, 0x03#8, 7#8, 0x13#8, 7#8, 0#8] = .error .panic ∧
    (Op.skip 12#8 false).run ⟨false, false, fun _ => true⟩ (sliceInput ⟨false, false, fun _ => true⟩)
      [0x03#8, 0xFE#8, 0xFF#8, 0x03#8, 7#8, 0x13#8, 7#8, 0#8] = .ok (none, []) := ⟨rfl, rfl⟩

/-- C61: an allocator that refuses some requests leads to `ReserveError` or changes nothing. -/
theorem C61_allocation (cfg : Cfg) (op : Op) :
    (∀ s, op.run cfg (sliceInput cfg) s = .error (.err .reserveError) ∨
      op.run cfg (sliceInput cfg) s = op.run (unlimited cfg) (sliceInput (unlimited cfg)) s) ∧
    (∀ evs, op.run cfg (readerInput cfg) evs = .error (.err .reserveError) ∨
      op.run cfg (readerInput cfg) evs = op.run (unlimited cfg) (readerInput (unlimited cfg)) evs) := by
  refine ⟨fun s => ?_, fun evs => ?_⟩
  · rcases slice_cfg_same (A := fun f => f = .diverge ∨ f = .err .reserveError) (.inl rfl) (cfgSim_unlimited cfg) rfl op s with ⟨f, h | h, e⟩ | h
    · exact absurd (h ▸ e) (op_slice_notDiverge cfg op s)
    · exact .inl (h ▸ e)
    · exact .inr h
  · rcases reader_cfg_same (A := fun f => f = .diverge ∨ f = .err .reserveError) (.inl rfl) (cfgSim_unlimited cfg) op evs with ⟨f, h | h, e⟩ | h
    · exact absurd (h ▸ e) (op_reader_notDiverge cfg op evs)
    · exact .inl (h ▸ e)
    · exact .inr h

/-- Both cases of C61 occur: a list of three bytes with an allocator that grants at most two elements. -/
example : (Op.read [] (.list .i8)).run ⟨false, false, fun n => decide (n ≤ 2)⟩
      (sliceInput ⟨false, false, fun n => decide (n ≤ 2)⟩) [0x33#8, 1#8, 2#8, 3#8] = .error (.err .reserveError) ∧
    (Op.read [] (.list .i8)).run ⟨false, false, fun n => decide (n ≤ 2)⟩
      (sliceInput ⟨false, false, fun n => decide (n ≤ 2)⟩) [0x23#8, 1#8, 2#8] = .ok (some (.list [.i8 1#8, .i8 2#8]), []) :=
  ⟨rfl, rfl⟩

/-! ## C18 -/

/-- Skipping succeeds exactly on well-formed values, in terms of what is skipped for an integer. -/
theorem skip_reads {cfg : Cfg} {int : Bytes → Prop} (hc : SliceReads cfg int) (ft : Byte) (ins : Bool) (s s' : Bytes) :
    (sliceInput cfg).skip cfg ft ins s = .ok ((), s') ↔ ∃ p, s = p ++ s' ∧ WireOf int lenientStop (.value ft.toNat ins) p := by
  constructor
  · intro h
    exact (skip_sound_all hc _).2.2 ft ins _ _ _ h
  · rintro ⟨p, rfl, hp⟩
    obtain ⟨_, _, N, h⟩ := skip_complete (cfg := cfg) hc hp
    have := h (N + 2 * (p ++ s').length + 2) (by omega) s'
    rw [show BitVec.ofNat 8 ft.toNat = ft by simp] at this
    rw [← (C17_bound_irrelevant_slice cfg (p ++ s') (N + 2 * (p ++ s').length + 2)).1 (by omega)]
    exact this

/-- C18, slices without the SSE2 skip, no overflow checks: skipping succeeds exactly on well-formed values and consumes
exactly the value. -/
theorem C18_slice (cfg : Cfg) (hov : cfg.overflowChecks = false) (hs : cfg.sse2 = false) (ft : Byte) (ins : Bool)
    (s s' : Bytes) :
    (sliceInput cfg).skip cfg ft ins s = .ok ((), s') ↔
      ∃ p, s = p ++ s' ∧ Wire lenientStop (.value ft.toNat ins) p :=
  skip_reads (Plain.reads ⟨hov, hs⟩) ft ins s s'

theorem run_skip_ok {σ : Type} {cfg : Cfg} {I : Input σ} {ft : Byte} {ins : Bool} {s s' : σ} :
    I.skip cfg ft ins s = .ok ((), s') ↔ (Op.skip ft ins).run cfg I s = .ok (none, s') := by
  unfold Op.run
  rw [Rd.bind_eq_ok]
  constructor
  · intro h; exact ⟨(), s', h, rfl⟩
  · rintro ⟨_, t, h, e⟩; cases e; exact h

/-- C18 for readers, however the bytes are delivered. -/
theorem C18_reader (cfg : Cfg) (hov : cfg.overflowChecks = false) (ft : Byte) (ins : Bool)
    (evs : List REvent) (s s' : Bytes) (hd : Delivers evs s) :
    (∃ evs', (readerInput cfg).skip cfg ft ins evs = .ok ((), evs') ∧ Delivers evs' s') ↔
      ∃ p, s = p ++ s' ∧ Wire lenientStop (.value ft.toNat ins) p := by
  rw [← C18_slice cfg.noSse2 hov rfl, run_skip_ok]
  have h := slice_reader_same cfg (.skip ft ins) hd
  constructor
  · rintro ⟨evs', h1, h2⟩
    rw [run_skip_ok] at h1
    rw [h1] at h
    cases e : (Op.skip ft ins).run cfg.noSse2 (sliceInput cfg.noSse2) s with
    | error f => rw [e] at h; exact h.elim
    | ok r =>
      obtain ⟨a, t⟩ := r
      rw [e] at h
      obtain ⟨rfl, h3⟩ := h
      rw [Delivers.det h3 h2]
  · intro e
    rw [e] at h
    cases e' : (Op.skip ft ins).run cfg (readerInput cfg) evs with
    | error f => rw [e'] at h; exact h.elim
    | ok r =>
      obtain ⟨a, evs'⟩ := r
      rw [e'] at h
      obtain ⟨rfl, h3⟩ := h
      exact ⟨evs', run_skip_ok.2 e', h3⟩

/-- C18 for slices with the SSE2 skip, if no skipped integer is cut off or longer than 17 bytes. -/
theorem C18_slice_sse2 (cfg : Cfg) (hov : cfg.overflowChecks = false) (ft : Byte) (ins : Bool) (s s' : Bytes)
    (hs : ShortSkips cfg (.skip ft ins) s) :
    (sliceInput cfg).skip cfg ft ins s = .ok ((), s') ↔
      ∃ p, s = p ++ s' ∧ Wire lenientStop (.value ft.toNat ins) p := by
  obtain ⟨evs, hd⟩ := delivers_one s
  rw [← C18_reader cfg hov ft ins evs s s' hd, run_skip_ok]
  have h := sse2_same cfg (.skip ft ins) hd hs
  constructor
  · intro e
    rw [e] at h
    cases e' : (Op.skip ft ins).run cfg (readerInput cfg) evs with
    | error f => rw [e'] at h; exact h.elim
    | ok r =>
      obtain ⟨a, evs'⟩ := r
      rw [e'] at h
      obtain ⟨rfl, h3⟩ := h
      exact ⟨evs', run_skip_ok.2 e', h3⟩
  · rintro ⟨evs', h1, h2⟩
    rw [run_skip_ok] at h1
    rw [h1] at h
    cases e : (Op.skip ft ins).run cfg (sliceInput cfg) s with
    | error f => rw [e] at h; exact h.elim
    | ok r =>
      obtain ⟨a, t⟩ := r
      rw [e] at h
      obtain ⟨rfl, h3⟩ := h
      rw [Delivers.det h3 h2]

/-- C18 with overflow checks: skipping panics, or succeeds exactly on well-formed values. -/
theorem C18_checked (cfg : Cfg) (hs : cfg.sse2 = false) (ft : Byte) (ins : Bool) (s : Bytes) :
    (sliceInput cfg).skip cfg ft ins s = .error .panic ∨
    ∀ s', (sliceInput cfg).skip cfg ft ins s = .ok ((), s') ↔
      ∃ p, s = p ++ s' ∧ Wire lenientStop (.value ft.toNat ins) p := by
  rcases (C60_overflow_checks cfg (.skip ft ins)).1 s with h | h
  · left
    unfold Op.run at h
    rcases Rd.bind_eq_error.1 h with h | ⟨_, _, _, h⟩
    · exact h
    · cases h
  · right
    intro s'
    rw [← C18_slice (unchecked cfg) rfl hs, run_skip_ok, h, run_skip_ok]

theorem Wire.mono {S T : Byte → Prop} (h : ∀ b, S b → T b) {i : Item} {p : Bytes} (hw : Wire S i p) : Wire T i p := by
  induction hw with
  | boolField ft h => exact .boolField ft h
  | boolElem ft b h => exact .boolElem ft b h
  | byte ins b => exact .byte ins b
  | int ft ins p h hp => exact .int ft ins p h hp
  | double ins p h => exact .double ins p h
  | binary ins p bs hp hb => exact .binary ins p bs hp hb
  | list ft ins h et n p hft hh _ ih => exact .list ft ins h et n p hft hh ih
  | mapEmpty ins p hp => exact .mapEmpty ins p hp
  | map ins p n q b hp h0 hn _ ih => exact .map ins p n q b hp h0 hn ih
  | struct ins p _ ih => exact .struct ins p ih
  | elemsNil ft h => exact .elemsNil ft h
  | elemsCons ft n p q _ _ ih1 ih2 => exact .elemsCons ft n p q ih1 ih2
  | entriesNil k v => exact .entriesNil k v
  | entriesCons k v n p q r _ _ _ ih1 ih2 ih3 => exact .entriesCons k v n p q r ih1 ih2 ih3
  | fieldStop b hb => exact .fieldStop b (h b hb)
  | fieldShort b p q h1 h2 _ _ ih1 ih2 => exact .fieldShort b p q h1 h2 ih1 ih2
  | fieldLong b i p q h1 h2 hi _ _ ih1 ih2 => exact .fieldLong b i p q h1 h2 hi ih1 ih2

theorem strict_lenient (b : Byte) (h : strictStop b) : lenientStop b := by
  unfold strictStop at h; unfold lenientStop; omega

/-- C18: in particular every value well-formed according to the protocol is skipped. -/
theorem C18_conforming (cfg : Cfg) (hov : cfg.overflowChecks = false) (hs : cfg.sse2 = false) (ft : Byte) (ins : Bool)
    (p suf : Bytes) (h : Wire strictStop (.value ft.toNat ins) p) :
    (sliceInput cfg).skip cfg ft ins (p ++ suf) = .ok ((), suf) :=
  (C18_slice cfg hov hs ft ins _ _).2 ⟨p, rfl, Wire.mono strict_lenient h⟩

/-- C18: values are self-delimiting: at most one prefix of an input is a value of a given type. -/
theorem C18_self_delimiting (ft : Byte) (ins : Bool) (p q r t : Bytes)
    (hp : Wire lenientStop (.value ft.toNat ins) p) (hq : Wire lenientStop (.value ft.toNat ins) q)
    (h : p ++ r = q ++ t) : p = q ∧ r = t := by
  let cfg : Cfg := ⟨false, false, fun _ => true⟩
  have h1 := (C18_slice cfg rfl rfl ft ins (p ++ r) r).2 ⟨p, rfl, hp⟩
  have h2 := (C18_slice cfg rfl rfl ft ins (q ++ t) t).2 ⟨q, rfl, hq⟩
  rw [h, h2] at h1
  cases h1
  exact ⟨List.append_cancel_right h, rfl⟩

/-- The library accepts more than the protocol: the byte 0x30 ends a struct although it is not the stop byte. -/
theorem C18_counterexample_stop :
    (sliceInput ⟨false, false, fun _ => true⟩).skip ⟨false, false, fun _ => true⟩ 12#8 false [0x30#8] = .ok ((), []) ∧
    ¬ Wire strictStop (.value 12 false) [0x30#8] := by
  refine ⟨by rfl, fun h => ?_⟩
  generalize hp : [0x30#8] = p at h
  cases h with
  | struct _ _ hf =>
    subst hp
    generalize hp : [0x30#8] = p at hf
    cases hf with
    | fieldStop b h =>
      cases hp
      exact absurd h (by unfold strictStop; decide)
    | fieldShort b p q h1 h2 =>
      rw [← (List.cons.inj hp).1] at h2
      exact h2 (by decide)
    | fieldLong b i p q h1 h2 =>
      rw [← (List.cons.inj hp).1] at h1
      exact absurd h1 (by decide)
  | int _ _ _ h => omega
  | list _ _ _ _ _ _ h => omega
  | boolField _ h => omega

/-- A struct with a short-header i32 (a padded varint), a long-header list of two structs, a map from byte to bool. -/
example : Wire strictStop (.value 12 false)
    [0x15#8, 0x80#8, 0x00#8, 0x09#8, 0x06#8, 0x2C#8, 0x00#8, 0x11#8, 0x00#8, 0x2B#8, 0x01#8, 0x31#8, 0x07#8, 0x01#8, 0x00#8] := by
  refine .struct _ _ ?_
  refine .fieldShort 0x15#8 [0x80#8, 0x00#8] _ (by decide) (by decide) (.int _ _ _ (by decide) (by decide)) ?_
  refine .fieldLong 0x09#8 [0x06#8] [0x2C#8, 0x00#8, 0x11#8, 0x00#8] _ (by decide) (by decide) (by decide) ?_ ?_
  · refine .list _ _ [0x2C#8] 12 2 [0x00#8, 0x11#8, 0x00#8] (by decide) (.short 0x2C#8 (by decide)) ?_
    refine .elemsCons _ _ [0x00#8] [0x11#8, 0x00#8] (.struct _ _ (.fieldStop _ rfl)) ?_
    refine .elemsCons _ _ [0x11#8, 0x00#8] [] (.struct _ _ ?_) (.elemsNil _ (by decide))
    exact .fieldShort 0x11#8 [] [0x00#8] (by decide) (by decide) (.boolField _ (by decide)) (.fieldStop _ rfl)
  · refine .fieldShort 0x2B#8 [0x01#8, 0x31#8, 0x07#8, 0x01#8] [0x00#8] (by decide) (by decide) ?_ (.fieldStop _ rfl)
    refine .map _ [0x01#8] 1 [0x07#8, 0x01#8] 0x31#8 (varintVal_leb (p := [0x01#8]) (by decide) (by decide)) (by decide) (by decide) ?_
    exact .entriesCons _ _ 0 [0x07#8] [0x01#8] [] (.byte _ _) (.boolElem _ _ (by decide)) (.entriesNil _ _)

/-! ## C21 -/

/-- `d + 1` list headers nested in each other, the innermost list empty. -/
def nestedLists (d : Nat) : Bytes := List.replicate d 0x19#8 ++ [0x03#8]

theorem nested_wire (d : Nat) (ins : Bool) : Wire strictStop (.value 9 ins) (nestedLists d) := by
  induction d generalizing ins with
  | zero =>
    exact .list _ _ [0x03#8] 3 0 [] (by decide) (.short 0x03#8 (by decide)) (.elemsNil _ (by decide))
  | succ d ih =>
    have := WireOf.elemsCons 9 0 _ [] (ih true) (.elemsNil 9 (by decide))
    rw [List.append_nil] at this
    exact .list _ _ [0x19#8] 9 1 _ (by decide) (.short 0x19#8 (by decide)) this

theorem nested_skipCollection (cfg : Cfg) : ∀ (d n : Nat) (suf : Bytes), n ≤ d →
    skipCollection cfg (sliceInput cfg) n (nestedLists d ++ suf) = .error .diverge := by
  intro d
  induction d with
  | zero => intro n suf h; obtain rfl : n = 0 := by omega
            rw [skipCollection]; rfl
  | succ d ih =>
    intro n suf h
    cases n with
    | zero => rw [skipCollection]; rfl
    | succ n =>
      rw [skipCollection]
      have e : nestedLists (d + 1) ++ suf = 0x19#8 :: (nestedLists d ++ suf) := rfl
      rw [e, Rd.bind_ok (readCollection_short cfg 0x19#8 _ (by decide))]
      show (skipCollection cfg (sliceInput cfg) n >>= fun _ => repeatRd _ 0) _ = _
      exact Rd.bind_err (ih n suf (by omega))

/-- C21: the nesting of calls (`skip_field`, `skip_collection`, `skip_map`) while skipping is at most twice the number of
input bytes plus two, whatever the input; and no limit independent of the input exists: for every depth `d` there is a
well-formed value of `d + 1` bytes, accepted by the library, whose skipping nests more than `d + 1` calls.
(`skipFieldF n` is `skip_field` cut off, with the outcome `diverge`, where more than `n` calls would be nested.) -/
theorem C21_depth (cfg : Cfg) :
    (∀ (s : Bytes) ft ins n, 2 * s.length + 2 ≤ n → skipFieldF cfg (sliceInput cfg) n ft ins s ≠ .error .diverge) ∧
    ∀ d : Nat, ∃ p : Bytes, p.length = d + 1 ∧ Wire strictStop (.value 9 false) p ∧ ∀ n, n ≤ d + 1 →
      skipFieldF cfg (sliceInput cfg) n 9#8 false p = .error .diverge := by
  refine ⟨fun s ft ins n hn h => ?_, fun d => ⟨nestedLists d, by simp [nestedLists], nested_wire d false, fun n hn => ?_⟩⟩
  · rw [(C17_bound_irrelevant_slice cfg s n).1 hn] at h
    refine op_slice_notDiverge cfg (.skip ft ins) s ?_
    unfold Op.run
    exact Rd.bind_err h
  · cases n with
    | zero => rw [skipFieldF]; rfl
    | succ n =>
      rw [skipFieldF]
      have := nested_skipCollection cfg d n [] (by omega)
      rw [List.append_nil] at this
      exact this

/-- The value of C21 for `d = 3`, accepted. -/
example : nestedLists 3 = [0x19#8, 0x19#8, 0x19#8, 0x03#8] ∧
    (sliceInput ⟨false, true, fun _ => true⟩).skip ⟨false, true, fun _ => true⟩ 9#8 false (nestedLists 3) = .ok ((), []) :=
  ⟨rfl, rfl⟩

end CT.Props
