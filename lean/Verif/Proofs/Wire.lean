import Verif.Proofs.Ops
import Verif.Spec.Wire
/-! # Skipping and the wire grammar -/
namespace CT
open Spec

/-! ## Values of varints -/

theorem varintVal_decDigits {p : Bytes} (h : IsVarint p) : VarintVal p (decDigits 0 0#64 p).toNat := by
  refine ⟨h, BitVec.isLt _, fun i hi => ?_⟩
  have := decDigits_getLsbD p 0 0#64 i hi
  rw [BitVec.testBit_toNat]
  simpa using this

theorem VarintVal.unique {p : Bytes} {m n : Nat} (h : VarintVal p m) (h' : VarintVal p n) : m = n := by
  apply Nat.eq_of_testBit_eq
  intro i
  by_cases hi : i < 64
  · have := (h.2.2 i hi).trans (h'.2.2 i hi).symm
    cases hm : m.testBit i <;> cases hn : n.testBit i <;> simp [hm, hn] at this ⊢
  · have hp : 2 ^ 64 ≤ 2 ^ i := Nat.pow_le_pow_right (by omega) (by omega)
    rw [Nat.testBit_lt_two_pow (Nat.lt_of_lt_of_le h.2.1 hp), Nat.testBit_lt_two_pow (Nat.lt_of_lt_of_le h'.2.1 hp)]

/-- For at most ten bytes the library's number is the ordinary one modulo 2^64. -/
theorem varintVal_leb {p : Bytes} (h : IsVarint p) (hl : p.length ≤ 10) : VarintVal p (leb p % 2 ^ 64) := by
  have h1 := uleb_slice_short ⟨false, false, fun _ => true⟩ p [] h hl
  rw [uleb_slice _ p [] h (.inl rfl)] at h1
  have h2 := varintVal_decDigits h
  simp only [Except.ok.injEq, Prod.mk.injEq, and_true] at h1
  rw [h1, BitVec.toNat_ofNat] at h2
  exact h2

theorem varintVal_varint {n : Nat} (h : n < 2 ^ 64) : VarintVal (varint n) n := by
  have := varintVal_leb (varint_isVarint n) (varint_length_le n 9 (by omega))
  rwa [leb_varint, Nat.mod_eq_of_lt h] at this

/-! ## Reading functions described by a relation on consumed bytes -/

/-- If `x` succeeds, it has consumed bytes in `W`. -/
def Sound {α : Type} (x : Rd Bytes α) (W : α → Bytes → Prop) : Prop :=
  ∀ s a s', x s = .ok (a, s') → ∃ p, s = p ++ s' ∧ W a p

/-- On input starting with bytes in `W`, `x` succeeds and consumes exactly these. -/
def Compl {α : Type} (x : Rd Bytes α) (W : α → Bytes → Prop) : Prop :=
  ∀ a p, W a p → ∀ suf, x (p ++ suf) = .ok (a, suf)

section Rules
variable {α β : Type}

theorem Sound.mono {x : Rd Bytes α} {W V : α → Bytes → Prop} (h : Sound x W) (hV : ∀ a p, W a p → V a p) : Sound x V :=
  fun s a s' e => let ⟨p, h1, h2⟩ := h s a s' e; ⟨p, h1, hV _ _ h2⟩

theorem Sound.pure (a : α) : Sound (Pure.pure a) fun b p => b = a ∧ p = [] := by
  intro s b s' h
  rw [Rd.pure_apply] at h
  cases h
  exact ⟨[], rfl, rfl, rfl⟩

theorem Sound.throw (e : ThriftError) {W : α → Bytes → Prop} : Sound (Rd.throw e) W := by
  intro s b s' h; cases h

theorem Sound.fail (e : Fail) {W : α → Bytes → Prop} : Sound (Rd.fail e) W := by
  intro s b s' h; cases h

theorem Sound.bind {x : Rd Bytes α} {f : α → Rd Bytes β} {W : α → Bytes → Prop} {V : α → β → Bytes → Prop}
    {U : β → Bytes → Prop} (hx : Sound x W) (hf : ∀ a p, W a p → Sound (f a) (V a))
    (hU : ∀ a b p q, W a p → V a b q → U b (p ++ q)) : Sound (x >>= f) U := by
  intro s b s' h
  obtain ⟨a, t, h1, h2⟩ := Rd.bind_eq_ok.1 h
  obtain ⟨p, rfl, hp⟩ := hx _ _ _ h1
  obtain ⟨q, rfl, hq⟩ := hf a p hp _ _ _ h2
  exact ⟨p ++ q, by simp, hU a b p q hp hq⟩

end Rules

/-- No overflow checks and no SSE2 skip. -/
structure Plain (cfg : Cfg) : Prop where
  ov : cfg.overflowChecks = false
  sse2 : cfg.sse2 = false

/-- No overflow checks; `int` are the bytes that are skipped for an integer. -/
structure SliceReads (cfg : Cfg) (int : Bytes → Prop) : Prop where
  ov : cfg.overflowChecks = false
  sound : Sound (sliceInput cfg).skipInteger fun _ p => int p
  compl : Compl (sliceInput cfg).skipInteger fun _ p => int p

variable {cfg : Cfg} {int : Bytes → Prop} (hc : SliceReads cfg int)

theorem sound_readByte : Sound (sliceInput cfg).readByte fun b p => p = [b] := by
  intro s b s' h
  cases s with
  | nil => cases h
  | cons c s => cases h; exact ⟨[_], rfl, rfl⟩

section Uleb
variable {cfg : Cfg} (hov : cfg.overflowChecks = false)
include hov

theorem sound_uleb' : Sound (decodeUleb cfg List.length Slice.readByte) fun v p => VarintVal p v.toNat := by
  intro s v s' h
  rcases varint_split s with ⟨p, r, rfl, hp⟩ | hall
  · rw [uleb_slice cfg p r hp (.inl hov)] at h
    cases h
    exact ⟨p, rfl, varintVal_decDigits hp⟩
  · rw [uleb_truncated cfg s hall (.inl hov)] at h
    cases h

theorem compl_uleb' : Compl (decodeUleb cfg List.length Slice.readByte) fun v p => VarintVal p v.toNat := by
  intro v p h suf
  rw [uleb_slice cfg p suf h.1 (.inl hov)]
  have := VarintVal.unique (varintVal_decDigits h.1) h
  rw [BitVec.eq_of_toNat_eq this]

end Uleb

/-- Without SSE2 exactly the varints are skipped. -/
theorem Plain.reads {cfg : Cfg} (h : Plain cfg) : SliceReads cfg IsVarint where
  ov := h.ov
  sound := by
    rw [slice_skipInteger_noSse2 h.sse2]
    refine (sound_uleb' h.ov).bind (fun v p _ => Sound.pure _) ?_
    rintro v n p q h ⟨rfl, rfl⟩
    simpa using h.1
  compl := by
    intro _ p hp suf
    rw [slice_skipInteger_noSse2 h.sse2, Rd.bind_ok (compl_uleb' h.ov _ p (varintVal_decDigits hp) suf)]
    rfl

include hc

theorem sound_uleb : Sound (decodeUleb cfg List.length Slice.readByte) fun v p => VarintVal p v.toNat := sound_uleb' hc.ov

theorem compl_uleb : Compl (decodeUleb cfg List.length Slice.readByte) fun v p => VarintVal p v.toNat := compl_uleb' hc.ov

theorem sound_readLen : Sound (Slice.readLen cfg) fun n p => VarintVal p n := by
  unfold Slice.readLen
  refine (sound_uleb hc).bind (fun v p _ => Sound.pure _) ?_
  rintro v n p q h ⟨rfl, rfl⟩
  simpa using h

theorem compl_readLen : Compl (Slice.readLen cfg) fun n p => VarintVal p n := by
  intro n p h suf
  unfold Slice.readLen
  have : VarintVal p (BitVec.ofNat 64 n).toNat := by
    rw [BitVec.toNat_ofNat, Nat.mod_eq_of_lt h.2.1]; exact h
  rw [Rd.bind_ok (compl_uleb hc _ p this suf), Rd.pure_apply, BitVec.toNat_ofNat, Nat.mod_eq_of_lt h.2.1]

omit hc in
theorem sound_skipDouble : Sound (do let _ ← (sliceInput cfg).readDouble; pure ()) fun _ p => p.length = 8 := by
  intro s a s' h
  obtain ⟨x, t, h1, h2⟩ := Rd.bind_eq_ok.1 h
  cases h2
  change Slice.readDouble s = _ at h1
  unfold Slice.readDouble at h1
  split at h1
  · cases h1
  · cases h1
    exact ⟨s.take 8, (List.take_append_drop 8 s).symm, by simp; omega⟩

omit hc in
theorem compl_skipDouble : Compl (do let _ ← (sliceInput cfg).readDouble; pure ()) fun _ p => p.length = 8 := by
  intro _ p h suf
  have : (sliceInput cfg).readDouble (p ++ suf) = .ok (fromLeBytes p, suf) := by
    show Slice.readDouble _ = _
    unfold Slice.readDouble
    rw [if_neg (by simp; omega), List.take_left' h, List.drop_left' h]
  rw [Rd.bind_ok this]; rfl

theorem sound_skipBinary : Sound (sliceInput cfg).skipBinary
    fun _ p => ∃ q bs, p = q ++ bs ∧ VarintVal q bs.length ∧ bs.length ≤ 16777216 := by
  show Sound (Slice.skipBinary cfg) _
  unfold Slice.skipBinary
  refine (sound_readLen hc).bind (V := fun n _ q => q.length = n ∧ n ≤ 16777216) (fun n p _ => ?_) ?_
  · intro s a s' h
    rw [Rd.ite_apply'] at h
    split at h
    · cases h
    · rename_i hm
      rw [Rd.of_apply] at h
      split at h
      · cases h
      · cases h
        exact ⟨s.take n, (List.take_append_drop n s).symm, by simp; omega, by unfold MAX_BINARY_LEN at hm; omega⟩
  · rintro n _ p q hp ⟨rfl, hn⟩
    exact ⟨p, q, rfl, hp, hn⟩

theorem compl_skipBinary : Compl (sliceInput cfg).skipBinary
    fun _ p => ∃ q bs, p = q ++ bs ∧ VarintVal q bs.length ∧ bs.length ≤ 16777216 := by
  rintro _ _ ⟨q, bs, rfl, hq, hb⟩ suf
  show Slice.skipBinary cfg _ = _
  unfold Slice.skipBinary
  rw [List.append_assoc, Rd.bind_ok (compl_readLen hc _ _ hq _), if_neg (by unfold MAX_BINARY_LEN; omega)]
  simp; intro h; omega

theorem sound_collection : Sound ((sliceInput cfg).readCollectionLenAndType cfg)
    fun r p => ListHeader p r.2.toNat r.1 := by
  intro s r s' h
  cases s with
  | nil => cases h
  | cons b s =>
    by_cases h15 : b.toNat / 16 = 15
    · unfold Input.readCollectionLenAndType at h
      rw [Rd.bind_ok (slice_readByte_cons cfg b _)] at h
      have h0 : (b &&& 0xF0#8) >>> 4 = 0x0F#8 := by
        apply BitVec.eq_of_toNat_eq; rw [and_f0_shr4_toNat, h15]; rfl
      simp only [h0, ne_eq, not_true_eq_false, if_false] at h
      obtain ⟨n, t, h1, h2⟩ := Rd.bind_eq_ok.1 h
      obtain ⟨p, rfl, hp⟩ := sound_readLen hc _ _ _ h1
      rw [Rd.ite_apply'] at h2
      split at h2
      · cases h2
      · rename_i hm
        cases h2
        refine ⟨b :: p, rfl, ?_⟩
        have := ListHeader.long b p n h15 hp (by unfold MAX_COLLECTION_LEN at hm; omega)
        simpa only [and_0f_toNat] using this
    · rw [readCollection_short cfg b s h15] at h
      cases h
      refine ⟨[b], rfl, ?_⟩
      have hb := byte_lt b
      have := ListHeader.short b (by omega)
      have e : (BitVec.ofNat 8 (b.toNat % 16)).toNat = b.toNat % 16 := by rw [BitVec.toNat_ofNat]; omega
      simpa only [e] using this

theorem compl_collection : Compl ((sliceInput cfg).readCollectionLenAndType cfg)
    fun r p => ListHeader p r.2.toNat r.1 := by
  rintro ⟨n, et⟩ p h suf
  simp only at h
  generalize hk : et.toNat = k at h
  cases h with
  | short b hb =>
    rw [List.singleton_append, readCollection_short cfg b suf (by omega)]
    congr 3
    apply BitVec.eq_of_toNat_eq; rw [BitVec.toNat_ofNat, hk]; omega
  | long b p n hb hp hn =>
    unfold Input.readCollectionLenAndType
    rw [List.cons_append, Rd.bind_ok (slice_readByte_cons cfg b _)]
    have h0 : (b &&& 0xF0#8) >>> 4 = 0x0F#8 := by
      apply BitVec.eq_of_toNat_eq; rw [and_f0_shr4_toNat, hb]; rfl
    simp only [h0, ne_eq, not_true_eq_false, if_false]
    have e : (sliceInput cfg).readLen cfg (p ++ suf) = .ok (n, suf) := compl_readLen hc _ _ hp suf
    rw [Rd.bind_ok e, if_neg (by unfold MAX_COLLECTION_LEN; omega), Rd.pure_apply]
    congr 3
    apply BitVec.eq_of_toNat_eq; rw [and_0f_toNat, hk]

/-- Bytes of a map header. -/
def MapHeader (r : Nat × Byte × Byte) (p : Bytes) : Prop :=
  (r = (0, 0#8, 0#8) ∧ VarintVal p 0) ∨
  ∃ q b, p = q ++ [b] ∧ VarintVal q r.1 ∧ 0 < r.1 ∧ r.1 ≤ 10000000 ∧ r.2.1.toNat = b.toNat / 16 ∧ r.2.2.toNat = b.toNat % 16

theorem sound_mapHeader : Sound ((sliceInput cfg).readMapLenAndTypes cfg) MapHeader := by
  unfold Input.readMapLenAndTypes
  intro s r s' h
  obtain ⟨n, t, h1, h2⟩ := Rd.bind_eq_ok.1 h
  obtain ⟨p, rfl, hp⟩ := sound_readLen hc _ _ _ h1
  rw [Rd.ite_apply'] at h2
  split at h2
  · rename_i hn; subst hn; cases h2
    exact ⟨p, rfl, .inl ⟨rfl, hp⟩⟩
  · obtain ⟨b, u, h3, h4⟩ := Rd.bind_eq_ok.1 h2
    obtain ⟨q, rfl, rfl⟩ := sound_readByte _ _ _ h3
    rw [Rd.ite_apply'] at h4
    split at h4
    · cases h4
    · rename_i hm
      cases h4
      refine ⟨p ++ [b], by simp, .inr ⟨p, b, rfl, hp, by simp; omega, by unfold MAX_COLLECTION_LEN at hm; simp; omega, ?_, ?_⟩⟩
      · exact shr4_toNat b
      · exact and_0f_toNat b

theorem compl_mapHeader : Compl ((sliceInput cfg).readMapLenAndTypes cfg) MapHeader := by
  rintro ⟨n, k, v⟩ p h suf
  unfold Input.readMapLenAndTypes
  rcases h with ⟨h, hp⟩ | ⟨q, b, rfl, hq, h0, hn, hk, hv⟩
  · cases h
    have e : (sliceInput cfg).readLen cfg (p ++ suf) = .ok (0, suf) := compl_readLen hc _ _ hp suf
    rw [Rd.bind_ok e]; rfl
  · simp only at hq h0 hn hk hv
    have e : (sliceInput cfg).readLen cfg (q ++ ([b] ++ suf)) = .ok (n, [b] ++ suf) := compl_readLen hc _ _ hq _
    rw [List.append_assoc, Rd.bind_ok e, if_neg (by omega), List.singleton_append,
      Rd.bind_ok (slice_readByte_cons cfg b suf)]
    rw [if_neg (by unfold MAX_COLLECTION_LEN; omega), Rd.pure_apply]
    congr 4
    · apply BitVec.eq_of_toNat_eq; rw [shr4_toNat, hk]
    · apply BitVec.eq_of_toNat_eq; rw [and_0f_toNat, hv]

/-- Bytes of a field header, without the id. -/
def HeaderBytes (ft : Nat) (p : Bytes) : Prop :=
  (∃ b, p = [b] ∧ ft = b.toNat % 16 ∧ (b.toNat / 16 ≠ 0 ∨ b.toNat = 0)) ∨
  ∃ b i, p = b :: i ∧ ft = b.toNat ∧ b.toNat / 16 = 0 ∧ b.toNat ≠ 0 ∧ IsVarint i

theorem sound_header (last : BitVec 16) : Sound ((sliceInput cfg).readFieldHeader cfg last)
    fun r p => HeaderBytes r.1.toNat p := by
  intro s r s' h
  cases s with
  | nil => cases h
  | cons b s =>
    have hb := byte_lt b
    by_cases h0 : b = 0#8
    · subst h0
      rw [readHeader_stop] at h; cases h
      exact ⟨[0#8], rfl, .inl ⟨0#8, rfl, rfl, .inr rfl⟩⟩
    · have hb0 : b.toNat ≠ 0 := fun h => h0 (BitVec.eq_of_toNat_eq h)
      by_cases h16 : 16 ≤ b.toNat
      · rw [readHeader_short cfg last b s h16, if_neg (by simp [hc.ov])] at h
        cases h
        exact ⟨[b], rfl, .inl ⟨b, rfl, by simp; omega, .inl (by omega)⟩⟩
      · rw [readHeader_long cfg last b s (by omega) h0] at h
        split at h
        · cases h
        · rename_i id t hid
          cases h
          unfold Input.readFullFieldId at hid
          obtain ⟨v, u, h1, h2⟩ := Rd.bind_eq_ok.1 hid
          obtain ⟨p, rfl, hp⟩ := sound_uleb hc _ _ _ h1
          cases h2
          exact ⟨b :: p, rfl, .inr ⟨b, p, rfl, rfl, by omega, hb0, hp.1⟩⟩

theorem compl_header (last : BitVec 16) (ft : Nat) (p : Bytes) (h : HeaderBytes ft p) (suf : Bytes) :
    ∃ last', (sliceInput cfg).readFieldHeader cfg last (p ++ suf) = .ok ((BitVec.ofNat 8 ft, last'), suf) := by
  rcases h with ⟨b, rfl, rfl, h⟩ | ⟨b, i, rfl, rfl, h1, h2, hi⟩
  · rcases h with h | h
    · rw [List.singleton_append, readHeader_short cfg last b suf (by omega), if_neg (by simp [hc.ov])]
      exact ⟨_, rfl⟩
    · have : b = 0#8 := BitVec.eq_of_toNat_eq h
      subst this
      rw [List.singleton_append, readHeader_stop]
      exact ⟨_, rfl⟩
  · rw [List.cons_append, readHeader_long cfg last b _ (by omega) (fun e => h2 (by rw [e]; rfl))]
    have e : (sliceInput cfg).readFullFieldId cfg (i ++ suf) =
        .ok (zigzagDecode ((decDigits 0 0#64 i).setWidth 16), suf) := by
      unfold Input.readFullFieldId
      rw [slice_uleb, Rd.bind_ok (compl_uleb hc _ i (varintVal_decDigits hi) suf)]; rfl
    rw [e]
    simp

/-! ## Soundness of skipping -/

omit hc in
theorem sound_repeat {act : Rd Bytes Unit} {W : Bytes → Prop} (h : Sound act fun _ => W) {V : Nat → Bytes → Prop}
    (h0 : V 0 []) (hs : ∀ n p q, W p → V n q → V (n + 1) (p ++ q)) :
    ∀ n, Sound (repeatRd act n) fun _ => V n := by
  intro n
  induction n with
  | zero =>
    refine (Sound.pure ()).mono ?_
    rintro _ p ⟨_, rfl⟩; exact h0
  | succ n ih => exact h.bind (fun _ _ _ => ih) fun _ _ p q hp hq => hs n p q hp hq

abbrev LWireOf (int : Bytes → Prop) := WireOf int lenientStop

abbrev LWire := Wire lenientStop

/-- Soundness of `skip_field` for one fuel. -/
def SkipSound (cfg : Cfg) (int : Bytes → Prop) (m : Nat) : Prop :=
  ∀ ft ins, Sound (skipFieldF cfg (sliceInput cfg) m ft ins) fun _ => LWireOf int (.value ft.toNat ins)

theorem sound_structLoop {skip1 : Byte → Rd Bytes Unit}
    (h1 : ∀ ft, Sound (skip1 ft) fun _ => LWireOf int (.value ft.toNat false)) :
    ∀ fuel last, Sound (skipStructLoop cfg (sliceInput cfg) skip1 fuel last) fun _ => LWireOf int .fields := by
  intro fuel
  induction fuel with
  | zero => intro last; exact Sound.fail _
  | succ fuel ih =>
    intro last
    unfold skipStructLoop
    refine (sound_header hc last).bind (V := fun r _ q => if r.1.toNat = 0 then q = [] else
      ∃ q1 q2, q = q1 ++ q2 ∧ LWireOf int (.value r.1.toNat false) q1 ∧ LWireOf int .fields q2) ?_ ?_
    · rintro ⟨ft, last'⟩ p hp
      intro s a s' h
      simp only [Rd.ite_apply'] at h
      by_cases h0 : ft = 0#8
      · subst h0
        simp only [if_true] at h
        cases h
        exact ⟨[], rfl, by simp⟩
      · rw [if_neg h0] at h
        have hft : ft.toNat ≠ 0 := fun e => h0 (BitVec.eq_of_toNat_eq e)
        obtain ⟨_, t, h2, h3⟩ := Rd.bind_eq_ok.1 h
        obtain ⟨q1, rfl, hq1⟩ := h1 ft _ _ _ h2
        obtain ⟨q2, rfl, hq2⟩ := ih last' _ _ _ h3
        exact ⟨q1 ++ q2, by simp, by simp only [hft, if_false]; exact ⟨q1, q2, rfl, hq1, hq2⟩⟩
    · rintro ⟨ft, last'⟩ _ p q hp hq
      simp only at hp hq
      split at hq
      · rename_i h0
        subst hq
        rw [List.append_nil]
        rcases hp with ⟨b, rfl, h, _⟩ | ⟨b, i, rfl, h, h1, h2, hi⟩
        · exact .fieldStop b (by unfold lenientStop; omega)
        · omega
      · rename_i h0
        obtain ⟨q1, q2, rfl, hq1, hq2⟩ := hq
        rcases hp with ⟨b, rfl, h, hz⟩ | ⟨b, i, rfl, h, h1, h2, hi⟩
        · rw [h] at hq1
          exact .fieldShort b q1 q2 (by omega) (by omega) hq1 hq2
        · rw [h] at hq1
          rw [List.cons_append]
          exact .fieldLong b i q1 q2 h1 h2 hi hq1 hq2

theorem skip_sound_all : ∀ m,
    (∀ ft : Nat, ft = 9 ∨ ft = 10 → ∀ ins, Sound (skipCollection cfg (sliceInput cfg) m) fun _ => LWireOf int (.value ft ins)) ∧
    (∀ ins, Sound (skipMap cfg (sliceInput cfg) m) fun _ => LWireOf int (.value 11 ins)) ∧
    SkipSound cfg int m := by
  intro m
  induction m with
  | zero =>
    refine ⟨fun _ _ _ => ?_, fun _ => ?_, fun _ _ => ?_⟩
    · rw [skipCollection]; exact Sound.fail _
    · rw [skipMap]; exact Sound.fail _
    · rw [skipFieldF]; exact Sound.fail _
  | succ m ih =>
    obtain ⟨ihc, ihm, ihf⟩ := ih
    have hbyte : Sound (do let _ ← (sliceInput cfg).readByte; pure ()) fun (_ : Unit) p => ∃ b, p = [b] := by
      refine sound_readByte.bind (fun _ _ _ => Sound.pure _) ?_
      rintro b _ p q rfl ⟨_, rfl⟩
      exact ⟨b, rfl⟩
    refine ⟨fun ft hft ins => ?_, fun ins => ?_, fun ft ins => ?_⟩
    · rw [skipCollection]
      refine (sound_collection hc).bind (V := fun r _ q => LWireOf int (.elems r.2.toNat r.1) q) ?_
        (fun r _ p q hp hq => .list ft ins p _ _ q hft hp hq)
      rintro ⟨n, et⟩ p hp
      dsimp only
      have hrep : ∀ {act : Rd Bytes Unit}, (1 ≤ et.toNat ∧ et.toNat ≤ 12) → Sound act (fun _ => LWireOf int (.value et.toNat true)) →
          Sound (repeatRd act n) fun _ => LWireOf int (.elems et.toNat n) := fun h12 h =>
        sound_repeat (V := fun n p => LWireOf int (.elems et.toNat n) p) h (.elemsNil _ h12)
          (fun n p q hp hq => .elemsCons _ n p q hp hq) n
      generalize hk : et.toNat = k at hrep
      split
      · exact hrep (by omega) (hbyte.mono fun _ p ⟨b, h⟩ => h ▸ .boolElem _ b (.inl rfl))
      · exact hrep (by omega) (hbyte.mono fun _ p ⟨b, h⟩ => h ▸ .boolElem _ b (.inr rfl))
      · exact hrep (by omega) (hbyte.mono fun _ p ⟨b, h⟩ => h ▸ .byte _ b)
      · exact hrep (by omega) ((hc.sound).mono fun _ p h => .int _ _ p (by omega) h)
      · exact hrep (by omega) ((hc.sound).mono fun _ p h => .int _ _ p (by omega) h)
      · exact hrep (by omega) ((hc.sound).mono fun _ p h => .int _ _ p (by omega) h)
      · exact hrep (by omega) (sound_skipDouble.mono fun _ p h => .double _ p h)
      · exact hrep (by omega) ((sound_skipBinary hc).mono fun _ p ⟨q, bs, e, h1, h2⟩ => e ▸ .binary _ q bs h1 h2)
      · exact hrep (by omega) (ihc _ (by omega) true)
      · exact hrep (by omega) (ihc _ (by omega) true)
      · exact hrep (by omega) (ihm true)
      · exact hrep (by omega) ((ihf 12#8 false).mono fun _ p h => by
          cases h with
          | struct _ _ hp => exact .struct _ _ hp
          | int _ _ _ h => simp at h
          | list _ _ _ _ _ _ h => simp at h
          | boolField _ h => simp at h)
      · exact Sound.throw _
    · rw [skipMap]
      refine (sound_mapHeader hc).bind (V := fun r _ q => LWireOf int (.entries r.2.1.toNat r.2.2.toNat r.1) q) ?_ ?_
      · rintro ⟨n, k, v⟩ p hp
        dsimp only
        refine sound_repeat (W := fun p => ∃ q r, p = q ++ r ∧ LWireOf int (.value k.toNat true) q ∧ LWireOf int (.value v.toNat true) r)
          (V := fun n p => LWireOf int (.entries k.toNat v.toNat n) p) ?_ (.entriesNil _ _) ?_ n
        · exact (ihf k true).bind (fun _ _ _ => ihf v true) fun _ _ p q hp hq => ⟨p, q, rfl, hp, hq⟩
        · rintro n _ r ⟨p, q, rfl, hp, hq⟩ hr
          exact .entriesCons _ _ n p q r hp hq hr
      · rintro ⟨n, k, v⟩ _ p q hp hq
        rcases hp with ⟨h, hp⟩ | ⟨p, b, rfl, hp, h0, hn, hk, hv⟩
        · cases h
          generalize hm : (0#8 : Byte).toNat = z at hq
          cases hq
          rw [List.append_nil]
          exact .mapEmpty _ _ hp
        · simp only at hp h0 hn hk hv hq
          rw [hk, hv] at hq
          rw [List.append_assoc, List.singleton_append]
          exact .map _ p n q b hp h0 hn hq
    · rw [skipFieldF]
      generalize hk : ft.toNat = k
      split
      · split
        · rename_i h; subst h
          exact hbyte.mono fun _ p ⟨b, h⟩ => h ▸ .boolElem _ b (by omega)
        · rename_i h
          have : ins = false := by simpa using h
          subst this
          exact (Sound.pure ()).mono fun _ p ⟨_, h⟩ => h ▸ .boolField _ (by omega)
      · split
        · rename_i h; subst h
          exact hbyte.mono fun _ p ⟨b, h⟩ => h ▸ .boolElem _ b (by omega)
        · rename_i h
          have : ins = false := by simpa using h
          subst this
          exact (Sound.pure ()).mono fun _ p ⟨_, h⟩ => h ▸ .boolField _ (by omega)
      · exact hbyte.mono fun _ p ⟨b, h⟩ => h ▸ .byte _ b
      · exact (hc.sound).mono fun _ p h => .int _ _ p (by omega) h
      · exact (hc.sound).mono fun _ p h => .int _ _ p (by omega) h
      · exact (hc.sound).mono fun _ p h => .int _ _ p (by omega) h
      · exact sound_skipDouble.mono fun _ p h => .double _ p h
      · exact (sound_skipBinary hc).mono fun _ p ⟨q, bs, e, h1, h2⟩ => e ▸ .binary _ q bs h1 h2
      · exact ihc _ (by omega) ins
      · exact ihc _ (by omega) ins
      · exact ihm ins
      · intro s a s' h
        obtain ⟨p, h1, h2⟩ := sound_structLoop hc (fun ft => ihf ft false) _ _ _ _ _ h
        exact ⟨p, h1, .struct _ _ h2⟩
      · exact Sound.throw _


/-! ## Completeness of skipping -/

omit hc in
theorem compl_repeat_cons {act : Rd Bytes Unit} {n : Nat} {p q suf : Bytes} (h : act (p ++ (q ++ suf)) = .ok ((), q ++ suf))
    (hq : repeatRd act n (q ++ suf) = .ok ((), suf)) : repeatRd act (n + 1) (p ++ q ++ suf) = .ok ((), suf) := by
  rw [List.append_assoc]
  show (act >>= fun _ => repeatRd act n) _ = _
  rw [Rd.bind_ok h]; exact hq

omit hc in
/-- What `skip_collection` does per element is what `skip_field` does inside a collection. -/
theorem skipCollection_of_header {m n : Nat} {et : Byte} (h12 : 1 ≤ et.toNat ∧ et.toNat ≤ 12) {h p suf : Bytes}
    (hh : (sliceInput cfg).readCollectionLenAndType cfg (h ++ (p ++ suf)) = .ok ((n, et), p ++ suf))
    (h1 : repeatRd (skipFieldF cfg (sliceInput cfg) m et true) n (p ++ suf) = .ok ((), suf))
    (h2 : repeatRd (skipFieldF cfg (sliceInput cfg) (m + 1) et true) n (p ++ suf) = .ok ((), suf)) :
    skipCollection cfg (sliceInput cfg) (m + 1) (h ++ p ++ suf) = .ok ((), suf) := by
  rw [skipCollection, List.append_assoc, Rd.bind_ok hh]
  dsimp only
  have hstruct : et.toNat = 12 → et = 12#8 := fun e => BitVec.eq_of_toNat_eq e
  rw [skipFieldF] at h2
  generalize hk : et.toNat = k at h2 hstruct h12 ⊢
  split
  · exact h2
  · exact h2
  · exact h2
  · exact h2
  · exact h2
  · exact h2
  · exact h2
  · exact h2
  · exact h2
  · exact h2
  · exact h2
  · have := hstruct rfl
    subst this
    have e : skipFieldF cfg (sliceInput cfg) m 12#8 false = skipFieldF cfg (sliceInput cfg) m 12#8 true := by
      cases m with
      | zero => rw [skipFieldF, skipFieldF]
      | succ m => rw [skipFieldF, skipFieldF]; rfl
    rw [e]; exact h1
  · rename_i a1 a2 a3 a4 a5 a6 a7 a8 a9 a10 a11 a12
    simp only [imp_false] at a1 a2 a3 a4 a5 a6 a7 a8 a9 a10 a11 a12
    omega

theorem skipCollection_elems {m n : Nat} {et : Byte} (h12 : 1 ≤ et.toNat ∧ et.toNat ≤ 12) {h p suf : Bytes}
    (hh : ListHeader h et.toNat n)
    (h1 : repeatRd (skipFieldF cfg (sliceInput cfg) m et true) n (p ++ suf) = .ok ((), suf))
    (h2 : repeatRd (skipFieldF cfg (sliceInput cfg) (m + 1) et true) n (p ++ suf) = .ok ((), suf)) :
    skipCollection cfg (sliceInput cfg) (m + 1) (h ++ p ++ suf) = .ok ((), suf) :=
  skipCollection_of_header h12 (compl_collection hc (n, et) h hh (p ++ suf)) h1 h2

/-- With enough fuel, each item of the grammar is consumed by the corresponding part of `skip_field`. -/
def SkipsItem (cfg : Cfg) : Item → Bytes → Prop
  | .value ft ins, p => 1 ≤ ft ∧ ft ≤ 12 ∧ ∃ N, ∀ m, N ≤ m → ∀ suf,
      skipFieldF cfg (sliceInput cfg) m (BitVec.ofNat 8 ft) ins (p ++ suf) = .ok ((), suf)
  | .elems ft n, p => 1 ≤ ft ∧ ft ≤ 12 ∧ ∃ N, ∀ m, N ≤ m → ∀ suf,
      repeatRd (skipFieldF cfg (sliceInput cfg) m (BitVec.ofNat 8 ft) true) n (p ++ suf) = .ok ((), suf)
  | .entries k v n, p => ∃ N, ∀ m, N ≤ m → ∀ suf,
      repeatRd (do skipFieldF cfg (sliceInput cfg) m (BitVec.ofNat 8 k) true
                   skipFieldF cfg (sliceInput cfg) m (BitVec.ofNat 8 v) true) n (p ++ suf) = .ok ((), suf)
  | .fields, p => ∃ N, ∀ m, N ≤ m → ∀ last fuel suf, p.length ≤ fuel →
      skipStructLoop cfg (sliceInput cfg) (fun ft => skipFieldF cfg (sliceInput cfg) m ft false) fuel last (p ++ suf) =
        .ok ((), suf)

omit hc in
theorem ofNat8_toNat {n : Nat} (h : n < 256) : (BitVec.ofNat 8 n).toNat = n := by
  rw [BitVec.toNat_ofNat]; omega

theorem skip_complete {item : Item} {p : Bytes} (h : LWireOf int item p) : SkipsItem cfg item p := by
  have one : ∀ {x : Nat → Bytes → Except Fail (Unit × Bytes)} {p : Bytes}, (∀ m suf, x (m + 1) (p ++ suf) = .ok ((), suf)) →
      ∃ N, ∀ m, N ≤ m → ∀ suf, x m (p ++ suf) = .ok ((), suf) := by
    intro x p h
    refine ⟨1, fun m hm suf => ?_⟩
    obtain ⟨m, rfl⟩ : ∃ k, m = k + 1 := ⟨m - 1, by omega⟩
    exact h m suf
  induction h with
  | boolField ft h =>
    refine ⟨by omega, by omega, one fun m suf => ?_⟩
    rcases h with rfl | rfl <;> (rw [skipFieldF]; rfl)
  | boolElem ft b h =>
    refine ⟨by omega, by omega, one fun m suf => ?_⟩
    rcases h with rfl | rfl <;> (rw [skipFieldF]; rfl)
  | byte ins b =>
    refine ⟨by omega, by omega, one fun m suf => ?_⟩
    rw [skipFieldF]; rfl
  | int ft ins p h hp =>
    refine ⟨by omega, by omega, one fun m suf => ?_⟩
    have := hc.compl () p hp suf
    rcases h with rfl | rfl | rfl <;> (rw [skipFieldF]; exact this)
  | double ins p h =>
    refine ⟨by omega, by omega, one fun m suf => ?_⟩
    rw [skipFieldF]; exact compl_skipDouble (cfg := cfg) () p h suf
  | binary ins p bs hp hb =>
    refine ⟨by omega, by omega, one fun m suf => ?_⟩
    rw [skipFieldF]; exact compl_skipBinary hc () _ ⟨p, bs, rfl, hp, hb⟩ suf
  | list ft ins h et n p hft hh hp ih =>
    obtain ⟨h1, h12, N, ih⟩ := ih
    refine ⟨by omega, by omega, N + 2, fun m hm suf => ?_⟩
    obtain ⟨m, rfl⟩ : ∃ k, m = k + 2 := ⟨m - 2, by omega⟩
    have he : (BitVec.ofNat 8 et).toNat = et := ofNat8_toNat (by omega)
    have key := skipCollection_elems hc (m := m) (n := n) (et := BitVec.ofNat 8 et) (by omega) (by rw [he]; exact hh)
      (ih m (by omega) suf) (ih (m + 1) (by omega) suf)
    rcases hft with rfl | rfl <;> (rw [skipFieldF]; exact key)
  | mapEmpty ins p hp =>
    refine ⟨by omega, by omega, 2, fun m hm suf => ?_⟩
    obtain ⟨m, rfl⟩ : ∃ k, m = k + 2 := ⟨m - 2, by omega⟩
    rw [skipFieldF]
    show skipMap _ _ (m + 1) _ = _
    rw [skipMap, Rd.bind_ok (compl_mapHeader hc (0, 0#8, 0#8) p (.inl ⟨rfl, hp⟩) suf)]
    rfl
  | map ins p n q b hp h0 hn hq ih =>
    obtain ⟨N, ih⟩ := ih
    refine ⟨by omega, by omega, N + 2, fun m hm suf => ?_⟩
    obtain ⟨m, rfl⟩ : ∃ k, m = k + 2 := ⟨m - 2, by omega⟩
    have hb := byte_lt b
    rw [skipFieldF]
    show skipMap _ _ (m + 1) _ = _
    have e : p ++ b :: q ++ suf = (p ++ [b]) ++ (q ++ suf) := by simp
    rw [skipMap, e, Rd.bind_ok (compl_mapHeader hc (n, BitVec.ofNat 8 (b.toNat / 16), BitVec.ofNat 8 (b.toNat % 16)) (p ++ [b])
      (.inr ⟨p, b, rfl, hp, h0, hn, ofNat8_toNat (by omega), ofNat8_toNat (by omega)⟩) (q ++ suf))]
    exact ih m (by omega) suf
  | struct ins p hp ih =>
    obtain ⟨N, ih⟩ := ih
    refine ⟨by omega, by omega, N + 1, fun m hm suf => ?_⟩
    obtain ⟨m, rfl⟩ : ∃ k, m = k + 1 := ⟨m - 1, by omega⟩
    rw [skipFieldF]
    exact ih m (by omega) 0#16 _ suf (by show _ ≤ (p ++ suf).length + 1; rw [List.length_append]; omega)
  | elemsNil ft h => exact ⟨h.1, h.2, 0, fun m _ suf => rfl⟩
  | elemsCons ft n p q hp hq ihp ihq =>
    obtain ⟨h1, h2, N, ihp⟩ := ihp
    obtain ⟨_, _, M, ihq⟩ := ihq
    exact ⟨h1, h2, N + M, fun m hm suf => compl_repeat_cons (ihp m (by omega) _) (ihq m (by omega) suf)⟩
  | entriesNil k v => exact ⟨0, fun m _ suf => rfl⟩
  | entriesCons k v n p q r hp hq hr ihp ihq ihr =>
    obtain ⟨_, _, N, ihp⟩ := ihp
    obtain ⟨_, _, M, ihq⟩ := ihq
    obtain ⟨K, ihr⟩ := ihr
    refine ⟨N + M + K, fun m hm suf => compl_repeat_cons ?_ (ihr m (by omega) suf)⟩
    rw [List.append_assoc, Rd.bind_ok (ihp m (by omega) _)]
    exact ihq m (by omega) _
  | fieldStop b h =>
    refine ⟨0, fun m _ last fuel suf hf => ?_⟩
    obtain ⟨fuel, rfl⟩ : ∃ k, fuel = k + 1 := ⟨fuel - 1, by simp at hf; omega⟩
    have hb := byte_lt b
    unfold lenientStop at h
    obtain ⟨last', e⟩ := compl_header hc last 0 [b] (.inl ⟨b, rfl, h.symm, by omega⟩) suf
    rw [skipStructLoop, Rd.bind_ok e]
    rfl
  | fieldShort b p q h1 h2 hp hq ihp ihq =>
    obtain ⟨_, _, N, ihp⟩ := ihp
    obtain ⟨M, ihq⟩ := ihq
    refine ⟨N + M, fun m hm last fuel suf hf => ?_⟩
    obtain ⟨fuel, rfl⟩ : ∃ k, fuel = k + 1 := ⟨fuel - 1, by simp at hf; omega⟩
    obtain ⟨last', e⟩ := compl_header hc last (b.toNat % 16) [b] (.inl ⟨b, rfl, rfl, .inl h1⟩) (p ++ (q ++ suf))
    have e' : b :: (p ++ q) ++ suf = [b] ++ (p ++ (q ++ suf)) := by simp
    rw [skipStructLoop, e', Rd.bind_ok e]
    dsimp only
    rw [if_neg (fun h => h2 (by have := congrArg BitVec.toNat h; simp at this; omega)), Rd.bind_ok (ihp m (by omega) _)]
    exact ihq m (by omega) _ _ _ (by simp at hf ⊢; omega)
  | fieldLong b i p q h1 h2 hi hp hq ihp ihq =>
    obtain ⟨_, _, N, ihp⟩ := ihp
    obtain ⟨M, ihq⟩ := ihq
    refine ⟨N + M, fun m hm last fuel suf hf => ?_⟩
    obtain ⟨fuel, rfl⟩ : ∃ k, fuel = k + 1 := ⟨fuel - 1, by simp at hf; omega⟩
    obtain ⟨last', e⟩ := compl_header hc last b.toNat (b :: i) (.inr ⟨b, i, rfl, rfl, h1, h2, hi⟩) (p ++ (q ++ suf))
    have e' : b :: (i ++ (p ++ q)) ++ suf = (b :: i) ++ (p ++ (q ++ suf)) := by simp
    rw [skipStructLoop, e', Rd.bind_ok e]
    dsimp only
    rw [if_neg (fun h => h2 (by have := congrArg BitVec.toNat h; simpa using this)), Rd.bind_ok (ihp m (by omega) _)]
    exact ihq m (by omega) _ _ _ (by simp at hf ⊢; omega)

end CT
