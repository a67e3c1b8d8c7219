import Verif.Proofs.Reads
/-!
# C01-C06: numbers, scalars and binaries

Every reading statement is about both kinds of input (`Spec.Reads`), every writing statement about appending to a
`Vec<u8>` (`Spec.Emits`; other sinks: C37).
-/
namespace CT.Props
open CT Spec

/-- C01: `write_len` then `read_len`, with anything following. -/
theorem C01_len_round_trip (cfg : Cfg) (n : BitVec 64) :
    ∃ bytes, Emits (vecSink.writeLen n.toNat) bytes ∧
      ∀ suf, Reads cfg (fun I => I.readLen cfg) bytes suf n.toNat :=
  ⟨varint n.toNat, (writes_writeLen _ n.isLt).emits, fun suf =>
    Reads.of_slice generic_readLen (fun cfg => readLen_write cfg _ suf n.isLt) cfg⟩

/-- C02 for `i16` -/
theorem C02_i16_round_trip (cfg : Cfg) (x : BitVec 16) :
    ∃ bytes, Emits (vecSink.writeI16 x) bytes ∧ ∀ suf, Reads cfg (fun I => I.readI16 cfg) bytes suf x :=
  ⟨_, (writes_writeI16 x).emits, fun suf => Reads.of_slice generic_readI16 (fun cfg => readI16_write cfg x suf) cfg⟩

/-- C02 for `i32` -/
theorem C02_i32_round_trip (cfg : Cfg) (x : BitVec 32) :
    ∃ bytes, Emits (vecSink.writeI32 x) bytes ∧ ∀ suf, Reads cfg (fun I => I.readI32 cfg) bytes suf x :=
  ⟨_, (writes_writeI32 x).emits, fun suf => Reads.of_slice generic_readI32 (fun cfg => readI32_write cfg x suf) cfg⟩

/-- C02 for `i64` -/
theorem C02_i64_round_trip (cfg : Cfg) (x : BitVec 64) :
    ∃ bytes, Emits (vecSink.writeI64 x) bytes ∧ ∀ suf, Reads cfg (fun I => I.readI64 cfg) bytes suf x :=
  ⟨_, (writes_writeI64 x).emits, fun suf => Reads.of_slice generic_readI64 (fun cfg => readI64_write cfg x suf) cfg⟩

/-- `bytes` are the canonical base-128 digits of `n`: a terminated varint denoting `n`, with a non-zero last digit
unless it is the only one, and no terminated varint denoting `n` is shorter. -/
def Canonical (bytes : Bytes) (n : Nat) : Prop :=
  IsVarint bytes ∧ leb bytes = n ∧ (∀ b, bytes.getLast? = some b → b ≠ 0#8 ∨ bytes.length = 1) ∧
  ∀ p, IsVarint p → leb p = n → bytes.length ≤ p.length

theorem varint_minimal : ∀ (p : Bytes), IsVarint p → (varint (leb p)).length ≤ p.length := by
  intro p
  induction p with
  | nil => intro h; exact h.elim
  | cons b p ih =>
    intro h
    have hb := byte_lt b
    cases p with
    | nil =>
      have h' : b.toNat < 128 := h
      rw [leb, leb, varint, if_pos (by omega)]; simp
    | cons c cs =>
      have h' : 128 ≤ b.toNat ∧ IsVarint (c :: cs) := h
      have := ih h'.2
      rw [leb, varint]
      split
      · simp
      · have e : (b.toNat % 128 + 128 * leb (c :: cs)) / 128 = leb (c :: cs) := by omega
        rw [e]; simp only [List.length_cons] at this ⊢; omega

theorem varint_last (n : Nat) : ∀ b, (varint n).getLast? = some b → b ≠ 0#8 ∨ (varint n).length = 1 := by
  induction n using Nat.strongRecOn with
  | _ n ih =>
    intro b hb
    rw [varint] at hb ⊢
    split at hb
    · rename_i h; rw [if_pos h]; right; simp
    · rename_i h
      rw [if_neg h]
      left
      have hne : varint (n / 128) ≠ [] := by
        have := varint_length_pos (n / 128)
        intro h0; rw [h0] at this; simp at this
      rw [List.getLast?_cons_of_ne_nil hne] at hb
      rcases ih (n / 128) (by omega) b hb with h' | h'
      · exact h'
      · intro hb0
        rw [varint] at hb h'
        split at hb
        · rename_i hlt
          simp at hb
          rw [← hb] at hb0
          have := congrArg BitVec.toNat hb0
          simp at this
          omega
        · rename_i hlt
          rw [if_neg hlt] at h'
          have := varint_length_pos (n / 128 / 128)
          simp only [List.length_cons] at h'; omega

theorem varint_canonical (n : Nat) : Canonical (varint n) n :=
  ⟨varint_isVarint n, leb_varint n, varint_last n, fun p hp h => h ▸ varint_minimal p hp⟩

/-- C03: the canonical form, for the three widths and lengths. -/
theorem C03_canonical :
    (∀ x : BitVec 16, ∃ bytes, Emits (vecSink.writeI16 x) bytes ∧ Canonical bytes (zigzag x.toInt) ∧ bytes.length ≤ 3) ∧
    (∀ x : BitVec 32, ∃ bytes, Emits (vecSink.writeI32 x) bytes ∧ Canonical bytes (zigzag x.toInt) ∧ bytes.length ≤ 5) ∧
    (∀ x : BitVec 64, ∃ bytes, Emits (vecSink.writeI64 x) bytes ∧ Canonical bytes (zigzag x.toInt) ∧ bytes.length ≤ 10) ∧
    (∀ n : BitVec 64, ∃ bytes, Emits (vecSink.writeLen n.toNat) bytes ∧ Canonical bytes n.toNat ∧ bytes.length ≤ 10) := by
  refine ⟨fun x => ⟨_, (writes_writeI16 x).emits, varint_canonical _, varint_length_le _ 2 ?_⟩,
    fun x => ⟨_, (writes_writeI32 x).emits, varint_canonical _, varint_length_le _ 4 ?_⟩,
    fun x => ⟨_, (writes_writeI64 x).emits, varint_canonical _, varint_length_le _ 9 ?_⟩,
    fun n => ⟨_, (writes_writeLen _ n.isLt).emits, varint_canonical _, varint64_length_le n⟩⟩
  · have := zigzag_lt (by omega) x; omega
  · have := zigzag_lt (by omega) x; omega
  · have := zigzag_lt (by omega) x; omega

/-- The canonical form determines the bytes. -/
theorem canonical_unique {p q : Bytes} {n : Nat} (hp : Canonical p n) (hq : Canonical q n) : p = q := by
  obtain ⟨h1, h2, -, h4⟩ := hp
  obtain ⟨h1', h2', -, h4'⟩ := hq
  have hl : p.length = q.length := Nat.le_antisymm (h4 q h1' h2') (h4' p h1 h2)
  subst h2
  clear h4 h4'
  induction p generalizing q with
  | nil => exact h1.elim
  | cons b bs ih =>
    match q, h1', h2', hl with
    | [], _, _, hl => simp at hl
    | c :: cs, h1', h2', hl =>
      rw [leb, leb] at h2'
      have hb := byte_lt b
      have hc := byte_lt c
      match bs, cs, hl with
      | [], [], _ =>
        have hb' : b.toNat < 128 := h1
        have hc' : c.toNat < 128 := h1'
        simp only [leb] at h2'
        have : b.toNat = c.toNat := by omega
        rw [BitVec.eq_of_toNat_eq this]
      | b' :: bs, c' :: cs, hl =>
        have hb' : 128 ≤ b.toNat ∧ IsVarint (b' :: bs) := h1
        have hc' : 128 ≤ c.toNat ∧ IsVarint (c' :: cs) := h1'
        have : b.toNat = c.toNat := by omega
        rw [BitVec.eq_of_toNat_eq this, ih hb'.2 hc'.2 (by simpa using hl) (by omega)]
      | [], _ :: _, hl => simp at hl
      | _ :: _, [], hl => simp at hl

example : Canonical (varint (zigzag (-1000))) 1999 ∧ varint (zigzag (-1000)) = [0xCF#8, 0x0F#8] :=
  ⟨varint_canonical 1999, by simp [zigzag, varint]⟩

/-! ## C04 -/

/-- C04: at most ten bytes: the number modulo 2^64, or the signed integer whose zigzag number are its low bits. -/
theorem C04_value (cfg : Cfg) (p : Bytes) (hp : IsVarint p) (hl : p.length ≤ 10) (suf : Bytes) :
    Reads cfg (fun I => I.readLen cfg) p suf (leb p % 2 ^ 64) ∧
    (∀ x : BitVec 64, zigzag x.toInt = leb p % 2 ^ 64 → Reads cfg (fun I => I.readI64 cfg) p suf x) ∧
    (∀ x : BitVec 32, zigzag x.toInt = leb p % 2 ^ 32 → Reads cfg (fun I => I.readI32 cfg) p suf x) ∧
    (∀ x : BitVec 16, zigzag x.toInt = leb p % 2 ^ 16 → Reads cfg (fun I => I.readI16 cfg) p suf x) :=
  ⟨Reads.of_slice generic_readLen (fun cfg => readLen_varint cfg p suf hp hl) cfg,
   fun x hx => Reads.of_slice generic_readI64 (fun cfg => readI64_varint cfg p suf hp hl x hx) cfg,
   fun x hx => Reads.of_slice generic_readI32 (fun cfg => readI32_varint cfg p suf hp hl x hx) cfg,
   fun x hx => Reads.of_slice generic_readI16 (fun cfg => readI16_varint cfg p suf hp hl x hx) cfg⟩

/-- Every residue is the zigzag number of some integer, so `C04_value` covers every ten-byte varint. -/
theorem C04_value_total (w : Nat) (hw : 0 < w) (n : Nat) : ∃ x : BitVec w, zigzag x.toInt = n % 2 ^ w := by
  refine ⟨zigzagDecode (BitVec.ofNat w n), ?_⟩
  rw [← zigzagEncode_toNat hw, zigzag_encode_decode hw, BitVec.toNat_ofNat]

/-- The digits of a varint. -/
def digits (p : Bytes) : List Nat := p.map (fun b => b.toNat % 128)

theorem decDigits_zeros : ∀ (q : Bytes) (k : Nat) (acc : BitVec 64), (∀ d ∈ digits q, d = 0) →
    decDigits k acc q = acc := by
  intro q
  induction q with
  | nil => intros; rfl
  | cons b q ih =>
    intro k acc h
    rw [decDigits]
    have h0 : (b &&& 0x7F#8) = 0#8 := by
      apply BitVec.eq_of_toNat_eq
      rw [and_7f_toNat]; exact h _ (by simp [digits])
    rw [h0]
    have e : acc ||| BitVec.setWidth 64 (0#8) <<< (7 * k % 64) = acc := by simp
    rw [e]
    exact ih _ _ fun d hd => h d (by simp [digits] at hd ⊢; right; exact hd)

theorem decDigits_digits : ∀ (p q : Bytes) (n k : Nat) (acc : BitVec 64), digits q = digits p ++ List.replicate n 0 →
    decDigits k acc q = decDigits k acc p := by
  intro p
  induction p with
  | nil =>
    intro q n k acc h
    rw [decDigits_zeros q k acc]; · rfl
    intro d hd; rw [h] at hd; simp [digits] at hd; exact hd.2
  | cons b p ih =>
    intro q n k acc h
    cases q with
    | nil => simp [digits] at h
    | cons c q =>
      simp only [digits, List.map_cons, List.cons_append, List.cons.injEq] at h
      have e : (c &&& 0x7F#8) = (b &&& 0x7F#8) := by
        apply BitVec.eq_of_toNat_eq; rw [and_7f_toNat, and_7f_toNat, h.1]
      rw [decDigits, decDigits, e]
      exact ih q n _ _ h.2

/-- The configurations and lengths for which reading a varint does not run into the `u32` shift counter's overflow
check (uleb.rs:14): without overflow checks always, with them up to 613,566,756 bytes. -/
def ShiftOk (ov : Bool) (len : Nat) : Prop := ov = false ∨ 7 * len < 2 ^ 32

/-- C04, padding: zero digits appended to a varint (of any length) change neither value, whatever integer is read. -/
theorem C04_padding (cfg : Cfg) (p q : Bytes) (n : Nat) (hp : IsVarint p) (hq : IsVarint q)
    (hd : digits q = digits p ++ List.replicate n 0) (hov : ShiftOk cfg.overflowChecks q.length) (suf : Bytes) :
    (∃ v, Reads cfg (fun I => I.readLen cfg) p suf v ∧ Reads cfg (fun I => I.readLen cfg) q suf v) ∧
    (∃ v, Reads cfg (fun I => I.readI64 cfg) p suf v ∧ Reads cfg (fun I => I.readI64 cfg) q suf v) ∧
    (∃ v, Reads cfg (fun I => I.readI32 cfg) p suf v ∧ Reads cfg (fun I => I.readI32 cfg) q suf v) ∧
    (∃ v, Reads cfg (fun I => I.readI16 cfg) p suf v ∧ Reads cfg (fun I => I.readI16 cfg) q suf v) := by
  have hlen : q.length = p.length + n := by
    have := congrArg List.length hd; simpa [digits] using this
  have hovp : ShiftOk cfg.overflowChecks p.length := by
    rcases hov with h | h
    · exact .inl h
    · right; omega
  have hq' : ∀ cfg : Cfg, ShiftOk cfg.overflowChecks q.length →
      (sliceInput cfg).uleb cfg (q ++ suf) = .ok (decDigits 0 0#64 p, suf) := fun cfg h => by
    rw [slice_uleb, uleb_slice cfg q suf hq h, decDigits_digits p q n _ _ hd]
  have hp' : ∀ cfg : Cfg, ShiftOk cfg.overflowChecks p.length →
      (sliceInput cfg).uleb cfg (p ++ suf) = .ok (decDigits 0 0#64 p, suf) := fun cfg h => by
    rw [slice_uleb, uleb_slice cfg p suf hp h]
  refine ⟨⟨(decDigits 0 0#64 p).toNat, ?_, ?_⟩, ⟨zigzagDecode (decDigits 0 0#64 p), ?_, ?_⟩,
    ⟨zigzagDecode ((decDigits 0 0#64 p).setWidth 32), ?_, ?_⟩, ⟨zigzagDecode ((decDigits 0 0#64 p).setWidth 16), ?_, ?_⟩⟩
  · exact Reads.of_slice_cond generic_readLen (C := fun ov _ => ShiftOk ov p.length)
      (fun cfg h => by unfold Input.readLen; rw [Rd.bind_ok (hp' cfg h)]; rfl) cfg hovp
  · exact Reads.of_slice_cond generic_readLen (C := fun ov _ => ShiftOk ov q.length)
      (fun cfg h => by unfold Input.readLen; rw [Rd.bind_ok (hq' cfg h)]; rfl) cfg hov
  · exact Reads.of_slice_cond generic_readI64 (C := fun ov _ => ShiftOk ov p.length)
      (fun cfg h => by unfold Input.readI64; rw [Rd.bind_ok (hp' cfg h)]; rfl) cfg hovp
  · exact Reads.of_slice_cond generic_readI64 (C := fun ov _ => ShiftOk ov q.length)
      (fun cfg h => by unfold Input.readI64; rw [Rd.bind_ok (hq' cfg h)]; rfl) cfg hov
  · exact Reads.of_slice_cond generic_readI32 (C := fun ov _ => ShiftOk ov p.length)
      (fun cfg h => by unfold Input.readI32; rw [Rd.bind_ok (hp' cfg h)]; rfl) cfg hovp
  · exact Reads.of_slice_cond generic_readI32 (C := fun ov _ => ShiftOk ov q.length)
      (fun cfg h => by unfold Input.readI32; rw [Rd.bind_ok (hq' cfg h)]; rfl) cfg hov
  · exact Reads.of_slice_cond generic_readI16 (C := fun ov _ => ShiftOk ov p.length)
      (fun cfg h => by unfold Input.readI16; rw [Rd.bind_ok (hp' cfg h)]; rfl) cfg hovp
  · exact Reads.of_slice_cond generic_readI16 (C := fun ov _ => ShiftOk ov q.length)
      (fun cfg h => by unfold Input.readI16; rw [Rd.bind_ok (hq' cfg h)]; rfl) cfg hov

/-- C04, overlong varints: beyond ten bytes the digits wrap around: bit `i` of the value is set exactly if some digit
`k` has a bit `j` with `7k mod 64 + j = i`. -/
theorem C04_overlong (cfg : Cfg) (p : Bytes) (hp : IsVarint p) (hov : ShiftOk cfg.overflowChecks p.length) (suf : Bytes) :
    ∃ v : BitVec 64, Reads cfg (fun I => I.readLen cfg) p suf v.toNat ∧
      ∀ i, i < 64 → (v.getLsbD i = true ↔ ∃ k j b, p[k]? = some b ∧ j < 7 ∧ b.getLsbD j = true ∧ 7 * k % 64 + j = i) := by
  refine ⟨decDigits 0 0#64 p, ?_, ?_⟩
  · exact Reads.of_slice_cond generic_readLen (C := fun ov _ => ShiftOk ov p.length)
      (fun cfg h => by
        unfold Input.readLen; rw [slice_uleb, Rd.bind_ok (uleb_slice cfg p suf hp h)]; rfl) cfg hov
  · intro i hi
    have := decDigits_getLsbD p 0 0#64 i hi
    simpa using this

/-- C04 is about non-trivial varints: a padded one, and one of eleven bytes whose last digit lands on bit 6. -/
example : IsVarint [0xE5#8, 0x8E#8, 0x26#8] ∧ IsVarint [0xE5#8, 0x8E#8, 0xA6#8, 0x80#8, 0x00#8] ∧
    digits [0xE5#8, 0x8E#8, 0xA6#8, 0x80#8, 0x00#8] = digits [0xE5#8, 0x8E#8, 0x26#8] ++ List.replicate 2 0 ∧
    leb [0xE5#8, 0x8E#8, 0x26#8] = 624485 ∧ 7 * 10 % 64 = 6 := by decide

/-! ## C05 -/

theorem readThrift_eq (cfg : Cfg) {σ : Type} (I : Input σ) (env : List Def) (t : Ty) (s : σ) :
    readThrift cfg I env t s = fillTy cfg I env (fillNamed cfg I env (I.size s + 1)) t (dflt env t) s := rfl

/-- C05 for `bool`: byte 1 or 2, read back as the same. -/
theorem C05_bool (cfg : Cfg) (env : List Def) (b : Bool) :
    encode env .bool (.bool b) = .ok [if b then 1#8 else 2#8] ∧
    ∀ suf, Reads cfg (fun I => readThrift cfg I env .bool) [if b then 1#8 else 2#8] suf (.bool b) := by
  refine ⟨by unfold encode; rw [writeTy]; cases b <;> rfl, fun suf => ?_⟩
  exact Reads.of_slice (generic_readThrift env .bool) (fun cfg => by
    rw [readThrift_eq, fillTy]; cases b <;> rfl) cfg

/-- C05 for `i8` -/
theorem C05_i8 (cfg : Cfg) (env : List Def) (x : BitVec 8) :
    encode env .i8 (.i8 x) = .ok [x] ∧ ∀ suf, Reads cfg (fun I => readThrift cfg I env .i8) [x] suf (.i8 x) :=
  ⟨by unfold encode; rw [writeTy]; rfl, fun suf =>
    Reads.of_slice (generic_readThrift env .i8) (fun cfg => by rw [readThrift_eq, fillTy]; rfl) cfg⟩

/-- C05 for `double`: the eight little-endian bytes of the bit pattern, read back bit for bit (NaNs included). -/
theorem C05_double (cfg : Cfg) (env : List Def) (x : BitVec 64) :
    encode env .double (.double x) = .ok (le64 x) ∧
    ∀ suf, Reads cfg (fun I => readThrift cfg I env .double) (le64 x) suf (.double x) := by
  refine ⟨by unfold encode; rw [writeTy, ← le64_eq]; rfl, fun suf => ?_⟩
  exact Reads.of_slice (generic_readThrift env .double) (fun cfg => by
    rw [readThrift_eq, fillTy, ← le64_eq]
    rw [Rd.bind_ok (show (sliceInput cfg).readDouble (toLeBytes 8 x ++ suf) = .ok (x, suf) from readDouble_write x suf)]; rfl) cfg

/-- a NaN with payload -/
example : le64 0x7FF0000000000123#64 = [0x23#8, 0x01#8, 0#8, 0#8, 0#8, 0#8, 0xF0#8, 0x7F#8] := by decide

/-! ## C06 -/

/-- C06: a binary of at most 16 MiB comes back. -/
theorem C06_round_trip (cfg : Cfg) (b : Bytes) (h : b.length ≤ 16777216) :
    ∃ bytes, Emits (vecSink.writeBinary b) bytes ∧ ∀ suf, Reads cfg (fun I => I.readBinary) bytes suf b :=
  ⟨_, (writes_writeBinary b h).emits, fun suf =>
    Reads.of_slice generic_readBinary (fun cfg => readBinary_write cfg b suf h) cfg⟩

/-- C06: a longer one is refused by the writer, for any sink and before the sink is touched. -/
theorem C06_write_limit {τ : Type} (S : Sink τ) (b : Bytes) (h : 16777216 < b.length) (t : τ) :
    S.writeBinary b t = (.error (.err (.invalidBinaryLen b.length)), t) := by
  unfold Sink.writeBinary
  rw [if_pos (show MAX_BINARY_LEN < b.length from h)]; rfl

/-- C06: a larger declared length (in any varint of at most ten bytes) is refused by the reader, whatever follows. -/
theorem C06_read_limit (cfg : Cfg) (p suf : Bytes) (hp : IsVarint p) (hl : p.length ≤ 10)
    (h : 16777216 < leb p % 2 ^ 64) :
    Fails cfg (fun I => I.readBinary) (p ++ suf) (.err (.invalidBinaryLen (leb p % 2 ^ 64))) ∧
    Fails cfg (fun I => I.skipBinary) (p ++ suf) (.err (.invalidBinaryLen (leb p % 2 ^ 64))) ∧
    Fails cfg (fun I => I.readString) (p ++ suf) (.err (.invalidBinaryLen (leb p % 2 ^ 64))) := by
  refine ⟨Fails.of_slice generic_readBinary (by simp) (fun cfg => readBinary_tooLong cfg p suf hp hl h) cfg,
    Fails.of_slice generic_skipBinary (by simp) (fun cfg => skipBinary_tooLong cfg p suf hp hl h) cfg,
    Fails.of_slice generic_readString (by simp) (fun cfg => ?_) cfg⟩
  unfold Input.readString
  rw [Rd.bind_err (readBinary_tooLong cfg p suf hp hl h)]

example : IsVarint [0x81#8, 0x80#8, 0x80#8, 0x08#8] ∧ 16777216 < leb [0x81#8, 0x80#8, 0x80#8, 0x08#8] % 2 ^ 64 := by
  decide

end CT.Props
