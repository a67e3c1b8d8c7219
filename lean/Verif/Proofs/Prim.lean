import Verif.Proofs.SkipInt
import Verif.Spec.Encoding
/-! # Primitive writes into memory and reads from a slice -/
namespace CT
open Spec

/-- Running `x` on a `Vec<u8>` succeeds with `a` and appends exactly `bs`. -/
def Writes {α : Type} (x : Wr Bytes α) (a : α) (bs : Bytes) : Prop := ∀ out, x out = (.ok a, out ++ bs)

theorem Writes.pure {α : Type} (a : α) : Writes (Pure.pure a) a [] := fun out => by simp

theorem Writes.bind {α β : Type} {x : Wr Bytes α} {f : α → Wr Bytes β} {a : α} {b : β} {bs cs : Bytes}
    (h : Writes x a bs) (h' : Writes (f a) b cs) : Writes (x >>= f) b (bs ++ cs) := fun out => by
  rw [Wr.bind_ok (h out), h', List.append_assoc]

theorem writes_writeAll (bs : Bytes) : Writes (vecSink.writeAll bs) () bs := fun _ => rfl

theorem writes_writeByte (b : Byte) : Writes (vecSink.writeByte b) () [b] := fun _ => rfl

theorem writes_writeBytes : ∀ bs : Bytes, Writes (writeBytes vecSink bs) () bs
  | [] => Writes.pure ()
  | b :: bs => Writes.bind (writes_writeByte b) (writes_writeBytes bs)

theorem writes_writeLen (n : Nat) (h : n < 2 ^ 64) : Writes (vecSink.writeLen n) () (varint n) := by
  have e : encodeUleb (BitVec.ofNat 64 n) = varint n := by
    rw [encodeUleb_eq, BitVec.toNat_ofNat, Nat.mod_eq_of_lt h]
  unfold Sink.writeLen
  rw [e]; exact writes_writeBytes _

theorem encode_zigzag {w : Nat} (hw : 0 < w) (hw' : w ≤ 64) (x : BitVec w) :
    encodeUleb ((zigzagEncode x).setWidth 64) = varint (zigzag x.toInt) := by
  rw [encodeUleb_eq, BitVec.toNat_setWidth, zigzagEncode_toNat hw, Nat.mod_eq_of_lt]
  rw [← zigzagEncode_toNat hw]
  exact Nat.lt_of_lt_of_le (zigzagEncode x).isLt (Nat.pow_le_pow_right (by omega) hw')

theorem writes_writeI16 (x : BitVec 16) : Writes (vecSink.writeI16 x) () (varint (zigzag x.toInt)) := by
  unfold Sink.writeI16
  rw [encode_zigzag (by omega) (by omega)]; exact writes_writeBytes _

theorem writes_writeI32 (x : BitVec 32) : Writes (vecSink.writeI32 x) () (varint (zigzag x.toInt)) := by
  unfold Sink.writeI32
  rw [encode_zigzag (by omega) (by omega)]; exact writes_writeBytes _

theorem writes_writeI64 (x : BitVec 64) : Writes (vecSink.writeI64 x) () (varint (zigzag x.toInt)) := by
  unfold Sink.writeI64
  rw [encodeUleb_eq, zigzagEncode_toNat (by omega)]; exact writes_writeBytes _

theorem zigzag_lt {w : Nat} (hw : 0 < w) (x : BitVec w) : zigzag x.toInt < 2 ^ w := by
  rw [← zigzagEncode_toNat hw]; exact (zigzagEncode x).isLt

/-! ## Reading -/

theorem slice_uleb (cfg : Cfg) : (sliceInput cfg).uleb cfg = decodeUleb cfg List.length Slice.readByte := rfl

theorem slice_readLen_eq (cfg : Cfg) : (sliceInput cfg).readLen cfg = Slice.readLen cfg := rfl

theorem read_varint (cfg : Cfg) (p suf : Bytes) (hv : IsVarint p) (hl : p.length ≤ 10) :
    (sliceInput cfg).uleb cfg (p ++ suf) = .ok (BitVec.ofNat 64 (leb p), suf) :=
  uleb_slice_short cfg p suf hv hl

theorem readLen_varint (cfg : Cfg) (p suf : Bytes) (hv : IsVarint p) (hl : p.length ≤ 10) :
    (sliceInput cfg).readLen cfg (p ++ suf) = .ok (leb p % 2 ^ 64, suf) := by
  unfold Input.readLen
  rw [Rd.bind_ok (read_varint cfg p suf hv hl)]
  simp

theorem readLen_write (cfg : Cfg) (n : Nat) (suf : Bytes) (h : n < 2 ^ 64) :
    (sliceInput cfg).readLen cfg (varint n ++ suf) = .ok (n, suf) := by
  rw [readLen_varint cfg _ _ (varint_isVarint n) (varint_length_le n 9 (by omega)), leb_varint, Nat.mod_eq_of_lt h]

/-- Reading an integer of width `w`: the value whose zigzag number is the low `w` bits. -/
theorem zigzagDecode_ofNat {w : Nat} (hw : 0 < w) (n : Nat) (x : BitVec w) (h : zigzag x.toInt = n % 2 ^ w) :
    zigzagDecode (BitVec.ofNat w n) = x := by
  have : BitVec.ofNat w n = zigzagEncode x := by
    apply BitVec.eq_of_toNat_eq
    rw [BitVec.toNat_ofNat, zigzagEncode_toNat hw, h]
  rw [this, zigzag_decode_encode hw]

theorem setWidth_ofNat64 {w : Nat} (hw : w ≤ 64) (n : Nat) : (BitVec.ofNat 64 n).setWidth w = BitVec.ofNat w n := by
  apply BitVec.eq_of_toNat_eq
  rw [BitVec.toNat_setWidth, BitVec.toNat_ofNat, BitVec.toNat_ofNat]
  exact Nat.mod_mod_of_dvd n (Nat.pow_dvd_pow 2 hw)

theorem readI16_varint (cfg : Cfg) (p suf : Bytes) (hv : IsVarint p) (hl : p.length ≤ 10) (x : BitVec 16)
    (hx : zigzag x.toInt = leb p % 2 ^ 16) : (sliceInput cfg).readI16 cfg (p ++ suf) = .ok (x, suf) := by
  unfold Input.readI16
  rw [Rd.bind_ok (read_varint cfg p suf hv hl), setWidth_ofNat64 (by omega), zigzagDecode_ofNat (by omega) _ x hx]
  rfl

theorem readI32_varint (cfg : Cfg) (p suf : Bytes) (hv : IsVarint p) (hl : p.length ≤ 10) (x : BitVec 32)
    (hx : zigzag x.toInt = leb p % 2 ^ 32) : (sliceInput cfg).readI32 cfg (p ++ suf) = .ok (x, suf) := by
  unfold Input.readI32
  rw [Rd.bind_ok (read_varint cfg p suf hv hl), setWidth_ofNat64 (by omega), zigzagDecode_ofNat (by omega) _ x hx]
  rfl

theorem readI64_varint (cfg : Cfg) (p suf : Bytes) (hv : IsVarint p) (hl : p.length ≤ 10) (x : BitVec 64)
    (hx : zigzag x.toInt = leb p % 2 ^ 64) : (sliceInput cfg).readI64 cfg (p ++ suf) = .ok (x, suf) := by
  unfold Input.readI64
  rw [Rd.bind_ok (read_varint cfg p suf hv hl), zigzagDecode_ofNat (by omega) _ x hx]
  rfl

theorem readFullFieldId_varint (cfg : Cfg) (p suf : Bytes) (hv : IsVarint p) (hl : p.length ≤ 10) (x : BitVec 16)
    (hx : zigzag x.toInt = leb p % 2 ^ 16) : (sliceInput cfg).readFullFieldId cfg (p ++ suf) = .ok (x, suf) :=
  readI16_varint cfg p suf hv hl x hx

theorem leb_zigzag_mod {w : Nat} (hw : 0 < w) (x : BitVec w) :
    zigzag x.toInt = leb (varint (zigzag x.toInt)) % 2 ^ w := by
  rw [leb_varint, Nat.mod_eq_of_lt (zigzag_lt hw x)]

theorem varint_zigzag_length {w : Nat} (hw : 0 < w) (hw' : w ≤ 64) (x : BitVec w) :
    (varint (zigzag x.toInt)).length ≤ 10 := by
  refine varint_length_le _ 9 (Nat.lt_of_lt_of_le (zigzag_lt hw x) ?_)
  exact Nat.le_trans (Nat.pow_le_pow_right (by omega) hw') (by omega)

theorem readI16_write (cfg : Cfg) (x : BitVec 16) (suf : Bytes) :
    (sliceInput cfg).readI16 cfg (varint (zigzag x.toInt) ++ suf) = .ok (x, suf) :=
  readI16_varint cfg _ suf (varint_isVarint _) (varint_zigzag_length (by omega) (by omega) x) x (leb_zigzag_mod (by omega) x)

theorem readI32_write (cfg : Cfg) (x : BitVec 32) (suf : Bytes) :
    (sliceInput cfg).readI32 cfg (varint (zigzag x.toInt) ++ suf) = .ok (x, suf) :=
  readI32_varint cfg _ suf (varint_isVarint _) (varint_zigzag_length (by omega) (by omega) x) x (leb_zigzag_mod (by omega) x)

theorem readI64_write (cfg : Cfg) (x : BitVec 64) (suf : Bytes) :
    (sliceInput cfg).readI64 cfg (varint (zigzag x.toInt) ++ suf) = .ok (x, suf) :=
  readI64_varint cfg _ suf (varint_isVarint _) (varint_zigzag_length (by omega) (by omega) x) x (leb_zigzag_mod (by omega) x)

/-! ## Doubles -/

theorem fromLe_toLe : ∀ (n : Nat) (x : BitVec 64), n ≤ 8 → x.toNat < 2 ^ (8 * n) → fromLeBytes (toLeBytes n x) = x := by
  intro n
  induction n with
  | zero =>
    intro x _ h
    apply BitVec.eq_of_toNat_eq
    simp at h; simp [toLeBytes, fromLeBytes, h]
  | succ n ih =>
    intro x hn h
    have hx : (x >>> 8).toNat = x.toNat / 256 := by rw [BitVec.toNat_ushiftRight, Nat.shiftRight_eq_div_pow]
    have hlt : (x >>> 8).toNat < 2 ^ (8 * n) := by
      rw [hx]
      have : 2 ^ (8 * (n + 1)) = 2 ^ (8 * n) * 256 := by rw [Nat.mul_add, Nat.pow_add]
      omega
    simp only [toLeBytes, fromLeBytes, ih (x >>> 8) (by omega) hlt]
    apply BitVec.eq_of_getLsbD_eq
    intro i hi
    simp only [BitVec.getLsbD_or, BitVec.getLsbD_setWidth, BitVec.getLsbD_shiftLeft, BitVec.getLsbD_ushiftRight]
    by_cases h8 : i < 8
    · simp [h8, hi]
    · have h88 : 8 + (i - 8) = i := by omega
      simp [h8, hi, h88]

theorem le64_eq (x : BitVec 64) : toLeBytes 8 x = le64 x := by
  have h : ∀ k, BitVec.setWidth 8 (x >>> k) = BitVec.ofNat 8 (x.toNat / 2 ^ k) := fun k => by
    apply BitVec.eq_of_toNat_eq
    simp [Nat.shiftRight_eq_div_pow]
  simp only [le64, toLeBytes, List.range, List.range.loop, List.map, ← BitVec.shiftRight_add, h]
  simp

theorem toLe_length (n : Nat) (x : BitVec 64) : (toLeBytes n x).length = n := by
  induction n generalizing x with
  | zero => rfl
  | succ n ih => simp [toLeBytes, ih]

theorem readDouble_write (x : BitVec 64) (suf : Bytes) : Slice.readDouble (toLeBytes 8 x ++ suf) = .ok (x, suf) := by
  unfold Slice.readDouble
  have hl := toLe_length 8 x
  rw [if_neg (by simp [hl])]
  rw [List.take_left' hl, List.drop_left' hl, fromLe_toLe 8 x (by omega) x.isLt]

/-! ## Binary -/

theorem readBinary_varint (cfg : Cfg) (p b suf : Bytes) (hv : IsVarint p) (hl : p.length ≤ 10)
    (hb : leb p % 2 ^ 64 = b.length) (hm : b.length ≤ MAX_BINARY_LEN) :
    (sliceInput cfg).readBinary (p ++ (b ++ suf)) = .ok (b, suf) := by
  show Slice.readBinary cfg _ = _
  unfold Slice.readBinary
  rw [← slice_readLen_eq, Rd.bind_ok (readLen_varint cfg p _ hv hl), hb, if_neg (by omega)]
  simp; intro h; omega

theorem skipBinary_varint (cfg : Cfg) (p b suf : Bytes) (hv : IsVarint p) (hl : p.length ≤ 10)
    (hb : leb p % 2 ^ 64 = b.length) (hm : b.length ≤ MAX_BINARY_LEN) :
    (sliceInput cfg).skipBinary (p ++ (b ++ suf)) = .ok ((), suf) := by
  show Slice.skipBinary cfg _ = _
  unfold Slice.skipBinary
  rw [← slice_readLen_eq, Rd.bind_ok (readLen_varint cfg p _ hv hl), hb, if_neg (by omega)]
  simp; intro h; omega

theorem readBinary_tooLong (cfg : Cfg) (p suf : Bytes) (hv : IsVarint p) (hl : p.length ≤ 10)
    (hm : MAX_BINARY_LEN < leb p % 2 ^ 64) :
    (sliceInput cfg).readBinary (p ++ suf) = .error (.err (.invalidBinaryLen (leb p % 2 ^ 64))) := by
  show Slice.readBinary cfg _ = _
  unfold Slice.readBinary
  rw [← slice_readLen_eq, Rd.bind_ok (readLen_varint cfg p _ hv hl), if_pos hm]
  rfl

theorem skipBinary_tooLong (cfg : Cfg) (p suf : Bytes) (hv : IsVarint p) (hl : p.length ≤ 10)
    (hm : MAX_BINARY_LEN < leb p % 2 ^ 64) :
    (sliceInput cfg).skipBinary (p ++ suf) = .error (.err (.invalidBinaryLen (leb p % 2 ^ 64))) := by
  show Slice.skipBinary cfg _ = _
  unfold Slice.skipBinary
  rw [← slice_readLen_eq, Rd.bind_ok (readLen_varint cfg p _ hv hl), if_pos hm]
  rfl

theorem readBinary_write (cfg : Cfg) (b suf : Bytes) (hm : b.length ≤ MAX_BINARY_LEN) :
    (sliceInput cfg).readBinary (varint b.length ++ b ++ suf) = .ok (b, suf) := by
  have h : b.length < 2 ^ 64 := by unfold MAX_BINARY_LEN at hm; omega
  rw [List.append_assoc]
  exact readBinary_varint cfg _ b suf (varint_isVarint _) (varint_length_le _ 9 (by omega))
    (by rw [leb_varint, Nat.mod_eq_of_lt h]) hm

theorem writes_writeBinary (b : Bytes) (hm : b.length ≤ MAX_BINARY_LEN) :
    Writes (vecSink.writeBinary b) () (varint b.length ++ b) := by
  unfold Sink.writeBinary
  rw [if_neg (by omega)]
  exact Writes.bind (writes_writeLen _ (by unfold MAX_BINARY_LEN at hm; omega)) (writes_writeAll b)

/-! ## Collection headers -/

theorem nibbles (ft : Byte) (n : Nat) (hft : ft.toNat < 16) (hn : n < 16) :
    (ft ||| (BitVec.ofNat 8 n <<< 4)).toNat = ft.toNat + 16 * n := by
  rw [BitVec.toNat_or, BitVec.toNat_shiftLeft, BitVec.toNat_ofNat, Nat.shiftLeft_eq]
  have h1 : n % 2 ^ 8 * 2 ^ 4 % 2 ^ 8 = 2 ^ 4 * n := by omega
  rw [h1, Nat.or_comm, ← Nat.two_pow_add_eq_or_of_lt (i := 4) (by omega)]; omega

theorem and_0f_toNat (b : Byte) : (b &&& 0x0F#8).toNat = b.toNat % 16 := by revert b; decide
theorem shr4_toNat (b : Byte) : (b >>> 4).toNat = b.toNat / 16 := by revert b; decide
theorem and_f0_shr4_toNat (b : Byte) : ((b &&& 0xF0#8) >>> 4).toNat = b.toNat / 16 := by revert b; decide
theorem or_f0_toNat (b : Byte) : b.toNat < 16 → (b ||| 0xF0#8).toNat = b.toNat + 240 := by revert b; decide

theorem writes_listHeader (ft : Byte) (n : Nat) (hft : ft.toNat < 16) (h : n < 2 ^ 64) :
    Writes (vecSink.writeListHeader ft n) () (listHeader ft n) := by
  unfold Sink.writeListHeader listHeader
  by_cases h15 : n < 15
  · simp only [h15, if_true]
    have : ft ||| (BitVec.ofNat 8 n <<< 4) = BitVec.ofNat 8 (ft.toNat + 16 * n) := by
      apply BitVec.eq_of_toNat_eq
      rw [nibbles ft n hft (by omega), BitVec.toNat_ofNat]; omega
    rw [this]; exact writes_writeByte _
  · simp only [h15, if_false]
    have : ft ||| 0xF0#8 = BitVec.ofNat 8 (ft.toNat + 240) := by
      apply BitVec.eq_of_toNat_eq
      rw [or_f0_toNat ft hft, BitVec.toNat_ofNat]; omega
    rw [this]; exact Writes.bind (writes_writeByte _) (writes_writeLen n h)

theorem slice_readByte_cons (cfg : Cfg) (b : Byte) (s : Bytes) : (sliceInput cfg).readByte (b :: s) = .ok (b, s) := rfl

theorem readCollection_short (cfg : Cfg) (b : Byte) (s : Bytes) (h : b.toNat / 16 ≠ 15) :
    (sliceInput cfg).readCollectionLenAndType cfg (b :: s) = .ok ((b.toNat / 16, BitVec.ofNat 8 (b.toNat % 16)), s) := by
  unfold Input.readCollectionLenAndType
  rw [Rd.bind_ok (slice_readByte_cons cfg b s)]
  have h0 : (b &&& 0xF0#8) >>> 4 ≠ 0x0F#8 := by
    intro he; apply h; rw [← and_f0_shr4_toNat, he]; rfl
  simp only [h0, ne_eq, not_false_eq_true, if_true]
  rw [Rd.bind_ok (Rd.pure_apply _ _), and_f0_shr4_toNat]
  have := byte_lt b
  rw [if_neg (by unfold MAX_COLLECTION_LEN; omega)]
  simp only [Rd.pure_apply]
  congr 3
  apply BitVec.eq_of_toNat_eq; rw [and_0f_toNat, BitVec.toNat_ofNat]; omega

theorem readCollection_long (cfg : Cfg) (b : Byte) (p s : Bytes) (h : b.toNat / 16 = 15) (hv : IsVarint p)
    (hl : p.length ≤ 10) :
    (sliceInput cfg).readCollectionLenAndType cfg (b :: (p ++ s)) =
      if MAX_COLLECTION_LEN < leb p % 2 ^ 64 then .error (.err .invalidCollectionLen)
      else .ok ((leb p % 2 ^ 64, BitVec.ofNat 8 (b.toNat % 16)), s) := by
  unfold Input.readCollectionLenAndType
  rw [Rd.bind_ok (slice_readByte_cons cfg b _)]
  have h0 : (b &&& 0xF0#8) >>> 4 = 0x0F#8 := by
    apply BitVec.eq_of_toNat_eq; rw [and_f0_shr4_toNat, h]; rfl
  simp only [h0, ne_eq, not_true_eq_false, if_false]
  rw [Rd.bind_ok (readLen_varint cfg p s hv hl)]
  simp only [Rd.ite_apply', Rd.throw_apply, Rd.pure_apply]
  have : b &&& 0x0F#8 = BitVec.ofNat 8 (b.toNat % 16) := by
    apply BitVec.eq_of_toNat_eq; rw [and_0f_toNat, BitVec.toNat_ofNat]; omega
  rw [this]

theorem readCollection_write (cfg : Cfg) (ft : Byte) (n : Nat) (s : Bytes) (hft : ft.toNat < 16)
    (hn : n ≤ MAX_COLLECTION_LEN) :
    (sliceInput cfg).readCollectionLenAndType cfg (listHeader ft n ++ s) = .ok ((n, ft), s) := by
  unfold MAX_COLLECTION_LEN at hn
  unfold listHeader
  by_cases h15 : n < 15
  · simp only [h15, if_true, List.singleton_append]
    have hb : (BitVec.ofNat 8 (ft.toNat + 16 * n)).toNat = ft.toNat + 16 * n := by rw [BitVec.toNat_ofNat]; omega
    rw [readCollection_short cfg _ s (by rw [hb]; omega), hb]
    congr 3
    · omega
    · apply BitVec.eq_of_toNat_eq; rw [BitVec.toNat_ofNat]; omega
  · simp only [h15, if_false, List.cons_append]
    have hb : (BitVec.ofNat 8 (ft.toNat + 240)).toNat = ft.toNat + 240 := by rw [BitVec.toNat_ofNat]; omega
    rw [readCollection_long cfg _ _ s (by rw [hb]; omega) (varint_isVarint n) (varint_length_le n 9 (by omega)),
      leb_varint, Nat.mod_eq_of_lt (by omega), if_neg (by unfold MAX_COLLECTION_LEN; omega), hb]
    congr 3
    apply BitVec.eq_of_toNat_eq; rw [BitVec.toNat_ofNat]; omega

/-! ## Field headers -/

/-- Short form: type in the low, delta in the high nibble. -/
def shortHeader (ft : Byte) (d : Nat) : Byte := BitVec.ofNat 8 (ft.toNat + 16 * d)

theorem readHeader_stop (cfg : Cfg) (last : BitVec 16) (s : Bytes) :
    (sliceInput cfg).readFieldHeader cfg last (0#8 :: s) = .ok ((0#8, last), s) := by
  unfold Input.readFieldHeader
  rw [Rd.bind_ok (slice_readByte_cons cfg _ s)]; rfl

theorem readHeader_short (cfg : Cfg) (last : BitVec 16) (b : Byte) (s : Bytes) (hb : 16 ≤ b.toNat) :
    (sliceInput cfg).readFieldHeader cfg last (b :: s) =
      if cfg.overflowChecks = true ∧ 32767 < last.toInt + (b.toNat / 16 : Nat) then .error .panic
      else .ok ((BitVec.ofNat 8 (b.toNat % 16), last + BitVec.ofNat 16 (b.toNat / 16)), s) := by
  unfold Input.readFieldHeader
  rw [Rd.bind_ok (slice_readByte_cons cfg b s)]
  have h0 : b ≠ 0#8 := by intro h; rw [h] at hb; simp at hb
  have h1 : b >>> 4 ≠ 0#8 := by
    intro h
    have := shr4_toNat b; rw [h] at this; simp at this; omega
  simp only [h0, if_false, h1, ne_eq, not_false_eq_true, if_true]
  simp only [Rd.ite_apply', Rd.fail_apply, Rd.pure_apply, Bool.and_eq_true, decide_eq_true_eq, shr4_toNat]
  have e1 : b &&& 0x0F#8 = BitVec.ofNat 8 (b.toNat % 16) := by
    apply BitVec.eq_of_toNat_eq; rw [and_0f_toNat, BitVec.toNat_ofNat]; omega
  have e2 : (b >>> 4).setWidth 16 = BitVec.ofNat 16 (b.toNat / 16) := by
    apply BitVec.eq_of_toNat_eq; rw [BitVec.toNat_setWidth, shr4_toNat, BitVec.toNat_ofNat]
  rw [e1, e2]

theorem readHeader_long (cfg : Cfg) (last : BitVec 16) (b : Byte) (s : Bytes) (hb : b.toNat < 16) (hb0 : b ≠ 0#8) :
    (sliceInput cfg).readFieldHeader cfg last (b :: s) =
      match (sliceInput cfg).readFullFieldId cfg s with
      | .error e => .error e
      | .ok (id, s') => .ok ((b, id), s') := by
  unfold Input.readFieldHeader
  rw [Rd.bind_ok (slice_readByte_cons cfg b s)]
  have h1 : b >>> 4 = 0#8 := by
    apply BitVec.eq_of_toNat_eq; rw [shr4_toNat]; simp; omega
  have e1 : b &&& 0x0F#8 = b := by
    apply BitVec.eq_of_toNat_eq; rw [and_0f_toNat]; omega
  simp only [hb0, if_false, h1, ne_eq, not_true_eq_false, e1]
  rw [Rd.bind_apply]
  cases (sliceInput cfg).readFullFieldId cfg s <;> rfl

theorem slt_15 (x : BitVec 16) : BitVec.slt 15#16 x = true ↔ 15 < x.toInt := by
  rw [BitVec.slt_iff_toInt_lt]; exact Iff.rfl

theorem writes_fieldHeader (ft : Byte) (id last : BitVec 16) (hft : ft.toNat < 16) :
    Writes (vecSink.writeFieldHeader ft id last) id (fieldHeader ft id last) := by
  unfold Sink.writeFieldHeader fieldHeader
  by_cases h : 15 < (id - last).toInt
  · have h' := (slt_15 _).2 h
    simp only [h, h', if_true]
    intro out
    rw [Wr.bind_ok (writes_writeByte ft out), Wr.bind_ok (writes_writeI16 _ _)]
    simp
  · have h' : ¬ (BitVec.slt 15#16 (id - last) = true) := fun hh => h ((slt_15 _).1 hh)
    simp only [h, if_false, Bool.not_eq_true _ ▸ h', Bool.false_eq_true]
    have e : ft ||| (BitVec.setWidth 8 (id - last) <<< 4) = BitVec.ofNat 8 (ft.toNat + 16 * ((id - last).toNat % 16)) := by
      apply BitVec.eq_of_toNat_eq
      rw [BitVec.toNat_or, BitVec.toNat_shiftLeft, BitVec.toNat_setWidth, Nat.shiftLeft_eq, BitVec.toNat_ofNat]
      have h1 : (id - last).toNat % 2 ^ 8 * 2 ^ 4 % 2 ^ 8 = 2 ^ 4 * ((id - last).toNat % 16) := by omega
      rw [h1, Nat.or_comm, ← Nat.two_pow_add_eq_or_of_lt (i := 4) (by omega)]; omega
    rw [e]
    intro out
    rw [Wr.bind_ok (writes_writeByte _ out)]
    simp
end CT
