import Verif.Proofs.Header
/-! # C08-C10: field and collection headers -/
namespace CT.Props
open CT Spec

/-- C08: exactly when a written header is read back as what was written (type nibble 1..15, both inputs).
The wish that it always is fails: `C08_counterexample`. -/
theorem C08_header_round_trip (cfg : Cfg) (ft : Byte) (hft : ft.toNat < 16) (hft0 : ft ≠ 0#8) (last id : BitVec 16) :
    ∃ bytes, Emits (vecSink.writeFieldHeader ft id last) bytes ∧
      ∀ suf, Reads cfg (fun I => I.readFieldHeader cfg last) bytes suf (ft, id) ↔ HeaderOk cfg.overflowChecks last id := by
  refine ⟨fieldHeader ft id last, (writes_fieldHeader ft id last hft).emits, fun suf => ⟨fun h => ?_, fun h => ?_⟩⟩
  · exact (readHeader_written cfg ft hft hft0 last id suf).1 h.1
  · exact Reads.of_slice_cond (generic_readFieldHeader last) (C := fun ov _ => HeaderOk ov last id)
      (fun cfg h => (readHeader_written cfg ft hft hft0 last id suf).2 h) cfg h

/-- The id the writer leaves in `last_field_id` is the field's. -/
theorem C08_last_field_id {τ : Type} (S : Sink τ) (ft : Byte) (id last id' : BitVec 16) (t t' : τ)
    (h : S.writeFieldHeader ft id last t = (.ok id', t')) : id' = id := by
  unfold Sink.writeFieldHeader at h
  have aux : ∀ (x : Wr τ Unit) , (x >>= fun _ => (pure id : Wr τ (BitVec 16))) t = (.ok id', t') → id' = id := by
    intro x hx
    rw [Wr.bind_apply] at hx
    split at hx
    · cases hx
    · injection hx with h1 h2; injection h1 with h1; exact h1.symm
  simp only [Wr.ite_apply'] at h
  split at h
  · rw [Wr.bind_apply] at h
    split at h
    · cases h
    · rw [Wr.bind_apply] at h
      split at h
      · cases h
      · injection h with h1 h2; injection h1 with h1; exact h1.symm
  · exact aux _ h

/-- Full wish, refuted: field 30 after field 10 is read as field 20. -/
theorem C08_counterexample (cfg : Cfg) (suf : Bytes) :
    Emits (vecSink.writeFieldHeader 5#8 30#16 10#16) [0x05#8, 0x28#8] ∧
    Reads cfg (fun I => I.readFieldHeader cfg 10#16) [0x05#8, 0x28#8] suf (5#8, 20#16) := by
  have e : fieldHeader 5#8 30#16 10#16 = [0x05#8, 0x28#8] := by
    simp [fieldHeader, zigzag, varint]
  refine ⟨e ▸ (writes_fieldHeader 5#8 30#16 10#16 (by decide)).emits, ?_⟩
  exact Reads.of_slice (generic_readFieldHeader 10#16) (fun cfg => by
    show (sliceInput cfg).readFieldHeader cfg 10#16 (0x05#8 :: ([0x28#8] ++ suf)) = _
    rw [readHeader_long cfg _ _ _ (by decide) (by decide),
      readFullFieldId_varint cfg [0x28#8] suf (by decide) (by decide) 20#16 (by decide)]) cfg

/-- A decreasing id is refuted too: field 1 after field 2 is read as field 17 (delta −1 is truncated to 15). -/
theorem C08_counterexample_decreasing (cfg : Cfg) (suf : Bytes) :
    Emits (vecSink.writeFieldHeader 5#8 1#16 2#16) [0xF5#8] ∧
    Reads cfg (fun I => I.readFieldHeader cfg 2#16) [0xF5#8] suf (5#8, 17#16) := by
  have e : fieldHeader 5#8 1#16 2#16 = [0xF5#8] := by decide
  refine ⟨e ▸ (writes_fieldHeader 5#8 1#16 2#16 (by decide)).emits, ?_⟩
  exact Reads.of_slice (generic_readFieldHeader 2#16) (fun cfg => by
    show (sliceInput cfg).readFieldHeader cfg 2#16 (0xF5#8 :: suf) = _
    rw [readHeader_short cfg _ _ _ (by decide), if_neg (by simp)]
    rfl) cfg

example : HeaderOk true 3#16 9#16 ∧ HeaderOk true 0#16 300#16 ∧ ¬ HeaderOk false 10#16 30#16 := by
  unfold HeaderOk; decide

/-- C09: the short form (delta `d`) and the long form (absolute id in any varint of at most ten bytes) of the same
header are read alike. -/
theorem C09_form_independence (cfg : Cfg) (ft : Byte) (hft : ft.toNat < 16) (hft0 : ft ≠ 0#8) (last id : BitVec 16)
    (d : Nat) (hd : 1 ≤ d) (hd' : d ≤ 15) (hid : id.toInt = last.toInt + d) (p : Bytes) (hp : IsVarint p)
    (hl : p.length ≤ 10) (hpid : leb p % 2 ^ 16 = zigzag id.toInt) (suf : Bytes) :
    Reads cfg (fun I => I.readFieldHeader cfg last) [BitVec.ofNat 8 (16 * d + ft.toNat)] suf (ft, id) ∧
    Reads cfg (fun I => I.readFieldHeader cfg last) (ft :: p) suf (ft, id) := by
  constructor
  · refine Reads.of_slice (generic_readFieldHeader last) (fun cfg => ?_) cfg
    have hb : (BitVec.ofNat 8 (16 * d + ft.toNat)).toNat = 16 * d + ft.toNat := by rw [BitVec.toNat_ofNat]; omega
    have hi := BitVec.toInt_eq_toNat_cond id
    have hl := BitVec.toInt_eq_toNat_cond last
    have hi' := id.isLt
    have hl' := last.isLt
    rw [List.singleton_append, readHeader_short cfg last _ suf (by rw [hb]; omega), hb, if_neg (by omega)]
    have e1 : (16 * d + ft.toNat) / 16 = d := by omega
    rw [e1]
    congr 3
    · apply BitVec.eq_of_toNat_eq; rw [BitVec.toNat_ofNat]; omega
    · apply BitVec.eq_of_toNat_eq; rw [BitVec.toNat_add, BitVec.toNat_ofNat]; omega
  · refine Reads.of_slice (generic_readFieldHeader last) (fun cfg => ?_) cfg
    rw [List.cons_append, readHeader_long cfg last ft _ hft hft0, readFullFieldId_varint cfg p suf hp hl id hpid.symm]

/-- C09: field 9 after field 5, long form padded. -/
example : (9#16).toInt = (5#16).toInt + (4 : Nat) ∧ IsVarint [0x92#8, 0x80#8, 0x00#8] ∧
    leb [0x92#8, 0x80#8, 0x00#8] % 2 ^ 16 = zigzag (9#16).toInt := by decide

/-! ## C10 -/

/-- C10: header bytes of a list of `n` elements of wire type `ft`, and reading them. -/
theorem C10_collection_header (cfg : Cfg) (ft : Byte) (hft : ft.toNat < 16) (n : Nat) (hn : n ≤ 10000000) :
    ∃ bytes, Emits (vecSink.writeListHeader ft n) bytes ∧
      (n < 15 → bytes = [BitVec.ofNat 8 (16 * n + ft.toNat)]) ∧
      (15 ≤ n → bytes = BitVec.ofNat 8 (240 + ft.toNat) :: varint n) ∧
      ∀ suf, Reads cfg (fun I => I.readCollectionLenAndType cfg) bytes suf (n, ft) := by
  refine ⟨listHeader ft n, (writes_listHeader ft n hft (by omega)).emits, fun h => ?_, fun h => ?_, fun suf => ?_⟩
  · simp [listHeader, h, Nat.add_comm]
  · rw [listHeader, if_neg (by omega), Nat.add_comm]
  · exact Reads.of_slice generic_readCollection (fun cfg => readCollection_write cfg ft n suf hft hn) cfg

/-- C10: what a header read returns is always within the limit, on both inputs. -/
theorem C10_read_bounded (cfg : Cfg) {σ : Type} (I : Input σ) (s s' : σ) (n : Nat) (ft : Byte)
    (h : I.readCollectionLenAndType cfg s = .ok ((n, ft), s')) : n ≤ 10000000 ∧ ft.toNat < 16 := by
  unfold Input.readCollectionLenAndType at h
  rw [Rd.bind_eq_ok] at h
  obtain ⟨b, t, -, h⟩ := h
  rw [Rd.bind_eq_ok] at h
  obtain ⟨len, t', -, h⟩ := h
  simp only [Rd.ite_apply', Rd.throw_apply, Rd.pure_apply] at h
  split at h
  · cases h
  · rename_i hm
    simp at h
    obtain ⟨⟨rfl, rfl⟩, -⟩ := h
    unfold MAX_COLLECTION_LEN at hm
    rw [and_0f_toNat]
    omega

/-- C10: a declared length above the limit is refused, whatever follows. -/
theorem C10_read_limit (cfg : Cfg) (b : Byte) (hb : 240 ≤ b.toNat) (p suf : Bytes) (hp : IsVarint p) (hl : p.length ≤ 10)
    (h : 10000000 < leb p % 2 ^ 64) :
    Fails cfg (fun I => I.readCollectionLenAndType cfg) (b :: (p ++ suf)) (.err .invalidCollectionLen) := by
  refine Fails.of_slice generic_readCollection (by simp) (fun cfg => ?_) cfg
  have := byte_lt b
  rw [readCollection_long cfg b p suf (by omega) hp hl, if_pos (show MAX_COLLECTION_LEN < leb p % 2 ^ 64 from h)]

/-- C10: a longer list is refused by the writer, for any sink, element type and content, with nothing written. -/
theorem C10_write_limit {τ : Type} (S : Sink τ) (env : List Def) (t : Ty) (vs : List Val) (h : 10000000 < vs.length) (s : τ) :
    writeTy S env (.list t) (.list vs) s = (.error (.err .invalidCollectionLen), s) := by
  rw [writeTy, if_pos (show MAX_COLLECTION_LEN < vs.length from h)]
  rfl

example : IsVarint (varint 10000001) ∧ (varint 10000001).length ≤ 10 ∧ 10000000 < leb (varint 10000001) % 2 ^ 64 :=
  ⟨varint_isVarint _, varint_length_le _ 9 (by omega), by rw [leb_varint]; omega⟩

end CT.Props
