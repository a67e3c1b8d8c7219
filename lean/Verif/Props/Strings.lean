import Verif.Proofs.Reads
import Verif.Proofs.Utf8
/-! # C07: strings -/
namespace CT.Props
open CT Spec

/-- C07: on any input, `read_string` returns a string exactly if `read_binary` returns the same bytes and they are
UTF-8, and fails with `InvalidString` exactly if `read_binary` returns bytes that are not. -/
theorem C07_read_string {σ : Type} (I : Input σ) (s s' : σ) (bs : Bytes) (h : I.readBinary s = .ok (bs, s')) :
    (IsUtf8 bs → I.readString s = .ok (bs, s')) ∧
    (¬ IsUtf8 bs → I.readString s = .error (.err .invalidString)) := by
  unfold Input.readString
  rw [Rd.bind_ok h]
  simp only [Rd.ite_apply', Rd.pure_apply, Rd.throw_apply]
  rw [← utf8Valid_iff]
  exact ⟨fun h => by rw [if_pos h], fun h => by rw [if_neg h]⟩

/-- C07: every string returned is UTF-8, on any input. -/
theorem C07_returned_valid {σ : Type} (I : Input σ) (s s' : σ) (bs : Bytes) (h : I.readString s = .ok (bs, s')) :
    IsUtf8 bs ∧ I.readBinary s = .ok (bs, s') := by
  unfold Input.readString at h
  rw [Rd.bind_eq_ok] at h
  obtain ⟨x, t, h1, h2⟩ := h
  simp only [Rd.ite_apply', Rd.pure_apply, Rd.throw_apply] at h2
  split at h2
  · rename_i hv
    simp at h2
    obtain ⟨rfl, rfl⟩ := h2
    exact ⟨(utf8Valid_iff _).1 hv, h1⟩
  · simp at h2

/-- C07: writing a string of scalar values and reading it back. -/
theorem C07_round_trip (cfg : Cfg) (ns : List Nat) (hns : ∀ n ∈ ns, IsScalar n) (h : (ns.flatMap utf8).length ≤ 16777216) :
    ∃ bytes, Emits (vecSink.writeBinary (ns.flatMap utf8)) bytes ∧
      ∀ suf, Reads cfg (fun I => I.readString) bytes suf (ns.flatMap utf8) :=
  ⟨_, (writes_writeBinary _ h).emits, fun suf =>
    Reads.of_slice generic_readString (fun cfg =>
      (C07_read_string (sliceInput cfg) _ _ _ (readBinary_write cfg _ suf h)).1 ⟨ns, hns, rfl⟩) cfg⟩

/-- The encoding is the one of Lean's own `String` library. -/
theorem C07_spec_agrees (c : Char) : (String.utf8EncodeChar c).map UInt8.toBitVec = utf8 c.toNat := by
  have hc := c.valid
  have hlt : c.val.toNat < 0x110000 := by
    
    unfold UInt32.isValidChar Nat.isValidChar at hc; omega
  have key : ∀ k : Nat, (UInt8.ofNat k).toBitVec = BitVec.ofNat 8 k := fun k => rfl
  unfold utf8 String.utf8EncodeChar
  show _ = if c.val.toNat < 0x80 then _ else if c.val.toNat < 0x800 then _ else if c.val.toNat < 0x10000 then _ else _
  simp only [Char.toNat]
  have e1 : (c.val.toNat ≤ 0x7f) ↔ c.val.toNat < 0x80 := by omega
  have e2 : (c.val.toNat ≤ 0x7ff) ↔ c.val.toNat < 0x800 := by omega
  have e3 : (c.val.toNat ≤ 0xffff) ↔ c.val.toNat < 0x10000 := by omega
  simp only [e1, e2, e3]
  split
  · simp [key]
  · split
    · simp only [List.map_cons, List.map_nil, key, List.cons.injEq, and_true]
      constructor <;> congr 1 <;> omega
    · split
      · simp only [List.map_cons, List.map_nil, key, List.cons.injEq, and_true]
        refine ⟨?_, ?_, ?_⟩ <;> congr 1 <;> omega
      · simp only [List.map_cons, List.map_nil, key, List.cons.injEq, and_true]
        refine ⟨?_, ?_, ?_, ?_⟩ <;> congr 1 <;> omega

/-- "é€𝄞" is UTF-8; an overlong slash, a surrogate and a lone continuation byte are not accepted. -/
example : IsScalar 0xE9 ∧ IsScalar 0x20AC ∧ IsScalar 0x1D11E ∧
    [0xE9, 0x20AC, 0x1D11E].flatMap utf8 = [0xC3#8, 0xA9#8, 0xE2#8, 0x82#8, 0xAC#8, 0xF0#8, 0x9D#8, 0x84#8, 0x9E#8] := by
  decide
example : ¬ IsUtf8 [0xC0#8, 0xAF#8] ∧ ¬ IsUtf8 [0xED#8, 0xA0#8, 0x80#8] ∧ ¬ IsUtf8 [0x80#8] := by
  simp only [← utf8Valid_iff]; simp [utf8Valid, utf8Valid.utf8Three, inRange, isCont]

end CT.Props
