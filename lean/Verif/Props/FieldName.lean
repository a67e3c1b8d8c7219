import Verif.Model.FieldName
import Verif.Proofs.Utf8
/-!
# C74: names of missing fields
-/
namespace CT.Props
open CT Spec

/-- `bs` lies at `p`. Nothing is said about the bytes around it. -/
def Holds (mem : Mem) (p : Nat) (bs : Bytes) : Prop := ∀ i (h : i < bs.length), mem (p + i) = some bs[i]

theorem holds_cons {mem : Mem} {p : Nat} {b : Byte} {bs : Bytes} (h : Holds mem p (b :: bs)) : mem p = some b ∧ Holds mem (p + 1) bs := by
  refine ⟨h 0 (by simp), fun i hi => ?_⟩
  have := h (i + 1) (by simpa using hi)
  rwa [show p + (i + 1) = p + 1 + i by omega] at this

/-- C74: a string is accepted exactly if it ends in nul; anything else panics, and nothing outside the string is read. -/
theorem C74_accepts {mem : Mem} {p : Nat} {s : Bytes} (h : Holds mem p s) :
    FieldName.ofStr mem p s.length = if s.getLast? = some 0 then .ok ⟨p⟩ else .error .panic := by
  unfold FieldName.ofStr
  cases s with
  | nil => rfl
  | cons b t =>
    rw [if_neg (by simp), h ((b :: t).length - 1) (by simp), List.getLast?_eq_getElem?, List.getElem?_eq_getElem (by simp)]
    simp

theorem cstr_text {mem : Mem} : ∀ {t : Bytes} {p fuel : Nat}, (0 : Byte) ∉ t → Holds mem p (t ++ [0]) → t.length < fuel → cstr mem fuel p = .ok t
  | [], p, 0, _, _, hf => absurd hf (by simp)
  | [], p, fuel + 1, _, h, _ => by
    rw [cstr, (holds_cons h).1]; rfl
  | b :: t, p, 0, _, _, hf => absurd hf (by simp)
  | b :: t, p, fuel + 1, h0, h, hf => by
    rw [cstr, (holds_cons h).1]
    dsimp only
    rw [if_neg (fun hb => h0 (by simp [hb])), cstr_text (fun hm => h0 (List.mem_cons_of_mem _ hm)) (holds_cons h).2 (by simpa using hf)]

/-- Everything before the first nul. -/
theorem split_nul : ∀ {s : Bytes}, (0 : Byte) ∈ s → ∃ t u, s = t ++ 0 :: u ∧ (0 : Byte) ∉ t
  | b :: s, h => by
    by_cases hb : b = 0
    · exact ⟨[], s, by rw [hb]; rfl, by simp⟩
    · obtain ⟨t, u, rfl, ht⟩ := split_nul (s := s) ((List.mem_cons.1 h).resolve_left (Ne.symm hb))
      exact ⟨b :: t, u, rfl, fun hm => (List.mem_cons.1 hm).elim (Ne.symm hb) ht⟩

theorem utf8_nul {n : Nat} (h : IsScalar n) : (0 : Byte) ∈ utf8 n ↔ n = 0 := by
  unfold IsScalar at h
  have key : ∀ k : Nat, k < 256 → ((0 : Byte) = BitVec.ofNat 8 k ↔ k = 0) := by
    intro k hk
    constructor
    · intro h
      have := congrArg BitVec.toNat h
      rw [ofNat_toNat8 hk] at this; simpa using this.symm
    · rintro rfl; rfl
  unfold utf8
  split
  · simp only [List.mem_cons, List.not_mem_nil, or_false]
    rw [key n (by omega)]
  · split
    · simp only [List.mem_cons, List.not_mem_nil, or_false]
      rw [key _ (by omega), key _ (by omega)]; omega
    · split
      · simp only [List.mem_cons, List.not_mem_nil, or_false]
        rw [key _ (by omega), key _ (by omega), key _ (by omega)]; omega
      · simp only [List.mem_cons, List.not_mem_nil, or_false]
        rw [key _ (by omega), key _ (by omega), key _ (by omega), key _ (by omega)]; omega

/-- Cutting UTF-8 at its first nul leaves UTF-8. -/
theorem isUtf8_before_nul : ∀ (ns : List Nat) (_ : ∀ n ∈ ns, IsScalar n) (t u : Bytes), ns.flatMap utf8 = t ++ 0 :: u → (0 : Byte) ∉ t → IsUtf8 t
  | [], _, t, u, h, _ => by cases t <;> simp at h
  | n :: ns, hs, t, u, h, h0 => by
    have hn := hs n (by simp)
    by_cases hz : n = 0
    · subst hz
      cases t with
      | nil => exact ⟨[], by simp, rfl⟩
      | cons b t =>
        have : b = 0 := by simpa [utf8] using (List.cons.inj h).1.symm
        exact absurd (by simp [this]) h0
    · have hno : (0 : Byte) ∉ utf8 n := fun hm => hz ((utf8_nul hn).1 hm)
      rw [List.flatMap_cons, List.append_eq_append_iff] at h
      rcases h with ⟨v, rfl, hv⟩ | ⟨v, hv1, hv2⟩
      · exact isUtf8_cons hn (isUtf8_before_nul ns (fun m hm => hs m (by simp [hm])) v u hv (fun hm => h0 (List.mem_append_right _ hm)))
      · cases v with
        | nil =>
          rw [List.append_nil] at hv1
          rw [← hv1]
          exact ⟨[n], by simpa using hn, by simp⟩
        | cons b v =>
          have hb : (0 : Byte) = b := (List.cons.inj hv2).1
          exact absurd (by rw [hv1, hb]; simp) hno

/-- C74: a `FieldName` made from a string displays the part of it before its first nul; the search ends inside the string, whatever lies behind it. -/
theorem C74_display {mem : Mem} {p : Nat} {s : Bytes} {f : FieldName} (h : Holds mem p s) (hu : IsUtf8 s) (hf : FieldName.ofStr mem p s.length = .ok f) :
    ∃ text rest, s = text ++ 0 :: rest ∧ 0 ∉ text ∧ ∀ fuel, s.length ≤ fuel → f.display mem fuel = .ok text := by
  rw [C74_accepts h] at hf
  split at hf
  · rename_i hlast
    cases hf
    obtain ⟨t, u, rfl, ht⟩ := split_nul (List.mem_of_getLast? hlast)
    refine ⟨t, u, rfl, ht, fun fuel hfuel => ?_⟩
    have hh : Holds mem p (t ++ [0]) := by
      intro i hi
      have h1 := h i (by simp at hi ⊢; omega)
      rw [h1]
      congr 1
      by_cases hit : i < t.length
      · rw [List.getElem_append_left hit, List.getElem_append_left hit]
      · have : i = t.length := by simp at hi; omega
        subst this
        simp
    have hv : utf8Valid t = true := by
      obtain ⟨ns, hns, heq⟩ := hu
      exact (utf8Valid_iff t).2 (isUtf8_before_nul ns hns t u heq.symm ht)
    unfold FieldName.display
    rw [cstr_text ht hh (by simp at hfuel ⊢; omega)]
    simp [hv]
  · cases hf

/-- The UTF-8 encoding of a string. -/
def encodeString (s : String) : Bytes := s.toList.flatMap fun c => utf8 c.toNat

theorem char_scalar (c : Char) : IsScalar c.toNat := by
  have h := c.valid
  unfold UInt32.isValidChar Nat.isValidChar at h
  unfold IsScalar Char.toNat
  omega

theorem encodeString_utf8 (s : String) : IsUtf8 (encodeString s) :=
  ⟨s.toList.map Char.toNat, by
    intro n hn
    obtain ⟨c, _, rfl⟩ := List.mem_map.1 hn
    exact char_scalar c, by simp [encodeString, List.flatMap_map]⟩

theorem encodeString_nul {s : String} (h : '\x00' ∉ s.toList) : (0 : Byte) ∉ encodeString s := by
  intro hm
  obtain ⟨c, hc, hb⟩ := List.mem_flatMap.1 hm
  have := (utf8_nul (char_scalar c)).1 hb
  have hc0 : c = '\x00' := Char.toNat_inj.1 (by rw [this]; rfl)
  exact h (hc0 ▸ hc)

/-- C74: the error a missing required field raises can always be built and displays `Struct::field`. -/
theorem C74_missing_field {mem : Mem} {p : Nat} {structName fieldName : String} (h1 : '\x00' ∉ structName.toList) (h2 : '\x00' ∉ fieldName.toList)
    (h : Holds mem p (encodeString (missingFieldLiteral structName fieldName))) :
    ∃ f, FieldName.ofStr mem p (encodeString (missingFieldLiteral structName fieldName)).length = .ok f ∧
      ∀ fuel, (encodeString (missingFieldLiteral structName fieldName)).length ≤ fuel → f.display mem fuel = .ok (encodeString (structName ++ "::" ++ fieldName)) := by
  have hsplit : encodeString (missingFieldLiteral structName fieldName) = encodeString (structName ++ "::" ++ fieldName) ++ [0] := by
    unfold encodeString missingFieldLiteral
    rw [String.toList_append, List.flatMap_append]
    rfl
  have h0 : (0 : Byte) ∉ encodeString (structName ++ "::" ++ fieldName) := by
    apply encodeString_nul
    rw [String.toList_append, String.toList_append]
    simp only [List.mem_append, not_or]
    exact ⟨⟨h1, by decide⟩, h2⟩
  have hacc : FieldName.ofStr mem p (encodeString (missingFieldLiteral structName fieldName)).length = .ok ⟨p⟩ := by
    rw [C74_accepts h, hsplit]; simp
  refine ⟨⟨p⟩, hacc, fun fuel hfuel => ?_⟩
  obtain ⟨t, u, heq, ht, hd⟩ := C74_display h (encodeString_utf8 _) hacc
  rw [hd fuel hfuel]
  congr 1
  rw [hsplit] at heq
  rw [List.append_eq_append_iff] at heq
  rcases heq with ⟨v, rfl, hv⟩ | ⟨v, hv1, hv2⟩
  · cases v with
    | nil => simp
    | cons b v => 
      have hb := (List.cons.inj hv).1
      exact absurd (by rw [← hb]; simp) ht
  · cases v with
    | nil => simpa using hv1.symm
    | cons b v =>
      have hb := (List.cons.inj hv2).1
      exact absurd (by rw [hv1, hb]; simp) h0

/-- `"S::a\0"` at address 100, followed by bytes that may not be read. -/
example : ∃ mem : Mem, mem 105 = none ∧ Holds mem 100 (encodeString (missingFieldLiteral "S" "a")) ∧
    FieldName.display mem 6 ⟨100⟩ = .ok [0x53#8, 0x3A#8, 0x3A#8, 0x61#8] := by
  have he : encodeString (missingFieldLiteral "S" "a") = [0x53#8, 0x3A#8, 0x3A#8, 0x61#8, 0x00#8] := rfl
  refine ⟨fun a => if 100 ≤ a then [0x53#8, 0x3A#8, 0x3A#8, 0x61#8, 0x00#8][a - 100]? else none, rfl, ?_, rfl⟩
  rw [he]
  intro i hi
  simp only [Nat.le_add_right, if_true, Nat.add_sub_cancel_left]
  exact List.getElem?_eq_getElem hi

/-- Without the nul the constructor panics. -/
example : ∃ mem : Mem, Holds mem 100 [0x53#8] ∧ FieldName.ofStr mem 100 1 = .error .panic :=
  ⟨fun _ => some 0x53#8, fun i hi => by have : i = 0 := by simp at hi; omega
                                        subst this; rfl, rfl⟩

end CT.Props
