import Verif.Spec.Order
import Verif.Props.Decoding
/-! # C90: the order of the fields on the wire does not matter -/
namespace CT.Props
open CT Spec

theorem dec_fields_iff {env : List Def} {fs : List Field} {last : BitVec 16} {met : List Nat} {vs new : List Val} {p : Bytes} :
    Dec env (.fields fs last met vs new) p ↔ ∃ ws, Framed last ws p ∧ Taken env fs met ws vs new := by
  constructor
  · intro h
    generalize hx : DItem.fields fs last met vs new = x at h
    induction h generalizing last met vs new with
    | stop fs last vs b h =>
      cases hx
      exact ⟨[], .stop _ b h, .nil _⟩
    | known fs last met vs new h ft i f o v p q hh hf hfst ho hp hq ih1 ih2 =>
      cases hx
      obtain ⟨ws, h1, h2⟩ := ih2 rfl
      exact ⟨⟨f.id, ft, p⟩ :: ws, .field _ ⟨f.id, ft, p⟩ _ _ _ hh h1, .known _ ⟨f.id, ft, p⟩ _ _ _ i f o v rfl hf hfst ho hp h2⟩
    | unknown fs last met vs new h ft id p q hh hid hp hq ih =>
      cases hx
      obtain ⟨ws, h1, h2⟩ := ih rfl
      exact ⟨⟨id, ft, p⟩ :: ws, .field _ ⟨id, ft, p⟩ _ _ _ hh h1, .unknown _ ⟨id, ft, p⟩ _ _ _ hid hp h2⟩
    | _ => cases hx
  · rintro ⟨ws, h1, h2⟩
    induction h1 generalizing met vs with
    | stop last b h => cases h2; exact .stop _ _ _ b h
    | field last w ws h q hh hq ih =>
      cases h2 with
      | known met _ _ _ _ i f o v hid hf hfst ho hp hr =>
        have := ih hr
        rw [← hid] at hh this
        exact .known _ _ _ _ _ _ _ i f o v _ _ hh hf hfst ho hp this
      | unknown _ _ _ _ _ hid hp hr => exact .unknown _ _ _ _ _ _ _ _ _ _ hh hid hp (ih hr)

theorem taken_swap {env : List Def} {fs : List Field} {met : List Nat} {x w : WField} {r : List WField} {vs new : List Val} (hne : x.id ≠ w.id)
    (h : Taken env fs met (x :: w :: r) vs new) : ∃ met', Taken env fs met' (w :: x :: r) vs new ∧ ∀ i, i ∈ met' ↔ i ∈ met := by
  cases h with
  | known met _ _ _ _ i f o v hid hf hfst ho hp hr =>
    cases hr with
    | known met _ _ _ _ j g o' v' hid' hf' hfst' ho' hp' hr' =>
      have hij : i ≠ j := by
        rintro rfl
        rw [hf] at hf'; cases hf'
        exact hne (hid.symm.trans hid')
      rw [List.getElem?_set_ne hij] at ho'
      refine ⟨j :: i :: met, .known _ _ _ _ _ j g o' v' hid' hf' hfst' ho' hp' (.known _ _ _ _ _ i f o v hid hf hfst ?_ hp ?_), ?_⟩
      · rw [List.getElem?_set_ne (Ne.symm hij)]; exact ho
      · rw [List.set_comm _ _ (Ne.symm hij)]; exact hr'
      · intro k; simp only [List.mem_cons]; constructor <;> rintro (h | h | h) <;> simp [h]
    | unknown _ _ _ _ _ hid' hp' hr' =>
      exact ⟨_, .unknown _ _ _ _ _ hid' hp' (.known _ _ _ _ _ i f o v hid hf hfst ho hp hr'), fun _ => Iff.rfl⟩
  | unknown _ _ _ _ _ hid hp hr =>
    cases hr with
    | known met _ _ _ _ j g o' v' hid' hf' hfst' ho' hp' hr' =>
      exact ⟨_, .known _ _ _ _ _ j g o' v' hid' hf' hfst' ho' hp' (.unknown _ _ _ _ _ hid hp hr'), fun _ => Iff.rfl⟩
    | unknown _ _ _ _ _ hid' hp' hr' => exact ⟨_, .unknown _ _ _ _ _ hid' hp' (.unknown _ _ _ _ _ hid hp hr'), fun _ => Iff.rfl⟩

theorem taken_cons {env : List Def} {fs : List Field} {w : WField} {r r' : List WField}
    (h : ∀ met vs new, Taken env fs met r vs new → ∃ met', Taken env fs met' r' vs new ∧ ∀ i, i ∈ met' ↔ i ∈ met) {met : List Nat} {vs new : List Val}
    (ht : Taken env fs met (w :: r) vs new) : ∃ met', Taken env fs met' (w :: r') vs new ∧ ∀ i, i ∈ met' ↔ i ∈ met := by
  cases ht with
  | known met _ _ _ _ i f o v hid hf hfst ho hp hr =>
    obtain ⟨met', h1, h2⟩ := h _ _ _ hr
    exact ⟨i :: met', .known _ _ _ _ _ i f o v hid hf hfst ho hp h1, fun k => by simp [h2]⟩
  | unknown _ _ _ _ _ hid hp hr =>
    obtain ⟨met', h1, h2⟩ := h _ _ _ hr
    exact ⟨met', .unknown _ _ _ _ _ hid hp h1, h2⟩

theorem taken_front {env : List Def} {fs : List Field} {w : WField} {b : List WField} : ∀ {a : List WField}, (∀ x ∈ a, x.id ≠ w.id) →
    ∀ (met : List Nat) (vs new : List Val), Taken env fs met (a ++ w :: b) vs new →
      ∃ met', Taken env fs met' (w :: (a ++ b)) vs new ∧ ∀ i, i ∈ met' ↔ i ∈ met := by
  intro a
  induction a with
  | nil => intro _ met vs new h; exact ⟨met, h, fun _ => Iff.rfl⟩
  | cons x a ih =>
    intro hx met vs new h
    obtain ⟨met1, h1, e1⟩ := taken_cons (ih fun y hy => hx y (List.mem_cons_of_mem _ hy)) h
    obtain ⟨met2, h2, e2⟩ := taken_swap (hx x List.mem_cons_self) h1
    exact ⟨met2, h2, fun i => (e2 i).trans (e1 i)⟩

/-- The first element with a property. -/
theorem split_filter {α : Type} {P : α → Bool} {w : α} {r : List α} : ∀ {l : List α}, l.filter P = w :: r →
    ∃ a b, l = a ++ w :: b ∧ (∀ x ∈ a, P x = false) ∧ P w = true ∧ b.filter P = r := by
  intro l
  induction l with
  | nil => intro h; cases h
  | cons x l ih =>
    intro h
    by_cases hx : P x = true
    · rw [List.filter_cons_of_pos hx] at h
      cases h
      exact ⟨[], l, rfl, by simp, hx, rfl⟩
    · rw [List.filter_cons_of_neg hx] at h
      obtain ⟨a, b, rfl, h1, h2, h3⟩ := ih h
      exact ⟨x :: a, b, rfl, fun y hy => (List.mem_cons.1 hy).elim (fun e => e ▸ by simpa using hx) (h1 y), h2, h3⟩

theorem taken_rearranged {env : List Def} {fs : List Field} : ∀ {ws' ws : List WField}, Rearranged ws ws' → ∀ (met : List Nat) (vs new : List Val),
    Taken env fs met ws vs new → ∃ met', Taken env fs met' ws' vs new ∧ ∀ i, i ∈ met' ↔ i ∈ met := by
  intro ws'
  induction ws' with
  | nil =>
    intro ws hr met vs new h
    cases ws with
    | nil => exact ⟨met, h, fun _ => Iff.rfl⟩
    | cons w ws => have := hr w.id; rw [List.filter_cons_of_pos (by simp)] at this; cases this
  | cons w ws' ih =>
    intro ws hr met vs new h
    have hw := hr w.id
    rw [List.filter_cons_of_pos (by simp)] at hw
    obtain ⟨a, b, rfl, h1, _, h3⟩ := split_filter hw.symm
    have ha : ∀ x ∈ a, x.id ≠ w.id := fun x hx => by simpa using h1 x hx
    obtain ⟨met1, t1, e1⟩ := taken_front ha met vs new h
    have hr' : Rearranged (a ++ b) ws' := by
      intro id
      have h4 := hr id
      by_cases hid : w.id = id
      · subst hid
        rw [List.filter_append, h3, List.filter_eq_nil_iff (l := a) |>.2 (fun x hx => by simpa using ha x hx), List.nil_append]
      · rw [List.filter_cons_of_neg (by simpa using hid), List.filter_append, List.filter_cons_of_neg (by simpa using hid)] at h4
        rw [h4, List.filter_append]
    obtain ⟨met2, t2, e2⟩ := taken_cons (ih hr') t1
    exact ⟨met2, t2, fun i => (e2 i).trans (e1 i)⟩

/-- C90: a message accepted as a struct is a list of fields, and every message with the same fields in another order - the fields with one id remaining in their order,
headers in any form - means the same. -/
theorem C90_meaning {env : List Def} {k : Nat} {name : String} {fs : List Field} (hk : env[k]? = some (.struct name fs)) {o v : Val} {p : Bytes}
    (h : Dec env (.value (.named k) o v) p) : ∃ ws met old new, o = .struct old ∧ v = .struct new ∧ Framed 0#16 ws p ∧ Taken env fs met ws old new ∧
      ∀ ws' p', Rearranged ws ws' → Framed 0#16 ws' p' → Dec env (.value (.named k) o v) p' := by
  cases h with
  | enum _ _ _ _ _ _ hk' => rw [hk] at hk'; cases hk'
  | union _ _ _ _ _ _ _ _ _ _ _ _ hk' => rw [hk] at hk'; cases hk'
  | struct _ name' fs' met old new _ hk' hp hr =>
    rw [hk] at hk'; cases hk'
    obtain ⟨ws, h1, h2⟩ := dec_fields_iff.1 hp
    refine ⟨ws, met, old, new, rfl, rfl, h1, h2, fun ws' p' hre hf => ?_⟩
    obtain ⟨met', h3, h4⟩ := taken_rearranged hre _ _ _ h2
    exact .struct k name fs met' old new p' hk (dec_fields_iff.2 ⟨ws', hf, h3⟩) fun i f hf hreq => (h4 i).2 (hr i f hf hreq)

/-- C90 for the slice (no overflow checks, no SSE2 skip): reading the fields in another order gives the same value. -/
theorem C90_slice {cfg : Cfg} (hov : cfg.overflowChecks = false) (hs : cfg.sse2 = false) (ha : AllocOk cfg) {env : List Def} (he : schemaReads env = true) {k : Nat}
    {name : String} {fs : List Field} (hk : env[k]? = some (.struct name fs)) {o v : Val} {s s' : Bytes}
    (h : fillThrift cfg (sliceInput cfg) env (.named k) o s = .ok (v, s')) :
    ∃ p ws met old new, s = p ++ s' ∧ o = .struct old ∧ v = .struct new ∧ Framed 0#16 ws p ∧ Taken env fs met ws old new ∧
      ∀ ws' p', Rearranged ws ws' → Framed 0#16 ws' p' → ∀ r, fillThrift cfg (sliceInput cfg) env (.named k) o (p' ++ r) = .ok (v, r) := by
  have ht : tyClosed env (.named k) = true := by
    unfold tyClosed
    exact decide_eq_true (List.getElem?_eq_some_iff.1 hk).1
  obtain ⟨p, rfl, hp⟩ := (C76_slice hov hs ha he ht o v s s').1 h
  obtain ⟨ws, met, old, new, h1, h2, h3, h4, h5⟩ := C90_meaning hk hp
  exact ⟨p, ws, met, old, new, rfl, h1, h2, h3, h4, fun ws' p' hre hf r => (C76_slice hov hs ha he ht o v _ r).2 ⟨p', rfl, h5 ws' p' hre hf⟩⟩

/-- C90 for readers. -/
theorem C90_reader {cfg : Cfg} (hov : cfg.overflowChecks = false) (ha : AllocOk cfg) {env : List Def} (he : schemaReads env = true) {k : Nat}
    {name : String} {fs : List Field} (hk : env[k]? = some (.struct name fs)) {o v : Val} {s s' : Bytes} {evs evs' : List REvent} (hd : Delivers evs s)
    (hd' : Delivers evs' s') (h : fillThrift cfg (readerInput cfg) env (.named k) o evs = .ok (v, evs')) :
    ∃ p ws met old new, s = p ++ s' ∧ o = .struct old ∧ v = .struct new ∧ Framed 0#16 ws p ∧ Taken env fs met ws old new ∧
      ∀ ws' p', Rearranged ws ws' → Framed 0#16 ws' p' → ∀ r e, Delivers e (p' ++ r) →
        ∃ e', fillThrift cfg (readerInput cfg) env (.named k) o e = .ok (v, e') ∧ Delivers e' r := by
  have ht : tyClosed env (.named k) = true := by
    unfold tyClosed
    exact decide_eq_true (List.getElem?_eq_some_iff.1 hk).1
  obtain ⟨p, rfl, hp⟩ := (C76_reader hov ha he ht o v hd s').1 ⟨evs', h, hd'⟩
  obtain ⟨ws, met, old, new, h1, h2, h3, h4, h5⟩ := C90_meaning hk hp
  exact ⟨p, ws, met, old, new, rfl, h1, h2, h3, h4, fun ws' p' hre hf r e hde => (C76_reader hov ha he ht o v hde r).2 ⟨p', rfl, h5 ws' p' hre hf⟩⟩

/-- C90: if no id occurs twice, every permutation of the fields is such an order. -/
theorem C90_permuted {ws ws' : List WField} (hn : (ws.map WField.id).Nodup) (hp : ws'.Perm ws) : Rearranged ws ws' := by
  intro id
  have h1 := hp.filter (fun w => w.id == id)
  have h2 : ∀ l : List WField, (l.map WField.id).Nodup → (l.filter (fun w => w.id == id)).length ≤ 1 := by
    intro l
    induction l with
    | nil => simp
    | cons w l ih =>
      intro h
      rw [List.map_cons, List.nodup_cons] at h
      by_cases hw : w.id = id
      · rw [List.filter_cons_of_pos (by simpa using hw), List.filter_eq_nil_iff.2]
        · simp
        · intro x hx
          simp only [beq_iff_eq]
          rintro rfl
          exact h.1 (hw ▸ List.mem_map_of_mem hx)
      · rw [List.filter_cons_of_neg (by simpa using hw)]; exact ih h.2
  have h3 := h2 ws hn
  have h4 := h1.length_eq
  generalize ws'.filter (fun w => w.id == id) = l' at *
  generalize ws.filter (fun w => w.id == id) = l at *
  match l, l', h3 with
  | [], l', _ => exact List.eq_nil_of_length_eq_zero h4
  | [x], l', _ => exact List.perm_singleton.1 h1

/-- C90: every list of fields can be framed, in any order. -/
theorem C90_framed : ∀ (ws : List WField) (last : BitVec 16), (∀ w ∈ ws, 1 ≤ w.ft ∧ w.ft ≤ 15) → ∃ p, Framed last ws p := by
  intro ws
  induction ws with
  | nil => intro last _; exact ⟨[0#8], .stop _ _ (by unfold lenientStop; decide)⟩
  | cons w ws ih =>
    intro last h
    obtain ⟨q, hq⟩ := ih w.id fun x hx => h x (List.mem_cons_of_mem _ hx)
    obtain ⟨h1, h2⟩ := h w List.mem_cons_self
    have hz : zigzag w.id.toInt < 2 ^ 16 := by
      have := BitVec.toInt_lt (x := w.id); have := BitVec.le_toInt (x := w.id)
      unfold zigzag
      split <;> omega
    have hb : (BitVec.ofNat 8 w.ft).toNat = w.ft := by rw [BitVec.toNat_ofNat]; omega
    have := FieldHeader.long last (BitVec.ofNat 8 w.ft) (varint (zigzag w.id.toInt)) (zigzag w.id.toInt) w.id (by rw [hb]; omega) (by rw [hb]; omega)
      (varintVal_varint (by omega)) (by rw [Nat.mod_eq_of_lt hz])
    rw [hb] at this
    exact ⟨_, .field last w ws _ q this hq⟩

/-- The fields of the example of C76: an unknown field 5, field 1, field 2. -/
def orderFields : List WField := [⟨5#16, 8, [1#8, 0xFF#8]⟩, ⟨1#16, 5, [6#8]⟩, ⟨2#16, 9, [0x21#8, 1#8, 7#8]⟩]

/-- The same message with its fields in the order 2, 1, 5: the conditions of C90 hold, and both read as the same value. -/
example : Framed 0#16 orderFields decBytes ∧ Rearranged orderFields orderFields.reverse ∧
    Framed 0#16 orderFields.reverse [0x29#8, 0x21#8, 1#8, 7#8, 0x05#8, 2#8, 6#8, 0x48#8, 1#8, 0xFF#8, 0#8] ∧
    readThrift ⟨false, false, fun _ => true⟩ (sliceInput ⟨false, false, fun _ => true⟩) decEnv (.named 0) decBytes = .ok (decVal, []) ∧
    readThrift ⟨false, false, fun _ => true⟩ (sliceInput ⟨false, false, fun _ => true⟩) decEnv (.named 0)
      [0x29#8, 0x21#8, 1#8, 7#8, 0x05#8, 2#8, 6#8, 0x48#8, 1#8, 0xFF#8, 0#8] = .ok (decVal, []) := by
  have hl : ∀ last : BitVec 16, FieldHeader last [0x05#8, 2#8] 5 1#16 := fun last =>
    .long last 0x05#8 [2#8] 2 1#16 (by decide) (by decide) (decVarint (b := 2#8) (by decide)) (by decide)
  refine ⟨?_, C90_permuted (by decide) (List.reverse_perm _), ?_, rfl, rfl⟩
  · exact .field 0#16 ⟨5#16, 8, [1#8, 0xFF#8]⟩ _ [0x58#8] _ (.short 0#16 0x58#8 (by decide) (by decide))
      (.field 5#16 ⟨1#16, 5, [6#8]⟩ _ [0x05#8, 2#8] _ (hl _)
      (.field 1#16 ⟨2#16, 9, [0x21#8, 1#8, 7#8]⟩ _ [0x19#8] _ (.short 1#16 0x19#8 (by decide) (by decide))
      (.stop _ 0x40#8 (by unfold lenientStop; decide))))
  · exact .field 0#16 ⟨2#16, 9, [0x21#8, 1#8, 7#8]⟩ _ [0x29#8] _ (.short 0#16 0x29#8 (by decide) (by decide))
      (.field 2#16 ⟨1#16, 5, [6#8]⟩ _ [0x05#8, 2#8] _ (hl _)
      (.field 1#16 ⟨5#16, 8, [1#8, 0xFF#8]⟩ _ [0x48#8] _ (.short 1#16 0x48#8 (by decide) (by decide))
      (.stop _ 0#8 (by unfold lenientStop; decide))))

/-- The order of fields with one id does matter: a required field met twice has its last value. -/
theorem C90_counterexample_repeated :
    readThrift ⟨false, false, fun _ => true⟩ (sliceInput ⟨false, false, fun _ => true⟩) decEnv (.named 0) [0x15#8, 2#8, 0x05#8, 2#8, 4#8, 0#8] =
      .ok (.struct [.i32 2#32, .none, .none], []) ∧
    readThrift ⟨false, false, fun _ => true⟩ (sliceInput ⟨false, false, fun _ => true⟩) decEnv (.named 0) [0x15#8, 4#8, 0x05#8, 2#8, 2#8, 0#8] =
      .ok (.struct [.i32 1#32, .none, .none], []) := ⟨rfl, rfl⟩

end CT.Props
