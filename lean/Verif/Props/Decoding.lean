import Verif.Proofs.Decoding
import Verif.Props.Reading
/-! # C76: exactly which bytes a read accepts, and what they mean -/
namespace CT.Props
open CT Spec

/-! ## C76 -/

/-- A schema for the examples: `struct S { 1: required i32 a; 2: optional list<bool> b; 3: optional U u }`, `union U { 1: string s; 2: S t }`. -/
def decEnv : List Def :=
  [.struct "S" [⟨1#16, true, "a", .i32⟩, ⟨2#16, false, "b", .list .bool⟩, ⟨3#16, false, "u", .named 1⟩],
   .union "U" [⟨1#16, "S", .string⟩, ⟨2#16, "T", .box (.named 0)⟩]]

/-- An unknown field 5 with a binary of one byte, field 1 in the long form, field 2 in the short form with element type 1 and the elements 1 and 7, and a stop byte
0x40. -/
def decBytes : Bytes := [0x58#8, 1#8, 0xFF#8, 0x05#8, 2#8, 6#8, 0x19#8, 0x21#8, 1#8, 7#8, 0x40#8]

def decVal : Val := .struct [.i32 3#32, .some (.list [.bool true, .bool false]), .none]

theorem decVarint {b : Byte} (h : b.toNat < 128) : VarintVal [b] b.toNat := by
  have e := varintVal_varint (n := b.toNat) (by omega)
  rw [varint, if_pos h] at e
  simpa using e

theorem decBytes_decodes : schemaReads decEnv = true ∧ tyClosed decEnv (.named 0) = true ∧ Decodes decEnv (.named 0) decVal decBytes := by
  refine ⟨by decide, by decide, .struct [.i32 0#32, .none, .none], ?_, ?_⟩
  · refine .struct 0 "S" _ _ rfl rfl fun i f v hf hv => ?_
    match i with
    | 0 => cases hf; cases hv; exact .i32
    | 1 => cases hf; cases hv; exact .none _
    | 2 => cases hf; cases hv; exact .none _
    | n + 3 => simp at hf
  · refine .struct 0 "S" _ [0, 1] _ _ _ rfl ?_ (fun i f hf hr => ?_)
    · have h1 : FieldHeader 0#16 [0x58#8] 8 5#16 := .short 0#16 0x58#8 (by decide) (by decide)
      have h2 : FieldHeader 5#16 [0x05#8, 2#8] 5 1#16 := .long 5#16 0x05#8 [2#8] 2 1#16 (by decide) (by decide) (decVarint (b := 2#8) (by decide)) (by decide)
      have h3 : FieldHeader 1#16 [0x19#8] 9 2#16 := .short 1#16 0x19#8 (by decide) (by decide)
      refine .unknown _ _ _ _ _ [0x58#8] 8 5#16 [1#8, 0xFF#8] _ h1 (by decide) (.binary false [1#8] [0xFF#8] (decVarint (b := 1#8) (by decide)) (by decide)) ?_
      refine .known _ _ [1] _ _ [0x05#8, 2#8] 5 0 ⟨1#16, true, "a", .i32⟩ (.i32 0#32) (.i32 3#32) [6#8] _ h2 rfl (by omega) rfl ?_ ?_
      · exact .fieldValue .i32 _ _ _ (by simp) (by simp) (.i32 _ _ 6 _ (decVarint (b := 6#8) (by decide)) (by decide))
      · refine .known _ _ [] _ _ [0x19#8] 9 1 ⟨2#16, false, "b", .list .bool⟩ .none (.some (.list [.bool true, .bool false])) [0x21#8, 1#8, 7#8] _ h3 rfl ?_ rfl ?_ ?_
        · intro j g hj hg
          obtain rfl : j = 0 := by omega
          cases hg; decide
        · refine .fieldSome _ _ (.list []) _ _ (.list _) (.fieldValue (.list .bool) _ _ _ (by simp) (by simp) ?_)
          exact .list .bool _ [0x21#8] 1 _ [1#8, 7#8] (.short 0x21#8 (by decide)) (.inr ⟨rfl, rfl⟩)
            (.elemsCons _ (.bool false) _ _ [1#8] [7#8] .bool (.bool _ 1#8) (.elemsCons _ (.bool false) _ _ [7#8] [] .bool (.bool _ 7#8) (.elemsNil _)))
        · exact .stop _ _ _ 0x40#8 (by unfold lenientStop; decide)
    · match i with
      | 0 => simp
      | 1 => simp
      | 2 => cases hf; cases hr
      | n + 3 => simp at hf

/-- Filling succeeds exactly on the bytes of the specification, in terms of what is skipped for an integer. -/
theorem fill_reads {cfg : Cfg} {int : Bytes → Prop} (hc : SliceReads cfg int) (ha : AllocOk cfg) {env : List Def} (he : schemaReads env = true) {t : Ty}
    (ht : tyClosed env t = true) (o v : Val) (s s' : Bytes) :
    fillThrift cfg (sliceInput cfg) env t o s = .ok (v, s') ↔ ∃ p, s = p ++ s' ∧ DecOf int env (.value t o v) p := by
  obtain ⟨hcl, hd⟩ := schemaReads_iff.1 he
  constructor
  · intro h
    exact sound_fillTy hc hd (fun k o hk => sound_fillNamed hc hd hcl _ k o hk) t ht o _ _ _ h
  · rintro ⟨p, rfl, hp⟩
    obtain ⟨N, h⟩ := dec_complete hc hd ha hp
    have e := fillTy_canon (cfg := cfg) (slice_measured_nd cfg) env (n := N + (p ++ s').length + 1) (s := p ++ s')
      (by show (p ++ s').length + 1 ≤ _; omega) t o
    exact e ▸ h _ (by omega) s'

/-- C76, slices without the SSE2 skip, no overflow checks: filling succeeds exactly on the bytes of the specification, gives the value they mean and consumes
exactly them. Only completeness needs the allocator. -/
theorem C76_slice {cfg : Cfg} (hov : cfg.overflowChecks = false) (hs : cfg.sse2 = false) (ha : AllocOk cfg) {env : List Def} (he : schemaReads env = true) {t : Ty}
    (ht : tyClosed env t = true) (o v : Val) (s s' : Bytes) :
    fillThrift cfg (sliceInput cfg) env t o s = .ok (v, s') ↔ ∃ p, s = p ++ s' ∧ Dec env (.value t o v) p :=
  fill_reads (Plain.reads ⟨hov, hs⟩) ha he ht o v s s'

/-- The conditions hold and both sides of C76 are true. -/
example (r : Bytes) : readThrift ⟨false, false, fun _ => true⟩ (sliceInput ⟨false, false, fun _ => true⟩) decEnv (.named 0) (decBytes ++ r) = .ok (decVal, r) :=
  (C76_slice rfl rfl (fun _ _ => rfl) decBytes_decodes.1 decBytes_decodes.2.1 _ _ _ _).2 ⟨decBytes, rfl, by
    obtain ⟨d, h1, h2⟩ := decBytes_decodes.2.2
    rw [dflt_of_isDefault (schemaReads_iff.1 decBytes_decodes.1).2 h1]; exact h2⟩

theorem run_fill_ok {σ : Type} {cfg : Cfg} {I : Input σ} {env : List Def} {t : Ty} {o v : Val} {s s' : σ} :
    fillThrift cfg I env t o s = .ok (v, s') ↔ (Op.fill env t o).run cfg I s = .ok (some v, s') := by
  unfold Op.run
  rw [Rd.bind_eq_ok]
  constructor
  · intro h; exact ⟨v, s', h, rfl⟩
  · rintro ⟨_, t, h, e⟩; cases e; exact h

theorem same_ok_iff {α : Type} {x : Except Fail (α × Bytes)} {y : Except Fail (α × List REvent)} (h : Same (fun s evs => Delivers evs s) x y) (a : α)
    (s' : Bytes) : x = .ok (a, s') ↔ ∃ evs', y = .ok (a, evs') ∧ Delivers evs' s' := by
  cases x with
  | error e =>
    cases y with
    | error f => simp
    | ok r => exact h.elim
  | ok q =>
    obtain ⟨b, t⟩ := q
    cases y with
    | error f => exact h.elim
    | ok r =>
      obtain ⟨c, evs⟩ := r
      obtain ⟨rfl, h⟩ := h
      constructor
      · intro e; cases e; exact ⟨_, rfl, h⟩
      · rintro ⟨evs', e, h2⟩
        cases e
        rw [Delivers.det h h2]

/-- C76 for readers, however the bytes are delivered. -/
theorem C76_reader {cfg : Cfg} (hov : cfg.overflowChecks = false) (ha : AllocOk cfg) {env : List Def} (he : schemaReads env = true) {t : Ty}
    (ht : tyClosed env t = true) (o v : Val) {evs : List REvent} {s : Bytes} (hd : Delivers evs s) (s' : Bytes) :
    (∃ evs', fillThrift cfg (readerInput cfg) env t o evs = .ok (v, evs') ∧ Delivers evs' s') ↔ ∃ p, s = p ++ s' ∧ Dec env (.value t o v) p := by
  rw [← C76_slice (cfg := cfg.noSse2) hov rfl ha he ht, run_fill_ok, same_ok_iff (slice_reader_same cfg (.fill env t o) hd)]
  simp only [run_fill_ok]

/-- C76 for slices with the SSE2 skip, if no skipped integer is cut off or longer than 17 bytes. -/
theorem C76_slice_sse2 {cfg : Cfg} (hov : cfg.overflowChecks = false) (ha : AllocOk cfg) {env : List Def} (he : schemaReads env = true) {t : Ty}
    (ht : tyClosed env t = true) (o v : Val) {s : Bytes} (hs : ShortSkips cfg (.fill env t o) s) (s' : Bytes) :
    fillThrift cfg (sliceInput cfg) env t o s = .ok (v, s') ↔ ∃ p, s = p ++ s' ∧ Dec env (.value t o v) p := by
  obtain ⟨evs, hd⟩ := delivers_one s
  rw [← C76_reader hov ha he ht o v hd s', run_fill_ok, same_ok_iff (sse2_same cfg (.fill env t o) hd hs)]
  simp only [run_fill_ok]

/-- C76 with overflow checks: the read panics, or succeeds exactly on the bytes of the specification. -/
theorem C76_checked {cfg : Cfg} (hs : cfg.sse2 = false) (ha : AllocOk cfg) {env : List Def} (he : schemaReads env = true) {t : Ty}
    (ht : tyClosed env t = true) (o : Val) (s : Bytes) :
    fillThrift cfg (sliceInput cfg) env t o s = .error .panic ∨
    ∀ v s', fillThrift cfg (sliceInput cfg) env t o s = .ok (v, s') ↔ ∃ p, s = p ++ s' ∧ Dec env (.value t o v) p := by
  rcases (C60_overflow_checks cfg (.fill env t o)).1 s with h | h
  · left
    unfold Op.run at h
    rcases Rd.bind_eq_error.1 h with h | ⟨_, _, _, h⟩
    · exact h
    · cases h
  · right
    intro v s'
    rw [← C76_slice (cfg := unchecked cfg) rfl hs ha he ht, run_fill_ok, h, run_fill_ok]

theorem read_reads {cfg : Cfg} {int : Bytes → Prop} (hc : SliceReads cfg int) (ha : AllocOk cfg) {env : List Def} (he : schemaReads env = true) {t : Ty}
    (ht : tyClosed env t = true) (v : Val) (s s' : Bytes) :
    readThrift cfg (sliceInput cfg) env t s = .ok (v, s') ↔ ∃ p, s = p ++ s' ∧ ∃ d, IsDefault env t d ∧ DecOf int env (.value t d v) p := by
  obtain ⟨hcl, hd⟩ := schemaReads_iff.1 he
  rw [readThrift, fill_reads hc ha he ht]
  constructor
  · rintro ⟨p, hp, h⟩
    exact ⟨p, hp, _, isDefault_dflt hd ht, h⟩
  · rintro ⟨p, hp, d, h1, h2⟩
    exact ⟨p, hp, by rw [dflt_of_isDefault hd h1]; exact h2⟩

/-- C76 for `read_thrift`: it accepts exactly the bytes that mean a value of the type. -/
theorem C76_read {cfg : Cfg} (hov : cfg.overflowChecks = false) (hs : cfg.sse2 = false) (ha : AllocOk cfg) {env : List Def} (he : schemaReads env = true) {t : Ty}
    (ht : tyClosed env t = true) (v : Val) (s s' : Bytes) :
    readThrift cfg (sliceInput cfg) env t s = .ok (v, s') ↔ ∃ p, s = p ++ s' ∧ Decodes env t v p :=
  read_reads (Plain.reads ⟨hov, hs⟩) ha he ht v s s'

/-- `read_thrift` from a reader. -/
theorem C76_read_reader {cfg : Cfg} (hov : cfg.overflowChecks = false) (ha : AllocOk cfg) {env : List Def} (he : schemaReads env = true) {t : Ty}
    (ht : tyClosed env t = true) (v : Val) {evs : List REvent} {s : Bytes} (hd : Delivers evs s) (s' : Bytes) :
    (∃ evs', readThrift cfg (readerInput cfg) env t evs = .ok (v, evs') ∧ Delivers evs' s') ↔ ∃ p, s = p ++ s' ∧ Decodes env t v p := by
  obtain ⟨hcl, hdf⟩ := schemaReads_iff.1 he
  rw [readThrift, C76_reader hov ha he ht _ _ hd]
  constructor
  · rintro ⟨p, hp, h⟩
    exact ⟨p, hp, _, isDefault_dflt hdf ht, h⟩
  · rintro ⟨p, hp, d, h1, h2⟩
    exact ⟨p, hp, by rw [dflt_of_isDefault hdf h1]; exact h2⟩

example : ∃ evs', readThrift ⟨false, true, fun _ => true⟩ (readerInput ⟨false, true, fun _ => true⟩) decEnv (.named 0) [.data decBytes] = .ok (decVal, evs') ∧
    Delivers evs' [] :=
  (C76_read_reader rfl (fun _ _ => rfl) decBytes_decodes.1 decBytes_decodes.2.1 _ (s := decBytes ++ []) (.data _ _ _ (by simp [decBytes]) .nil) []).2
    ⟨decBytes, rfl, decBytes_decodes.2.2⟩

/-- C76: the language is self-delimiting and has one meaning: at most one prefix of an input is accepted, with one value. -/
theorem C76_unambiguous {env : List Def} (he : schemaReads env = true) {t : Ty} (ht : tyClosed env t = true) {v w : Val} {p q r u : Bytes}
    (hp : Decodes env t v p) (hq : Decodes env t w q) (h : p ++ r = q ++ u) : p = q ∧ v = w ∧ r = u := by
  have h1 := (C76_read (cfg := ⟨false, false, fun _ => true⟩) rfl rfl (fun _ _ => rfl) he ht v (p ++ r) r).2 ⟨p, rfl, hp⟩
  have h2 := (C76_read (cfg := ⟨false, false, fun _ => true⟩) rfl rfl (fun _ _ => rfl) he ht w (q ++ u) u).2 ⟨q, rfl, hq⟩
  rw [h, h2] at h1
  cases h1
  exact ⟨List.append_cancel_right h, rfl, rfl⟩

/-- C76: a read that runs out of bytes or fails otherwise fails because no prefix of the input is in the language. -/
theorem C76_rejects {cfg : Cfg} (hov : cfg.overflowChecks = false) (hs : cfg.sse2 = false) (ha : AllocOk cfg) {env : List Def} (he : schemaReads env = true) {t : Ty}
    (ht : tyClosed env t = true) (s : Bytes) :
    (∃ e, readThrift cfg (sliceInput cfg) env t s = .error (.err e)) ↔ ¬ ∃ p s' v, s = p ++ s' ∧ Decodes env t v p := by
  constructor
  · rintro ⟨e, h⟩ ⟨p, s', v, rfl, hp⟩
    rw [(C76_read hov hs ha he ht v _ s').2 ⟨p, rfl, hp⟩] at h
    cases h
  · intro h
    rcases (C16_read hov he ht).2 hs s with ⟨⟨v, s'⟩, e⟩ | ⟨e, h'⟩
    · obtain ⟨p, h1, h2⟩ := (C76_read hov hs ha he ht v s s').1 e
      exact (h ⟨p, s', v, h1, h2⟩).elim
    · exact ⟨e, h'⟩

/-- Without the required field nothing is accepted. -/
example : ¬ ∃ p s' v, [0x29#8, 0x21#8, 1#8, 7#8, 0#8] = p ++ s' ∧ Decodes decEnv (.named 0) v p :=
  (C76_rejects (cfg := ⟨false, false, fun _ => true⟩) rfl rfl (fun _ _ => rfl) decBytes_decodes.1 decBytes_decodes.2.1 _).1 ⟨.missingField ("S" ++ "::" ++ "a"), by rfl⟩

/-- C76: what the writer produces is in the language, if the headers convey the ids. -/
theorem C76_encodings {env : List Def} (hs : schemaOk env = true) (hcl : envClosed env = true) {t : Ty} (ht : tyClosed env t = true) {v : Val} (hv : HasTy env v t)
    {bytes : Bytes} (he : Enc env (HeaderOk false) (.value t v) bytes) : Decodes env t v.unshare bytes := by
  have hd : defaultsDefined env = true := by
    unfold schemaOk at hs; rw [Bool.and_eq_true] at hs; exact hs.2
  have h := (C22_fill (cfg := ⟨false, false, fun _ => true⟩) (fun _ _ => rfl) hs hv (fillable_dflt_closed hd ht) he []).1
  rw [List.append_nil] at h
  obtain ⟨p, h1, h2⟩ := (C76_read (cfg := ⟨false, false, fun _ => true⟩) rfl rfl (fun _ _ => rfl) (schemaReads_iff.2 ⟨hcl, hd⟩) ht _ bytes []).1 h
  rw [List.append_nil] at h1
  rwa [h1]

end CT.Props
