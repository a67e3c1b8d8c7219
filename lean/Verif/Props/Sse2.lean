import Verif.Props.Overflow
import Verif.Proofs.Sse2
import Verif.Spec.Sse2
/-!
# C104: exactly what reading a slice does on x86-64

There, integers that are skipped are handled by code of their own. Which inputs are accepted with which value, which ones are refused, on which ones reading
panics and on which ones it is undefined.
-/
namespace CT.Props
open CT Spec

theorem uleb_no_ub (cfg : Cfg) (s : Bytes) : decodeUleb cfg List.length Slice.readByte s ≠ .error .ub := by
  have : ∀ (s : Bytes) fuel shift acc, ulebLoop cfg Slice.readByte fuel shift acc s ≠ .error .ub := by
    intro s
    induction s with
    | nil => intro fuel shift acc; cases fuel <;> (intro h; cases h)
    | cons b s ih =>
      intro fuel shift acc
      cases fuel with
      | zero => intro h; cases h
      | succ fuel =>
        unfold ulebLoop
        rw [Rd.bind_ok (x := Slice.readByte) (a := b) (s' := s) rfl]
        simp only [Rd.ite_apply', Rd.pure_apply, Rd.fail_apply]
        split
        · nofun
        · split
          · nofun
          · exact ih _ _ _
  exact this _ _ _ _

section
variable {cfg : Cfg} (h2 : cfg.sse2 = true)
include h2

theorem skipInteger_panic (s : Bytes) : (sliceInput cfg).skipInteger s = .error .panic ↔ CutShort s := by
  show Slice.skipInteger cfg s = _ ↔ _
  rw [skipInteger_error h2]
  simp [CutShort, and_comm]

theorem skipInteger_ub (s : Bytes) : (sliceInput cfg).skipInteger s = .error .ub ↔ CutAt16 s := by
  show Slice.skipInteger cfg s = _ ↔ _
  rw [skipInteger_error h2]
  simp [CutAt16, and_comm]

theorem sse2_panics (hov : cfg.overflowChecks = false) : BreaksAt cfg .panic sse2Panics where
  reads := sse2_reads h2 rfl
  checks _ := rfl
  varint s := ⟨fun h => absurd (uleb_panic_ov h) (by simp [hov]), fun h => h.elim⟩
  skip := skipInteger_panic h2
  sum := ⟨fun h => h.elim, fun h => by rw [hov] at h; cases h⟩

theorem sse2_checkedPanics (hov : cfg.overflowChecks = true) : BreaksAt cfg .panic sse2CheckedPanics where
  reads := sse2_reads h2 rfl
  checks _ := rfl
  varint s := uleb_panic hov s
  skip := skipInteger_panic h2
  sum := ⟨fun _ => hov, fun _ => trivial⟩

theorem sse2_undefined (hov : cfg.overflowChecks = false) : BreaksAt cfg .ub sse2Undefined where
  reads := sse2_reads h2 rfl
  checks h := by rw [hov] at h; cases h
  varint s := ⟨fun h => (uleb_no_ub cfg s h).elim, fun h => h.elim⟩
  skip := skipInteger_ub h2
  sum := ⟨fun h => h.elim, fun h => by rw [hov] at h; cases h⟩

/-- C104: what is skipped. -/
theorem C104_skip (hov : cfg.overflowChecks = false) (ft : Byte) (ins : Bool) (s s' : Bytes) :
    (sliceInput cfg).skip cfg ft ins s = .ok ((), s') ↔ ∃ p, s = p ++ s' ∧ WireOf Sse2Int lenientStop (.value ft.toNat ins) p :=
  skip_reads (sse2_reads h2 hov) ft ins s s'

/-- C104: on which inputs skipping panics, and on which it is undefined. -/
theorem C104_skip_breaks (ft : Byte) (ins : Bool) (s : Bytes) :
    (cfg.overflowChecks = false →
      ((sliceInput cfg).skip cfg ft ins s = .error .panic ↔ BreaksOff sse2Panics [] (.skip ft.toNat) s) ∧
      ((sliceInput cfg).skip cfg ft ins s = .error .ub ↔ BreaksOff sse2Undefined [] (.skip ft.toNat) s)) ∧
    (cfg.overflowChecks = true → ((sliceInput cfg).skip cfg ft ins s = .error .panic ↔ BreaksOff sse2CheckedPanics [] (.skip ft.toNat) s)) :=
  ⟨fun hov => ⟨skip_breaks (sse2_panics h2 hov) ft ins s, skip_breaks (sse2_undefined h2 hov) ft ins s⟩,
    fun hov => skip_breaks (sse2_checkedPanics h2 hov) ft ins s⟩

variable (ha : AllocOk cfg) {env : List Def} (he : schemaReads env = true) {t : Ty} (ht : tyClosed env t = true)
include ha he ht

/-- C104: which inputs are accepted, with which value. -/
theorem C104_fill (hov : cfg.overflowChecks = false) (o v : Val) (s s' : Bytes) :
    fillThrift cfg (sliceInput cfg) env t o s = .ok (v, s') ↔ ∃ p, s = p ++ s' ∧ DecOf Sse2Int env (.value t o v) p :=
  fill_reads (sse2_reads h2 hov) ha he ht o v s s'

/-- C104: on which inputs filling panics without overflow checks. -/
theorem C104_panic (hov : cfg.overflowChecks = false) (o : Val) (s : Bytes) :
    fillThrift cfg (sliceInput cfg) env t o s = .error .panic ↔ BreaksOff sse2Panics env (.value t o) s :=
  fill_breaks (sse2_panics h2 hov) ha he ht o s

/-- C104: on which inputs filling panics with overflow checks. -/
theorem C104_checked_panic (hov : cfg.overflowChecks = true) (o : Val) (s : Bytes) :
    fillThrift cfg (sliceInput cfg) env t o s = .error .panic ↔ BreaksOff sse2CheckedPanics env (.value t o) s :=
  fill_breaks (sse2_checkedPanics h2 hov) ha he ht o s

/-- C104: on which inputs filling is undefined, without overflow checks. -/
theorem C104_undefined (hov : cfg.overflowChecks = false) (o : Val) (s : Bytes) :
    fillThrift cfg (sliceInput cfg) env t o s = .error .ub ↔ BreaksOff sse2Undefined env (.value t o) s :=
  fill_breaks (sse2_undefined h2 hov) ha he ht o s

/-- C104: on which inputs filling is undefined, with overflow checks: those on which it does not panic before. -/
theorem C104_checked_undefined (hov : cfg.overflowChecks = true) (o : Val) (s : Bytes) :
    fillThrift cfg (sliceInput cfg) env t o s = .error .ub ↔ BreaksOff sse2Undefined env (.value t o) s ∧ ¬ BreaksOff sse2CheckedPanics env (.value t o) s := by
  rw [← C104_undefined (cfg := unchecked cfg) h2 ha he ht rfl, ← C104_checked_panic h2 ha he ht hov]
  rcases (C60_overflow_checks cfg (.fill env t o)).1 s with e | e
  · have e' := run_fill_error.2 e
    rw [e']
    simp
  · rw [run_fill_error, e, ← run_fill_error]
    refine ⟨fun h => ⟨h, fun h' => ?_⟩, fun h => h.1⟩
    rw [run_fill_error] at h'
    rw [run_fill_error, ← e, h'] at h
    cases h

end

/-- C104: `read_thrift` accepts exactly the messages of the specification, reports an error exactly on the inputs that are neither accepted nor broken off, and
does nothing else. -/
theorem C104_read {cfg : Cfg} (h2 : cfg.sse2 = true) (ha : AllocOk cfg) {env : List Def} (he : schemaReads env = true) {t : Ty} (ht : tyClosed env t = true)
    (hov : cfg.overflowChecks = false) {d : Val} (hd : IsDefault env t d) (s : Bytes) :
    (∀ v s', readThrift cfg (sliceInput cfg) env t s = .ok (v, s') ↔ ∃ p, s = p ++ s' ∧ DecOf Sse2Int env (.value t d v) p) ∧
    (readThrift cfg (sliceInput cfg) env t s = .error .panic ↔ BreaksOff sse2Panics env (.value t d) s) ∧
    (readThrift cfg (sliceInput cfg) env t s = .error .ub ↔ BreaksOff sse2Undefined env (.value t d) s) ∧
    ((∃ e, readThrift cfg (sliceInput cfg) env t s = .error (.err e)) ↔
      (¬ ∃ p s' v, s = p ++ s' ∧ DecOf Sse2Int env (.value t d v) p) ∧ ¬ BreaksOff sse2Panics env (.value t d) s ∧ ¬ BreaksOff sse2Undefined env (.value t d) s) := by
  obtain ⟨hcl, hdf⟩ := schemaReads_iff.1 he
  have e : dflt env t = d := dflt_of_isDefault hdf hd
  have h1 := fun v s' => C104_fill h2 ha he ht hov d v s s'
  have h3 := C104_panic h2 ha he ht hov d s
  have h4 := C104_undefined h2 ha he ht hov d s
  rw [readThrift, e]
  refine ⟨h1, h3, h4, ?_⟩
  rw [← h3, ← h4]
  constructor
  · rintro ⟨x, hx⟩
    rw [hx]
    refine ⟨?_, by simp, by simp⟩
    rintro ⟨p, s', v, rfl, hp⟩
    rw [(h1 v s').2 ⟨p, rfl, hp⟩] at hx
    cases hx
  · rintro ⟨g1, g2, g3⟩
    cases hr : fillThrift cfg (sliceInput cfg) env t d s with
    | ok r =>
      obtain ⟨v, s'⟩ := r
      obtain ⟨p, rfl, hp⟩ := (h1 v s').1 hr
      exact (g1 ⟨p, s', v, rfl, hp⟩).elim
    | error f =>
      have h0 := (fillable_dflt_closed hdf ht).seed
      rw [e] at h0
      rcases (C16_any_build he ht h0).2 s hr with ⟨x, rfl⟩ | ⟨rfl, _⟩ | ⟨rfl, _⟩
      · exact ⟨x, rfl⟩
      · exact (g2 hr).elim
      · exact (g3 hr).elim

/-! ## Where it breaks off -/

/-- C104: breaking off needs an input that ends in bytes of an unfinished integer. -/
theorem C104_end {F : Faults} (hsum : ¬ F.sum) (hv : ∀ s, ¬ F.varint s) {env : List Def} {i : OItem} {s : Bytes} (h : BreaksOff F env i s) : ∃ p q, s = p ++ q ∧ F.skip q := by
  have hH : ∀ {last s}, ¬ HeaderBreaks F last s := fun h => by
    cases h with
    | sum _ _ hF => exact hsum hF
    | id _ _ _ _ h => exact hv _ h
  have hL : ∀ {s}, ¬ ListBreaks F s := fun h => by cases h with | len _ _ _ h => exact hv _ h
  induction h with
  | skipInt _ s _ h => exact ⟨[], s, rfl, h⟩
  | skipLen _ _ _ h => exact (hv _ h).elim
  | skipListHeader _ _ _ h => exact (hL h).elim
  | skipHeader _ _ h => exact (hH h).elim
  | int _ _ _ _ h => exact (hv _ h).elim
  | enum _ _ _ _ _ h => exact (hv _ h).elim
  | encodingSetHeader _ _ h => exact (hL h).elim
  | encodingSet _ _ _ _ _ _ _ _ _ _ h => exact (hv _ h).elim
  | listHeader _ _ _ h => exact (hL h).elim
  | unionHeader _ _ _ _ _ _ _ h => exact (hH h).elim
  | header _ _ _ _ h => exact (hH h).elim
  | skipStruct | skipElem | skipKey | some | box | rc | struct | elem | fieldSome | fieldValue => assumption
  | skipMap p _ b _ _ _ _ ih => obtain ⟨q, r, rfl, h⟩ := ih; exact ⟨p ++ b :: q, r, by simp, h⟩
  | skipList _ h _ _ _ _ _ _ ih => obtain ⟨q, r, rfl, h'⟩ := ih; exact ⟨h ++ q, r, by simp, h'⟩
  | skipElemsRest _ _ p _ _ _ ih => obtain ⟨q, r, rfl, h'⟩ := ih; exact ⟨p ++ q, r, by simp, h'⟩
  | skipVal _ _ _ p _ _ _ ih => obtain ⟨q, r, rfl, h'⟩ := ih; exact ⟨p ++ q, r, by simp, h'⟩
  | skipEntriesRest _ _ _ p q _ _ _ _ ih => obtain ⟨q', r, rfl, h'⟩ := ih; exact ⟨p ++ (q ++ q'), r, by simp, h'⟩
  | skipField _ h _ _ _ _ _ ih => obtain ⟨q, r, rfl, h'⟩ := ih; exact ⟨h ++ q, r, by simp, h'⟩
  | skipFieldsRest _ h _ _ p _ _ _ _ ih => obtain ⟨q, r, rfl, h'⟩ := ih; exact ⟨h ++ (p ++ q), r, by simp, h'⟩
  | list _ _ h _ _ _ _ _ _ ih => obtain ⟨q, r, rfl, h'⟩ := ih; exact ⟨h ++ q, r, by simp, h'⟩
  | union _ _ _ _ _ _ _ _ h _ _ _ _ _ _ _ _ ih => obtain ⟨q, r, rfl, h'⟩ := ih; exact ⟨h ++ q, r, by simp, h'⟩
  | elemsRest _ _ _ _ p _ _ _ _ ih => obtain ⟨q, r, rfl, h'⟩ := ih; exact ⟨p ++ q, r, by simp, h'⟩
  | known _ _ _ h _ _ _ _ _ _ _ _ _ _ ih => obtain ⟨q, r, rfl, h'⟩ := ih; exact ⟨h ++ q, r, by simp, h'⟩
  | knownRest _ _ _ h _ _ _ _ _ p _ _ _ _ _ _ _ ih => obtain ⟨q, r, rfl, h'⟩ := ih; exact ⟨h ++ (p ++ q), r, by simp, h'⟩
  | unknown _ _ _ h _ _ _ _ _ _ ih => obtain ⟨q, r, rfl, h'⟩ := ih; exact ⟨h ++ q, r, by simp, h'⟩
  | unknownRest _ _ _ h _ _ p _ _ _ _ _ ih => obtain ⟨q, r, rfl, h'⟩ := ih; exact ⟨h ++ (p ++ q), r, by simp, h'⟩

/-- C104: an input that ends in a byte without continuation bit, for example with a stop byte, is safe: reading it is defined in every build. -/
theorem C104_safe {cfg : Cfg} (h2 : cfg.sse2 = true) (ha : AllocOk cfg) {env : List Def} (he : schemaReads env = true) {t : Ty} (ht : tyClosed env t = true)
    (o : Val) (s : Bytes) {b : Byte} (hb : b.toNat < 128) : fillThrift cfg (sliceInput cfg) env t o (s ++ [b]) ≠ .error .ub := by
  intro h
  have hu : BreaksOff sse2Undefined env (.value t o) (s ++ [b]) := by
    cases hov : cfg.overflowChecks with
    | false => exact (C104_undefined h2 ha he ht hov o _).1 h
    | true => exact ((C104_checked_undefined h2 ha he ht hov o _).1 h).1
  obtain ⟨p, q, e, hl, hq⟩ := C104_end (by simp [sse2Undefined]) (by simp [sse2Undefined]) hu
  have hne : q ≠ [] := by rintro rfl; simp at hl
  have : q.getLast hne = b := by
    have h1 : (p ++ q).getLast (by simp [hne]) = q.getLast hne := List.getLast_append_of_ne_nil _ hne
    rw [← h1]
    simp [← e]
  have := hq _ (List.getLast_mem hne)
  simp_all
  omega

/-! ## Agreement with the other builds -/

theorem wireOf_mono {int int' : Bytes → Prop} (h : ∀ p, int p → int' p) {stop : Byte → Prop} {i : Item} {p : Bytes} (hp : WireOf int stop i p) : WireOf int' stop i p := by
  induction hp with
  | boolField ft h => exact .boolField ft h
  | boolElem ft b h => exact .boolElem ft b h
  | byte ins b => exact .byte ins b
  | int ft ins p h' hp => exact .int ft ins p h' (h p hp)
  | double ins p h => exact .double ins p h
  | binary ins p bs hp hb => exact .binary ins p bs hp hb
  | list ft ins h et n p hft hh _ ih => exact .list ft ins h et n p hft hh ih
  | mapEmpty ins p hp => exact .mapEmpty ins p hp
  | map ins p n q b hp h0 hn _ ih => exact .map ins p n q b hp h0 hn ih
  | struct ins p _ ih => exact .struct ins p ih
  | elemsNil ft h => exact .elemsNil ft h
  | elemsCons ft n p q _ _ ih1 ih2 => exact .elemsCons ft n p q ih1 ih2
  | entriesNil k v => exact .entriesNil k v
  | entriesCons k v n p q r _ _ _ ih1 ih2 ih3 => exact .entriesCons k v n p q r ih1 ih2 ih3
  | fieldStop b h => exact .fieldStop b h
  | fieldShort b p q h1 h2 _ _ ih1 ih2 => exact .fieldShort b p q h1 h2 ih1 ih2
  | fieldLong b i p q h1 h2 hi _ _ ih1 ih2 => exact .fieldLong b i p q h1 h2 hi ih1 ih2

theorem decOf_mono {int int' : Bytes → Prop} (h : ∀ p, int p → int' p) {env : List Def} {i : DItem} {p : Bytes} (hp : DecOf int env i p) : DecOf int' env i p := by
  induction hp with
  | bool o b => exact .bool o b
  | i8 o b => exact .i8 o b
  | i16 o p n x hp hx => exact .i16 o p n x hp hx
  | i32 o p n x hp hx => exact .i32 o p n x hp hx
  | i64 o p n x hp hx => exact .i64 o p n x hp hx
  | double o x => exact .double o x
  | binary o p bs hp hb => exact .binary o p bs hp hb
  | string o p bs hp hb hu => exact .string o p bs hp hb hu
  | encodingSet o h p mask xs hh _ hm ih => exact .encodingSet o h p mask xs hh ih hm
  | list t o h et vs p hh he _ ih => exact .list t o h et vs p hh he ih
  | some t d v p hd _ ih => exact .some t d v p hd ih
  | box t o v p _ ih => exact .box t o v p ih
  | rc t o v p _ ih => exact .rc t o v p ih
  | enum k name o p n x hk hp hx => exact .enum k name o p n x hk hp hx
  | struct k name fs met old new p hk _ hr ih => exact .struct k name fs met old new p hk ih hr
  | union k name us i u j o d v h ft p hk hu hfst hh hd _ ih => exact .union k name us i u j o d v h ft p hk hu hfst hh hd ih
  | elemsNil t => exact .elemsNil t
  | elemsCons t d v vs p q hd _ _ ih1 ih2 => exact .elemsCons t d v vs p q hd ih1 ih2
  | fieldBool ft o => exact .fieldBool ft o
  | fieldSome t ft d v p hd _ ih => exact .fieldSome t ft d v p hd ih
  | fieldValue t o v p h1 h2 _ ih => exact .fieldValue t o v p h1 h2 ih
  | stop fs last vs b h => exact .stop fs last vs b h
  | known fs last met vs new h ft i f o v p q hh hf hfst ho _ _ ih1 ih2 => exact .known fs last met vs new h ft i f o v p q hh hf hfst ho ih1 ih2
  | unknown fs last met vs new hb ft id p q hh hid hp _ ih => exact .unknown fs last met vs new hb ft id p q hh hid (wireOf_mono h hp) ih

/-- C104: messages in which no skipped integer has more than 17 bytes (ten are enough for any number) mean the same in every build. -/
theorem C104_agree {env : List Def} {i : DItem} {p : Bytes} (h : DecOf (fun q => IsVarint q ∧ q.length ≤ 17) env i p) : Dec env i p ∧ DecOf Sse2Int env i p := by
  refine ⟨decOf_mono (fun _ h => h.1) h, decOf_mono (fun q h => ?_) h⟩
  by_cases hl : q.length ≤ 16
  · exact .inl ⟨h.1, hl⟩
  · exact .inr ⟨by omega, isVarint_prefix_all h.1 16 (by omega)⟩

/-- A struct with an optional field. -/
def skewEnv : List Def := [.struct "S" [⟨1#16, false, "a", .i8⟩]]

/-- An unknown field 2 with an integer of 18 bytes, the last one zero; field 1 in the long form; a stop byte. -/
def skewBytes : Bytes := 0x25#8 :: (List.replicate 17 0x80#8 ++ [0x00#8, 0x03#8, 0x02#8, 0x07#8, 0x00#8])

/-- C104: beyond that the builds differ. The same bytes are accepted by both, with different values: for x86-64 the last byte of the integer is the stop byte. -/
theorem C104_counterexample (alloc : Nat → Bool) :
    readThrift ⟨false, false, alloc⟩ (sliceInput ⟨false, false, alloc⟩) skewEnv (.named 0) skewBytes = .ok (.struct [.some (.i8 7#8)], []) ∧
    readThrift ⟨false, true, alloc⟩ (sliceInput ⟨false, true, alloc⟩) skewEnv (.named 0) skewBytes =
      .ok (.struct [.none], [0x03#8, 0x02#8, 0x07#8, 0x00#8]) := ⟨rfl, rfl⟩

/-- The conditions of the theorems hold. The bytes `0x25` (field 2, an integer) and nothing more make the x86-64 build panic, sixteen bytes with the continuation
bit after it are undefined. -/
theorem skew_breaks (q : Bytes) {F : Faults} (h : F.skip q) : schemaReads skewEnv = true ∧ tyClosed skewEnv (.named 0) = true ∧
    BreaksOff F skewEnv (.value (.named 0) (.struct [.none])) (0x25#8 :: q) := by
  refine ⟨rfl, rfl, .struct 0 _ _ _ _ rfl ?_⟩
  exact .unknown _ _ _ [0x25#8] 5 2#16 q (.short _ 0x25#8 (by decide) (by decide)) (by decide) (.skipInt _ _ (by omega) h)

example : fillThrift ⟨false, true, fun _ => true⟩ (sliceInput ⟨false, true, fun _ => true⟩) skewEnv (.named 0) (.struct [.none]) [0x25#8] = .error .panic :=
  (C104_panic rfl (fun _ _ => rfl) (skew_breaks [] (F := sse2Panics) ⟨by simp, by simp⟩).1 rfl rfl _ _).2 (skew_breaks [] (F := sse2Panics) ⟨by simp, by simp⟩).2.2

example : fillThrift ⟨false, true, fun _ => true⟩ (sliceInput ⟨false, true, fun _ => true⟩) skewEnv (.named 0) (.struct [.none])
    (0x25#8 :: List.replicate 16 0xFF#8) = .error .ub :=
  (C104_undefined rfl (fun _ _ => rfl) (skew_breaks [] (F := sse2Panics) ⟨by simp, by simp⟩).1 rfl rfl _ _).2 (skew_breaks _ (F := sse2Undefined) ⟨by simp, by simp⟩).2.2

end CT.Props
