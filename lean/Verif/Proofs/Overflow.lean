import Verif.Proofs.Decoding
import Verif.Spec.Overflow
/-! # Reading and the inputs on which additions overflow -/
namespace CT
open Spec Props

set_option linter.unusedSectionVars false

/-! ## Varints -/

theorem ulebLoop_panic {cfg : Cfg} (hov : cfg.overflowChecks = true) {K : Nat} (hK : 7 * K < 2 ^ 32) (hK' : 2 ^ 32 ≤ 7 * K + 7) :
    ∀ (s : Bytes) (fuel k : Nat) (acc : BitVec 64), s.length < fuel → k ≤ K →
    (ulebLoop cfg Slice.readByte fuel (BitVec.ofNat 32 (7 * k)) acc s = .error .panic ↔ K - k < s.length ∧ ∀ b ∈ s.take (K - k), 128 ≤ b.toNat) := by
  intro s
  induction s with
  | nil =>
    intro fuel k acc hf _
    obtain ⟨fuel, rfl⟩ : ∃ f, fuel = f + 1 := ⟨fuel - 1, by simp at hf; omega⟩
    have : ulebLoop cfg Slice.readByte (fuel + 1) (BitVec.ofNat 32 (7 * k)) acc [] = eof := rfl
    rw [this]
    simp [eof]
  | cons b s ih =>
    intro fuel k acc hf hk
    obtain ⟨fuel, rfl⟩ : ∃ f, fuel = f + 1 := ⟨fuel - 1, by simp at hf; omega⟩
    unfold ulebLoop
    rw [Rd.bind_ok (x := Slice.readByte) (a := b) (s' := s) rfl]
    simp only [Rd.ite_apply', Rd.pure_apply, Rd.fail_apply, and_80_eq_zero, shift_succ, hov, Bool.true_and, decide_eq_true_eq]
    have e : (BitVec.ofNat 32 (7 * k)).toNat = 7 * k := by rw [BitVec.toNat_ofNat, Nat.mod_eq_of_lt (by omega)]
    rw [e]
    by_cases h : k = K
    · subst h
      rw [if_pos (by omega)]
      simp
    · rw [if_neg (by omega)]
      obtain ⟨m, hm⟩ : ∃ m, K - k = m + 1 := ⟨K - k - 1, by omega⟩
      have hm' : K - (k + 1) = m := by omega
      by_cases hb : b.toNat < 128
      · rw [if_pos hb, hm]
        simp only [reduceCtorEq, List.take_succ_cons, List.mem_cons, forall_eq_or_imp, false_iff, not_and]
        omega
      · rw [if_neg hb, ih fuel (k + 1) _ (by simpa using hf) (by omega), hm, hm']
        simp only [List.take_succ_cons, List.mem_cons, forall_eq_or_imp, List.length_cons]
        constructor
        · rintro ⟨h1, h2⟩; exact ⟨by omega, by omega, h2⟩
        · rintro ⟨h1, _, h2⟩; exact ⟨by omega, h2⟩

/-- Reading a varint panics exactly on a `LongVarint`. -/
theorem uleb_panic {cfg : Cfg} (hov : cfg.overflowChecks = true) (s : Bytes) :
    decodeUleb cfg List.length Slice.readByte s = .error .panic ↔ LongVarint s := by
  have := ulebLoop_panic hov (K := 613566756) (by omega) (by omega) s (s.length + 1) 0 0#64 (by omega) (by omega)
  rw [Nat.mul_zero, Nat.sub_zero] at this
  exact this

theorem uleb_panic_ov {cfg : Cfg} {s : Bytes} (h : decodeUleb cfg List.length Slice.readByte s = .error .panic) : cfg.overflowChecks = true := by
  cases hov : cfg.overflowChecks with
  | true => rfl
  | false =>
    exfalso
    have : ∀ (s : Bytes) fuel shift acc, ulebLoop cfg Slice.readByte fuel shift acc s ≠ .error .panic := by
      intro s
      induction s with
      | nil => intro fuel shift acc; cases fuel <;> (intro h; cases h)
      | cons b s ih =>
        intro fuel shift acc
        cases fuel with
        | zero => intro h; cases h
        | succ fuel =>
          unfold ulebLoop
          rw [Rd.bind_ok (x := Slice.readByte) (a := b) (s' := s) rfl]
          simp only [hov, Bool.false_and, Bool.false_eq_true, if_false, Rd.ite_apply', Rd.pure_apply]
          split
          · nofun
          · exact ih _ _ _
    exact this _ _ _ _ h

/-! ## Panics lie within a set of inputs -/

section
variable {α β : Type}

/-- How reading breaks off. -/
class BrokenOff (f : Fail) : Prop where
  out : f = .panic ∨ f = .ub

theorem BrokenOff.err {f : Fail} [h : BrokenOff f] {e : ThriftError} {α : Type} (h' : (.error (.err e) : Except Fail α) = .error f) : False := by
  rcases h.out with rfl | rfl <;> cases h'

theorem BrokenOff.diverge {f : Fail} [h : BrokenOff f] {α : Type} (h' : (.error .diverge : Except Fail α) = .error f) : False := by
  rcases h.out with rfl | rfl <;> cases h'

theorem BrokenOff.stuck {f : Fail} [h : BrokenOff f] {α : Type} (h' : (.error .stuck : Except Fail α) = .error f) : False := by
  rcases h.out with rfl | rfl <;> cases h'

/-- The outcome in `h` is not a broken one. -/
macro "unbroken " h:ident : tactic =>
  `(tactic| first | (cases $h:ident; done) | exact (BrokenOff.err $h).elim | exact (BrokenOff.diverge $h).elim | exact (BrokenOff.stuck $h).elim)

variable {f : Fail} [hf : BrokenOff f]

variable (f) in
/-- If `x` breaks off, the input is in `O`. -/
def Pan (x : Rd Bytes α) (O : Bytes → Prop) : Prop := ∀ s, x s = .error f → O s

theorem Pan.mono {x : Rd Bytes α} {O O' : Bytes → Prop} (h : Pan f x O) (hO : ∀ s, O s → O' s) : Pan f x O' := fun s e => hO s (h s e)

theorem Pan.pure (a : α) {O : Bytes → Prop} : Pan f (Pure.pure a) O := fun _ h => by unbroken h

theorem Pan.throw (e : ThriftError) {O : Bytes → Prop} : Pan f (Rd.throw e : Rd Bytes α) O := fun _ h => by unbroken h

theorem Pan.diverge {O : Bytes → Prop} : Pan f (Rd.fail .diverge : Rd Bytes α) O := fun _ h => by unbroken h

theorem Pan.stuck {O : Bytes → Prop} : Pan f (Rd.fail .stuck : Rd Bytes α) O := fun _ h => by unbroken h

theorem Pan.ite {c : Prop} [Decidable c] {x y : Rd Bytes α} {O : Bytes → Prop} (h : c → Pan f x O) (h' : ¬ c → Pan f y O) : Pan f (if c then x else y) O := by
  split
  · exact h ‹_›
  · exact h' ‹_›

theorem Pan.bind {x : Rd Bytes α} {k : α → Rd Bytes β} {W : α → Bytes → Prop} {O1 O : Bytes → Prop} {O2 : α → Bytes → Prop} (h1 : Pan f x O1)
    (hs : Sound x W) (h2 : ∀ a p, W a p → Pan f (k a) (O2 a)) (g1 : ∀ s, O1 s → O s) (g2 : ∀ a p s, W a p → O2 a s → O (p ++ s)) : Pan f (x >>= k) O := by
  intro s h
  replace h := Rd.bind_eq_error.1 h
  rcases h with h | ⟨a, t, hx, hk⟩
  · exact g1 s (h1 s h)
  · obtain ⟨p, rfl, hW⟩ := hs _ _ _ hx
    exact g2 a p t hW (h2 a p hW t hk)

theorem Pan.map {x : Rd Bytes α} {O : Bytes → Prop} (h : Pan f x O) (g : α → β) : Pan f (x >>= fun a => Pure.pure (g a)) O := by
  intro s e
  rcases Rd.bind_eq_error.1 e with e | ⟨a, t, _, e⟩
  · exact h s e
  · cases e

variable (f) in
/-- The simulation between a build with overflow checks and the build without. -/
abbrev uP : SimP Bytes Bytes := SimP.std (fun g => g = .diverge ∨ (g = .panic ∧ f = .panic)) fun s t => s = t

omit hf in
theorem sound_of_sim {x y : Rd Bytes α} {W : α → Bytes → Prop} (h : Sim (uP f) x y) (hy : Sound y W) : Sound x W := by
  intro s a s' e
  have := h.run s s rfl
  rw [e] at this
  obtain ⟨t, h1, h2⟩ := this
  subst h2
  exact hy _ _ _ h1

end

/-- A build, a way of breaking off and the places where it happens. -/
structure BreaksAt (cfg : Cfg) (f : Fail) (F : Faults) : Prop where
  reads : SliceReads (unchecked cfg) F.int
  checks : cfg.overflowChecks = true → f = .panic
  varint : ∀ s, decodeUleb cfg List.length Slice.readByte s = .error f ↔ F.varint s
  skip : ∀ s, (sliceInput cfg).skipInteger s = .error f ↔ F.skip s
  sum : F.sum ↔ cfg.overflowChecks = true

section Panics
variable {cfg : Cfg} {f : Fail} [hf : BrokenOff f] {F : Faults} (hF : BreaksAt cfg f F)

omit hf in
theorem BreaksAt.cfgSim (hF : BreaksAt cfg f F) : CfgSim (uP f).A cfg (unchecked cfg) where
  ov h := by cases h
  ovA h _ := .inr ⟨rfl, hF.checks h⟩
  alloc _ h := h
  allocA n h1 h2 := by rw [show (unchecked cfg).alloc = cfg.alloc from rfl, h1] at h2; cases h2

omit hf in
theorem BreaksAt.inputSim (hF : BreaksAt cfg f F) : InputSim (uP f) (unchecked cfg) (sliceInput cfg) (sliceInput (unchecked cfg)) :=
  slice_cfg_sim (.inl rfl) hF.cfgSim rfl

include hF in
omit hf in
theorem pan_uleb : Pan f (decodeUleb cfg List.length Slice.readByte) F.varint := fun s h => (hF.varint s).1 h

theorem pan_readByte : Pan f (sliceInput cfg).readByte fun _ => False := by
  intro s h; cases s <;> unbroken h

theorem pan_readDouble : Pan f (sliceInput cfg).readDouble fun _ => False := by
  intro s h
  change (if s.length < 8 then eof else Except.ok _) = _ at h
  split at h <;> unbroken h

include hF in
theorem pan_readBinary : Pan f (sliceInput cfg).readBinary F.varint := by
  show Pan f (Slice.readBinary cfg) _
  rw [slice_readBinary_eq]
  intro s h
  replace h := Rd.bind_eq_error.1 h
  rcases h with h | ⟨a, t, _, h⟩
  · exact pan_uleb hF _ h
  · rw [Rd.ite_apply'] at h
    split at h
    · unbroken h
    · unfold sliceTake at h; split at h <;> unbroken h

include hF in
theorem pan_skipBinary : Pan f (sliceInput cfg).skipBinary F.varint := by
  show Pan f (Slice.skipBinary cfg) _
  rw [slice_skipBinary_eq]
  exact Pan.map (pan_readBinary hF) _

include hF in
omit hf in
theorem pan_skipInteger : Pan f (sliceInput cfg).skipInteger F.skip := fun s h => (hF.skip s).1 h

include hF in
theorem pan_collection : Pan f ((sliceInput cfg).readCollectionLenAndType cfg) (ListBreaks F) := by
  intro s h
  cases s with
  | nil => unbroken h
  | cons b s =>
    by_cases h15 : b.toNat / 16 = 15
    · refine .len b s h15 ?_
      unfold Input.readCollectionLenAndType at h
      rw [Rd.bind_ok (slice_readByte_cons cfg b s)] at h
      have h0 : (b &&& 0xF0#8) >>> 4 = 0x0F#8 := by
        apply BitVec.eq_of_toNat_eq; rw [and_f0_shr4_toNat, h15]; rfl
      simp only [h0, ne_eq, not_true_eq_false, if_false] at h
      replace h := Rd.bind_eq_error.1 h
      rcases h with h | ⟨n, t, _, h⟩
      · exact (pan_uleb hF).map _ s h
      · rw [Rd.ite_apply'] at h
        split at h <;> unbroken h
    · rw [readCollection_short cfg b s h15] at h; unbroken h

include hF in
theorem pan_mapHeader : Pan f ((sliceInput cfg).readMapLenAndTypes cfg) F.varint := by
  intro s h
  unfold Input.readMapLenAndTypes at h
  replace h := Rd.bind_eq_error.1 h
  rcases h with h | ⟨n, t, _, h⟩
  · exact (pan_uleb hF).map _ s h
  · rw [Rd.ite_apply'] at h
    split at h
    · unbroken h
    · replace h := Rd.bind_eq_error.1 h
      rcases h with h | ⟨b, t, _, h⟩
      · exact (pan_readByte _ h).elim
      · rw [Rd.ite_apply'] at h
        split at h <;> unbroken h

include hF in
theorem pan_header (last : BitVec 16) : Pan f ((sliceInput cfg).readFieldHeader cfg last) (HeaderBreaks F last) := by
  intro s h
  cases s with
  | nil => unbroken h
  | cons b s =>
    by_cases h0 : b = 0#8
    · subst h0; rw [readHeader_stop] at h; unbroken h
    · by_cases h16 : 16 ≤ b.toNat
      · rw [readHeader_short cfg last b s h16] at h
        split at h
        · rename_i h'; exact .sum b s (hF.sum.2 h'.1) h'.2
        · unbroken h
      · rw [readHeader_long cfg last b s (by omega) h0] at h
        refine .id b s (by omega) (fun e => h0 (BitVec.eq_of_toNat_eq e)) ?_
        split at h
        · rename_i e
          injection h with h
          subst h
          exact (pan_uleb hF).map _ s e
        · unbroken h

theorem pan_repeat {act : Rd Bytes Unit} {O W : Bytes → Prop} {V : Nat → Bytes → Prop} (hp : Pan f act O) (hw : Sound act fun _ => W)
    (h1 : ∀ n s, O s → V (n + 1) s) (h2 : ∀ n p s, W p → V n s → V (n + 1) (p ++ s)) : ∀ n, Pan f (repeatRd act n) (V n) := by
  intro n
  induction n with
  | zero => exact Pan.pure _
  | succ n ih => exact Pan.bind hp hw (fun _ _ _ => ih) (h1 n) fun _ p s hW hV => h2 n p s hW hV

/-! ## Panics while skipping -/

variable (env : List Def)

include hF in
theorem snd_header (last : BitVec 16) : Sound ((sliceInput cfg).readFieldHeader cfg last) fun r p =>
    (r.1 = 0#8 ∧ ∃ b : Byte, p = [b] ∧ lenientStop b) ∨ (r.1 ≠ 0#8 ∧ FieldHeader last p r.1.toNat r.2) :=
  sound_of_sim (Sim.readFieldHeader hF.cfgSim hF.inputSim last) (sound_fieldHeader hF.reads last)

include hF in
theorem snd_collection : Sound ((sliceInput cfg).readCollectionLenAndType cfg) fun r p => ListHeader p r.2.toNat r.1 :=
  sound_of_sim (Sim.readCollectionLenAndType hF.cfgSim hF.inputSim) (sound_collection hF.reads)

include hF in
theorem snd_skipAll (m : Nat) : 
    (∀ ft : Nat, ft = 9 ∨ ft = 10 → ∀ ins, Sound (skipCollection cfg (sliceInput cfg) m) fun _ => LWireOf F.int (.value ft ins)) ∧
    (∀ ins, Sound (skipMap cfg (sliceInput cfg) m) fun _ => LWireOf F.int (.value 11 ins)) ∧
    SkipSound cfg F.int m := by
  obtain ⟨h1, h2, h3⟩ := skip_sound_all hF.reads m
  obtain ⟨s1, s2, s3⟩ := Sim.skipF hF.cfgSim hF.inputSim m m (Nat.le_refl _)
  exact ⟨fun ft hft ins => sound_of_sim s1 (h1 ft hft ins), fun ins => sound_of_sim s2 (h2 ins), fun ft ins => sound_of_sim (s3 ft ins) (h3 ft ins)⟩

include hF in
theorem pan_skipStructLoop {skip1 : Byte → Rd Bytes Unit} (h1 : ∀ ft, Pan f (skip1 ft) (BreaksOff F env (.skip ft.toNat)))
    (hw : ∀ ft, Sound (skip1 ft) fun _ => LWireOf F.int (.value ft.toNat false)) :
    ∀ fuel last, Pan f (skipStructLoop cfg (sliceInput cfg) skip1 fuel last) (BreaksOff F env (.skipFields last)) := by
  intro fuel
  induction fuel with
  | zero => intro last; exact Pan.diverge
  | succ fuel ih =>
    intro last
    unfold skipStructLoop
    intro s h
    replace h := Rd.bind_eq_error.1 h
    rcases h with h | ⟨⟨ft, id⟩, t, hx, h⟩
    · exact .skipHeader last s (pan_header hF last s h)
    · obtain ⟨p, rfl, hh⟩ := snd_header hF last _ _ _ hx
      dsimp only at h hh
      rw [Rd.ite_apply'] at h
      split at h
      · unbroken h
      · rename_i h0
        rcases hh with hh | ⟨_, hh⟩
        · exact absurd hh.1 h0
        · replace h := Rd.bind_eq_error.1 h
          rcases h with h | ⟨_, u, hx, h⟩
          · exact .skipField last p _ id t hh (h1 ft t h)
          · obtain ⟨q, rfl, hq⟩ := hw ft _ _ _ hx
            exact .skipFieldsRest last p _ id q u hh hq (ih id u h)

include hF in
theorem pan_skip_all : ∀ m,
    (∀ ft : Nat, ft = 9 ∨ ft = 10 → Pan f (skipCollection cfg (sliceInput cfg) m) (BreaksOff F env (.skip ft))) ∧
    Pan f (skipMap cfg (sliceInput cfg) m) (BreaksOff F env (.skip 11)) ∧
    (∀ ft ins, Pan f (skipFieldF cfg (sliceInput cfg) m ft ins) (BreaksOff F env (.skip ft.toNat))) := by
  intro m
  induction m with
  | zero =>
    refine ⟨fun _ _ => ?_, ?_, fun _ _ => ?_⟩
    · rw [skipCollection]; exact Pan.diverge
    · rw [skipMap]; exact Pan.diverge
    · rw [skipFieldF]; exact Pan.diverge
  | succ m ih =>
    obtain ⟨ihc, ihm, ihf⟩ := ih
    obtain ⟨sc, sm, sf⟩ := snd_skipAll hF (cfg := cfg) m
    have hbyte : ∀ {O : Bytes → Prop}, Pan f (do let _ ← (sliceInput cfg).readByte; pure ()) O := pan_readByte.map (fun _ => ()) |>.mono fun _ h => h.elim
    have hdouble : ∀ {O : Bytes → Prop}, Pan f (do let _ ← (sliceInput cfg).readDouble; pure ()) O := pan_readDouble.map (fun _ => ()) |>.mono fun _ h => h.elim
    have hone := snd_skipAll hF (cfg := cfg) (m + 1) |>.2.2
    refine ⟨fun ft hft => ?_, ?_, fun ft ins => ?_⟩
    · rw [skipCollection]
      refine Pan.bind (pan_collection hF) (snd_collection hF) (O2 := fun r s => BreaksOff F env (.skipElems r.2.toNat r.1) s) ?_ (fun s h => .skipListHeader ft s hft h)
        (fun r p s hp h => .skipList ft p _ _ s hft hp h)
      rintro ⟨n, et⟩ p hp
      dsimp only
      have hrep : ∀ {act : Rd Bytes Unit}, Pan f act (BreaksOff F env (.skip et.toNat)) → Sound act (fun _ => LWireOf F.int (.value et.toNat true)) →
          Pan f (repeatRd act n) (BreaksOff F env (.skipElems et.toNat n)) := fun h1 h2 =>
        pan_repeat (V := fun n => BreaksOff F env (.skipElems et.toNat n)) h1 h2 (fun n s h => .skipElem _ n s h) (fun n p s hp h => .skipElemsRest _ n p s hp h) n
      have hw := hone et true
      rw [skipFieldF] at hw
      generalize hk : et.toNat = k at hrep hw
      split
      · exact hrep hbyte hw
      · exact hrep hbyte hw
      · exact hrep hbyte hw
      · exact hrep ((pan_skipInteger hF).mono fun s h => .skipInt _ s (by omega) h) hw
      · exact hrep ((pan_skipInteger hF).mono fun s h => .skipInt _ s (by omega) h) hw
      · exact hrep ((pan_skipInteger hF).mono fun s h => .skipInt _ s (by omega) h) hw
      · exact hrep hdouble hw
      · exact hrep ((pan_skipBinary hF).mono fun s h => .skipLen _ s (by omega) h) hw
      · exact hrep (ihc _ (by omega)) hw
      · exact hrep (ihc _ (by omega)) hw
      · exact hrep ihm hw
      · have : et = 12#8 := BitVec.eq_of_toNat_eq hk
        subst this
        refine hrep (ihf 12#8 false) ?_
        have e : skipFieldF cfg (sliceInput cfg) m 12#8 false = skipFieldF cfg (sliceInput cfg) m 12#8 true := by
          cases m with
          | zero => rw [skipFieldF, skipFieldF]
          | succ m => rw [skipFieldF, skipFieldF]; rfl
        rw [e]; exact sf 12#8 true
      · exact Pan.throw _
    · rw [skipMap]
      refine Pan.bind (pan_mapHeader hF) (sound_of_sim (Sim.readMapLenAndTypes hF.cfgSim hF.inputSim) (sound_mapHeader hF.reads))
        (O2 := fun r s => BreaksOff F env (.skipEntries r.2.1.toNat r.2.2.toNat r.1) s) ?_ (fun s h => .skipLen 11 s (by omega) h) ?_
      · rintro ⟨n, k, v⟩ p hp
        dsimp only
        refine pan_repeat (W := fun p => ∃ q r, p = q ++ r ∧ LWireOf F.int (.value k.toNat true) q ∧ LWireOf F.int (.value v.toNat true) r)
          (O := fun s => BreaksOff F env (.skip k.toNat) s ∨ ∃ q r, s = q ++ r ∧ LWireOf F.int (.value k.toNat true) q ∧ BreaksOff F env (.skip v.toNat) r)
          (V := fun n => BreaksOff F env (.skipEntries k.toNat v.toNat n)) ?_ ?_ ?_ ?_ n
        · exact Pan.bind (ihf k true) (sf k true) (fun _ _ _ => ihf v true) (fun s h => .inl h) fun _ p s hp h => .inr ⟨p, s, rfl, hp, h⟩
        · exact (sf k true).bind (fun _ _ _ => sf v true) fun _ _ p q hp hq => ⟨p, q, rfl, hp, hq⟩
        · rintro n s (h | ⟨q, r, rfl, hq, h⟩)
          · exact .skipKey _ _ n s h
          · exact .skipVal _ _ n q r hq h
        · rintro n _ s ⟨q, r, rfl, hq, hr⟩ h
          rw [List.append_assoc]
          exact .skipEntriesRest _ _ n q r s hq hr h
      · rintro ⟨n, k, v⟩ p s hp h
        rcases hp with ⟨h0, hp⟩ | ⟨p, b, rfl, hp, h0, hn, hk, hv⟩
        · cases h0
          dsimp only at h
          unbroken h
        · simp only at hp h0 hn hk hv h
          rw [hk, hv] at h
          rw [List.append_assoc, List.singleton_append]
          exact .skipMap p n b s hp hn h
    · rw [skipFieldF]
      generalize hk : ft.toNat = k
      split
      · exact Pan.ite (fun _ => hbyte) fun _ => Pan.pure _
      · exact Pan.ite (fun _ => hbyte) fun _ => Pan.pure _
      · exact hbyte
      · exact (pan_skipInteger hF).mono fun s h => .skipInt _ s (by omega) h
      · exact (pan_skipInteger hF).mono fun s h => .skipInt _ s (by omega) h
      · exact (pan_skipInteger hF).mono fun s h => .skipInt _ s (by omega) h
      · exact hdouble
      · exact (pan_skipBinary hF).mono fun s h => .skipLen _ s (by omega) h
      · exact ihc _ (by omega)
      · exact ihc _ (by omega)
      · exact ihm
      · intro s h
        exact .skipStruct s (pan_skipStructLoop hF env (fun ft => ihf ft false) (fun ft => sf ft false) _ _ _ h)
      · exact Pan.throw _

/-! ## Panics while filling -/

variable {env : List Def} (hd : defaultsDefined env = true)

def FillPan (f : Fail) (F : Faults) (env : List Def) (t : Ty) (o : Val) (x : Rd Bytes Val) : Prop := Pan f x (BreaksOff F env (.value t o))

theorem pan_fillElems {t : Ty} {d : Val} (hdf : IsDefault env t d) {x : Rd Bytes Val} (hx : FillPan f F env t d x) (hw : FillSound F.int env t d x) :
    ∀ n, Pan f (fillElems x n) (BreaksOff F env (.elems t n)) := by
  intro n
  induction n with
  | zero => exact Pan.pure _
  | succ n ih =>
    exact Pan.bind hx hw (O2 := fun _ => BreaksOff F env (.elems t n)) (fun v p _ => Pan.map ih _) (fun s h => .elem t d n s hdf h)
      fun v p s hp h => .elemsRest t d v n p s hdf hp h

include hF in
theorem pan_encodingSetLoop : ∀ n mask, Pan f (encodingSetLoop cfg (sliceInput cfg) n mask) fun s => ∃ p r, ∃ xs : List (BitVec 32), s = p ++ r ∧ xs.length < n ∧
    DecOf F.int env (.elems .i32 (xs.map .i32)) p ∧ (∀ x ∈ xs, InRange x) ∧ F.varint r := by
  intro n
  induction n with
  | zero => intro mask; exact Pan.pure _
  | succ n ih =>
    intro mask s h
    rw [encodingSetLoop] at h
    replace h := Rd.bind_eq_error.1 h
    rcases h with h | ⟨x, t, hx, h⟩
    · exact ⟨[], s, [], rfl, by simp, .elemsNil _, by simp, (pan_uleb hF).map _ s h⟩
    · obtain ⟨p, rfl, k, hk, hz⟩ := sound_of_sim (Sim.readI32 hF.cfgSim hF.inputSim) (sound_readI32 hF.reads) _ _ _ hx
      rw [Rd.ite_apply'] at h
      have hin : (BitVec.slt x 0#32 || BitVec.sle 31#32 x) = true ↔ ¬ InRange x := by
        have e31 : (31#32 : BitVec 32).toInt = 31 := rfl
        rw [BitVec.slt_eq_decide, BitVec.sle_eq_decide, e31, BitVec.toInt_zero]
        unfold InRange
        simp; omega
      split at h
      · unbroken h
      · rename_i hr
        rw [hin] at hr
        obtain ⟨q, r, xs, rfl, hl, hq, hxs, hlong⟩ := ih _ _ h
        refine ⟨p ++ q, r, x :: xs, by simp, by simp [hl], .elemsCons .i32 _ _ _ p q .i32 (.i32 _ p k x hk hz) hq, ?_, hlong⟩
        intro y hy
        rcases List.mem_cons.1 hy with rfl | hy
        · exact Decidable.not_not.1 hr
        · exact hxs y hy

include hF hd in
theorem pan_fillTy {fn fu : Nat → Val → Rd Bytes Val} (hfn : ∀ k o, k < env.length → FillPan f F env (.named k) o (fn k o)) (hsim : ∀ k o, Sim (uP f) (fn k o) (fu k o))
    (hfu : ∀ k o, k < env.length → FillSound F.int env (.named k) o (fu k o)) :
    ∀ t, tyClosed env t = true → ∀ o, FillPan f F env t o (fillTy cfg (sliceInput cfg) env fn t o) := by
  have hsound : ∀ t, tyClosed env t = true → ∀ o, FillSound F.int env t o (fillTy cfg (sliceInput cfg) env fn t o) := fun t ht o =>
    sound_of_sim (Sim.fillTy hF.cfgSim hF.inputSim env hsim t o) (sound_fillTy hF.reads hd hfu t ht o)
  have hint : ∀ {t : Ty} {o : Val} (g : BitVec 64 → Val), (t = .i16 ∨ t = .i32 ∨ t = .i64 ∨ t = .binary ∨ t = .string) →
      FillPan f F env t o (decodeUleb cfg List.length Slice.readByte >>= fun a => pure (g a)) := fun g ht => ((pan_uleb hF).map g).mono fun s h => .int _ _ s ht h
  intro t
  induction t with
  | bool => intro _ o; rw [fillTy]; exact (pan_readByte.map _).mono fun _ h => h.elim
  | i8 => intro _ o; rw [fillTy]; exact (pan_readByte.map _).mono fun _ h => h.elim
  | i16 => intro _ o; rw [fillTy]; exact (((pan_uleb hF).map _).map _).mono fun s h => .int _ _ s (by simp) h
  | i32 => intro _ o; rw [fillTy]; exact (((pan_uleb hF).map _).map _).mono fun s h => .int _ _ s (by simp) h
  | i64 => intro _ o; rw [fillTy]; exact (((pan_uleb hF).map _).map _).mono fun s h => .int _ _ s (by simp) h
  | double => intro _ o; rw [fillTy]; exact (pan_readDouble.map _).mono fun _ h => h.elim
  | binary => intro _ o; rw [fillTy]; exact ((pan_readBinary hF).map _).mono fun s h => .int _ _ s (by simp) h
  | string =>
    intro _ o; rw [fillTy]
    refine (Pan.map (O := F.varint) ?_ _).mono fun s h => .int _ _ s (by simp) h
    intro s h
    unfold Input.readString at h
    replace h := Rd.bind_eq_error.1 h
    rcases h with h | ⟨a, t, _, h⟩
    · exact pan_readBinary hF _ h
    · rw [Rd.ite_apply'] at h
      split at h <;> unbroken h
  | encodingSet =>
    intro _ o
    rw [fillTy]
    refine Pan.bind (pan_collection hF) (snd_collection hF) (O2 := fun r s => r.2.toNat = 5 ∧ ∃ p q, ∃ xs : List (BitVec 32), s = p ++ q ∧ xs.length < r.1 ∧
      DecOf F.int env (.elems .i32 (xs.map .i32)) p ∧ (∀ x ∈ xs, InRange x) ∧ F.varint q) ?_ (fun s h => .encodingSetHeader o s h) ?_
    · rintro ⟨n, et⟩ p hp
      refine Pan.ite (fun _ => Pan.throw _) fun he => ?_
      refine (Pan.map (pan_encodingSetLoop hF n _) _).mono fun s h => ⟨?_, h⟩
      rw [Decidable.not_not.1 he]; rfl
    · rintro ⟨n, et⟩ h _ hh ⟨h5, p, q, xs, rfl, hl, hp, hi, hlong⟩
      dsimp only at hh h5 hl
      rw [h5] at hh
      exact .encodingSet o h n p q xs hh hl hp hi hlong
  | list t ih =>
    intro ht o
    have ht' : tyClosed env t = true := ht
    rw [fillTy]
    refine Pan.bind (pan_collection hF) (snd_collection hF) (O2 := fun r s => ElemType env t r.2.toNat ∧ BreaksOff F env (.elems t r.1) s) ?_
      (fun s h => .listHeader t o s h) (fun r p s hp h => .list t o p _ _ s hp h.1 h.2)
    rintro ⟨n, et⟩ p hp
    refine Pan.ite (fun _ => Pan.throw _) fun he => Pan.ite (fun _ => Pan.throw _) fun _ => ?_
    have hdf := isDefault_dflt hd ht'
    refine (Pan.map (pan_fillElems hdf (ih ht' _) (hsound t ht' _) n) _).mono fun s h => ⟨?_, h⟩
    rw [wireType_eq] at he
    unfold ElemType
    by_cases h5 : et = wireType env t
    · exact .inl (by rw [h5])
    · have he := Decidable.not_not.1 fun h => he ⟨h5, h⟩
      exact .inr ⟨he.1, by rw [he.2]; rfl⟩
  | option t ih =>
    intro ht o
    have ht' : tyClosed env t = true := ht
    cases o with
    | none => rw [fillTy]; exact (Pan.map (ih ht' _) _).mono fun s h => .some t _ s (isDefault_dflt hd ht') h
    | some v => rw [fillTy]; exact Pan.throw _
    | _ => rw [fillTy] <;> first | exact Pan.stuck | (intros; contradiction)
  | box t ih =>
    intro ht o
    have ht' : tyClosed env t = true := ht
    cases o with
    | box o => rw [fillTy]; exact (Pan.map (ih ht' o) _).mono fun s h => .box t o s h
    | _ => rw [fillTy] <;> first | exact Pan.stuck | (intros; contradiction)
  | rc t ih =>
    intro ht o
    have ht' : tyClosed env t = true := ht
    cases o with
    | rc b o =>
      rw [fillTy]
      cases b with
      | true => exact Pan.throw _
      | false => exact (Pan.map (ih ht' o) _).mono fun s h => .rc t o s h
    | _ => rw [fillTy] <;> first | exact Pan.stuck | (intros; contradiction)
  | named k =>
    intro ht o
    rw [fillTy]
    exact hfn k o (by simpa [tyClosed] using ht)

include hF hd in
theorem pan_fillField {fn fu : Nat → Val → Rd Bytes Val} (hfn : ∀ k o, k < env.length → FillPan f F env (.named k) o (fn k o)) (hsim : ∀ k o, Sim (uP f) (fn k o) (fu k o))
    (hfu : ∀ k o, k < env.length → FillSound F.int env (.named k) o (fu k o)) :
    ∀ t, tyClosed env t = true → ∀ o ft, Pan f (fillField cfg (sliceInput cfg) env fn t o ft) (BreaksOff F env (.field t ft.toNat o)) := by
  have value : ∀ t, t ≠ .bool → (∀ t', t ≠ .option t') → tyClosed env t = true → ∀ o ft,
      Pan f (fillField cfg (sliceInput cfg) env fn t o ft) (BreaksOff F env (.field t ft.toNat o)) := by
    intro t h1 h2 ht o ft
    rw [fillField_value cfg _ env _ o ft h1 h2]
    refine Pan.ite (fun _ => Pan.throw _) fun hft => ?_
    rw [Decidable.not_not.1 hft, wireType_eq]
    exact (pan_fillTy hF hd hfn hsim hfu t ht o).mono fun s h => .fieldValue t o s h1 h2 h
  intro t
  induction t with
  | bool => intro _ o ft; rw [fillField]; exact Pan.pure _
  | option t ih =>
    intro ht o ft
    have ht' : tyClosed env t = true := ht
    cases o with
    | none => rw [fillField]; exact (Pan.map (ih ht' _ ft) _).mono fun s h => .fieldSome t _ _ s (isDefault_dflt hd ht') h
    | some v => rw [fillField]; exact Pan.throw _
    | _ => rw [fillField] <;> first | exact Pan.stuck | (intros; contradiction)
  | _ => exact value _ (by simp) (by simp)

theorem rustTy_closed {f : Field} (h : tyClosed env f.ty = true) : tyClosed env f.rustTy = true := by
  unfold Field.rustTy
  split
  · exact h
  · exact h

include hF hd in
theorem pan_loop {fn fu : Nat → Val → Rd Bytes Val} (hfn : ∀ k o, k < env.length → FillPan f F env (.named k) o (fn k o)) (hsim : ∀ k o, Sim (uP f) (fn k o) (fu k o))
    (hfu : ∀ k o, k < env.length → FillSound F.int env (.named k) o (fu k o)) (name : String) {fs : List Field} (hcl : ∀ f ∈ fs, tyClosed env f.ty = true) :
    ∀ fuel last (flags : List Bool) vs, Pan f (structLoop cfg (sliceInput cfg) env fn name fs fuel last flags vs) (BreaksOff F env (.fields fs last vs)) := by
  intro fuel
  induction fuel with
  | zero => intro last flags vs; exact Pan.diverge
  | succ fuel ih =>
    intro last flags vs s h
    rw [structLoop] at h
    replace h := Rd.bind_eq_error.1 h
    rcases h with h | ⟨⟨ft, id⟩, t, hx, h⟩
    · exact .header fs last vs s (pan_header hF last s h)
    · obtain ⟨hb, rfl, hh⟩ := snd_header hF last _ _ _ hx
      dsimp only at h hh
      rcases hh with ⟨rfl, -⟩ | ⟨h0, hh⟩
      · rw [if_pos rfl] at h
        cases hm : firstMissing fs flags with
        | some f => rw [hm] at h; unbroken h
        | none => rw [hm] at h; unbroken h
      · rw [if_neg h0] at h
        cases hff : findField fs id with
        | none =>
          rw [hff] at h
          dsimp only at h
          replace h := Rd.bind_eq_error.1 h
          rcases h with h | ⟨_, u, hx, h⟩
          · exact .unknown fs last vs hb _ id t hh (findField_none.1 hff) ((pan_skip_all hF env _).2.2 ft false _ h)
          · obtain ⟨p, rfl, hp⟩ := (snd_skipAll hF _).2.2 ft false _ _ _ hx
            exact .unknownRest fs last vs hb _ id p u hh (findField_none.1 hff) hp (ih _ _ _ _ h)
        | some i =>
          rw [hff] at h
          dsimp only at h
          obtain ⟨f, hf, rfl, hfst⟩ := findField_first hff
          rw [hf] at h
          cases ho : vs[i]? with
          | none => rw [ho] at h; unbroken h
          | some o =>
            rw [ho] at h
            dsimp only at h
            have hfc := rustTy_closed (hcl f (List.mem_of_getElem? hf))
            replace h := Rd.bind_eq_error.1 h
            rcases h with h | ⟨w, u, hx, h⟩
            · exact .known fs last vs hb _ i f o t hh hf hfst ho (pan_fillField hF hd hfn hsim hfu f.rustTy hfc o ft _ h)
            · obtain ⟨p, rfl, hp⟩ := sound_of_sim (Sim.fillField hF.cfgSim hF.inputSim env hsim f.rustTy o ft)
                (sound_fillField hF.reads hd hfu f.rustTy hfc o ft) _ _ _ hx
              exact .knownRest fs last vs hb _ i f o w p u hh hf hfst ho hp (ih _ _ _ _ h)

include hF hd in
theorem pan_fillNamed (hcl : envClosed env = true) : ∀ n k o, k < env.length →
    FillPan f F env (.named k) o (fillNamed cfg (sliceInput cfg) env n k o) := by
  intro n
  induction n with
  | zero => intro k o _; exact Pan.diverge
  | succ n ih =>
    intro k o hk
    have hsim := Sim.fillNamed hF.cfgSim hF.inputSim env n n (Nat.le_refl _)
    have hfu : ∀ k o, k < env.length → FillSound F.int env (.named k) o (fillNamed (unchecked cfg) (sliceInput (unchecked cfg)) env n k o) :=
      fun k o hk => sound_fillNamed hF.reads hd hcl n k o hk
    have hek : env[k]? = some env[k] := List.getElem?_eq_getElem hk
    have hdc := closed_get hcl hek
    generalize env[k] = d at hek hdc
    cases d with
    | struct name fs =>
      cases o with
      | struct vs =>
        intro s h
        rw [fillNamed_struct hek] at h
        exact .struct k name fs vs s hek (pan_loop hF hd ih hsim hfu name
          (fun f hf => by simp only [defClosed] at hdc; exact List.all_eq_true.1 hdc f hf) _ _ _ _ _ h)
      | _ => intro s h; simp [fillNamed, hek] at h; rcases hf.out with rfl | rfl <;> cases h
    | union name us =>
      cases o with
      | union j w =>
        intro s h
        rw [fillNamed_union hek] at h
        unfold fillUnion at h
        replace h := Rd.bind_eq_error.1 h
        rcases h with h | ⟨⟨ft, id⟩, t, hx, h⟩
        · exact .unionHeader k name us j w s hek (pan_header hF _ s h)
        · obtain ⟨hb, rfl, hh⟩ := snd_header hF 0#16 _ _ _ hx
          dsimp only at h hh
          rcases hh with ⟨rfl, -⟩ | ⟨h0, hh⟩
          · rw [if_pos rfl] at h; unbroken h
          · rw [if_neg h0] at h
            cases hff : us.findIdx? (fun u => u.id == id) with
            | none => rw [hff] at h; unbroken h
            | some i =>
              rw [hff] at h
              dsimp only at h
              obtain ⟨u, hu, rfl, hfst⟩ := findVariant_first hff
              rw [hu] at h
              dsimp only at h
              have huc : tyClosed env u.ty = true := by
                simp only [defClosed] at hdc; exact List.all_eq_true.1 hdc u (List.mem_of_getElem? hu)
              replace h := Rd.bind_eq_error.1 h
              rcases h with h | ⟨x, t', _, h⟩
              · exact .union k name us i u j w _ hb _ t hek hu hfst hh (isDefault_dflt hd huc) (pan_fillTy hF hd ih hsim hfu u.ty huc _ _ h)
              · exfalso
                replace h := Rd.bind_eq_error.1 h
                rcases h with h | ⟨x, t', _, h⟩
                · exact pan_readByte _ h
                · rw [Rd.ite_apply'] at h
                  split at h <;> unbroken h
      | _ => intro s h; simp [fillNamed, hek] at h; rcases hf.out with rfl | rfl <;> cases h
    | enum name =>
      cases o with
      | enum x =>
        rw [fillNamed_enum hek]
        exact (((pan_uleb hF).map _).map _).mono fun s h => .enum k name x s hek h
      | _ => intro s h; simp [fillNamed, hek] at h; rcases hf.out with rfl | rfl <;> cases h

end Panics

end CT
