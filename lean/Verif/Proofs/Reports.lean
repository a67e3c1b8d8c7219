import Verif.Proofs.OverflowPanics
import Verif.Proofs.Sse2
import Verif.Spec.Reports
/-! # Errors that are reported are those of the specification -/
namespace CT
open Spec Props

set_option linter.unusedSectionVars false

section
variable {α β : Type}

/-- If `x` reports an error, it is one of `O`. -/
def Er (x : Rd Bytes α) (O : Bytes → ThriftError → Prop) : Prop := ∀ s e, x s = .error (.err e) → O s e

theorem Er.mono {x : Rd Bytes α} {O O' : Bytes → ThriftError → Prop} (h : Er x O) (hO : ∀ s e, O s e → O' s e) : Er x O' := fun s e h' => hO s e (h s e h')

theorem Er.pure (a : α) {O : Bytes → ThriftError → Prop} : Er (Pure.pure a) O := fun _ _ h => by cases h

theorem Er.diverge {O : Bytes → ThriftError → Prop} : Er (Rd.fail .diverge : Rd Bytes α) O := fun _ _ h => by cases h

theorem Er.stuck {O : Bytes → ThriftError → Prop} : Er (Rd.fail .stuck : Rd Bytes α) O := fun _ _ h => by cases h

theorem Er.throw (e : ThriftError) {O : Bytes → ThriftError → Prop} (h : ∀ s, O s e) : Er (Rd.throw e : Rd Bytes α) O := fun s _ h' => by cases h'; exact h s

theorem Er.ite {c : Prop} [Decidable c] {x y : Rd Bytes α} {O : Bytes → ThriftError → Prop} (h : c → Er x O) (h' : ¬ c → Er y O) : Er (if c then x else y) O := by
  split
  · exact h ‹_›
  · exact h' ‹_›

theorem Er.bind {x : Rd Bytes α} {k : α → Rd Bytes β} {W : α → Bytes → Prop} {O : Bytes → ThriftError → Prop} {O2 : α → Bytes → ThriftError → Prop} (h1 : Er x O)
    (hs : Sound x W) (h2 : ∀ a p, W a p → Er (k a) (O2 a)) (g2 : ∀ a p s e, W a p → O2 a s e → O (p ++ s) e) : Er (x >>= k) O := by
  intro s e h
  replace h := Rd.bind_eq_error.1 h
  rcases h with h | ⟨a, t, hx, hk⟩
  · exact h1 s e h
  · obtain ⟨p, rfl, hW⟩ := hs _ _ _ hx
    exact g2 a p t e hW (h2 a p hW t e hk)

theorem Er.map {x : Rd Bytes α} {O : Bytes → ThriftError → Prop} (h : Er x O) (g : α → β) : Er (x >>= fun a => Pure.pure (g a)) O := by
  intro s e h'
  rcases Rd.bind_eq_error.1 h' with h' | ⟨a, t, _, h'⟩
  · exact h s e h'
  · cases h'

end

variable {cfg : Cfg}

/-! ## Varints -/

theorem ulebLoop_err (hov : cfg.overflowChecks = false) : ∀ (s : Bytes) (fuel : Nat) (shift : BitVec 32) (acc : BitVec 64) (e : ThriftError), s.length < fuel →
    (ulebLoop cfg Slice.readByte fuel shift acc s = .error (.err e) ↔ e = ended ∧ Unended s) := by
  intro s
  induction s with
  | nil =>
    intro fuel shift acc e hf
    obtain ⟨fuel, rfl⟩ : ∃ f, fuel = f + 1 := ⟨fuel - 1, by simp at hf; omega⟩
    have : ulebLoop cfg Slice.readByte (fuel + 1) shift acc [] = eof := rfl
    rw [this]
    simp [eof, ended, Unended, eq_comm]
  | cons b s ih =>
    intro fuel shift acc e hf
    obtain ⟨fuel, rfl⟩ : ∃ f, fuel = f + 1 := ⟨fuel - 1, by simp at hf; omega⟩
    unfold ulebLoop
    rw [Rd.bind_ok (x := Slice.readByte) (a := b) (s' := s) rfl]
    simp only [hov, Bool.false_and, Bool.false_eq_true, if_false, Rd.ite_apply', Rd.pure_apply, and_80_eq_zero]
    by_cases hb : b.toNat < 128
    · rw [if_pos hb]
      simp only [reduceCtorEq, Unended, List.mem_cons, forall_eq_or_imp, false_iff, not_and]
      omega
    · rw [if_neg hb, ih _ _ _ _ (by simpa using hf)]
      simp only [Unended, List.mem_cons, forall_eq_or_imp]
      constructor
      · rintro ⟨h1, h2⟩; exact ⟨h1, by omega, h2⟩
      · rintro ⟨h1, _, h2⟩; exact ⟨h1, h2⟩

theorem uleb_err (hov : cfg.overflowChecks = false) (s : Bytes) (e : ThriftError) :
    decodeUleb cfg List.length Slice.readByte s = .error (.err e) ↔ e = ended ∧ Unended s :=
  ulebLoop_err hov s (s.length + 1) 0#32 0#64 e (by omega)

/-- A build without overflow checks and the integers it skips. -/
structure SkipReads (cfg : Cfg) : Prop where
  reads : SliceReads cfg (skippedInt cfg.sse2)
  cut : ∀ s e, (sliceInput cfg).skipInteger s = .error (.err e) ↔ e = ended ∧ cfg.sse2 = false ∧ Unended s

theorem skipReads (hov : cfg.overflowChecks = false) : SkipReads cfg where
  reads := by
    cases h2 : cfg.sse2 with
    | true => exact sse2_reads h2 hov
    | false => exact Plain.reads ⟨hov, h2⟩
  cut s e := by
    cases h2 : cfg.sse2 with
    | true =>
      show Slice.skipInteger cfg s = _ ↔ _
      rw [skipInteger_error h2]
      simp
    | false =>
      show (sliceInput cfg).skipInteger s = _ ↔ _
      rw [slice_skipInteger_noSse2 h2]
      simp only [true_and]
      rw [← uleb_err hov s e]
      constructor
      · intro h
        rcases Rd.bind_eq_error.1 h with h | ⟨a, t, _, h⟩
        · exact h
        · cases h
      · intro h; exact Rd.bind_err h

section Errors
variable (hc : SkipReads cfg)

include hc in
theorem er_uleb : Er (decodeUleb cfg List.length Slice.readByte) fun s e => e = ended ∧ Unended s := fun s e h => (uleb_err hc.reads.ov s e).1 h

theorem er_readByte : Er (sliceInput cfg).readByte fun s e => s = [] ∧ e = ended := by
  intro s e h
  cases s with
  | nil => cases h; exact ⟨rfl, rfl⟩
  | cons b s => cases h

theorem er_readDouble : Er (sliceInput cfg).readDouble fun s e => s.length < 8 ∧ e = ended := by
  intro s e h
  change (if s.length < 8 then eof else Except.ok _) = _ at h
  split at h
  · cases h; exact ⟨‹_›, rfl⟩
  · cases h

include hc in
theorem er_readBinary : Er (sliceInput cfg).readBinary BinaryWrong := by
  show Er (Slice.readBinary cfg) _
  rw [slice_readBinary_eq]
  intro s e h
  replace h := Rd.bind_eq_error.1 h
  rcases h with h | ⟨a, t, hx, h⟩
  · obtain ⟨rfl, hu⟩ := er_uleb hc _ _ h
    exact .noLen s hu
  · obtain ⟨p, rfl, hp⟩ := sound_uleb hc.reads _ _ _ hx
    rw [Rd.ite_apply'] at h
    split at h
    · cases h; exact .len p _ t hp ‹_›
    · rename_i hl
      unfold sliceTake at h
      split at h
      · cases h; exact .short p _ t hp (by simpa [MAX_BINARY_LEN] using hl) ‹_›
      · cases h

include hc in
theorem er_skipBinary : Er (sliceInput cfg).skipBinary BinaryWrong := by
  show Er (Slice.skipBinary cfg) _
  rw [slice_skipBinary_eq]
  exact Er.map (er_readBinary hc) _

include hc in
theorem er_collection : Er ((sliceInput cfg).readCollectionLenAndType cfg) ListWrong := by
  intro s e h
  cases s with
  | nil => cases h; exact .none
  | cons b s =>
    by_cases h15 : b.toNat / 16 = 15
    · unfold Input.readCollectionLenAndType at h
      rw [Rd.bind_ok (slice_readByte_cons cfg b s)] at h
      have h0 : (b &&& 0xF0#8) >>> 4 = 0x0F#8 := by
        apply BitVec.eq_of_toNat_eq; rw [and_f0_shr4_toNat, h15]; rfl
      simp only [h0, ne_eq, not_true_eq_false, if_false] at h
      replace h := Rd.bind_eq_error.1 h
      rcases h with h | ⟨n, t, hx, h⟩
      · obtain ⟨rfl, hu⟩ := (er_uleb hc).map _ s e h
        exact .noLen b s h15 hu
      · obtain ⟨v, u, hx, h'⟩ := Rd.bind_eq_ok.1 hx
        cases h'
        obtain ⟨p, rfl, hp⟩ := sound_uleb hc.reads _ _ _ hx
        rw [Rd.ite_apply'] at h
        split at h
        · cases h; exact .len b p _ t h15 hp ‹_›
        · cases h
    · rw [readCollection_short cfg b s h15] at h; cases h

include hc in
theorem er_mapHeader : Er ((sliceInput cfg).readMapLenAndTypes cfg) MapWrong := by
  intro s e h
  unfold Input.readMapLenAndTypes at h
  replace h := Rd.bind_eq_error.1 h
  rcases h with h | ⟨n, t, hx, h⟩
  · obtain ⟨rfl, hu⟩ := (er_uleb hc).map _ s e h
    exact .noLen s hu
  · obtain ⟨v, u, hx, h'⟩ := Rd.bind_eq_ok.1 hx
    cases h'
    obtain ⟨p, rfl, hp⟩ := sound_uleb hc.reads _ _ _ hx
    rw [Rd.ite_apply'] at h
    split at h
    · cases h
    · rename_i h0
      cases t with
      | nil =>
        cases h
        rw [List.append_nil]
        exact .noTypes p _ hp (by omega)
      | cons b t =>
        rw [Rd.bind_ok (slice_readByte_cons cfg b t)] at h
        rw [Rd.ite_apply'] at h
        split at h
        · cases h; exact .len p _ b t hp ‹_›
        · cases h

include hc in
theorem er_header (last : BitVec 16) : Er ((sliceInput cfg).readFieldHeader cfg last) HeaderWrong := by
  intro s e h
  cases s with
  | nil => cases h; exact .none
  | cons b s =>
    by_cases h0 : b = 0#8
    · subst h0; rw [readHeader_stop] at h; cases h
    · by_cases h16 : 16 ≤ b.toNat
      · rw [readHeader_short cfg last b s h16] at h
        split at h <;> cases h
      · rw [readHeader_long cfg last b s (by omega) h0] at h
        split at h
        · rename_i e' he
          injection h with h
          subst h
          obtain ⟨rfl, h⟩ := (er_uleb hc).map _ s e he
          exact .id b s (by omega) (fun e => h0 (BitVec.eq_of_toNat_eq e)) h
        · cases h

theorem listHeader_le {h : Bytes} {et n : Nat} (hh : ListHeader h et n) : n ≤ 10000000 := by cases hh <;> omega

theorem er_repeat {act : Rd Bytes Unit} {O : Bytes → ThriftError → Prop} {W : Bytes → Prop} {V : Nat → Bytes → ThriftError → Prop} (hp : Er act O) (hw : Sound act fun _ => W)
    (h1 : ∀ n s e, O s e → V (n + 1) s e) (h2 : ∀ n p s e, W p → V n s e → V (n + 1) (p ++ s) e) : ∀ n, Er (repeatRd act n) (V n) := by
  intro n
  induction n with
  | zero => exact Er.pure _
  | succ n ih => exact Er.bind (hp.mono (h1 n)) hw (fun _ _ _ => ih) fun _ p s e hW hV => h2 n p s e hW hV

/-! ## Errors while skipping -/

variable (env : List Def)

abbrev Rep (cfg : Cfg) (env : List Def) := Reports cfg.sse2 env

include hc in
theorem er_skipStructLoop {skip1 : Byte → Rd Bytes Unit} (h1 : ∀ ft, Er (skip1 ft) (Rep cfg env (.skip ft.toNat false)))
    (hw : ∀ ft, Sound (skip1 ft) fun _ => LWireOf (skippedInt cfg.sse2) (.value ft.toNat false)) :
    ∀ fuel last, Er (skipStructLoop cfg (sliceInput cfg) skip1 fuel last) (Rep cfg env (.skipFields last)) := by
  intro fuel
  induction fuel with
  | zero => intro last; exact Er.diverge
  | succ fuel ih =>
    intro last
    unfold skipStructLoop
    intro s e h
    replace h := Rd.bind_eq_error.1 h
    rcases h with h | ⟨⟨ft, id⟩, t, hx, h⟩
    · exact .here _ _ _ (.skipHeader last s e (er_header hc last s e h))
    · obtain ⟨p, rfl, hh⟩ := sound_fieldHeader hc.reads last _ _ _ hx
      dsimp only at h hh
      rw [Rd.ite_apply'] at h
      split at h
      · cases h
      · rename_i h0
        rcases hh with hh | ⟨_, hh⟩
        · exact absurd hh.1 h0
        · replace h := Rd.bind_eq_error.1 h
          rcases h with h | ⟨_, u, hx, h⟩
          · exact .further _ _ _ _ _ (.skipField last p _ id t hh) (h1 ft t e h)
          · obtain ⟨q, rfl, hq⟩ := hw ft _ _ _ hx
            exact .further _ _ _ _ _ (.skipFieldsRest last p _ id q u hh hq) (ih id u e h)

include hc in
theorem er_skip_all : ∀ m,
    (∀ ft : Nat, ft = 9 ∨ ft = 10 → ∀ ins, Er (skipCollection cfg (sliceInput cfg) m) (Rep cfg env (.skip ft ins))) ∧
    (∀ ins, Er (skipMap cfg (sliceInput cfg) m) (Rep cfg env (.skip 11 ins))) ∧
    (∀ ft ins, Er (skipFieldF cfg (sliceInput cfg) m ft ins) (Rep cfg env (.skip ft.toNat ins))) := by
  intro m
  induction m with
  | zero =>
    refine ⟨fun _ _ _ => ?_, fun _ => ?_, fun _ _ => ?_⟩
    · rw [skipCollection]; exact Er.diverge
    · rw [skipMap]; exact Er.diverge
    · rw [skipFieldF]; exact Er.diverge
  | succ m ih =>
    obtain ⟨ihc, ihm, ihf⟩ := ih
    obtain ⟨sc, sm, sf⟩ := skip_sound_all hc.reads m
    have hone := skip_sound_all hc.reads (m + 1) |>.2.2
    have hbyte : ∀ {O : Bytes → ThriftError → Prop}, O [] ended → Er (do let _ ← (sliceInput cfg).readByte; pure ()) O := fun h0 =>
      er_readByte.map (fun _ => ()) |>.mono fun _ _ h => by obtain ⟨rfl, rfl⟩ := h; exact h0
    have hbool : ∀ {ft : Nat}, ft = 1 ∨ ft = 2 → Er (do let _ ← (sliceInput cfg).readByte; pure ()) (Rep cfg env (.skip ft true)) := fun h =>
      hbyte (.here _ _ _ (.skipBool _ h))
    have hb3 : ∀ {ins}, Er (do let _ ← (sliceInput cfg).readByte; pure ()) (Rep cfg env (.skip 3 ins)) := hbyte (.here _ _ _ (.skipByte _))
    have hdouble : ∀ {ins}, Er (do let _ ← (sliceInput cfg).readDouble; pure ()) (Rep cfg env (.skip 7 ins)) :=
      er_readDouble.map (fun _ => ()) |>.mono fun s _ h => by obtain ⟨h, rfl⟩ := h; exact .here _ _ _ (.skipDouble _ s h)
    have hint : ∀ {ft ins}, ft = 4 ∨ ft = 5 ∨ ft = 6 → Er (sliceInput cfg).skipInteger (Rep cfg env (.skip ft ins)) := fun hft s e h => by
      obtain ⟨rfl, h2, h⟩ := (hc.cut s e).1 h
      exact .here _ _ _ (.skipInt _ _ s hft h2 h)
    have hbin : ∀ {ins}, Er (sliceInput cfg).skipBinary (Rep cfg env (.skip 8 ins)) := (er_skipBinary hc).mono fun s e h => .here _ _ _ (.skipBinary _ s e h)
    refine ⟨fun ft hft ins => ?_, fun ins => ?_, fun ft ins => ?_⟩
    · rw [skipCollection]
      refine Er.bind ((er_collection hc).mono fun s e h => .here _ _ _ (.skipListHeader ft ins s e hft h)) (sound_collection hc.reads)
        (O2 := fun r s e => (¬ IsType r.2.toNat ∧ e = .invalidType) ∨ (IsType r.2.toNat ∧ Rep cfg env (.skipElems r.2.toNat r.1) s e)) ?_ ?_
      · rintro ⟨n, et⟩ p hp
        dsimp only
        have hrep : ∀ {act : Rd Bytes Unit}, IsType et.toNat → Er act (Rep cfg env (.skip et.toNat true)) →
            Sound act (fun _ => LWireOf (skippedInt cfg.sse2) (.value et.toNat true)) →
            Er (repeatRd act n) fun s e => (¬ IsType et.toNat ∧ e = .invalidType) ∨ (IsType et.toNat ∧ Rep cfg env (.skipElems et.toNat n) s e) := fun ht h1 h2 =>
          (er_repeat (V := fun n => Rep cfg env (.skipElems et.toNat n)) h1 h2 (fun n s e h => .further _ _ _ _ _ (.skipElem _ n s) h)
            (fun n p s e hp h => .further _ _ _ _ _ (.skipElemsRest _ n p s hp) h) n).mono fun s e h => .inr ⟨ht, h⟩
        have hw := hone et true
        rw [skipFieldF] at hw
        generalize hk : et.toNat = k at hrep hw ⊢
        split
        · exact hrep (by unfold IsType; omega) (hbool (by omega)) hw
        · exact hrep (by unfold IsType; omega) (hbool (by omega)) hw
        · exact hrep (by unfold IsType; omega) hb3 hw
        · exact hrep (by unfold IsType; omega) (hint (by omega)) hw
        · exact hrep (by unfold IsType; omega) (hint (by omega)) hw
        · exact hrep (by unfold IsType; omega) (hint (by omega)) hw
        · exact hrep (by unfold IsType; omega) hdouble hw
        · exact hrep (by unfold IsType; omega) hbin hw
        · exact hrep (by unfold IsType; omega) (ihc _ (by omega) _) hw
        · exact hrep (by unfold IsType; omega) (ihc _ (by omega) _) hw
        · exact hrep (by unfold IsType; omega) (ihm _) hw
        · have : et = 12#8 := BitVec.eq_of_toNat_eq hk
          subst this
          have e : skipFieldF cfg (sliceInput cfg) m 12#8 false = skipFieldF cfg (sliceInput cfg) m 12#8 true := by
            cases m with
            | zero => rw [skipFieldF, skipFieldF]
            | succ m => rw [skipFieldF, skipFieldF]; rfl
          rw [e]
          exact hrep (by unfold IsType; omega) (ihf 12#8 true) (sf 12#8 true)
        · refine Er.throw _ fun s => .inl ⟨?_, rfl⟩
          rintro ⟨h1, h2⟩
          have : k = 1 ∨ k = 2 ∨ k = 3 ∨ k = 4 ∨ k = 5 ∨ k = 6 ∨ k = 7 ∨ k = 8 ∨ k = 9 ∨ k = 10 ∨ k = 11 ∨ k = 12 := by omega
          rcases this with h | h | h | h | h | h | h | h | h | h | h | h <;> simp_all
      · rintro ⟨n, et⟩ p s e hp (⟨h1, rfl⟩ | ⟨h1, h⟩)
        · exact .here _ _ _ (.skipListType ft ins p _ n s hft hp h1)
        · exact .further _ _ _ _ _ (.skipList ft ins p _ n s hft hp h1) h
    · rw [skipMap]
      refine Er.bind ((er_mapHeader hc).mono fun s e h => .here _ _ _ (.skipMapHeader ins s e h)) (sound_mapHeader hc.reads)
        (O2 := fun r s e => Rep cfg env (.skipEntries r.2.1.toNat r.2.2.toNat r.1) s e) ?_ ?_
      · rintro ⟨n, k, v⟩ p hp
        dsimp only
        refine er_repeat (W := fun p => ∃ q r, p = q ++ r ∧ LWireOf (skippedInt cfg.sse2) (.value k.toNat true) q ∧ LWireOf (skippedInt cfg.sse2) (.value v.toNat true) r)
          (O := fun s e => Rep cfg env (.skip k.toNat true) s e ∨ ∃ q r, s = q ++ r ∧ LWireOf (skippedInt cfg.sse2) (.value k.toNat true) q ∧ Rep cfg env (.skip v.toNat true) r e)
          (V := fun n => Rep cfg env (.skipEntries k.toNat v.toNat n)) ?_ ?_ ?_ ?_ n
        · exact Er.bind ((ihf k true).mono fun s e h => .inl h) (sf k true) (fun _ _ _ => ihf v true) fun _ p s e hp h => .inr ⟨p, s, rfl, hp, h⟩
        · exact (sf k true).bind (fun _ _ _ => sf v true) fun _ _ p q hp hq => ⟨p, q, rfl, hp, hq⟩
        · rintro n s e (h | ⟨q, r, rfl, hq, h⟩)
          · exact .further _ _ _ _ _ (.skipKey _ _ n s) h
          · exact .further _ _ _ _ _ (.skipVal _ _ n q r hq) h
        · rintro n _ s e ⟨q, r, rfl, hq, hr⟩ h
          rw [List.append_assoc]
          exact .further _ _ _ _ _ (.skipEntriesRest _ _ n q r s hq hr) h
      · rintro ⟨n, k, v⟩ p s e hp h
        rcases hp with ⟨h0, hp⟩ | ⟨p, b, rfl, hp, h0, hn, hk, hv⟩
        · cases h0
          dsimp only at h
          cases h with
          | here _ _ _ h => cases h
          | further _ _ _ _ _ h _ => cases h
        · simp only at hp h0 hn hk hv h
          rw [hk, hv] at h
          rw [List.append_assoc, List.singleton_append]
          exact .further _ _ _ _ _ (.skipMap ins p n b s hp h0 hn) h
    · rw [skipFieldF]
      generalize hk : ft.toNat = k
      split
      · exact Er.ite (fun h => by rw [h]; exact hbool (by omega)) fun _ => Er.pure _
      · exact Er.ite (fun h => by rw [h]; exact hbool (by omega)) fun _ => Er.pure _
      · exact hb3
      · exact hint (by omega)
      · exact hint (by omega)
      · exact hint (by omega)
      · exact hdouble
      · exact hbin
      · exact ihc _ (by omega) _
      · exact ihc _ (by omega) _
      · exact ihm _
      · intro s e h
        exact .further _ _ _ _ _ (.skipStruct ins s) (er_skipStructLoop hc env (fun ft => ihf ft false) (fun ft => sf ft false) _ _ _ _ h)
      · refine Er.throw _ fun s => .here _ _ _ (.skipType _ ins s ?_)
        rintro ⟨h1, h2⟩
        have : k = 1 ∨ k = 2 ∨ k = 3 ∨ k = 4 ∨ k = 5 ∨ k = 6 ∨ k = 7 ∨ k = 8 ∨ k = 9 ∨ k = 10 ∨ k = 11 ∨ k = 12 := by omega
        rcases this with h | h | h | h | h | h | h | h | h | h | h | h <;> simp_all

/-! ## Errors while filling -/

variable {env : List Def} (hd : defaultsDefined env = true)

def FillEr (cfg : Cfg) (env : List Def) (t : Ty) (o : Val) (x : Rd Bytes Val) : Prop := Er x (Rep cfg env (.value t o))

theorem er_fillElems {t : Ty} {d : Val} (hdf : IsDefault env t d) {x : Rd Bytes Val} (hx : FillEr cfg env t d x) (hw : FillSound (skippedInt cfg.sse2) env t d x) :
    ∀ n, Er (fillElems x n) (Rep cfg env (.elems t n)) := by
  intro n
  induction n with
  | zero => exact Er.pure _
  | succ n ih =>
    exact Er.bind (hx.mono fun s e h => .further _ _ _ _ _ (.elem t d n s hdf) h) hw (O2 := fun _ => Rep cfg env (.elems t n)) (fun v p _ => Er.map ih _)
      fun v p s e hp h => .further _ _ _ _ _ (.elemsRest t d v n p s hdf hp) h

theorem slt31 (x : BitVec 32) : (BitVec.slt x 0#32 || BitVec.sle 31#32 x) = true ↔ x.toInt < 0 ∨ 30 < x.toInt := by
  have e31 : (31#32 : BitVec 32).toInt = 31 := rfl
  rw [BitVec.slt_eq_decide, BitVec.sle_eq_decide, e31, BitVec.toInt_zero]
  simp; omega

include hc in
theorem er_encodingSetLoop : ∀ n mask, Er (encodingSetLoop cfg (sliceInput cfg) n mask) (Rep cfg env (.encodings n)) := by
  intro n
  induction n with
  | zero => intro mask; exact Er.pure _
  | succ n ih =>
    intro mask s e h
    rw [encodingSetLoop] at h
    replace h := Rd.bind_eq_error.1 h
    rcases h with h | ⟨x, t, hx, h⟩
    · obtain ⟨rfl, hu⟩ := (er_uleb hc).map _ s e h
      exact .here _ _ _ (.noEncoding n s hu)
    · obtain ⟨p, rfl, hp⟩ := sound_readI32 hc.reads _ _ _ hx
      rw [Rd.ite_apply'] at h
      split at h
      · rename_i hr
        cases h
        exact .here _ _ _ (.encoding n x p t hp ((slt31 x).1 hr))
      · rename_i hr
        rw [slt31] at hr
        exact .further _ _ _ _ _ (.encoding n x p t hp (by omega)) (ih _ _ _ h)

variable (ha : AllocOk cfg)

include hc hd ha in
theorem er_fillTy {fn : Nat → Val → Rd Bytes Val} (hfn : ∀ k o, k < env.length → FillEr cfg env (.named k) o (fn k o))
    (hfs : ∀ k o, k < env.length → FillSound (skippedInt cfg.sse2) env (.named k) o (fn k o)) :
    ∀ t, tyClosed env t = true → ∀ o, FillEr cfg env t o (fillTy cfg (sliceInput cfg) env fn t o) := by
  have hsound := sound_fillTy hc.reads hd hfs
  have hint : ∀ {t : Ty} {o : Val}, (t = .i16 ∨ t = .i32 ∨ t = .i64) → ∀ s e, e = ended ∧ Unended s → Rep cfg env (.value t o) s e := by
    rintro t o ht s e ⟨rfl, h⟩
    exact .here _ _ _ (.int _ _ s ht h)
  have hbyte : ∀ {t : Ty} {o : Val}, (t = .bool ∨ t = .i8) → ∀ s e, s = [] ∧ e = ended → Rep cfg env (.value t o) s e := by
    rintro t o ht s e ⟨rfl, rfl⟩
    exact .here _ _ _ (.byte _ _ ht)
  intro t
  induction t with
  | bool => intro _ o; rw [fillTy]; exact (er_readByte.map _).mono (hbyte (by simp))
  | i8 => intro _ o; rw [fillTy]; exact (er_readByte.map _).mono (hbyte (by simp))
  | i16 => intro _ o; rw [fillTy]; exact (((er_uleb hc).map _).map _).mono (hint (by simp))
  | i32 => intro _ o; rw [fillTy]; exact (((er_uleb hc).map _).map _).mono (hint (by simp))
  | i64 => intro _ o; rw [fillTy]; exact (((er_uleb hc).map _).map _).mono (hint (by simp))
  | double => intro _ o; rw [fillTy]; exact (er_readDouble.map _).mono fun s e ⟨h, h'⟩ => h' ▸ .here _ _ _ (.double o s h)
  | binary => intro _ o; rw [fillTy]; exact ((er_readBinary hc).map _).mono fun s e h => .here _ _ _ (.binary _ o s e (by simp) h)
  | string =>
    intro _ o; rw [fillTy]
    refine Er.map ?_ _
    intro s e h
    unfold Input.readString at h
    replace h := Rd.bind_eq_error.1 h
    rcases h with h | ⟨a, t, hx, h⟩
    · exact .here _ _ _ (.binary _ o s e (by simp) (er_readBinary hc _ _ h))
    · obtain ⟨_, rfl, p, rfl, hp, hb⟩ := sound_readBinary hc.reads _ _ _ hx
      rw [Rd.ite_apply'] at h
      split at h
      · cases h
      · rename_i hu
        cases h
        rw [List.append_assoc]
        exact .here _ _ _ (.utf8 o p a t hp hb (fun h => hu ((utf8Valid_iff a).2 h)))
  | encodingSet =>
    intro _ o
    rw [fillTy]
    refine Er.bind ((er_collection hc).mono fun s e h => .here _ _ _ (.listHeader _ o s e (by simp) h)) (sound_collection hc.reads)
      (O2 := fun r s e => (r.2.toNat ≠ 5 ∧ e = .invalidType) ∨ (r.2.toNat = 5 ∧ Rep cfg env (.encodings r.1) s e)) ?_ ?_
    · rintro ⟨n, et⟩ p hp
      refine Er.ite (fun he => Er.throw _ fun s => .inl ⟨fun h => he (BitVec.eq_of_toNat_eq h), rfl⟩) fun he => ?_
      refine (Er.map (er_encodingSetLoop hc n _) _).mono fun s e h => .inr ⟨?_, h⟩
      rw [Decidable.not_not.1 he]; rfl
    · rintro ⟨n, et⟩ h s e hh (⟨h5, rfl⟩ | ⟨h5, h'⟩)
      · exact .here _ _ _ (.encodingType o h _ n s hh h5)
      · dsimp only at hh h5
        rw [h5] at hh
        exact .further _ _ _ _ _ (.encodings o h n s hh) h'
  | list t ih =>
    intro ht o
    have ht' : tyClosed env t = true := ht
    rw [fillTy]
    refine Er.bind ((er_collection hc).mono fun s e h => .here _ _ _ (.listHeader _ o s e (.inr ⟨t, rfl⟩) h)) (sound_collection hc.reads)
      (O2 := fun r s e => (¬ ElemType env t r.2.toNat ∧ e = .invalidType) ∨ (ElemType env t r.2.toNat ∧ Rep cfg env (.elems t r.1) s e)) ?_ ?_
    · rintro ⟨n, et⟩ p hp
      have hlen : n ≤ 10000000 := listHeader_le hp
      have hel : ElemType env t et.toNat ↔ et = wireType env t ∨ (wireType env t = 2#8 ∧ et = 1#8) := by
        unfold ElemType
        refine or_congr ⟨fun h => BitVec.eq_of_toNat_eq h, fun h => by rw [h]⟩ (and_congr Iff.rfl ⟨fun h => BitVec.eq_of_toNat_eq h, fun h => by rw [h]; rfl⟩)
      have he' : (et ≠ fieldType env t ∧ ¬ (fieldType env t = fieldType env .bool ∧ et = 1#8)) ↔ ¬ ElemType env t et.toNat := by
        rw [hel, wireType_eq, not_or]; rfl
      refine Er.ite (fun he => Er.throw _ fun s => .inl ⟨he'.1 he, rfl⟩) fun he => Er.ite (fun h => ?_) fun _ => ?_
      · exact absurd (ha _ hlen) h
      · exact (Er.map (er_fillElems (isDefault_dflt hd ht') (ih ht' _) (hsound t ht' _) n) _).mono fun s e h =>
          .inr ⟨Classical.not_not.1 fun h' => he (he'.2 h'), h⟩
    · rintro ⟨n, et⟩ h s e hh (⟨h5, rfl⟩ | ⟨h5, h'⟩)
      · exact .here _ _ _ (.elemType t o h _ n s hh h5)
      · exact .further _ _ _ _ _ (.list t o h _ n s hh h5) h'
  | option t ih =>
    intro ht o
    have ht' : tyClosed env t = true := ht
    cases o with
    | none => rw [fillTy]; exact (Er.map (ih ht' _) _).mono fun s e h => .further _ _ _ _ _ (.some t _ s (isDefault_dflt hd ht')) h
    | some v => rw [fillTy]; exact Er.throw _ fun s => .here _ _ _ (.again t v s)
    | _ => rw [fillTy] <;> first | exact Er.stuck | (intros; contradiction)
  | box t ih =>
    intro ht o
    have ht' : tyClosed env t = true := ht
    cases o with
    | box o => rw [fillTy]; exact (Er.map (ih ht' o) _).mono fun s e h => .further _ _ _ _ _ (.box t o s) h
    | _ => rw [fillTy] <;> first | exact Er.stuck | (intros; contradiction)
  | rc t ih =>
    intro ht o
    have ht' : tyClosed env t = true := ht
    cases o with
    | rc b o =>
      rw [fillTy]
      cases b with
      | true => exact Er.throw _ fun s => .here _ _ _ (.shared t o s)
      | false => exact (Er.map (ih ht' o) _).mono fun s e h => .further _ _ _ _ _ (.rc t o s) h
    | _ => rw [fillTy] <;> first | exact Er.stuck | (intros; contradiction)
  | named k =>
    intro ht o
    rw [fillTy]
    exact hfn k o (by simpa [tyClosed] using ht)

include hc hd ha in
theorem er_fillField {fn : Nat → Val → Rd Bytes Val} (hfn : ∀ k o, k < env.length → FillEr cfg env (.named k) o (fn k o))
    (hfs : ∀ k o, k < env.length → FillSound (skippedInt cfg.sse2) env (.named k) o (fn k o)) :
    ∀ t, tyClosed env t = true → ∀ o ft, Er (fillField cfg (sliceInput cfg) env fn t o ft) (Rep cfg env (.field t ft.toNat o)) := by
  have value : ∀ t, t ≠ .bool → (∀ t', t ≠ .option t') → tyClosed env t = true → ∀ o ft,
      Er (fillField cfg (sliceInput cfg) env fn t o ft) (Rep cfg env (.field t ft.toNat o)) := by
    intro t h1 h2 ht o ft
    rw [fillField_value cfg _ env _ o ft h1 h2]
    refine Er.ite (fun hft => Er.throw _ fun s => .here _ _ _ (.fieldType t _ o s h1 h2 fun h => hft ?_)) fun hft => ?_
    · rw [wireType_eq]; exact BitVec.eq_of_toNat_eq h
    · rw [Decidable.not_not.1 hft, wireType_eq]
      exact (er_fillTy hc hd ha hfn hfs t ht o).mono fun s e h => .further _ _ _ _ _ (.fieldValue t o s h1 h2) h
  intro t
  induction t with
  | bool => intro _ o ft; rw [fillField]; exact Er.pure _
  | option t ih =>
    intro ht o ft
    have ht' : tyClosed env t = true := ht
    cases o with
    | none => rw [fillField]; exact (Er.map (ih ht' _ ft) _).mono fun s e h => .further _ _ _ _ _ (.fieldSome t _ _ s (isDefault_dflt hd ht')) h
    | some v => rw [fillField]; exact Er.throw _ fun s => .here _ _ _ (.fieldAgain t _ v s)
    | _ => rw [fillField] <;> first | exact Er.stuck | (intros; contradiction)
  | _ => exact value _ (by simp) (by simp)

/-- The flags of the required fields tell which are met. -/
def FlagsMet (fs : List Field) (flags : List Bool) (met : List Nat) : Prop :=
  flags.length = fs.length ∧ ∀ (i : Nat) (f : Field), fs[i]? = some f → f.required = true → (flags[i]? = some true ↔ i ∈ met)

theorem FlagsMet.start (fs : List Field) : FlagsMet fs (fs.map fun _ => false) [] := by
  refine ⟨by simp, fun i f hf _ => ?_⟩
  simp [List.getElem?_map, hf]

theorem FlagsMet.next {fs : List Field} {flags : List Bool} {met : List Nat} (h : FlagsMet fs flags met) {i : Nat} {f : Field} (hf : fs[i]? = some f) :
    FlagsMet fs (if f.required then flags.set i true else flags) (i :: met) := by
  obtain ⟨hl, h⟩ := h
  refine ⟨by split <;> simp [hl], fun j g hg hr => ?_⟩
  by_cases hij : i = j
  · subst hij
    rw [hf] at hg; cases hg
    have := (List.getElem?_eq_some_iff.1 hf).1
    rw [if_pos hr]
    simp [hl, this]
  · have e : (if f.required then flags.set i true else flags)[j]? = flags[j]? := by
      split
      · exact List.getElem?_set_ne hij
      · rfl
    rw [e, h j g hg hr]
    simp only [List.mem_cons]
    exact ⟨.inr, fun h => h.resolve_left fun h => hij h.symm⟩

theorem firstMissing_first : ∀ {fs : List Field} {flags : List Bool} {f : Field}, flags.length = fs.length → firstMissing fs flags = some f →
    ∃ i : Nat, fs[i]? = some f ∧ f.required = true ∧ flags[i]? = some false ∧
      ∀ (j : Nat) (g : Field), j < i → fs[j]? = some g → g.required = true → flags[j]? = some true
  | [], _, _, _, h => by simp [firstMissing] at h
  | _ :: _, [], _, hl, _ => by simp at hl
  | g :: fs, b :: flags, f, hl, h => by
    rw [firstMissing] at h
    split at h
    · rename_i hb
      cases h
      simp at hb
      exact ⟨0, rfl, hb.1, by simp [hb.2], fun j _ hj => by omega⟩
    · rename_i hb
      obtain ⟨i, hi, hr, hf, hlt⟩ := firstMissing_first (by simpa using hl) h
      refine ⟨i + 1, hi, hr, hf, fun j g' hj hg' hr' => ?_⟩
      cases j with
      | zero =>
        cases hg'
        simp [hr'] at hb
        simp [hb]
      | succ j => exact hlt j g' (by omega) hg' hr'

include hc hd ha in
theorem er_loop {fn : Nat → Val → Rd Bytes Val} (hfn : ∀ k o, k < env.length → FillEr cfg env (.named k) o (fn k o))
    (hfs : ∀ k o, k < env.length → FillSound (skippedInt cfg.sse2) env (.named k) o (fn k o)) (name : String) {fs : List Field} (hcl : ∀ f ∈ fs, tyClosed env f.ty = true) :
    ∀ fuel last (flags : List Bool) met vs, FlagsMet fs flags met →
      Er (structLoop cfg (sliceInput cfg) env fn name fs fuel last flags vs) (Rep cfg env (.fields name fs last met vs)) := by
  intro fuel
  induction fuel with
  | zero => intro last flags met vs _; exact Er.diverge
  | succ fuel ih =>
    intro last flags met vs hfl s e h
    rw [structLoop] at h
    replace h := Rd.bind_eq_error.1 h
    rcases h with h | ⟨⟨ft, id⟩, t, hx, h⟩
    · exact .here _ _ _ (.header name fs last met vs s e (er_header hc last s e h))
    · obtain ⟨hb, rfl, hh⟩ := sound_fieldHeader hc.reads last _ _ _ hx
      dsimp only at h hh
      rcases hh with ⟨rfl, b, rfl, hstop⟩ | ⟨h0, hh⟩
      · rw [if_pos rfl] at h
        cases hm : firstMissing fs flags with
        | some f =>
          rw [hm] at h
          cases h
          obtain ⟨i, hi, hr, hn, hlt⟩ := firstMissing_first hfl.1 hm
          refine .here _ _ _ (.missing name fs last met vs b t i f hstop hi hr (fun h => ?_) fun j g hj hg hr => (hfl.2 j g hg hr).1 (hlt j g hj hg hr))
          have := (hfl.2 i f hi hr).2 h
          rw [hn] at this
          cases this
        | none => rw [hm] at h; cases h
      · rw [if_neg h0] at h
        cases hff : findField fs id with
        | none =>
          rw [hff] at h
          dsimp only at h
          replace h := Rd.bind_eq_error.1 h
          rcases h with h | ⟨_, u, hx, h⟩
          · exact .further _ _ _ _ _ (.unknown name fs last met vs hb _ id t hh (findField_none.1 hff)) ((er_skip_all hc env _).2.2 ft false _ _ h)
          · obtain ⟨p, rfl, hp⟩ := (skip_sound_all hc.reads _).2.2 ft false _ _ _ hx
            exact .further _ _ _ _ _ (.unknownRest name fs last met vs hb _ id p u hh (findField_none.1 hff) hp) (ih _ _ _ _ hfl _ _ h)
        | some i =>
          rw [hff] at h
          dsimp only at h
          obtain ⟨f, hf, rfl, hfst⟩ := findField_first hff
          rw [hf] at h
          cases ho : vs[i]? with
          | none => rw [ho] at h; cases h
          | some o =>
            rw [ho] at h
            dsimp only at h
            have hfc := rustTy_closed (hcl f (List.mem_of_getElem? hf))
            replace h := Rd.bind_eq_error.1 h
            rcases h with h | ⟨w, u, hx, h⟩
            · exact .further _ _ _ _ _ (.known name fs last met vs hb _ i f o t hh hf hfst ho) (er_fillField hc hd ha hfn hfs f.rustTy hfc o ft _ _ h)
            · obtain ⟨p, rfl, hp⟩ := sound_fillField hc.reads hd hfs f.rustTy hfc o ft _ _ _ hx
              exact .further _ _ _ _ _ (.knownRest name fs last met vs hb _ i f o w p u hh hf hfst ho hp) (ih _ _ _ _ (hfl.next hf) _ _ h)

include hc hd ha in
theorem er_fillNamed (hcl : envClosed env = true) : ∀ n k o, k < env.length →
    FillEr cfg env (.named k) o (fillNamed cfg (sliceInput cfg) env n k o) := by
  intro n
  induction n with
  | zero => intro k o _; exact Er.diverge
  | succ n ih =>
    intro k o hk
    have hfs : ∀ k o, k < env.length → FillSound (skippedInt cfg.sse2) env (.named k) o (fillNamed cfg (sliceInput cfg) env n k o) :=
      fun k o hk => sound_fillNamed hc.reads hd hcl n k o hk
    have hek : env[k]? = some env[k] := List.getElem?_eq_getElem hk
    have hdc := closed_get hcl hek
    generalize env[k] = d at hek hdc
    cases d with
    | struct name fs =>
      cases o with
      | struct vs =>
        intro s e h
        rw [fillNamed_struct hek] at h
        exact .further _ _ _ _ _ (.struct k name fs vs s hek) (er_loop hc hd ha ih hfs name
          (fun f hf => by simp only [defClosed] at hdc; exact List.all_eq_true.1 hdc f hf) _ _ _ _ _ (.start fs) _ _ h)
      | _ => intro s e h; simp [fillNamed, hek] at h
    | union name us =>
      cases o with
      | union j w =>
        intro s e h
        rw [fillNamed_union hek] at h
        unfold fillUnion at h
        replace h := Rd.bind_eq_error.1 h
        rcases h with h | ⟨⟨ft, id⟩, t, hx, h⟩
        · exact .here _ _ _ (.unionHeader k name us j w s e hek (er_header hc _ s e h))
        · obtain ⟨hb, rfl, hh⟩ := sound_fieldHeader hc.reads 0#16 _ _ _ hx
          dsimp only at h hh
          rcases hh with ⟨rfl, b, rfl, hstop⟩ | ⟨h0, hh⟩
          · rw [if_pos rfl] at h; cases h
            exact .here _ _ _ (.noVariant k name us j w b t hek hstop)
          · rw [if_neg h0] at h
            cases hff : us.findIdx? (fun u => u.id == id) with
            | none =>
              rw [hff] at h; cases h
              refine .here _ _ _ (.otherVariant k name us j w hb _ id t hek hh fun u hu he => ?_)
              have := List.findIdx?_eq_none_iff.1 hff u hu
              simp [he] at this
            | some i =>
              rw [hff] at h
              dsimp only at h
              obtain ⟨u, hu, rfl, hfst⟩ := findVariant_first hff
              rw [hu] at h
              dsimp only at h
              have huc : tyClosed env u.ty = true := by
                simp only [defClosed] at hdc; exact List.all_eq_true.1 hdc u (List.mem_of_getElem? hu)
              replace h := Rd.bind_eq_error.1 h
              rcases h with h | ⟨x, t', hx, h⟩
              · exact .further _ _ _ _ _ (.variant k name us i u j w _ hb _ t hek hu hfst hh (isDefault_dflt hd huc)) (er_fillTy hc hd ha ih hfs u.ty huc _ _ _ h)
              · obtain ⟨p, rfl, hp⟩ := sound_fillTy hc.reads hd hfs u.ty huc _ _ _ _ hx
                refine .further _ _ _ _ _ (.variantStop k name us i u j w _ x hb _ p t' hek hu hfst hh (isDefault_dflt hd huc) hp) ?_
                cases t' with
                | nil => cases h; exact .here _ _ _ .noStop
                | cons b t' =>
                  rw [Rd.bind_ok (slice_readByte_cons cfg b t')] at h
                  rw [Rd.ite_apply'] at h
                  split at h
                  · rename_i hb0
                    cases h
                    exact .here _ _ _ (.notStop b t' fun h => hb0 (BitVec.eq_of_toNat_eq h))
                  · cases h
      | _ => intro s e h; simp [fillNamed, hek] at h
    | enum name =>
      cases o with
      | enum x =>
        rw [fillNamed_enum hek]
        exact (((er_uleb hc).map _).map _).mono fun s e h => by obtain ⟨rfl, h⟩ := h; exact .here _ _ _ (.enum k name x s hek h)
      | _ => intro s e h; simp [fillNamed, hek] at h

end Errors

end CT
