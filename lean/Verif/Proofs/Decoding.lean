import Verif.Props.EncodingSet
import Verif.Props.Structs
import Verif.Props.Wire
import Verif.Proofs.Wire
import Verif.Proofs.Utf8
import Verif.Spec.Decoding
/-! # Reading and the relation between bytes and values -/
namespace CT
open Spec Props

/-! ## Defaults -/

theorem isDefault_dfltTy {env : List Def} {ds : List Val} (hds : ∀ k v, ds[k]? = some v → defined v = true → IsDefault env (.named k) v) :
    ∀ t, defined (dfltTy ds t) = true → IsDefault env t (dfltTy ds t) := by
  intro t
  induction t with
  | named k =>
    intro h
    unfold dfltTy at h ⊢
    cases e : ds[k]? with
    | none => rw [e] at h; simp [defined] at h
    | some v => rw [e] at h; simpa using hds k v e h
  | box t ih => intro h; exact .box _ _ (ih (by simpa [dfltTy, defined] using h))
  | rc t ih => intro h; exact .rc _ _ (ih (by simpa [dfltTy, defined] using h))
  | bool => intro _; exact .bool
  | i8 => intro _; exact .i8
  | i16 => intro _; exact .i16
  | i32 => intro _; exact .i32
  | i64 => intro _; exact .i64
  | double => intro _; exact .double
  | binary => intro _; exact .binary
  | string => intro _; exact .string
  | encodingSet => intro _; exact .encodingSet
  | list t => intro _; exact .list _
  | option t => intro _; exact .none _

theorem isDefault_defaults {env : List Def} : ∀ (k : Nat) (v : Val), (defaults env)[k]? = some v → k < env.length →
    defined v = true → IsDefault env (.named k) v := by
  intro k
  induction k using Nat.strongRecOn with
  | _ k ih =>
    intro v hv hk hd
    have hg := defaults_get (List.getElem?_eq_getElem hk)
    rw [hg] at hv
    have hds : ∀ j w, ((defaults env).take k)[j]? = some w → defined w = true → IsDefault env (.named j) w := by
      intro j w hj hw
      rw [List.getElem?_take] at hj
      split at hj
      · exact ih j ‹_› w hj (by omega) hw
      · cases hj
    have hek : env[k]? = some env[k] := List.getElem?_eq_getElem hk
    injection hv with hv
    subst hv
    cases hdef : env[k] with
    | enum name => rw [hdef] at hek; exact .enum k name hek
    | union name us =>
      rw [hdef] at hek hd
      cases us with
      | nil => simp [dfltDef, defined] at hd
      | cons u us => exact .union k name _ _ _ hek (isDefault_dfltTy hds _ (by simpa [dfltDef, defined] using hd))
    | struct name fs =>
      rw [hdef] at hek hd
      refine .struct k name fs _ hek (by simp) fun i f w hf hw => ?_
      simp only [List.getElem?_map, hf, Option.map_some, Option.some.injEq] at hw
      subst hw
      refine isDefault_dfltTy hds _ ?_
      simp only [dfltDef, defined, definedList_iff] at hd
      exact hd _ (List.mem_map_of_mem (List.mem_of_getElem? hf))

/-- The default of a type is its default. -/
theorem isDefault_dflt {env : List Def} (h : defaultsDefined env = true) {t : Ty} (ht : tyClosed env t = true) : IsDefault env t (dflt env t) := by
  refine isDefault_dfltTy (fun k w hw hd => isDefault_defaults k w hw ?_ hd) t (tyClosed_dflt_defined h ht)
  have := (List.getElem?_eq_some_iff.1 hw).1
  rwa [defaults_length] at this

/-- There is at most one default. -/
theorem Spec.IsDefault.unique {env : List Def} {t : Ty} {v : Val} (h : IsDefault env t v) : ∀ {w : Val}, IsDefault env t w → v = w := by
  induction h with
  | box t v h ih => intro w h'; cases h' with | box _ _ h' => rw [ih h']
  | rc t v h ih => intro w h'; cases h' with | rc _ _ h' => rw [ih h']
  | enum k name hk =>
    intro w h'
    cases h' with
    | enum => rfl
    | struct _ _ _ _ hk' => rw [hk] at hk'; cases hk'
    | union _ _ _ _ _ hk' => rw [hk] at hk'; cases hk'
  | struct k name fs vs hk hl h ih =>
    intro w h'
    cases h' with
    | enum _ _ hk' => rw [hk] at hk'; cases hk'
    | union _ _ _ _ _ hk' => rw [hk] at hk'; cases hk'
    | struct _ name' fs' ws hk' hl' h' =>
      rw [hk] at hk'; cases hk'
      congr 1
      apply List.ext_getElem?
      intro i
      by_cases hi : i < fs.length
      · have h1 : vs[i]? = some vs[i] := List.getElem?_eq_getElem (by omega)
        have h2 : ws[i]? = some ws[i] := List.getElem?_eq_getElem (by omega)
        rw [h1, h2, ih i _ _ (List.getElem?_eq_getElem hi) h1 (h' i _ _ (List.getElem?_eq_getElem hi) h2)]
      · rw [List.getElem?_eq_none (by omega), List.getElem?_eq_none (by omega)]
  | union k name u us v hk h ih =>
    intro w h'
    cases h' with
    | enum _ _ hk' => rw [hk] at hk'; cases hk'
    | struct _ _ _ _ hk' => rw [hk] at hk'; cases hk'
    | union _ name' u' us' w' hk' h' =>
      rw [hk] at hk'; cases hk'
      rw [ih h']
  | _ => intro w h'; cases h'; rfl

/-! ## Primitive values -/

theorem zigzag_zigzagDecode {w : Nat} (hw : 0 < w) (u : BitVec w) : zigzag (zigzagDecode u).toInt = u.toNat := by
  rw [← zigzagEncode_toNat hw, zigzag_encode_decode hw]

variable {cfg : Cfg} {int : Bytes → Prop} (hc : SliceReads cfg int)

/-- Bytes of an integer of `w` bits. -/
def IntBytes {w : Nat} (x : BitVec w) (p : Bytes) : Prop := ∃ n, VarintVal p n ∧ zigzag x.toInt = n % 2 ^ w

section
include hc

theorem sound_zigzag {w : Nat} (hw : 0 < w ∧ w ≤ 64) :
    Sound (do let i ← (sliceInput cfg).uleb cfg; pure (zigzagDecode (i.setWidth w))) (fun (x : BitVec w) => IntBytes x) := by
  refine (sound_uleb hc).bind (fun v p _ => Sound.pure _) ?_
  rintro v n p q h ⟨rfl, rfl⟩
  refine ⟨v.toNat, by simpa using h, ?_⟩
  rw [zigzag_zigzagDecode hw.1, BitVec.toNat_setWidth]

theorem compl_zigzag {w : Nat} (hw : 0 < w ∧ w ≤ 64) :
    Compl (do let i ← (sliceInput cfg).uleb cfg; pure (zigzagDecode (i.setWidth w))) (fun (x : BitVec w) => IntBytes x) := by
  rintro x p ⟨n, h, hx⟩ suf
  have h' : VarintVal p (BitVec.ofNat 64 n).toNat := by
    rw [BitVec.toNat_ofNat, Nat.mod_eq_of_lt h.2.1]; exact h
  have e : (sliceInput cfg).uleb cfg (p ++ suf) = .ok (BitVec.ofNat 64 n, suf) := compl_uleb hc _ p h' suf
  rw [Rd.bind_ok e, setWidth_ofNat64 hw.2, zigzagDecode_ofNat hw.1 _ x hx]; rfl

theorem sound_readI16 : Sound ((sliceInput cfg).readI16 cfg) (fun x => IntBytes x) := sound_zigzag hc (w := 16) (by omega)
theorem compl_readI16 : Compl ((sliceInput cfg).readI16 cfg) (fun x => IntBytes x) := compl_zigzag hc (w := 16) (by omega)
theorem sound_readI32 : Sound ((sliceInput cfg).readI32 cfg) (fun x => IntBytes x) := sound_zigzag hc (w := 32) (by omega)
theorem compl_readI32 : Compl ((sliceInput cfg).readI32 cfg) (fun x => IntBytes x) := compl_zigzag hc (w := 32) (by omega)
omit hc in
theorem readI64_eq : (sliceInput cfg).readI64 cfg = (do let i ← (sliceInput cfg).uleb cfg; pure (zigzagDecode (i.setWidth 64))) := by
  simp [Input.readI64]
theorem sound_readI64 : Sound ((sliceInput cfg).readI64 cfg) (fun x => IntBytes x) := by
  rw [readI64_eq]; exact sound_zigzag hc (w := 64) (by omega)
theorem compl_readI64 : Compl ((sliceInput cfg).readI64 cfg) (fun x => IntBytes x) := by
  rw [readI64_eq]; exact compl_zigzag hc (w := 64) (by omega)

theorem sound_readBinary : Sound (sliceInput cfg).readBinary fun bs p => ∃ q, p = q ++ bs ∧ VarintVal q bs.length ∧ bs.length ≤ 16777216 := by
  intro s bs s' h
  change Slice.readBinary cfg s = _ at h
  unfold Slice.readBinary at h
  obtain ⟨n, t, h1, h2⟩ := Rd.bind_eq_ok.1 h
  obtain ⟨q, rfl, hq⟩ := sound_readLen hc _ _ _ h1
  rw [Rd.ite_apply'] at h2
  split at h2
  · cases h2
  · rename_i hm
    simp only [Rd.of] at h2
    split at h2
    · cases h2
    · rename_i hl
      cases h2
      have e : (t.take n).length = n := by simp; omega
      refine ⟨q ++ t.take n, by rw [List.append_assoc, List.take_append_drop], q, rfl, by rw [e]; exact hq, ?_⟩
      rw [e]; unfold MAX_BINARY_LEN at hm; omega

theorem compl_readBinary : Compl (sliceInput cfg).readBinary fun bs p => ∃ q, p = q ++ bs ∧ VarintVal q bs.length ∧ bs.length ≤ 16777216 := by
  rintro bs _ ⟨q, rfl, hq, hb⟩ suf
  show Slice.readBinary cfg _ = _
  unfold Slice.readBinary
  rw [List.append_assoc, Rd.bind_ok (compl_readLen hc _ _ hq _), if_neg (by unfold MAX_BINARY_LEN; omega)]
  simp [Rd.of]
  omega

end

theorem toLe_fromLe : ∀ (bs : Bytes), bs.length ≤ 8 → toLeBytes bs.length (fromLeBytes bs) = bs := by
  intro bs
  induction bs with
  | nil => intro _; rfl
  | cons b bs ih =>
    intro h
    simp only [List.length_cons] at h
    have hlt : ∀ bs : Bytes, ∀ i, 8 * bs.length ≤ i → (fromLeBytes bs).getLsbD i = false := by
      intro bs
      induction bs with
      | nil => intro i _; simp [fromLeBytes]
      | cons b bs ih =>
        intro i hi
        simp only [List.length_cons] at hi
        simp only [fromLeBytes, BitVec.getLsbD_or, BitVec.getLsbD_setWidth, BitVec.getLsbD_shiftLeft]
        rw [ih (i - 8) (by omega)]
        simp [BitVec.getLsbD_of_ge b i (by omega)]
    have h1 : (b.setWidth 64 ||| fromLeBytes bs <<< 8).setWidth 8 = b := by
      apply BitVec.eq_of_getLsbD_eq
      intro i hi
      simp [hi]
    have h2 : (b.setWidth 64 ||| fromLeBytes bs <<< 8) >>> 8 = fromLeBytes bs := by
      apply BitVec.eq_of_getLsbD_eq
      intro i hi
      simp only [BitVec.getLsbD_ushiftRight, BitVec.getLsbD_or, BitVec.getLsbD_setWidth, BitVec.getLsbD_shiftLeft]
      rw [BitVec.getLsbD_of_ge b (8 + i) (by omega)]
      by_cases h : 8 + i < 64
      · simp [h]
      · simp [h, hlt bs i (by omega)]
    simp only [List.length_cons, toLeBytes, fromLeBytes, h1, h2, ih (by omega)]

theorem sound_readDouble : Sound (sliceInput cfg).readDouble fun x p => p = le64 x := by
  intro s x s' h
  change Slice.readDouble s = _ at h
  unfold Slice.readDouble at h
  split at h
  · cases h
  · cases h
    refine ⟨s.take 8, (List.take_append_drop 8 s).symm, ?_⟩
    have e : (s.take 8).length = 8 := by simp; omega
    have := toLe_fromLe (s.take 8) (by omega)
    rw [e, le64_eq] at this
    exact this.symm

theorem compl_readDouble : Compl (sliceInput cfg).readDouble fun x p => p = le64 x := by
  rintro x _ rfl suf
  change Slice.readDouble (le64 x ++ suf) = .ok (x, suf)
  unfold Slice.readDouble
  have e : (le64 x).length = 8 := by simp [le64]
  rw [if_neg (by simp [e]), List.take_left' e, List.drop_left' e, ← le64_eq, fromLe_toLe 8 x (by omega) (by have := x.isLt; omega)]

theorem ofInt_add16 (last : BitVec 16) (n : Nat) : BitVec.ofInt 16 (last.toInt + (n : Int)) = last + BitVec.ofNat 16 n := by
  rw [BitVec.ofInt_add, BitVec.ofInt_toInt, BitVec.ofInt_natCast]

include hc in
theorem sound_fieldHeader (last : BitVec 16) : Sound ((sliceInput cfg).readFieldHeader cfg last) fun r p =>
    (r.1 = 0#8 ∧ ∃ b : Byte, p = [b] ∧ lenientStop b) ∨ (r.1 ≠ 0#8 ∧ FieldHeader last p r.1.toNat r.2) := by
  intro s r s' h
  cases s with
  | nil => cases h
  | cons b s =>
    have hb := byte_lt b
    by_cases h0 : b = 0#8
    · subst h0
      rw [readHeader_stop] at h; cases h
      exact ⟨[0#8], rfl, .inl ⟨rfl, 0#8, rfl, rfl⟩⟩
    · have hb0 : b.toNat ≠ 0 := fun h => h0 (BitVec.eq_of_toNat_eq h)
      by_cases h16 : 16 ≤ b.toNat
      · rw [readHeader_short cfg last b s h16, if_neg (by simp [hc.ov])] at h
        cases h
        refine ⟨[b], rfl, ?_⟩
        by_cases hm : b.toNat % 16 = 0
        · left
          exact ⟨by simp [hm], b, rfl, hm⟩
        · right
          have e : (BitVec.ofNat 8 (b.toNat % 16)).toNat = b.toNat % 16 := ofNat8_toNat (by omega)
          refine ⟨fun h => hm (by rw [← e]; exact congrArg BitVec.toNat h), ?_⟩
          dsimp only
          rw [e, ← ofInt_add16]
          exact .short last b (by omega) hm
      · rw [readHeader_long cfg last b s (by omega) h0] at h
        split at h
        · cases h
        · rename_i id t hid
          cases h
          obtain ⟨p, rfl, n, hp, hx⟩ := sound_zigzag hc (w := 16) (by omega) _ _ _ hid
          exact ⟨b :: p, rfl, .inr ⟨h0, .long last b p n id (by omega) hb0 hp hx⟩⟩

include hc in
theorem compl_fieldHeader {last : BitVec 16} {p : Bytes} {ft : Nat} {id : BitVec 16} (h : FieldHeader last p ft id) (suf : Bytes) :
    (sliceInput cfg).readFieldHeader cfg last (p ++ suf) = .ok ((BitVec.ofNat 8 ft, id), suf) ∧ BitVec.ofNat 8 ft ≠ 0#8 ∧ ft < 16 := by
  cases h with
  | short b h1 h2 =>
    have hb := byte_lt b
    rw [List.singleton_append, readHeader_short cfg last b suf (by omega), if_neg (by simp [hc.ov]), ofInt_add16]
    refine ⟨rfl, fun h => h2 ?_, by omega⟩
    have := congrArg BitVec.toNat h
    simp at this; omega
  | long b p n id h1 h2 hp hid =>
    have hb := byte_lt b
    rw [List.cons_append, readHeader_long cfg last b _ (by omega) (fun e => h2 (by rw [e]; rfl))]
    have e : (sliceInput cfg).readFullFieldId cfg (p ++ suf) = .ok (id, suf) := compl_zigzag hc (w := 16) (by omega) id p ⟨n, hp, hid⟩ suf
    rw [e]
    refine ⟨by simp, fun h => h2 (by have := congrArg BitVec.toNat h; simpa using this), by omega⟩

include hc in
theorem compl_stop {b : Byte} (h : lenientStop b) (last : BitVec 16) (suf : Bytes) :
    ∃ id, (sliceInput cfg).readFieldHeader cfg last (b :: suf) = .ok ((0#8, id), suf) := by
  have hb := byte_lt b
  exact compl_header hc last 0 [b] (.inl ⟨b, rfl, h.symm, by unfold lenientStop at h; omega⟩) suf

/-! ## Soundness -/

section Soundness
variable {env : List Def} (hd : defaultsDefined env = true)

/-- Reading succeeds only on bytes that are the value. -/
def FillSound (int : Bytes → Prop) (env : List Def) (t : Ty) (o : Val) (x : Rd Bytes Val) : Prop := Sound x fun v p => DecOf int env (.value t o v) p

theorem sound_fillElems {t : Ty} {d : Val} (hdf : IsDefault env t d) {x : Rd Bytes Val} (hx : FillSound int env t d x) :
    ∀ n, Sound (fillElems x n) fun vs p => vs.length = n ∧ DecOf int env (.elems t vs) p := by
  intro n
  induction n with
  | zero =>
    refine (Sound.pure []).mono ?_
    rintro vs p ⟨rfl, rfl⟩
    exact ⟨rfl, .elemsNil t⟩
  | succ n ih =>
    refine Sound.bind hx (fun v p _ => (Sound.bind ih (fun vs p _ => Sound.pure _) (U := fun r q => ∃ vs, r = v :: vs ∧ vs.length = n ∧ DecOf int env (.elems t vs) q) ?_)) ?_
    · rintro vs r p q ⟨h1, h2⟩ ⟨rfl, rfl⟩
      exact ⟨vs, rfl, h1, by simpa using h2⟩
    · rintro v r p q h1 ⟨vs, rfl, h2, h3⟩
      exact ⟨by simp [h2], .elemsCons t d v vs p q hdf h1 h3⟩

include hc in
theorem sound_encodingSetLoop : ∀ n mask, Sound (encodingSetLoop cfg (sliceInput cfg) n mask) fun m p => ∃ xs : List (BitVec 32),
    xs.length = n ∧ DecOf int env (.elems .i32 (xs.map .i32)) p ∧ (∀ x ∈ xs, InRange x) ∧ m = xs.foldl (fun m x => m ||| (1#32 <<< x.toNat)) mask := by
  intro n
  induction n with
  | zero =>
    intro mask
    refine (Sound.pure mask).mono ?_
    rintro m p ⟨rfl, rfl⟩
    exact ⟨[], rfl, .elemsNil _, by simp, rfl⟩
  | succ n ih =>
    intro mask s m s' h
    rw [encodingSetLoop, Rd.bind_eq_ok] at h
    obtain ⟨x, t, h1, h2⟩ := h
    obtain ⟨p, rfl, k, hk, hx⟩ := sound_readI32 hc _ _ _ h1
    rw [Rd.ite_apply'] at h2
    have hin : (BitVec.slt x 0#32 || BitVec.sle 31#32 x) = true ↔ ¬ InRange x := by
      have e31 : (31#32 : BitVec 32).toInt = 31 := rfl
      rw [BitVec.slt_eq_decide, BitVec.sle_eq_decide, e31, BitVec.toInt_zero]
      unfold InRange
      simp; omega
    split at h2
    · cases h2
    · rename_i hr
      rw [hin] at hr
      obtain ⟨q, rfl, xs, hl, hq, hxs, rfl⟩ := ih _ _ _ _ h2
      refine ⟨p ++ q, by simp, x :: xs, by simp [hl], .elemsCons .i32 _ _ _ p q .i32 (.i32 _ p k x hk hx) hq, ?_, rfl⟩
      intro y hy
      rcases List.mem_cons.1 hy with rfl | hy
      · exact Decidable.not_not.1 hr
      · exact hxs y hy

include hc hd in
theorem sound_fillTy {fn : Nat → Val → Rd Bytes Val} (hfn : ∀ k o, k < env.length → FillSound int env (.named k) o (fn k o)) :
    ∀ t, tyClosed env t = true → ∀ o, FillSound int env t o (fillTy cfg (sliceInput cfg) env fn t o) := by
  have prim : ∀ {α : Type} {x : Rd Bytes α} {W : α → Bytes → Prop} {g : α → Val} {t : Ty} {o : Val}, Sound x W → (∀ a p, W a p → DecOf int env (.value t o (g a)) p) →
      FillSound int env t o (do let a ← x; pure (g a)) := by
    intro α x W g t o hx h
    refine hx.bind (fun a p _ => Sound.pure _) ?_
    rintro a v p q hW ⟨rfl, rfl⟩
    simpa using h a p hW
  have hin : ∀ {w : Nat} (x : BitVec w) p, IntBytes x p → ∃ n, VarintVal p n ∧ zigzag x.toInt = n % 2 ^ w := fun _ _ h => h
  intro t
  induction t with
  | bool =>
    intro _ o
    rw [fillTy]
    refine prim (g := fun b => .bool (b == 1#8)) sound_readByte ?_
    rintro b _ rfl
    have : (b == 1#8) = decide (b.toNat = 1) := by
      rw [Bool.eq_iff_iff, beq_iff_eq, decide_eq_true_eq]
      exact ⟨fun h => by rw [h]; rfl, fun h => BitVec.eq_of_toNat_eq h⟩
    rw [this]
    exact .bool o b
  | i8 => intro _ o; rw [fillTy]; exact prim sound_readByte (by rintro b _ rfl; exact .i8 o b)
  | i16 => intro _ o; rw [fillTy]; exact prim (sound_readI16 hc) (by rintro x p ⟨n, h1, h2⟩; exact .i16 o p n x h1 h2)
  | i32 => intro _ o; rw [fillTy]; exact prim (sound_readI32 hc) (by rintro x p ⟨n, h1, h2⟩; exact .i32 o p n x h1 h2)
  | i64 =>
    intro _ o; rw [fillTy]
    exact prim (sound_readI64 hc) (by rintro x p ⟨n, h1, h2⟩; exact .i64 o p n x h1 (by rw [h2, Nat.mod_eq_of_lt h1.2.1]))
  | double => intro _ o; rw [fillTy]; exact prim sound_readDouble (by rintro x _ rfl; exact .double o x)
  | binary => intro _ o; rw [fillTy]; exact prim (sound_readBinary hc) (by rintro x _ ⟨q, rfl, h1, h2⟩; exact .binary o q x h1 h2)
  | string =>
    intro _ o; rw [fillTy]
    refine prim (W := fun bs p => ∃ q, p = q ++ bs ∧ VarintVal q bs.length ∧ bs.length ≤ 16777216 ∧ IsUtf8 bs) ?_ ?_
    · intro s bs s' h
      unfold Input.readString at h
      obtain ⟨x, t, h1, h2⟩ := Rd.bind_eq_ok.1 h
      rw [Rd.ite_apply'] at h2
      obtain ⟨p, rfl, q, rfl, h3, h4⟩ := sound_readBinary hc _ _ _ h1
      split at h2
      · rename_i hu
        cases h2
        exact ⟨_, rfl, q, rfl, h3, h4, (utf8Valid_iff _).1 hu⟩
      · cases h2
    · rintro x _ ⟨q, rfl, h1, h2, h3⟩; exact .string o q x h1 h2 h3
  | encodingSet =>
    intro _ o s v s' h
    rw [fillTy, Rd.bind_eq_ok] at h
    obtain ⟨⟨n, et⟩, t, h1, h2⟩ := h
    obtain ⟨hb, rfl, hh⟩ := sound_collection hc _ _ _ h1
    dsimp only at h2 hh
    rw [Rd.ite_apply'] at h2
    split at h2
    · cases h2
    · rename_i he
      rw [Rd.bind_eq_ok] at h2
      obtain ⟨m, u, h3, h4⟩ := h2
      cases h4
      obtain ⟨p, rfl, xs, rfl, hp, hxs, rfl⟩ := sound_encodingSetLoop hc (env := env) _ _ _ _ _ h3
      have he' : et.toNat = 5 := by
        rw [Decidable.not_not.1 he]; rfl
      rw [he'] at hh
      exact ⟨hb ++ p, by simp, .encodingSet o hb p _ xs hh hp ⟨hxs, foldl_isSetOf xs hxs⟩⟩
  | list t ih =>
    intro ht o s v s' h
    rw [fillTy, Rd.bind_eq_ok] at h
    obtain ⟨⟨n, et⟩, u, h1, h2⟩ := h
    obtain ⟨hb, rfl, hh⟩ := sound_collection hc _ _ _ h1
    dsimp only at h2 hh
    rw [Rd.ite_apply'] at h2
    split at h2
    · cases h2
    · rename_i he
      rw [Rd.ite_apply'] at h2
      split at h2
      · cases h2
      · rw [Rd.bind_eq_ok] at h2
        obtain ⟨vs, w, h3, h4⟩ := h2
        cases h4
        have ht' : tyClosed env t = true := ht
        have hdf := isDefault_dflt hd ht'
        obtain ⟨p, rfl, rfl, hp⟩ := sound_fillElems hdf (ih ht' _) n _ _ _ h3
        refine ⟨hb ++ p, by simp, .list t o hb et.toNat vs p hh ?_ hp⟩
        rw [wireType_eq] at he
        unfold ElemType
        by_cases h5 : et = wireType env t
        · exact .inl (by rw [h5])
        · have he := Decidable.not_not.1 fun h => he ⟨h5, h⟩
          exact .inr ⟨he.1, by rw [he.2]; rfl⟩
  | option t ih =>
    intro ht o
    have ht' : tyClosed env t = true := ht
    cases o with
    | none =>
      rw [fillTy]
      exact prim (ih ht' _) (by intro v p h; exact .some t _ v p (isDefault_dflt hd ht') h)
    | some v => rw [fillTy]; exact Sound.throw _
    | _ => rw [fillTy] <;> first | exact Sound.fail _ | (intros; contradiction)
  | box t ih =>
    intro ht o
    have ht' : tyClosed env t = true := ht
    cases o with
    | box o => rw [fillTy]; exact prim (ih ht' o) (by intro v p h; exact .box t o v p h)
    | _ => rw [fillTy] <;> first | exact Sound.fail _ | (intros; contradiction)
  | rc t ih =>
    intro ht o
    have ht' : tyClosed env t = true := ht
    cases o with
    | rc b o =>
      rw [fillTy]
      cases b with
      | true => exact Sound.throw _
      | false => exact prim (ih ht' o) (by intro v p h; exact .rc t o v p h)
    | _ => rw [fillTy] <;> first | exact Sound.fail _ | (intros; contradiction)
  | named k =>
    intro ht o
    rw [fillTy]
    exact hfn k o (by simpa [tyClosed] using ht)

include hc hd in
theorem sound_fillField {fn : Nat → Val → Rd Bytes Val} (hfn : ∀ k o, k < env.length → FillSound int env (.named k) o (fn k o)) :
    ∀ t, tyClosed env t = true → ∀ o ft, Sound (fillField cfg (sliceInput cfg) env fn t o ft) fun v p => DecOf int env (.field t ft.toNat o v) p := by
  have value : ∀ t, t ≠ .bool → (∀ t', t ≠ .option t') → tyClosed env t = true → ∀ o ft,
      Sound (fillField cfg (sliceInput cfg) env fn t o ft) fun v p => DecOf int env (.field t ft.toNat o v) p := by
    intro t h1 h2 ht o ft s v s' h
    rw [fillField_value cfg _ env _ o ft h1 h2, Rd.ite_apply'] at h
    split at h
    · cases h
    · rename_i hft
      obtain ⟨p, rfl, hp⟩ := sound_fillTy hc hd hfn t ht o _ _ _ h
      rw [Decidable.not_not.1 hft, wireType_eq]
      exact ⟨p, rfl, .fieldValue t o v p h1 h2 hp⟩
  intro t
  induction t with
  | bool =>
    intro _ o ft
    rw [fillField]
    refine (Sound.pure _).mono ?_
    rintro v p ⟨rfl, rfl⟩
    have : (ft == 1#8) = decide (ft.toNat = 1) := by
      rw [Bool.eq_iff_iff, beq_iff_eq, decide_eq_true_eq]
      exact ⟨fun h => by rw [h]; rfl, fun h => BitVec.eq_of_toNat_eq h⟩
    rw [this]
    exact .fieldBool _ o
  | option t ih =>
    intro ht o ft
    have ht' : tyClosed env t = true := ht
    cases o with
    | none =>
      rw [fillField]
      refine (ih ht' (dflt env t) ft).bind (fun a p _ => Sound.pure _) ?_
      rintro a v p q hW ⟨rfl, rfl⟩
      simpa using DecOf.fieldSome t ft.toNat _ a p (isDefault_dflt hd ht') hW
    | some v => rw [fillField]; exact Sound.throw _
    | _ => rw [fillField] <;> first | exact Sound.fail _ | (intros; contradiction)
  | _ => exact value _ (by simp) (by simp)

/-- What the loop over the fields has found when it succeeds. -/
def LoopSound (int : Bytes → Prop) (env : List Def) (fs : List Field) (last : BitVec 16) (flags : List Bool) (vs : List Val) (v : Val) (p : Bytes) : Prop :=
  ∃ met new, v = .struct new ∧ DecOf int env (.fields fs last met vs new) p ∧
    ∀ (i : Nat) (f : Field), fs[i]? = some f → f.required = true → flags[i]? = some true ∨ i ∈ met

theorem findField_first {fs : List Field} {id : BitVec 16} {i : Nat} (h : findField fs id = some i) :
    ∃ f, fs[i]? = some f ∧ f.id = id ∧ ∀ (j : Nat) (g : Field), j < i → fs[j]? = some g → g.id ≠ id := by
  unfold findField at h
  rw [List.findIdx?_eq_some_iff_getElem] at h
  obtain ⟨hi, he, hlt⟩ := h
  refine ⟨_, List.getElem?_eq_getElem hi, by simpa using he, fun j g hj hg => ?_⟩
  obtain ⟨hj', rfl⟩ := List.getElem?_eq_some_iff.1 hg
  simpa using hlt j hj

theorem findField_of_first {fs : List Field} {id : BitVec 16} {i : Nat} {f : Field} (hf : fs[i]? = some f) (hid : f.id = id)
    (h : ∀ (j : Nat) (g : Field), j < i → fs[j]? = some g → g.id ≠ id) : findField fs id = some i := by
  obtain ⟨hi, rfl⟩ := List.getElem?_eq_some_iff.1 hf
  unfold findField
  rw [List.findIdx?_eq_some_iff_getElem]
  refine ⟨hi, by simpa using hid, fun j hj => ?_⟩
  simpa using h j _ hj (List.getElem?_eq_getElem (by omega))

include hc hd in
theorem sound_loop {fn : Nat → Val → Rd Bytes Val} (hfn : ∀ k o, k < env.length → FillSound int env (.named k) o (fn k o)) (name : String) {fs : List Field}
    (hcl : ∀ f ∈ fs, tyClosed env f.ty = true) : ∀ fuel last (flags : List Bool) vs, flags.length = fs.length →
      Sound (structLoop cfg (sliceInput cfg) env fn name fs fuel last flags vs) (LoopSound int env fs last flags vs) := by
  intro fuel
  induction fuel with
  | zero => intro last flags vs _; exact Sound.fail _
  | succ fuel ih =>
    intro last flags vs hl s v s' h
    rw [structLoop, Rd.bind_eq_ok] at h
    obtain ⟨⟨ft, id⟩, t, h1, h2⟩ := h
    obtain ⟨hb, rfl, hh⟩ := sound_fieldHeader hc last _ _ _ h1
    dsimp only at h2 hh
    rcases hh with ⟨rfl, b, rfl, hb⟩ | ⟨h0, hh⟩
    · rw [if_pos rfl] at h2
      cases hm : firstMissing fs flags with
      | some f => rw [hm] at h2; cases h2
      | none =>
        rw [hm] at h2; cases h2
        exact ⟨[b], rfl, [], vs, rfl, .stop fs last vs b hb, fun i f hf hr => .inl (firstMissing_none_seen hl hm i f hf hr)⟩
    · rw [if_neg h0] at h2
      cases hff : findField fs id with
      | none =>
        rw [hff] at h2
        dsimp only at h2
        rw [Rd.bind_eq_ok] at h2
        obtain ⟨_, u, h3, h4⟩ := h2
        obtain ⟨p, rfl, hp⟩ := (skip_sound_all hc _).2.2 ft false _ _ _ h3
        obtain ⟨q, rfl, met, new, rfl, hq, hreq⟩ := ih _ _ _ hl _ _ _ h4
        exact ⟨hb ++ p ++ q, by simp, met, new, rfl, .unknown fs last met vs new hb ft.toNat id p q hh (findField_none.1 hff) hp hq, hreq⟩
      | some i =>
        rw [hff] at h2
        dsimp only at h2
        obtain ⟨f, hf, rfl, hfst⟩ := findField_first hff
        rw [hf] at h2
        cases ho : vs[i]? with
        | none => rw [ho] at h2; cases h2
        | some o =>
          rw [ho] at h2
          dsimp only at h2
          rw [Rd.bind_eq_ok] at h2
          obtain ⟨w, u, h3, h4⟩ := h2
          have hfc : tyClosed env f.rustTy = true := by
            have := hcl f (List.mem_of_getElem? hf)
            unfold Field.rustTy
            split
            · exact this
            · exact this
          obtain ⟨p, rfl, hp⟩ := sound_fillField hc hd hfn f.rustTy hfc o ft _ _ _ h3
          obtain ⟨q, rfl, met, new, rfl, hq, hreq⟩ := ih _ _ _ (by split <;> simp [hl]) _ _ _ h4
          refine ⟨hb ++ p ++ q, by simp, i :: met, new, rfl, .known fs last met vs new hb ft.toNat i f o w p q hh hf hfst ho hp hq, fun j g hg hr => ?_⟩
          rcases hreq j g hg hr with h | h
          · by_cases hij : i = j
            · exact .inr (by simp [hij])
            · refine .inl ?_
              split at h
              · rwa [List.getElem?_set_ne hij] at h
              · exact h
          · exact .inr (by simp [h])

theorem findVariant_first {us : List Variant} {id : BitVec 16} {i : Nat} (h : us.findIdx? (fun u => u.id == id) = some i) :
    ∃ u, us[i]? = some u ∧ u.id = id ∧ ∀ (j : Nat) (w : Variant), j < i → us[j]? = some w → w.id ≠ id := by
  rw [List.findIdx?_eq_some_iff_getElem] at h
  obtain ⟨hi, he, hlt⟩ := h
  refine ⟨_, List.getElem?_eq_getElem hi, by simpa using he, fun j g hj hg => ?_⟩
  obtain ⟨hj', rfl⟩ := List.getElem?_eq_some_iff.1 hg
  simpa using hlt j hj

theorem findVariant_of_first {us : List Variant} {id : BitVec 16} {i : Nat} {u : Variant} (hf : us[i]? = some u) (hid : u.id = id)
    (h : ∀ (j : Nat) (w : Variant), j < i → us[j]? = some w → w.id ≠ id) : us.findIdx? (fun u => u.id == id) = some i := by
  obtain ⟨hi, rfl⟩ := List.getElem?_eq_some_iff.1 hf
  rw [List.findIdx?_eq_some_iff_getElem]
  refine ⟨hi, by simpa using hid, fun j hj => ?_⟩
  simpa using h j _ hj (List.getElem?_eq_getElem (by omega))

theorem closed_get {env : List Def} (hcl : envClosed env = true) {k : Nat} {d : Def} (hk : env[k]? = some d) : defClosed env d = true := by
  unfold envClosed at hcl
  exact List.all_eq_true.1 hcl d (List.mem_of_getElem? hk)

include hc hd in
theorem sound_fillNamed (hcl : envClosed env = true) : ∀ n k o, k < env.length →
    FillSound int env (.named k) o (fillNamed cfg (sliceInput cfg) env n k o) := by
  intro n
  induction n with
  | zero => intro k o _; exact Sound.fail _
  | succ n ih =>
    intro k o hk
    have hek : env[k]? = some env[k] := List.getElem?_eq_getElem hk
    have hdc := closed_get hcl hek
    generalize env[k] = d at hek hdc
    cases d with
    | struct name fs =>
      cases o with
      | struct vs =>
        intro s v s' h
        rw [fillNamed_struct hek] at h
        obtain ⟨p, rfl, met, new, rfl, hp, hreq⟩ := sound_loop hc hd (ih) name (fs := fs)
          (fun f hf => by simp only [defClosed] at hdc; exact List.all_eq_true.1 hdc f hf) _ _ _ _ (by simp) _ _ _ h
        refine ⟨p, rfl, .struct k name fs met vs new p hek hp fun i f hf hr => ?_⟩
        rcases hreq i f hf hr with h | h
        · simp [hf] at h
        · exact h
      | _ => intro s v s' h; simp [fillNamed, hek] at h
    | union name us =>
      cases o with
      | union j w =>
        intro s v s' h
        rw [fillNamed_union hek] at h
        unfold fillUnion at h
        rw [Rd.bind_eq_ok] at h
        obtain ⟨⟨ft, id⟩, t, h1, h2⟩ := h
        obtain ⟨hb, rfl, hh⟩ := sound_fieldHeader hc 0#16 _ _ _ h1
        dsimp only at h2 hh
        rcases hh with ⟨rfl, -⟩ | ⟨h0, hh⟩
        · rw [if_pos rfl] at h2; cases h2
        · rw [if_neg h0] at h2
          cases hff : us.findIdx? (fun u => u.id == id) with
          | none => rw [hff] at h2; cases h2
          | some i =>
            rw [hff] at h2
            dsimp only at h2
            obtain ⟨u, hu, rfl, hfst⟩ := findVariant_first hff
            rw [hu] at h2
            dsimp only at h2
            rw [Rd.bind_eq_ok] at h2
            obtain ⟨x, t', h3, h4⟩ := h2
            have huc : tyClosed env u.ty = true := by
              simp only [defClosed] at hdc; exact List.all_eq_true.1 hdc u (List.mem_of_getElem? hu)
            obtain ⟨p, rfl, hp⟩ := sound_fillTy hc hd ih u.ty huc _ _ _ _ h3
            rw [Rd.bind_eq_ok] at h4
            obtain ⟨b, t'', h5, h6⟩ := h4
            obtain ⟨_, rfl, rfl⟩ := sound_readByte _ _ _ h5
            rw [Rd.ite_apply'] at h6
            split at h6
            · cases h6
            · rename_i hb0
              cases h6
              rw [Decidable.not_not.1 hb0]
              exact ⟨hb ++ p ++ [0#8], by simp, .union k name us i u j w _ x hb ft.toNat p hek hu hfst hh (isDefault_dflt hd huc) hp⟩
      | _ => intro s v s' h; simp [fillNamed, hek] at h
    | enum name =>
      cases o with
      | enum x =>
        rw [fillNamed_enum hek]
        refine (sound_readI32 hc).bind (fun a p _ => Sound.pure _) ?_
        rintro y v p q ⟨m, h1, h2⟩ ⟨rfl, rfl⟩
        simpa using DecOf.enum k name x p m y hek h1 h2
      | _ => intro s v s' h; simp [fillNamed, hek] at h

end Soundness

/-! ## Completeness -/

section Completeness
variable {env : List Def} (hd : defaultsDefined env = true)

include hd in
theorem dflt_of_isDefault {t : Ty} {d : Val} (h : IsDefault env t d) : dflt env t = d := by
  have hn : ∀ k x, env[k]? = some x → defined (dfltTy (defaults env) (.named k)) = true := by
    intro k x hk
    rw [dfltTy, defaults_get hk]
    exact (definedList_iff _).1 hd _ (List.mem_of_getElem? (defaults_get hk))
  have hdef : defined (dfltTy (defaults env) t) = true := by
    induction h with
    | box t v h ih => simpa [dfltTy, defined] using ih
    | rc t v h ih => simpa [dfltTy, defined] using ih
    | enum k name hk => exact hn _ _ hk
    | struct k name fs vs hk _ _ _ => exact hn _ _ hk
    | union k name u us v hk _ _ => exact hn _ _ hk
    | _ => rfl
  refine (isDefault_dfltTy (fun k w hw hd => isDefault_defaults k w hw ?_ hd) t hdef).unique h
  have := (List.getElem?_eq_some_iff.1 hw).1
  rwa [defaults_length] at this

/-- What reading does on an item. -/
def DecReads (cfg : Cfg) (env : List Def) (p : Bytes) : DItem → Prop
  | .value t o v => ∃ N, ∀ n, N ≤ n → ∀ suf, fillTy cfg (sliceInput cfg) env (fillNamed cfg (sliceInput cfg) env n) t o (p ++ suf) = .ok (v, suf)
  | .field t ft o v => ∃ N, ∀ n, N ≤ n → ∀ b : Byte, b.toNat = ft → ∀ suf,
      fillField cfg (sliceInput cfg) env (fillNamed cfg (sliceInput cfg) env n) t o b (p ++ suf) = .ok (v, suf)
  | .elems t vs => (∃ N, ∀ n, N ≤ n → ∀ suf,
      fillElems (fillTy cfg (sliceInput cfg) env (fillNamed cfg (sliceInput cfg) env n) t (dflt env t)) vs.length (p ++ suf) = .ok (vs, suf)) ∧
      (t = .i32 → ∀ xs : List (BitVec 32), vs = xs.map .i32 → (∀ x ∈ xs, InRange x) → ∀ mask suf,
        encodingSetLoop cfg (sliceInput cfg) xs.length mask (p ++ suf) = .ok (xs.foldl (fun m x => m ||| (1#32 <<< x.toNat)) mask, suf))
  | .fields fs last met vs new => ∃ N, ∀ n, N ≤ n → ∀ name (flags : List Bool) fuel suf, flags.length = fs.length →
      (∀ (i : Nat) (f : Field), fs[i]? = some f → f.required = true → flags[i]? = some true ∨ i ∈ met) → (p ++ suf).length < fuel →
      structLoop cfg (sliceInput cfg) env (fillNamed cfg (sliceInput cfg) env n) name fs fuel last flags vs (p ++ suf) = .ok (.struct new, suf)

theorem Spec.FieldHeader.length_pos {last : BitVec 16} {p : Bytes} {ft : Nat} {id : BitVec 16} (h : FieldHeader last p ft id) : 0 < p.length := by
  cases h <;> simp

include hc hd in
theorem dec_complete (ha : AllocOk cfg) {item : DItem} {p : Bytes} (h : DecOf int env item p) : DecReads cfg env p item := by
  have now : ∀ {t : Ty} {o v : Val} {p : Bytes}, (∀ n suf, fillTy cfg (sliceInput cfg) env (fillNamed cfg (sliceInput cfg) env n) t o (p ++ suf) = .ok (v, suf)) →
      DecReads cfg env p (.value t o v) := fun h => ⟨0, fun n _ suf => h n suf⟩
  induction h with
  | bool o b =>
    refine now fun n suf => ?_
    rw [fillTy, List.singleton_append, Rd.bind_ok (slice_readByte_cons cfg b suf), Rd.pure_apply]
    congr 3
    rw [Bool.eq_iff_iff, beq_iff_eq, decide_eq_true_eq]
    exact ⟨fun h => by rw [h]; rfl, fun h => BitVec.eq_of_toNat_eq h⟩
  | i8 o b =>
    refine now fun n suf => ?_
    rw [fillTy, List.singleton_append, Rd.bind_ok (slice_readByte_cons cfg b suf), Rd.pure_apply]
  | i16 o p k x hp hx =>
    refine now fun n suf => ?_
    rw [fillTy, Rd.bind_ok (compl_readI16 hc x p ⟨k, hp, hx⟩ suf), Rd.pure_apply]
  | i32 o p k x hp hx =>
    refine now fun n suf => ?_
    rw [fillTy, Rd.bind_ok (compl_readI32 hc x p ⟨k, hp, hx⟩ suf), Rd.pure_apply]
  | i64 o p k x hp hx =>
    refine now fun n suf => ?_
    rw [fillTy, Rd.bind_ok (compl_readI64 hc x p ⟨k, hp, by rw [hx, Nat.mod_eq_of_lt hp.2.1]⟩ suf), Rd.pure_apply]
  | double o x =>
    refine now fun n suf => ?_
    rw [fillTy, Rd.bind_ok (compl_readDouble x _ rfl suf), Rd.pure_apply]
  | binary o p bs hp hb =>
    refine now fun n suf => ?_
    rw [fillTy, Rd.bind_ok (compl_readBinary hc bs _ ⟨p, rfl, hp, hb⟩ suf), Rd.pure_apply]
  | string o p bs hp hb hu =>
    refine now fun n suf => ?_
    have e : (sliceInput cfg).readString (p ++ bs ++ suf) = .ok (bs, suf) := by
      unfold Input.readString
      rw [Rd.bind_ok (compl_readBinary hc bs _ ⟨p, rfl, hp, hb⟩ suf), if_pos ((utf8Valid_iff bs).2 hu), Rd.pure_apply]
    rw [fillTy, Rd.bind_ok e, Rd.pure_apply]
  | encodingSet o hb p mask xs hh hp hm ih =>
    refine now fun n suf => ?_
    rw [fillTy, List.append_assoc, Rd.bind_ok (compl_collection hc (xs.length, 5#8) hb hh (p ++ suf))]
    dsimp only
    rw [if_neg (by simp [fieldType]), Rd.bind_ok (ih.2 rfl xs rfl hm.1 0#32 suf), Rd.pure_apply]
    rw [IsSetOf.unique (foldl_isSetOf xs hm.1) hm.2]
  | list t o hb et vs p hh he hp ih =>
    obtain ⟨⟨N, hN⟩, -⟩ := ih
    refine ⟨N, fun n hn suf => ?_⟩
    have het : et < 256 := by
      generalize vs.length = m at hh
      cases hh <;> omega
    have hlen : vs.length ≤ 10000000 := by
      generalize vs.length = m at hh
      cases hh <;> omega
    rw [fillTy, List.append_assoc, Rd.bind_ok (compl_collection hc (vs.length, BitVec.ofNat 8 et) hb (by simpa [Nat.mod_eq_of_lt het] using hh) (p ++ suf))]
    dsimp only
    rw [if_neg, if_neg (by simp [ha _ hlen]), Rd.bind_ok (hN n hn suf), Rd.pure_apply]
    rw [wireType_eq]
    rintro ⟨h1, h2⟩
    rcases he with rfl | ⟨h3, rfl⟩
    · exact h1 (by simp)
    · exact h2 ⟨h3, rfl⟩
  | some t d v p hdf hp ih =>
    obtain ⟨N, hN⟩ := ih
    refine ⟨N, fun n hn suf => ?_⟩
    rw [fillTy, dflt_of_isDefault hd hdf, Rd.bind_ok (hN n hn suf), Rd.pure_apply]
  | box t o v p hp ih =>
    obtain ⟨N, hN⟩ := ih
    refine ⟨N, fun n hn suf => ?_⟩
    rw [fillTy, Rd.bind_ok (hN n hn suf), Rd.pure_apply]
  | rc t o v p hp ih =>
    obtain ⟨N, hN⟩ := ih
    refine ⟨N, fun n hn suf => ?_⟩
    rw [fillTy, if_neg (by simp), Rd.bind_ok (hN n hn suf), Rd.pure_apply]
  | enum k name o p m x hk hp hx =>
    refine ⟨1, fun n hn suf => ?_⟩
    obtain ⟨n, rfl⟩ : ∃ m, n = m + 1 := ⟨n - 1, by omega⟩
    rw [fillTy, fillNamed_enum hk, Rd.bind_ok (compl_readI32 hc x p ⟨m, hp, hx⟩ suf), Rd.pure_apply]
  | struct k name fs met old new p hk hp hr ih =>
    obtain ⟨N, hN⟩ := ih
    refine ⟨N + 1, fun n hn suf => ?_⟩
    obtain ⟨n, rfl⟩ : ∃ m, n = m + 1 := ⟨n - 1, by omega⟩
    rw [fillTy, fillNamed_struct hk]
    refine hN n (by omega) name _ _ suf (by simp) (fun i f hf h => .inr (hr i f hf h)) ?_
    show _ < (p ++ suf).length + 1
    omega
  | union k name us i u j o d v hb ft p hk hu hfst hh hdf hp ih =>
    obtain ⟨N, hN⟩ := ih
    refine ⟨N + 1, fun n hn suf => ?_⟩
    obtain ⟨n, rfl⟩ : ∃ m, n = m + 1 := ⟨n - 1, by omega⟩
    rw [fillTy, fillNamed_union hk]
    unfold fillUnion
    obtain ⟨h1, h2, -⟩ := compl_fieldHeader hc hh (p ++ ([0#8] ++ suf))
    rw [List.append_assoc, List.append_assoc, Rd.bind_ok h1]
    simp only [h2, if_false, findVariant_of_first hu rfl hfst, hu]
    rw [dflt_of_isDefault hd hdf, Rd.bind_ok (hN n (by omega) _), List.singleton_append, Rd.bind_ok (slice_readByte_cons cfg _ suf)]
    simp
  | elemsNil t =>
    refine ⟨⟨0, fun n _ suf => rfl⟩, ?_⟩
    rintro - xs hxs - mask suf
    obtain rfl : xs = [] := by simpa using hxs.symm
    rfl
  | elemsCons t d v vs p q hdf hp hq ih1 ih2 =>
    obtain ⟨N1, h1⟩ := ih1
    obtain ⟨⟨N2, h2⟩, h3⟩ := ih2
    refine ⟨⟨max N1 N2, fun n hn suf => ?_⟩, ?_⟩
    · rw [List.length_cons, fillElems, List.append_assoc, dflt_of_isDefault hd hdf, Rd.bind_ok (h1 n (by omega) _)]
      have := h2 n (by omega) suf
      rw [dflt_of_isDefault hd hdf] at this
      rw [Rd.bind_ok this, Rd.pure_apply]
    · rintro rfl xs hxs hin mask suf
      cases xs with
      | nil => simp at hxs
      | cons x xs =>
        simp only [List.map_cons, List.cons.injEq] at hxs
        obtain ⟨rfl, rfl⟩ := hxs
        cases hp with
        | i32 _ _ m _ hm hx =>
          rw [List.length_cons, encodingSetLoop, List.append_assoc, Rd.bind_ok (compl_readI32 hc x p ⟨m, hm, hx⟩ _)]
          have hx' := hin x (by simp)
          have hb : (BitVec.slt x 0#32 || BitVec.sle 31#32 x) = false := by
            have e31 : (31#32 : BitVec 32).toInt = 31 := rfl
            rw [BitVec.slt_eq_decide, BitVec.sle_eq_decide, e31, BitVec.toInt_zero]
            unfold InRange at hx'
            simp; omega
          rw [hb, if_neg (by simp)]
          exact h3 rfl xs rfl (fun y hy => hin y (by simp [hy])) _ suf
  | fieldBool ft o =>
    refine ⟨0, fun n _ b hb suf => ?_⟩
    rw [fillField, List.nil_append, Rd.pure_apply]
    congr 3
    rw [Bool.eq_iff_iff, beq_iff_eq, decide_eq_true_eq]
    exact ⟨fun h => by rw [← hb, h]; rfl, fun h => BitVec.eq_of_toNat_eq (by rw [hb, h]; rfl)⟩
  | fieldSome t ft d v p hdf hp ih =>
    obtain ⟨N, hN⟩ := ih
    refine ⟨N, fun n hn b hb suf => ?_⟩
    rw [fillField, dflt_of_isDefault hd hdf, Rd.bind_ok (hN n hn b hb suf), Rd.pure_apply]
  | fieldValue t o v p h1 h2 hp ih =>
    obtain ⟨N, hN⟩ := ih
    refine ⟨N, fun n hn b hb suf => ?_⟩
    rw [fillField_value cfg _ env _ o b h1 h2, if_neg (by rw [wireType_eq]; simp [BitVec.eq_of_toNat_eq hb])]
    exact hN n hn suf
  | stop fs last vs b hb =>
    refine ⟨0, fun n _ name flags fuel suf hl hreq hfuel => ?_⟩
    obtain ⟨fuel, rfl⟩ : ∃ m, fuel = m + 1 := ⟨fuel - 1, by omega⟩
    obtain ⟨id, e⟩ := compl_stop hc hb last suf
    rw [structLoop, List.singleton_append, Rd.bind_ok e]
    simp only [if_true]
    rw [firstMissing_none _ _ hl (fun i f hf hr => by simpa using hreq i f hf hr)]
    rfl
  | known fs last met vs new hb ft i f o v p q hh hf hfst ho hp hq ih1 ih2 =>
    obtain ⟨N1, h1⟩ := ih1
    obtain ⟨N2, h2⟩ := ih2
    refine ⟨max N1 N2, fun n hn name flags fuel suf hl hreq hfuel => ?_⟩
    obtain ⟨fuel, rfl⟩ : ∃ m, fuel = m + 1 := ⟨fuel - 1, by omega⟩
    have hpos := hh.length_pos
    obtain ⟨h3, h4, h5⟩ := compl_fieldHeader hc hh (p ++ (q ++ suf))
    rw [structLoop, List.append_assoc, List.append_assoc, Rd.bind_ok h3]
    simp only [h4, if_false, findField_of_first hf rfl hfst, hf, ho]
    rw [Rd.bind_ok (h1 n (by omega) _ (ofNat8_toNat (by omega)) _)]
    refine h2 n (by omega) name _ fuel suf (by split <;> simp [hl]) (fun j g hg hr => ?_) (by simp at hfuel ⊢; omega)
    rcases hreq j g hg hr with h | h
    · left
      split
      · by_cases hij : i = j
        · subst hij
          rw [List.getElem?_set_self (by have := (List.getElem?_eq_some_iff.1 hf).1; omega)]
        · rw [List.getElem?_set_ne hij]; exact h
      · exact h
    · rcases List.mem_cons.1 h with rfl | h
      · left
        rw [hf] at hg; cases hg
        rw [if_pos hr, List.getElem?_set_self (by have := (List.getElem?_eq_some_iff.1 hf).1; omega)]
      · exact .inr h
  | unknown fs last met vs new hb ft id p q hh hid hp hq ih =>
    obtain ⟨N, h2⟩ := ih
    refine ⟨N, fun n hn name flags fuel suf hl hreq hfuel => ?_⟩
    obtain ⟨fuel, rfl⟩ : ∃ m, fuel = m + 1 := ⟨fuel - 1, by omega⟩
    have hpos := hh.length_pos
    obtain ⟨h3, h4, h5⟩ := compl_fieldHeader hc hh (p ++ (q ++ suf))
    rw [structLoop, List.append_assoc, List.append_assoc, Rd.bind_ok h3]
    simp only [h4, if_false, findField_none.2 hid]
    have hsk : (sliceInput cfg).skipField cfg (BitVec.ofNat 8 ft) (p ++ (q ++ suf)) = .ok ((), q ++ suf) :=
      (skip_reads hc _ false _ _).2 ⟨p, rfl, by rw [ofNat8_toNat (by omega)]; exact hp⟩
    rw [Rd.bind_ok hsk]
    exact h2 n (by omega) name _ fuel suf hl hreq (by simp at hfuel ⊢; omega)

end Completeness

end CT
