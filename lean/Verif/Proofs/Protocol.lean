import Verif.Spec.Protocol
import Verif.Proofs.SkipWritten
import Verif.Props.Evolution
import Verif.Proofs.Decoding
/-! # Reading and skipping the trees of the protocol -/
namespace CT
open Spec

theorem wfList_mem {xs : List PVal} (h : wfList xs = true) {x : PVal} (hx : x ∈ xs) : x.wf = true := by
  induction xs with
  | nil => cases hx
  | cons y ys ih =>
    rw [wfList, Bool.and_eq_true] at h
    rcases List.mem_cons.1 hx with rfl | hx
    · exact h.1
    · exact ih h.2 hx

theorem encEach_eq (xs : List PVal) : encEach xs = xs.map PVal.enc := by
  induction xs with
  | nil => rw [encEach]; rfl
  | cons x xs ih => rw [encEach, ih]; rfl

theorem encFields_eq (xs : List PVal) : encFields xs = xs.map fun x => (x.fieldType, fieldContent x x.enc) := by
  induction xs with
  | nil => rw [encFields]; rfl
  | cons x xs ih => rw [encFields, ih]; rfl

theorem fits_toNat {et : Byte} {x : PVal} (h : fits et x = true) : 1 ≤ et.toNat ∧ et.toNat ≤ 12 := by
  unfold fits at h
  simp only [Bool.or_eq_true, Bool.and_eq_true, beq_iff_eq] at h
  rcases h with rfl | ⟨-, rfl⟩
  · cases x <;> simp [PVal.type]
  · decide

theorem fieldType_toNat (x : PVal) : 1 ≤ x.fieldType.toNat ∧ x.fieldType.toNat < 16 := by
  cases x <;> first | (rename_i b; cases b <;> decide) | simp [PVal.fieldType, PVal.type]

theorem fits_eq {et : Byte} {x : PVal} (h : fits et x = true) (hb : ∀ b, x ≠ .bool b) : et = x.type := by
  unfold fits at h
  simp only [Bool.or_eq_true, Bool.and_eq_true, beq_iff_eq] at h
  rcases h with h | ⟨h, -⟩
  · exact h
  · cases x with
    | bool b => exact absurd rfl (hb b)
    | _ => simp [PVal.type] at h

theorem protoHeader_length (ft : Byte) (id last : BitVec 16) : 1 ≤ (protoHeader ft id last).length := by
  unfold protoHeader; split <;> simp

/-- A list of values that can be skipped, one after the other. -/
theorem skips_each {cfg : Cfg} {et : Byte} {xs : List PVal} (h : ∀ x ∈ xs, SkipsAs cfg et true x.enc) :
    ∃ N, ∀ m, N ≤ m → ∀ suf, repeatRd (skipFieldF cfg (sliceInput cfg) m et true) xs.length ((encEach xs).flatten ++ suf) = .ok ((), suf) := by
  induction xs with
  | nil => exact ⟨0, fun m _ suf => by rw [encEach]; rfl⟩
  | cons x xs ih =>
    obtain ⟨N, h1⟩ := h x (by simp)
    obtain ⟨M, h2⟩ := ih fun y hy => h y (by simp [hy])
    refine ⟨N + M, fun m hm suf => ?_⟩
    rw [encEach, List.flatten_cons]
    exact compl_repeat_cons (h1 m (by omega) _) (h2 m (by omega) suf)

theorem skips_pairs {cfg : Cfg} {kt vt : Byte} {ks vs : List PVal} (hl : ks.length = vs.length) (hk : ∀ x ∈ ks, SkipsAs cfg kt true x.enc)
    (hv : ∀ x ∈ vs, SkipsAs cfg vt true x.enc) :
    ∃ N, ∀ m, N ≤ m → ∀ suf, repeatRd (do skipFieldF cfg (sliceInput cfg) m kt true; skipFieldF cfg (sliceInput cfg) m vt true) ks.length
      (interleave (encEach ks) (encEach vs) ++ suf) = .ok ((), suf) := by
  induction ks generalizing vs with
  | nil => exact ⟨0, fun m _ suf => by rw [encEach]; rfl⟩
  | cons k ks ih =>
    cases vs with
    | nil => cases hl
    | cons v vs =>
      obtain ⟨N, h1⟩ := hk k (by simp)
      obtain ⟨K, h3⟩ := hv v (by simp)
      obtain ⟨M, h2⟩ := ih (vs := vs) (by simpa using hl) (fun y hy => hk y (by simp [hy])) (fun y hy => hv y (by simp [hy]))
      refine ⟨N + M + K, fun m hm suf => ?_⟩
      rw [encEach, encEach, interleave]
      refine compl_repeat_cons ?_ (h2 m (by omega) suf)
      rw [List.append_assoc, Rd.bind_ok (h1 m (by omega) _)]
      exact h3 m (by omega) _

theorem skips_fields {cfg : Cfg} {ids : List (BitVec 16)} {xs : List PVal} (hl : ids.length = xs.length)
    (h : ∀ x ∈ xs, SkipsAs cfg x.fieldType false (fieldContent x x.enc)) :
    ∃ N, ∀ m, N ≤ m → ∀ last fuel suf, (joinFields last ids (encFields xs)).length + 1 ≤ fuel →
      skipStructLoop cfg (sliceInput cfg) (fun ft => skipFieldF cfg (sliceInput cfg) m ft false) fuel last
        (joinFields last ids (encFields xs) ++ 0#8 :: suf) = .ok ((), suf) := by
  induction ids generalizing xs with
  | nil =>
    obtain rfl : xs = [] := by simpa using hl.symm
    refine ⟨0, fun m _ last fuel suf hf => ?_⟩
    obtain ⟨fuel, rfl⟩ : ∃ k, fuel = k + 1 := ⟨fuel - 1, by omega⟩
    exact skipStructLoop_stop cfg _ _ _ _
  | cons id ids ih =>
    cases xs with
    | nil => cases hl
    | cons x xs =>
      obtain ⟨N, h1⟩ := h x (by simp)
      obtain ⟨M, h2⟩ := ih (xs := xs) (by simpa using hl) fun y hy => h y (by simp [hy])
      have hft := fieldType_toNat x
      refine ⟨N + M, fun m hm last fuel suf hf => ?_⟩
      rw [encFields, joinFields] at hf ⊢
      have hpl := protoHeader_length x.fieldType id last
      obtain ⟨fuel, rfl⟩ : ∃ k, fuel = k + 1 := ⟨fuel - 1, by omega⟩
      rw [List.append_assoc]
      refine skipStructLoop_field cfg (ne_zero_of_toNat hft.1) (readHeader_proto cfg x.fieldType hft.2 (ne_zero_of_toNat hft.1) id last _)
        (h1 m (by omega) _) (h2 m (by omega) id fuel suf ?_)
      simp only [List.length_append] at hf
      omega

/-- Reading the header of a map. -/
theorem readMap_write (cfg : Cfg) {n : Nat} {kt vt : Byte} (hk : kt.toNat < 16) (hv : vt.toNat < 16) (h0 : n ≠ 0) (hn : n ≤ 10000000) (suf : Bytes) :
    (sliceInput cfg).readMapLenAndTypes cfg (varint n ++ (BitVec.ofNat 8 (16 * kt.toNat + vt.toNat) :: suf)) = .ok ((n, kt, vt), suf) := by
  unfold Input.readMapLenAndTypes
  rw [Rd.bind_ok (readLen_write cfg n _ (by omega)), if_neg h0, Rd.bind_ok (slice_readByte_cons cfg _ suf)]
  rw [if_neg (by unfold MAX_COLLECTION_LEN; omega), Rd.pure_apply]
  have hb : (BitVec.ofNat 8 (16 * kt.toNat + vt.toNat)).toNat = 16 * kt.toNat + vt.toNat := by rw [BitVec.toNat_ofNat]; omega
  congr 3
  congr 1
  · apply BitVec.eq_of_toNat_eq
    rw [BitVec.toNat_ushiftRight, hb, Nat.shiftRight_eq_div_pow]; omega
  · apply BitVec.eq_of_toNat_eq
    rw [BitVec.toNat_and, hb, show (0x0F#8).toNat = 2 ^ 4 - 1 from rfl, Nat.and_two_pow_sub_one_eq_mod]; omega

/-- Every tree can be skipped, in every build. -/
theorem skips_pval (cfg : Cfg) (x : PVal) (h : x.wf = true) :
    (∀ et, fits et x = true → SkipsAs cfg et true x.enc) ∧ SkipsAs cfg x.fieldType false (fieldContent x x.enc) := by
  have both : ∀ {x : PVal}, (∀ b, x ≠ .bool b) → (∀ ins, SkipsAs cfg x.type ins x.enc) →
      (∀ et, fits et x = true → SkipsAs cfg et true x.enc) ∧ SkipsAs cfg x.fieldType false (fieldContent x x.enc) := by
    intro x hb h
    refine ⟨fun et he => fits_eq he hb ▸ h true, ?_⟩
    cases x with
    | bool b => exact absurd rfl (hb b)
    | _ => exact h false
  have coll : ∀ {et : Byte} {xs : List PVal} (ft : Byte) (ins : Bool), ft.toNat = 9 ∨ ft.toNat = 10 → isTypeNumber et = true → xs.length ≤ 10000000 →
      (∀ x ∈ xs, SkipsAs cfg et true x.enc) → SkipsAs cfg ft ins (listHeader et xs.length ++ (encEach xs).flatten) := by
    intro et xs ft ins hft het hl hx
    simp only [isTypeNumber, decide_eq_true_eq] at het
    obtain ⟨N, hN⟩ := skips_each hx
    refine ⟨N + 3, fun m hm suf => ?_⟩
    obtain ⟨m, rfl⟩ : ∃ k, m = k + 3 := ⟨m - 3, by omega⟩
    have e := skipCollection_of_header (cfg := cfg) (m := m + 1) het (readCollection_write cfg et xs.length ((encEach xs).flatten ++ suf) (by omega) hl)
      (hN _ (by omega) _) (hN _ (by omega) _)
    rw [skipFieldF]
    rcases hft with hft | hft <;> rw [hft] <;> exact e
  match x, h with
  | .bool b, _ =>
    refine ⟨fun et he => ?_, ?_⟩
    · simp only [fits, PVal.type, Bool.or_eq_true, Bool.and_eq_true, beq_iff_eq] at he
      refine SkipsAs.of_succ fun m suf => ?_
      rcases he with rfl | ⟨-, rfl⟩ <;> (rw [skipFieldF, PVal.enc]; rfl)
    · refine SkipsAs.of_succ fun m suf => ?_
      cases b <;> (rw [skipFieldF]; rfl)
  | .byte x, _ => exact both (by simp) fun ins => SkipsAs.of_succ fun m suf => by rw [skipFieldF, PVal.enc]; rfl
  | .i16 x, _ =>
    refine both (by simp) fun ins => SkipsAs.of_succ fun m suf => ?_
    rw [skipFieldF, PVal.enc]; exact skipInteger_zigzag cfg (by omega) (by omega) x suf
  | .i32 x, _ =>
    refine both (by simp) fun ins => SkipsAs.of_succ fun m suf => ?_
    rw [skipFieldF, PVal.enc]; exact skipInteger_zigzag cfg (by omega) (by omega) x suf
  | .i64 x, _ =>
    refine both (by simp) fun ins => SkipsAs.of_succ fun m suf => ?_
    rw [skipFieldF, PVal.enc]; exact skipInteger_zigzag cfg (by omega) (by omega) x suf
  | .double x, _ =>
    refine both (by simp) fun ins => SkipsAs.of_succ fun m suf => ?_
    rw [skipFieldF, PVal.enc]; exact compl_skipDouble (cfg := cfg) () _ (le64_length x) suf
  | .binary bs, h =>
    simp only [PVal.wf, decide_eq_true_eq] at h
    refine both (by simp) fun ins => SkipsAs.of_succ fun m suf => ?_
    rw [skipFieldF, PVal.enc, List.append_assoc]
    exact skipBinary_varint cfg _ bs suf (varint_isVarint _) (varint_length_le _ 9 (by omega))
      (by rw [leb_varint, Nat.mod_eq_of_lt (by omega)]) h
  | .list et xs, h =>
    simp only [PVal.wf, Bool.and_eq_true, decide_eq_true_eq, List.all_eq_true] at h
    obtain ⟨⟨⟨h1, h2⟩, h3⟩, h4⟩ := h
    refine both (by simp) fun ins => ?_
    rw [PVal.enc]
    exact coll 9#8 ins (.inl rfl) h1 h2 fun y hy => (skips_pval cfg y (wfList_mem h4 hy)).1 et (h3 y hy)
  | .set et xs, h =>
    simp only [PVal.wf, Bool.and_eq_true, decide_eq_true_eq, List.all_eq_true] at h
    obtain ⟨⟨⟨h1, h2⟩, h3⟩, h4⟩ := h
    refine both (by simp) fun ins => ?_
    rw [PVal.enc]
    exact coll 10#8 ins (.inr rfl) h1 h2 fun y hy => (skips_pval cfg y (wfList_mem h4 hy)).1 et (h3 y hy)
  | .map kt vt ks vs, h =>
    simp only [PVal.wf, Bool.and_eq_true, decide_eq_true_eq, List.all_eq_true] at h
    obtain ⟨⟨⟨⟨⟨h1, h2⟩, h3⟩, h4⟩, h5⟩, h6⟩ := h
    refine both (by simp) fun ins => ?_
    rw [PVal.enc]
    split
    · refine ⟨2, fun m hm suf => ?_⟩
      obtain ⟨m, rfl⟩ : ∃ k, m = k + 2 := ⟨m - 2, by omega⟩
      rw [skipFieldF]
      show skipMap _ _ (m + 1) _ = _
      have e : (sliceInput cfg).readMapLenAndTypes cfg ([0#8] ++ suf) = .ok ((0, 0#8, 0#8), suf) := by
        have := readLen_write cfg 0 suf (by omega)
        rw [varint, if_pos (by omega)] at this
        unfold Input.readMapLenAndTypes
        rw [Rd.bind_ok this]; rfl
      rw [skipMap, Rd.bind_ok e]; rfl
    · rename_i h0
      obtain ⟨N, hN⟩ := skips_pairs h1 (fun y hy => (skips_pval cfg y (wfList_mem h5 hy)).1 kt (h3 y hy))
        (fun y hy => (skips_pval cfg y (wfList_mem h6 hy)).1 vt (h4 y hy))
      have hk : kt.toNat < 16 := by
        cases ks with
        | nil => simp at h0
        | cons k ks => have := fits_toNat (h3 k (by simp)); omega
      have hv : vt.toNat < 16 := by
        cases vs with
        | nil => simp at h1; simp [h1] at h0
        | cons v vs => have := fits_toNat (h4 v (by simp)); omega
      refine ⟨N + 2, fun m hm suf => ?_⟩
      obtain ⟨m, rfl⟩ : ∃ k, m = k + 2 := ⟨m - 2, by omega⟩
      rw [skipFieldF]
      show skipMap _ _ (m + 1) _ = _
      rw [skipMap, List.append_assoc, List.append_assoc, List.singleton_append, Rd.bind_ok (readMap_write cfg hk hv h0 h2 _)]
      exact hN m (by omega) suf
  | .struct ids xs, h =>
    simp only [PVal.wf, Bool.and_eq_true, decide_eq_true_eq] at h
    obtain ⟨N, hN⟩ := skips_fields (cfg := cfg) h.1 fun y hy => (skips_pval cfg y (wfList_mem h.2 hy)).2
    refine both (by simp) fun ins => ⟨N + 1, fun m hm suf => ?_⟩
    obtain ⟨m, rfl⟩ : ∃ k, m = k + 1 := ⟨m - 1, by omega⟩
    rw [skipFieldF, PVal.enc, List.append_assoc]
    exact hN m (by omega) 0#16 _ suf (by simp [sliceInput])
termination_by sizeOf x
decreasing_by
  all_goals
    simp_wf
    have := List.sizeOf_lt_of_mem hy
    omega

theorem SkipsAs.skip {cfg : Cfg} {ft : Byte} {ins : Bool} {p : Bytes} (h : SkipsAs cfg ft ins p) (suf : Bytes) :
    (sliceInput cfg).skip cfg ft ins (p ++ suf) = .ok ((), suf) := by
  obtain ⟨N, h⟩ := h
  rw [← (Props.C17_bound_irrelevant_slice cfg (p ++ suf) (N + 2 * (p ++ suf).length + 2)).1 (by omega)]
  exact h _ (by omega) suf

/-! ## Reading -/

theorem unshareList_map (vs : List Val) : Val.unshareList vs = vs.map Val.unshare := by
  induction vs with
  | nil => rfl
  | cons v vs ih => rw [Val.unshareList, ih]; rfl

/-- With enough fuel, reading a `t` into `v0` consumes exactly `p` and gives `w`. -/
def FillsAs (cfg : Cfg) (env : List Def) (t : Ty) (v0 : Val) (p : Bytes) (w : Val) : Prop :=
  ∃ N, ∀ n, N ≤ n → ∀ suf, fillTy cfg (sliceInput cfg) env (fillNamed cfg (sliceInput cfg) env n) t v0 (p ++ suf) = .ok (w, suf)

/-- The same for a field with the wire type `ft` in its header. -/
def FillsField (cfg : Cfg) (env : List Def) (t : Ty) (v0 : Val) (ft : Byte) (p : Bytes) (w : Val) : Prop :=
  ∃ N, ∀ n, N ≤ n → ∀ suf, fillField cfg (sliceInput cfg) env (fillNamed cfg (sliceInput cfg) env n) t v0 ft (p ++ suf) = .ok (w, suf)

theorem rep_type {env : List Def} : ∀ {t : Ty} {v : Val} {x : PVal}, Rep env t v x → isBoolish t = false →
    x.fieldType = wireType env t ∧ ∀ p, fieldContent x p = p := by
  intro t
  induction t with
  | option t ih => intro v x h hb; cases h with | some _ _ _ h => exact ih h hb
  | box t ih => intro v x h hb; cases h with | box _ _ _ h => exact ih h hb
  | rc t ih => intro v x h hb; cases h with | rc _ _ _ _ h => exact ih h hb
  | bool => intro v x h hb; simp [isBoolish] at hb
  | named k =>
    intro v x h hb
    cases h with
    | enum _ _ _ hk => exact ⟨by simp [wireType, hk]; rfl, fun p => rfl⟩
    | struct _ _ _ _ _ _ hk => exact ⟨by simp [wireType, hk]; rfl, fun p => rfl⟩
    | union _ _ _ _ _ _ _ hk => exact ⟨by simp [wireType, hk]; rfl, fun p => rfl⟩
  | _ => intro v x h hb; cases h <;> exact ⟨rfl, fun p => rfl⟩

/-- From a value to a field. -/
theorem fillsField_of_fills {cfg : Cfg} {env : List Def} {t : Ty} {v v0 : Val} {x : PVal} (hr : Rep env t v x) (hb : boxedBool t = false)
    (ho : Ty.isOption t = false) (h : FillsAs cfg env t v0 x.enc v.unshare) : FillsField cfg env t v0 x.fieldType (fieldContent x x.enc) v.unshare := by
  by_cases ht : t = .bool
  · subst ht
    cases hr with
    | bool b =>
      refine ⟨0, fun n _ suf => ?_⟩
      rw [fillField]
      cases b <;> rfl
  · obtain ⟨e1, e2⟩ := rep_type hr (isBoolish_of_not_boxed t hb ht (isOption_false ho))
    obtain ⟨N, h⟩ := h
    refine ⟨N, fun n hn suf => ?_⟩
    rw [fillField_value _ _ _ _ _ _ ht (isOption_false ho), e1, wireType_eq, if_neg (by simp), e2]
    exact h n hn suf

theorem fills_each {cfg : Cfg} {env : List Def} {t : Ty} : ∀ {vs : List Val} {xs : List PVal}, vs.length = xs.length →
    (∀ (i : Nat) (v : Val) (x : PVal), vs[i]? = some v → xs[i]? = some x → FillsAs cfg env t (dflt env t) x.enc v.unshare) →
    ∃ N, ∀ n, N ≤ n → ∀ suf, fillElems (fillTy cfg (sliceInput cfg) env (fillNamed cfg (sliceInput cfg) env n) t (dflt env t)) xs.length
      ((encEach xs).flatten ++ suf) = .ok (Val.unshareList vs, suf) := by
  intro vs
  induction vs with
  | nil =>
    intro xs hl h
    obtain rfl : xs = [] := by simpa using hl.symm
    exact ⟨0, fun n _ suf => by rw [encEach]; rfl⟩
  | cons v vs ih =>
    intro xs hl h
    cases xs with
    | nil => cases hl
    | cons x xs =>
      obtain ⟨N1, h1⟩ := h 0 v x rfl rfl
      obtain ⟨N2, h2⟩ := ih (xs := xs) (by simpa using hl) fun i v x hv hx => h (i + 1) v x hv hx
      refine ⟨max N1 N2, fun n hn suf => ?_⟩
      rw [List.length_cons, fillElems, encEach, List.flatten_cons, List.append_assoc, Rd.bind_ok (h1 n (by omega) _), Rd.bind_ok (h2 n (by omega) suf)]
      simp only [Rd.pure_apply, Val.unshareList]

theorem encodingSet_loop (cfg : Cfg) : ∀ (xs : List (BitVec 32)), (∀ x ∈ xs, 0 ≤ x.toInt ∧ x.toInt ≤ 30) → ∀ mask suf,
    encodingSetLoop cfg (sliceInput cfg) xs.length mask ((encEach (xs.map PVal.i32)).flatten ++ suf) =
      .ok (xs.foldl (fun m x => m ||| (1#32 <<< x.toNat)) mask, suf) := by
  intro xs
  induction xs with
  | nil => intro _ mask suf; rw [List.map_nil, encEach]; rfl
  | cons x xs ih =>
    intro hin mask suf
    rw [List.length_cons, encodingSetLoop, List.map_cons, encEach, List.flatten_cons, List.append_assoc, PVal.enc, Rd.bind_ok (readI32_write cfg x _)]
    have hx' := hin x (by simp)
    have hb : (BitVec.slt x 0#32 || BitVec.sle 31#32 x) = false := by
      have e31 : (31#32 : BitVec 32).toInt = 31 := rfl
      rw [BitVec.slt_eq_decide, BitVec.sle_eq_decide, e31, BitVec.toInt_zero]
      simp; omega
    rw [hb, if_neg (by simp)]
    exact ih (fun y hy => hin y (by simp [hy])) _ suf

/-- What the fields of a tree hold for a declared field, once every value is known to be read. -/
inductive FieldFills (cfg : Cfg) (env : List Def) (ids : List (BitVec 16)) (xs : List PVal) (f : Field) (v0 : Val) : Val → Prop where
  | absent (hr : f.required = false) (hid : ∀ id ∈ ids, id ≠ f.id) (h0 : v0 = .none) : FieldFills cfg env ids xs f v0 .none
  | present (j : Nat) (x w) (hj : ids[j]? = some f.id) (hu : ∀ j', ids[j']? = some f.id → j' = j) (hx : xs[j]? = some x)
      (h : FillsField cfg env f.rustTy v0 x.fieldType (fieldContent x x.enc) w) : FieldFills cfg env ids xs f v0 w

/-- The loop over the fields: those of `ids₁` have been read, those of `ids₂` are to come. -/
theorem fills_fields {cfg : Cfg} {env : List Def} {fs : List Field} (hn : (fs.map (·.id)).Nodup) {v0s new : List Val} (hl0 : v0s.length = fs.length)
    (hl1 : new.length = fs.length) {ids : List (BitVec 16)} {xs : List PVal} (hw : wfList xs = true)
    (hf : ∀ (i : Nat) (f : Field) (v0 w : Val), fs[i]? = some f → v0s[i]? = some v0 → new[i]? = some w → FieldFills cfg env ids xs f v0 w) :
    ∀ (ids₂ ids₁ : List (BitVec 16)) (xs₂ xs₁ : List PVal), ids = ids₁ ++ ids₂ → xs = xs₁ ++ xs₂ → ids₁.length = xs₁.length → ids₂.length = xs₂.length →
    ∃ N, ∀ n, N ≤ n → ∀ (name : String) (cur : List Val) (flags : List Bool) (last : BitVec 16) (fuel : Nat) (suf : Bytes), cur.length = fs.length →
      flags.length = fs.length →
      (∀ (i : Nat) (f : Field), fs[i]? = some f → (f.id ∈ ids₂ → cur[i]? = v0s[i]?) ∧
        (f.id ∉ ids₂ → cur[i]? = new[i]? ∧ (f.required = true → flags[i]? = some true))) →
      (joinFields last ids₂ (encFields xs₂)).length + 1 ≤ fuel →
      structLoop cfg (sliceInput cfg) env (fillNamed cfg (sliceInput cfg) env n) name fs fuel last flags cur
        (joinFields last ids₂ (encFields xs₂) ++ 0#8 :: suf) = .ok (.struct new, suf) := by
  intro ids₂
  induction ids₂ with
  | nil =>
    intro ids₁ xs₂ xs₁ _ _ _ hl2
    obtain rfl : xs₂ = [] := by simpa using hl2.symm
    refine ⟨0, fun n _ name cur flags last fuel suf hlc hlf hinv hfuel => ?_⟩
    obtain ⟨fuel, rfl⟩ : ∃ m, fuel = m + 1 := ⟨fuel - 1, by omega⟩
    rw [structLoop, encFields]
    show (Input.readFieldHeader cfg (sliceInput cfg) last >>= _) (0#8 :: suf) = _
    rw [Rd.bind_ok (readHeader_stop cfg last suf)]
    simp only [if_true]
    rw [firstMissing_none _ _ hlf fun i f h hr => ((hinv i f h).2 (by simp)).2 hr]
    have e : cur = new := by
      apply List.ext_getElem?
      intro i
      by_cases hi : i < fs.length
      · exact ((hinv i _ (List.getElem?_eq_getElem hi)).2 (by simp)).1
      · rw [List.getElem?_eq_none (by omega), List.getElem?_eq_none (by omega)]
    rw [e]; rfl
  | cons id ids₂ ih =>
    intro ids₁ xs₂ xs₁ he1 he2 hl1' hl2
    cases xs₂ with
    | nil => cases hl2
    | cons x xs₂ =>
      have hft := fieldType_toNat x
      have hft0 := ne_zero_of_toNat hft.1
      obtain ⟨M, h2⟩ := ih (ids₁ ++ [id]) xs₂ (xs₁ ++ [x]) (by simp [he1]) (by simp [he2]) (by simp [hl1']) (by simpa using hl2)
      have hxw : x.wf = true := wfList_mem hw (by simp [he2])
      cases hff : findField fs id with
      | none =>
        have hnone := findField_none.1 hff
        have hsk := SkipsAs.skip (skips_pval cfg x hxw).2
        refine ⟨M, fun n hn' name cur flags last fuel suf hlc hlf hinv hfuel => ?_⟩
        rw [encFields, joinFields] at hfuel ⊢
        have hpl := protoHeader_length x.fieldType id last
        obtain ⟨fuel, rfl⟩ : ∃ m, fuel = m + 1 := ⟨fuel - 1, by omega⟩
        rw [structLoop, List.append_assoc, List.append_assoc, Rd.bind_ok (readHeader_proto cfg x.fieldType hft.2 hft0 id last _)]
        simp only [hft0, if_false, hff]
        rw [Rd.bind_ok (show (sliceInput cfg).skipField cfg x.fieldType _ = _ from hsk _)]
        refine h2 n hn' name cur flags id fuel suf hlc hlf (fun i f hi => ?_) (by simp only [List.length_append] at hfuel; omega)
        have hne := hnone f (List.mem_of_getElem? hi)
        obtain ⟨a, b⟩ := hinv i f hi
        exact ⟨fun hm => a (by simp [hm]), fun hm => b (by simp [hm, hne])⟩
      | some i =>
        obtain ⟨f, hi, hid, -⟩ := findField_first hff
        subst hid
        have hil := (List.getElem?_eq_some_iff.1 hi).1
        have ho : v0s[i]? = some v0s[i] := List.getElem?_eq_getElem _
        have hw' : new[i]? = some new[i] := List.getElem?_eq_getElem _
        have hpos : ids[ids₁.length]? = some f.id := by rw [he1]; simp
        have hposx : xs[ids₁.length]? = some x := by rw [he2, hl1']; simp
        have hnew := hf i f _ _ hi ho hw'
        generalize new[i] = w at hw' hnew
        cases hnew with
        | absent hr hid _ => exact absurd rfl (hid f.id (by simp [he1]))
        | present j y _ hj hu hy hfill =>
          obtain rfl := hu _ hpos
          rw [hposx] at hy; cases hy
          obtain ⟨N, h1⟩ := hfill
          have hnot : f.id ∉ ids₂ := by
            intro hm
            obtain ⟨k, hk⟩ := List.getElem?_of_mem hm
            have := hu (ids₁.length + 1 + k) (by rw [he1, List.getElem?_append_right (by omega), show ids₁.length + 1 + k - ids₁.length = k + 1 by omega]; exact hk)
            omega
          refine ⟨N + M, fun n hn' name cur flags last fuel suf hlc hlf hinv hfuel => ?_⟩
          rw [encFields, joinFields] at hfuel ⊢
          have hpl := protoHeader_length x.fieldType f.id last
          obtain ⟨fuel, rfl⟩ : ∃ m, fuel = m + 1 := ⟨fuel - 1, by omega⟩
          have hcur := (hinv i f hi).1 (by simp)
          rw [ho] at hcur
          rw [structLoop, List.append_assoc, List.append_assoc, Rd.bind_ok (readHeader_proto cfg x.fieldType hft.2 hft0 f.id last _)]
          simp only [hft0, if_false, hff, hi, hcur]
          rw [Rd.bind_ok (h1 n (by omega) _)]
          refine h2 n (by omega) name _ _ f.id fuel suf (by simp [hlc]) (by split <;> simp [hlf]) (fun i' f' hi' => ?_)
            (by simp only [List.length_append] at hfuel; omega)
          by_cases hii : i = i'
          · subst hii
            rw [hi] at hi'; cases hi'
            refine ⟨fun hm => absurd hm hnot, fun _ => ⟨?_, fun hr => ?_⟩⟩
            · rw [List.getElem?_set_self (by omega), hw']
            · rw [if_pos hr, List.getElem?_set_self (by omega)]
          · have hne : f'.id ≠ f.id := by
              intro he
              have e1 := findField_some hn hi
              have e2 := findField_some hn hi'
              rw [he, e1] at e2
              exact hii (Option.some.inj e2)
            obtain ⟨a, b⟩ := hinv i' f' hi'
            refine ⟨fun hm => ?_, fun hm => ?_⟩
            · rw [List.getElem?_set_ne hii]; exact a (by simp [hm])
            · obtain ⟨b1, b2⟩ := b (by simp [hm, hne])
              refine ⟨by rw [List.getElem?_set_ne hii]; exact b1, fun hr => ?_⟩
              split
              · rw [List.getElem?_set_ne hii]; exact b2 hr
              · exact b2 hr

theorem option_field {cfg : Cfg} {env : List Def} {t : Ty} {ft : Byte} {p : Bytes} {w : Val} (h : FillsField cfg env t (dflt env t) ft p w) :
    FillsField cfg env (.option t) .none ft p (.some w) := by
  obtain ⟨N, h⟩ := h
  refine ⟨N, fun n hn suf => ?_⟩
  rw [fillField, Rd.bind_ok (h n hn suf), Rd.pure_apply]

/-- The encoding of a tree reads as the value it represents. -/
theorem reads_pval {cfg : Cfg} {env : List Def} (hok : schemaOk env = true) (hcl : envClosed env = true) (hbb : noBoxedBool env = true) (ha : Props.AllocOk cfg)
    (x : PVal) (t : Ty) (hw : x.wf = true) (v : Val) (hr : Rep env t v x) (hct : tyClosed env t = true) (v0 : Val) (h0 : Fillable env t v0) :
    FillsAs cfg env t v0 x.enc v.unshare := by
  have hdd : defaultsDefined env = true := by
    unfold schemaOk at hok; simp only [Bool.and_eq_true] at hok; exact hok.2
  have hdef : ∀ {k d}, env[k]? = some d → defOk d = true := fun hk => by
    unfold schemaOk at hok; simp only [Bool.and_eq_true] at hok; exact List.all_eq_true.1 hok.1 _ (List.mem_of_getElem? hk)
  have hdb : ∀ {k d}, env[k]? = some d → defNoBoxedBool d = true := fun hk => List.all_eq_true.1 hbb _ (List.mem_of_getElem? hk)
  have now : ∀ {t : Ty} {o v : Val} {p : Bytes}, (∀ n suf, fillTy cfg (sliceInput cfg) env (fillNamed cfg (sliceInput cfg) env n) t o (p ++ suf) = .ok (v, suf)) →
      FillsAs cfg env t o p v := fun h => ⟨0, fun n _ suf => h n suf⟩
  cases hr with
  | bool b =>
    refine now fun n suf => ?_
    rw [fillTy, PVal.enc, List.singleton_append, Rd.bind_ok (slice_readByte_cons cfg _ suf), Rd.pure_apply]
    cases b <;> rfl
  | i8 b =>
    refine now fun n suf => ?_
    rw [fillTy, PVal.enc, List.singleton_append, Rd.bind_ok (slice_readByte_cons cfg b suf), Rd.pure_apply]; rfl
  | i16 x =>
    refine now fun n suf => ?_
    rw [fillTy, PVal.enc, Rd.bind_ok (readI16_write cfg x suf), Rd.pure_apply]; rfl
  | i32 x =>
    refine now fun n suf => ?_
    rw [fillTy, PVal.enc, Rd.bind_ok (readI32_write cfg x suf), Rd.pure_apply]; rfl
  | i64 x =>
    refine now fun n suf => ?_
    rw [fillTy, PVal.enc, Rd.bind_ok (readI64_write cfg x suf), Rd.pure_apply]; rfl
  | double x =>
    refine now fun n suf => ?_
    rw [fillTy, PVal.enc, ← le64_eq, Rd.bind_ok (show (sliceInput cfg).readDouble (toLeBytes 8 x ++ suf) = _ from readDouble_write x suf), Rd.pure_apply]; rfl
  | binary bs =>
    have hb : bs.length ≤ 16777216 := by simpa [PVal.wf] using hw
    refine now fun n suf => ?_
    rw [fillTy, PVal.enc, Rd.bind_ok (readBinary_write cfg bs suf hb), Rd.pure_apply]; rfl
  | string bs hu =>
    have hb : bs.length ≤ 16777216 := by simpa [PVal.wf] using hw
    refine now fun n suf => ?_
    have e : (sliceInput cfg).readString (varint bs.length ++ bs ++ suf) = .ok (bs, suf) := by
      unfold Input.readString
      rw [Rd.bind_ok (readBinary_write cfg bs suf hb), if_pos ((utf8Valid_iff bs).2 hu)]; rfl
    rw [fillTy, PVal.enc, Rd.bind_ok e, Rd.pure_apply]; rfl
  | encodingSet mask xs hm =>
    have hl : xs.length ≤ 10000000 := by
      simp only [PVal.wf, Bool.and_eq_true, decide_eq_true_eq, List.length_map] at hw; exact hw.1.1.2
    refine now fun n suf => ?_
    rw [fillTy, PVal.enc, List.append_assoc, List.length_map, Rd.bind_ok (readCollection_write cfg 5#8 xs.length _ (by decide) (by unfold MAX_COLLECTION_LEN; exact hl))]
    dsimp only
    rw [if_neg (by simp [fieldType]), Rd.bind_ok (encodingSet_loop cfg xs hm.1 0#32 suf), Rd.pure_apply,
      Props.IsSetOf.unique (Props.foldl_isSetOf xs hm.1) hm.2]
    rfl
  | list t et vs xs he hl h =>
    simp only [PVal.wf, Bool.and_eq_true, decide_eq_true_eq] at hw
    obtain ⟨⟨⟨hty, hlen⟩, -⟩, hws⟩ := hw
    have hety : et.toNat < 16 := by simp only [isTypeNumber, decide_eq_true_eq] at hty; omega
    have hct' : tyClosed env t = true := hct
    obtain ⟨N, hN⟩ := fills_each (cfg := cfg) (env := env) (t := t) hl fun i v x hv hx => by
      have hm := List.mem_of_getElem? hx
      have := List.sizeOf_lt_of_mem hm
      exact reads_pval hok hcl hbb ha x t (wfList_mem hws hm) v (h i v x hv hx) hct' _ (fillable_dflt_closed hdd hct')
    refine ⟨N, fun n hn suf => ?_⟩
    rw [fillTy, PVal.enc, List.append_assoc, Rd.bind_ok (readCollection_write cfg et xs.length _ hety (by unfold MAX_COLLECTION_LEN; exact hlen))]
    dsimp only
    rw [if_neg ?_, if_neg ?_, Rd.bind_ok (hN n hn suf), Rd.pure_apply]
    · rfl
    · rw [ha _ hlen]; simp
    · simp only [wireType_eq]
      rintro ⟨h1, h2⟩
      rcases he with he | ⟨he1, he2⟩
      · exact h1 (BitVec.eq_of_toNat_eq he)
      · exact h2 ⟨he1, BitVec.eq_of_toNat_eq he2⟩
  | some t v x h =>
    cases h0
    obtain ⟨N, hN⟩ := reads_pval hok hcl hbb ha x t hw v h hct _ (fillable_dflt_closed hdd (show tyClosed env t = true from hct))
    refine ⟨N, fun n hn suf => ?_⟩
    rw [fillTy, Rd.bind_ok (hN n hn suf), Rd.pure_apply]; rfl
  | box t v x h =>
    cases h0 with
    | box _ v0 h0 =>
      obtain ⟨N, hN⟩ := reads_pval hok hcl hbb ha x t hw v h hct _ h0
      refine ⟨N, fun n hn suf => ?_⟩
      rw [fillTy, Rd.bind_ok (hN n hn suf), Rd.pure_apply]; rfl
  | rc t b v x h =>
    cases h0 with
    | rc _ v0 h0 =>
      obtain ⟨N, hN⟩ := reads_pval hok hcl hbb ha x t hw v h hct _ h0
      refine ⟨N, fun n hn suf => ?_⟩
      rw [fillTy, if_neg (by simp), Rd.bind_ok (hN n hn suf), Rd.pure_apply]; rfl
  | enum k name x hk =>
    cases h0 with
    | enum _ _ x0 _ =>
      refine ⟨1, fun n hn suf => ?_⟩
      obtain ⟨n, rfl⟩ : ∃ m, n = m + 1 := ⟨n - 1, by omega⟩
      rw [fillTy, fillNamed_enum hk, PVal.enc, Rd.bind_ok (readI32_write cfg x suf), Rd.pure_apply]; rfl
    | struct _ _ _ _ hk' => rw [hk] at hk'; cases hk'
    | union _ _ _ _ _ hk' => rw [hk] at hk'; cases hk'
  | struct k name fs vs ids xs hk hl h =>
    have hso := hdef hk
    simp only [defOk, structOk, Bool.and_eq_true, decide_eq_true_eq, List.all_eq_true, Bool.not_eq_true'] at hso
    have hsb := hdb hk
    simp only [defNoBoxedBool, List.all_eq_true, Bool.not_eq_true'] at hsb
    have hsc := closed_get hcl hk
    simp only [defClosed, List.all_eq_true] at hsc
    simp only [PVal.wf, Bool.and_eq_true, decide_eq_true_eq] at hw
    cases h0 with
    | enum _ _ _ hk' => rw [hk] at hk'; cases hk'
    | union _ _ _ _ _ hk' => rw [hk] at hk'; cases hk'
    | struct _ _ fs' v0s hk' hl0 h0 =>
      rw [hk] at hk'; cases hk'
      have hfields : ∀ (i : Nat) (f : Field) (o w : Val), fs[i]? = some f → v0s[i]? = some o → (Val.unshareList vs)[i]? = some w →
          FieldFills cfg env ids xs f o w := by
        intro i f o w hf ho hwi
        rw [unshareList_map, List.getElem?_map, Option.map_eq_some_iff] at hwi
        obtain ⟨v, hv, rfl⟩ := hwi
        have hfm := List.mem_of_getElem? hf
        have hr := h i f v hf hv
        have hfo := h0 i f o hf ho
        cases hr with
        | absent _ _ _ hr hid =>
          refine .absent hr hid ?_
          rw [show f.rustTy = .option f.ty by simp [Field.rustTy, hr]] at hfo
          cases hfo; rfl
        | present _ _ _ j v x hj hu hx hrep =>
          refine .present j x _ hj hu hx ?_
          have hm := List.mem_of_getElem? hx
          have hsz := List.sizeOf_lt_of_mem hm
          have hxw := wfList_mem hw.2 hm
          cases hreq : f.required with
          | true =>
            rw [show f.rustTy = f.ty by simp [Field.rustTy, hreq]] at hfo ⊢
            simp only [if_true]
            exact fillsField_of_fills hrep (hsb f hfm) (hso.2 f hfm) (reads_pval hok hcl hbb ha x f.ty hxw v hrep (hsc f hfm) _ hfo)
          | false =>
            rw [show f.rustTy = .option f.ty by simp [Field.rustTy, hreq]] at hfo ⊢
            cases hfo
            simp only [Bool.false_eq_true, if_false, Val.unshare]
            exact option_field (fillsField_of_fills hrep (hsb f hfm) (hso.2 f hfm)
              (reads_pval hok hcl hbb ha x f.ty hxw v hrep (hsc f hfm) _ (fillable_dflt_closed hdd (hsc f hfm))))
      obtain ⟨N, hN⟩ := fills_fields hso.1 hl0 (by rw [unshareList_map, List.length_map, hl]) hw.2 hfields ids [] xs [] rfl rfl rfl hw.1
      refine ⟨N + 1, fun n hn suf => ?_⟩
      obtain ⟨n, rfl⟩ : ∃ m, n = m + 1 := ⟨n - 1, by omega⟩
      rw [fillTy, fillNamed_struct hk, PVal.enc, List.append_assoc]
      refine hN n (by omega) name v0s _ 0#16 _ suf hl0 (by simp) (fun i f hf => ⟨fun _ => rfl, fun hm => ?_⟩) ?_
      · have hil := (List.getElem?_eq_some_iff.1 hf).1
        have e1 : v0s[i]? = some v0s[i] := List.getElem?_eq_getElem _
        have hil' : i < (Val.unshareList vs).length := by rw [unshareList_map, List.length_map]; omega
        have e2 : (Val.unshareList vs)[i]? = some (Val.unshareList vs)[i] := List.getElem?_eq_getElem _
        have := hfields i f _ _ hf e1 e2
        generalize (Val.unshareList vs)[i] = w at e2 this
        cases this with
        | absent hr _ h0 => exact ⟨by rw [e1, e2, h0], fun hr' => by rw [hr] at hr'; cases hr'⟩
        | present j x _ hj => exact absurd (List.mem_of_getElem? hj) hm
      · show _ ≤ ((joinFields 0#16 ids (encFields xs)) ++ ([0#8] ++ suf)).length + 1
        simp
  | union k name us i u v x hk hu h =>
    have hso := hdef hk
    simp only [defOk, unionOk, Bool.and_eq_true, decide_eq_true_eq, List.all_eq_true, Bool.not_eq_true', bne_iff_ne] at hso
    have hsb := hdb hk
    simp only [defNoBoxedBool, List.all_eq_true, Bool.not_eq_true'] at hsb
    have hsc := closed_get hcl hk
    simp only [defClosed, List.all_eq_true] at hsc
    have hum := List.mem_of_getElem? hu
    simp only [PVal.wf, wfList, Bool.and_eq_true, decide_eq_true_eq] at hw
    cases h0 with
    | enum _ _ _ hk' => rw [hk] at hk'; cases hk'
    | struct _ _ _ _ hk' => rw [hk] at hk'; cases hk'
    | union _ _ us' i0 v0 hk' =>
      have hft := fieldType_toNat x
      have hft0 := ne_zero_of_toNat hft.1
      obtain ⟨N, hN⟩ := reads_pval hok hcl hbb ha x u.ty hw.2.1 v h (hsc u hum) _ (fillable_dflt_closed hdd (hsc u hum))
      obtain ⟨e1, e2⟩ := rep_type h (isBoolish_of_not_boxed u.ty (hsb u hum) (hso.2 u hum).2 (isOption_false (hso.2 u hum).1))
      refine ⟨N + 1, fun n hn suf => ?_⟩
      obtain ⟨n, rfl⟩ : ∃ m, n = m + 1 := ⟨n - 1, by omega⟩
      rw [fillTy, fillNamed_union hk, PVal.enc, encFields, encFields, show joinFields 0#16 [u.id] [(x.fieldType, fieldContent x x.enc)] = protoHeader x.fieldType u.id 0#16 ++ fieldContent x x.enc ++ [] from rfl, List.append_nil, e2, List.append_assoc, List.append_assoc]
      unfold fillUnion
      rw [Rd.bind_ok (readHeader_proto cfg x.fieldType hft.2 hft0 u.id 0#16 _)]
      simp only [hft0, if_false, findVariant_eq hso.1 hu, hu]
      rw [Rd.bind_ok (hN n (by omega) _), List.singleton_append, Rd.bind_ok (slice_readByte_cons cfg 0#8 suf), if_neg (by simp), Rd.pure_apply]
      rfl
termination_by (sizeOf x, sizeOf t)
decreasing_by
  all_goals subst_vars
  all_goals first
    | (apply Prod.Lex.left; simp; omega)
    | (apply Prod.Lex.right; simp; done)

end CT
