import Verif.Props.Writing
/-! # C39, C40: `EncodingSet` -/
namespace CT.Props
open CT Spec

/-- The encodings an `EncodingSet` can hold. -/
def InRange (x : BitVec 32) : Prop := 0 ≤ x.toInt ∧ x.toInt ≤ 30

instance (x : BitVec 32) : Decidable (InRange x) := by unfold InRange; infer_instance

/-- `mask` holds exactly the numbers in `xs`. -/
def IsSetOf (mask : BitVec 32) (xs : List (BitVec 32)) : Prop := ∀ i : Nat, i ∈ members mask ↔ ∃ x ∈ xs, x.toInt = i

theorem IsSetOf.unique {m n : BitVec 32} {xs : List (BitVec 32)} (h1 : IsSetOf m xs) (h2 : IsSetOf n xs) : m = n := by
  apply BitVec.eq_of_getLsbD_eq
  intro i _
  rw [Bool.eq_iff_iff, ← mem_members, ← mem_members, h1 i, h2 i]

/-- Reading the elements as a set and as a list of enum values side by side, on any input. -/
theorem encodingSetLoop_list {σ : Type} (cfg : Cfg) (I : Input σ) (fill1 : Rd σ Val)
    (hf : ∀ s, fill1 s = (do let x ← I.readI32 cfg; pure (Val.enum x)) s) : ∀ (n : Nat) (mask : BitVec 32) (s : σ),
    match fillElems fill1 n s with
    | .ok (vs, s') => ∃ xs : List (BitVec 32), vs = xs.map Val.enum ∧ xs.length = n ∧
        encodingSetLoop cfg I n mask s =
          if ∀ x ∈ xs, InRange x then .ok (xs.foldl (fun m x => m ||| (1#32 <<< x.toNat)) mask, s')
          else .error (.err .invalidNumber)
    | .error e => encodingSetLoop cfg I n mask s = .error e ∨ encodingSetLoop cfg I n mask s = .error (.err .invalidNumber) := by
  intro n
  induction n with
  | zero => intro mask s; exact ⟨[], rfl, rfl, by simp [encodingSetLoop]⟩
  | succ n ih =>
    intro mask s
    have e1 : fillElems fill1 (n + 1) s = (fill1 >>= fun v => fillElems fill1 n >>= fun vs => pure (v :: vs)) s := rfl
    have e2 : encodingSetLoop cfg I (n + 1) mask s = (I.readI32 cfg >>= fun value =>
      if BitVec.slt value 0#32 || BitVec.sle 31#32 value then Rd.throw .invalidNumber
      else encodingSetLoop cfg I n (mask ||| (1#32 <<< value.toNat))) s := rfl
    rw [e1, e2]
    cases hx : I.readI32 cfg s with
    | error e =>
      have h1 : fill1 s = .error e := by rw [hf, Rd.bind_err hx]
      rw [Rd.bind_err h1]
      exact .inl (Rd.bind_err hx)
    | ok r =>
      obtain ⟨x, s1⟩ := r
      have h1 : fill1 s = .ok (.enum x, s1) := by rw [hf, Rd.bind_ok hx]; rfl
      rw [Rd.bind_ok h1, Rd.bind_ok hx]
      have hin : (BitVec.slt x 0#32 || BitVec.sle 31#32 x) = true ↔ ¬ InRange x := by
        have e31 : (31#32 : BitVec 32).toInt = 31 := rfl
        rw [BitVec.slt_eq_decide, BitVec.sle_eq_decide, e31, BitVec.toInt_zero]
        unfold InRange
        simp; omega
      have ih := ih (mask ||| (1#32 <<< x.toNat)) s1
      by_cases hr : InRange x
      · have hb : (BitVec.slt x 0#32 || BitVec.sle 31#32 x) = false := by
          rw [← Bool.not_eq_true, hin]; simpa using hr
        simp only [hb, Bool.false_eq_true, if_false]
        cases hl : fillElems fill1 n s1 with
        | error e =>
          rw [hl] at ih
          rw [Rd.bind_err hl]
          exact ih
        | ok r =>
          obtain ⟨vs, s'⟩ := r
          rw [hl] at ih
          obtain ⟨xs, rfl, h3, h4⟩ := ih
          rw [Rd.bind_ok hl]
          refine ⟨x :: xs, rfl, by simp [h3], ?_⟩
          rw [h4]
          simp [hr]
      · have hb := hin.2 hr
        simp only [hb, if_true]
        cases hl : fillElems fill1 n s1 with
        | error e => rw [Rd.bind_err hl]; exact .inr rfl
        | ok r =>
          obtain ⟨vs, s'⟩ := r
          rw [hl] at ih
          obtain ⟨xs, rfl, h3, h4⟩ := ih
          rw [Rd.bind_ok hl]
          refine ⟨x :: xs, rfl, by simp [h3], ?_⟩
          rw [if_neg (fun h => hr (h x (by simp)))]
          rfl

theorem foldl_isSetOf (xs : List (BitVec 32)) (h : ∀ x ∈ xs, InRange x) :
    IsSetOf (xs.foldl (fun m x => m ||| (1#32 <<< x.toNat)) 0#32) xs := by
  intro i
  have hx : ∀ x ∈ xs, x.toNat < 31 ∧ x.toInt = x.toNat := by
    intro x hx
    have h1 := h x hx
    have := BitVec.toInt_eq_toNat_cond x
    unfold InRange at h1
    have := x.isLt
    omega
  rw [mem_members, foldl_or_getLsbD xs (fun x h => by have := hx x h; omega)]
  simp only [BitVec.getLsbD_zero, Bool.false_or, decide_eq_true_eq]
  constructor
  · rintro ⟨x, h1, h2⟩; exact ⟨x, h1, by rw [(hx x h1).2, h2]⟩
  · rintro ⟨x, h1, h2⟩; exact ⟨x, h1, by have := (hx x h1).2; omega⟩

/-- C39, C40 on any input and any bytes: reading an `EncodingSet` compared to reading a `Vec<Encoding>` of the same bytes. If the list
is readable, the set is exactly the set of its elements, with the same rest, or `InvalidNumber` if an element is outside 0..30; if the list is
not readable, neither is the set. -/
theorem C40_read {σ : Type} (cfg : Cfg) (hal : ∀ n, cfg.alloc n = true) (I : Input σ) (env : List Def) (k : Nat) (name : String)
    (hk : env[k]? = some (.enum name)) (s : σ) :
    match readThrift cfg I env (.list (.named k)) s with
    | .ok (v, s') => ∃ xs : List (BitVec 32), v = .list (xs.map Val.enum) ∧
        (((∀ x ∈ xs, InRange x) ∧ ∃ mask, readThrift cfg I env .encodingSet s = .ok (.encodingSet mask, s') ∧ IsSetOf mask xs) ∨
         ((∃ x ∈ xs, ¬ InRange x) ∧ readThrift cfg I env .encodingSet s = .error (.err .invalidNumber)))
    | .error e => readThrift cfg I env .encodingSet s = .error e ∨
        readThrift cfg I env .encodingSet s = .error (.err .invalidNumber) := by
  have hd : dflt env (.named k) = .enum 0#32 := by
    rw [dflt, dfltTy, defaults_get hk]; rfl
  unfold readThrift fillThrift
  have hft : fieldType env (.named k) = 5#8 := by unfold fieldType; rw [hk]
  have hft2 : fieldType env .bool = 2#8 := rfl
  have hft3 : fieldType env .i32 = 5#8 := rfl
  rw [fillTy, fillTy]
  cases hc : I.readCollectionLenAndType cfg s with
  | error e =>
    rw [Rd.bind_err hc, Rd.bind_err hc]
    exact .inl rfl
  | ok r =>
    obtain ⟨⟨len, et⟩, s1⟩ := r
    rw [Rd.bind_ok hc, Rd.bind_ok hc]
    dsimp only
    rw [hft, hft2, hft3]
    by_cases het : et = 5#8
    · subst het
      simp only [ne_eq, not_true, false_and, if_false, hal]
      have h := encodingSetLoop_list cfg I (fillTy cfg I env (fillNamed cfg I env (I.size s + 1)) (.named k) (dflt env (.named k)))
        (fun s' => by rw [hd, fillTy, fillNamed_enum hk]) len 0#32 s1
      cases hl : fillElems (fillTy cfg I env (fillNamed cfg I env (I.size s + 1)) (.named k) (dflt env (.named k))) len s1 with
      | error e =>
        rw [hl] at h
        rw [Rd.bind_err hl]
        dsimp only at h ⊢
        rcases h with h | h
        · exact .inl (Rd.bind_err h)
        · exact .inr (Rd.bind_err h)
      | ok r =>
        obtain ⟨vs, s'⟩ := r
        rw [hl] at h
        obtain ⟨xs, rfl, h3, h4⟩ := h
        rw [Rd.bind_ok hl]
        refine ⟨xs, rfl, ?_⟩
        by_cases hr : ∀ x ∈ xs, InRange x
        · rw [if_pos hr] at h4
          refine .inl ⟨hr, _, ?_, foldl_isSetOf xs hr⟩
          rw [Rd.bind_ok h4]; rfl
        · rw [if_neg hr] at h4
          refine .inr ⟨?_, Rd.bind_err h4⟩
          simpa using hr
    · rw [if_pos het, if_pos ⟨het, by simp⟩]
      exact .inl rfl

/-- C40, writing: a set is written exactly as the increasing list of its members. -/
theorem C40_write (env : List Def) (k : Nat) (name : String) (hk : env[k]? = some (.enum name)) (mask : BitVec 32) :
    encode env .encodingSet (.encodingSet mask) =
      encode env (.list (.named k)) (.list ((members mask).map fun i => .enum (BitVec.ofNat 32 i))) := by
  have hw : wireType env (.named k) = 5#8 := by unfold wireType; rw [hk]
  have hl := members_length_le mask
  have key : ∀ l : List Nat, (∀ i ∈ l, i < 32) → Enc env anyStep (.elems (.named k) (l.map fun i => .enum (BitVec.ofNat 32 i)))
      (l.flatMap fun (i : Nat) => varint (zigzag i)) := by
    intro l
    induction l with
    | nil => intro _; exact .elemsNil _
    | cons i l ih =>
      intro hi
      have e : ((BitVec.ofNat 32 i).toInt) = i := by
        have := hi i (by simp)
        rw [BitVec.toInt_eq_toNat_cond, BitVec.toNat_ofNat]; omega
      rw [List.map_cons, List.flatMap_cons, ← e]
      exact .elemsCons _ _ _ _ _ (.enum k name _ hk) (ih fun j hj => hi j (by simp [hj]))
  rw [encode_of_enc (ok := anyStep) (.encodingSet mask)]
  have := Enc.list (ok := anyStep) (.named k) _ _ (by rw [List.length_map]; omega)
    (key (members mask) fun i hi => BitVec.lt_of_getLsbD (mem_members.1 hi))
  rw [encode_of_enc this, hw, List.length_map]

/-- C40: a written set is read by `Vec<Encoding>` as the increasing list of its members. -/
theorem C40_set_as_list {cfg : Cfg} (ha : AllocOk cfg) (mask : BitVec 32) {bytes : Bytes}
    (he : encode Format.parquetEnv .encodingSet (.encodingSet mask) = .ok bytes) (suf : Bytes) :
    Reads cfg (fun I => readThrift cfg I Format.parquetEnv (.list Format.tEncoding)) bytes suf
      (.list ((members mask).map fun i => .enum (BitVec.ofNat 32 i))) := by
  rw [C40_write Format.parquetEnv 4 "Encoding" rfl] at he
  have h := C23_parquet_round_trip ha (t := .list Format.tEncoding) (.list _ _ fun v hv => by
    obtain ⟨i, _, rfl⟩ := List.mem_map.1 hv
    exact .enum 4 "Encoding" _ rfl) he suf
  have e : (Val.list ((members mask).map fun i => .enum (BitVec.ofNat 32 i))).unshare =
      .list ((members mask).map fun i => .enum (BitVec.ofNat 32 i)) := by
    have key : ∀ l : List Nat, Val.unshareList (l.map fun i => Val.enum (BitVec.ofNat 32 i)) = l.map fun i => Val.enum (BitVec.ofNat 32 i) := by
      intro l
      induction l with
      | nil => rfl
      | cons i l ih => simp [Val.unshareList, Val.unshare, ih]
    simp [Val.unshare, key]
  rwa [e] at h

/-- C39: reading an `EncodingSet` from any input yields a set with members in 0..30 only. -/
theorem C39_members_bounded {σ : Type} (cfg : Cfg) (I : Input σ) (env : List Def) {s s' : σ} {v : Val}
    (h : readThrift cfg I env .encodingSet s = .ok (v, s')) : ∃ mask, v = .encodingSet mask ∧ ∀ i ∈ members mask, i ≤ 30 := by
  have key : ∀ (n : Nat) (mask : BitVec 32) (s s' : σ) (m : BitVec 32), (∀ i ∈ members mask, i ≤ 30) →
      encodingSetLoop cfg I n mask s = .ok (m, s') → ∀ i ∈ members m, i ≤ 30 := by
    intro n
    induction n with
    | zero => intro mask s s' m hm h; cases h; exact hm
    | succ n ih =>
      intro mask s s' m hm h
      rw [encodingSetLoop, Rd.bind_eq_ok] at h
      obtain ⟨x, s1, _, h⟩ := h
      split at h
      · cases h
      · rename_i hr
        refine ih _ _ _ _ (fun i hi => ?_) h
        rw [mem_members, BitVec.getLsbD_or, Bool.or_eq_true] at hi
        rcases hi with hi | hi
        · exact hm i (mem_members.2 hi)
        · have e31 : (31#32 : BitVec 32).toInt = 31 := rfl
          rw [BitVec.slt_eq_decide, BitVec.sle_eq_decide, e31, BitVec.toInt_zero] at hr
          simp only [Bool.or_eq_true, decide_eq_true_eq, not_or, Int.not_lt, Int.not_le] at hr
          have := BitVec.toInt_eq_toNat_cond x
          have := x.isLt
          rw [one_shl_getLsbD _ _ (by omega)] at hi
          have := of_decide_eq_true hi
          omega
  rw [readThrift, fillThrift, fillTy, Rd.bind_eq_ok] at h
  obtain ⟨⟨len, et⟩, s1, _, h⟩ := h
  dsimp only at h
  split at h
  · cases h
  · rw [Rd.bind_eq_ok] at h
    obtain ⟨m, s2, h1, h2⟩ := h
    cases h2
    exact ⟨m, rfl, key _ _ _ _ _ (by intro i hi; rw [mem_members] at hi; simp at hi) h1⟩

/-- C39: the elements of any list of varints in 0..30, in any order, with repetitions and in any varint form (up to ten bytes) under a list header
with type 5, give exactly the set of these numbers. -/
theorem C39_read_set (cfg : Cfg) (env : List Def) (ps : List (Bytes × BitVec 32)) (hl : ps.length ≤ 10000000)
    (hp : ∀ q ∈ ps, IsVarint q.1 ∧ q.1.length ≤ 10 ∧ zigzag q.2.toInt = leb q.1 % 2 ^ 32 ∧ InRange q.2) :
    ∃ mask, IsSetOf mask (ps.map (·.2)) ∧ ∀ suf, Reads cfg (fun I => readThrift cfg I env .encodingSet)
      (listHeader 5#8 ps.length ++ ps.flatMap (·.1)) suf (.encodingSet mask) := by
  refine ⟨_, foldl_isSetOf (ps.map (·.2)) (fun x hx => ?_), fun suf => ?_⟩
  · obtain ⟨q, hq, rfl⟩ := List.mem_map.1 hx
    exact (hp q hq).2.2.2
  · refine Reads.of_slice (generic_readThrift _ _) (fun cfg => ?_) cfg
    show readThrift cfg (sliceInput cfg) env .encodingSet _ = _
    rw [readThrift, fillThrift, fillTy, List.append_assoc, Rd.bind_ok (readCollection_write cfg 5#8 _ _ (by decide) hl)]
    dsimp only
    rw [if_neg (show ¬ (5#8 ≠ fieldType env .i32) from fun h => h rfl), Rd.bind_ok (encodingSetLoop_ok cfg ps 0#32 suf fun q hq => by
      obtain ⟨h1, h2, h3, h4⟩ := hp q hq
      have := BitVec.toInt_eq_toNat_cond q.2
      have := q.2.isLt
      unfold InRange at h4
      exact ⟨h1, h2, h3, by omega⟩)]
    rfl

/-- C40: a written `Vec<Encoding>` with members in 0..30, in any order and with repetitions, is read by `EncodingSet` as the set of its
members. -/
theorem C40_list_as_set (cfg : Cfg) (env : List Def) (k : Nat) (name : String) (hk : env[k]? = some (.enum name))
    (xs : List (BitVec 32)) (hx : ∀ x ∈ xs, InRange x) {bytes : Bytes}
    (he : encode env (.list (.named k)) (.list (xs.map Val.enum)) = .ok bytes) :
    ∃ mask, IsSetOf mask xs ∧
      ∀ suf, Reads cfg (fun I => readThrift cfg I env .encodingSet) bytes suf (.encodingSet mask) := by
  have hty : HasTy env (.list (xs.map Val.enum)) (.list (.named k)) := .list _ _ fun v hv => by
    obtain ⟨i, _, rfl⟩ := List.mem_map.1 hv
    exact .enum k name _ hk
  have hl : xs.length ≤ 10000000 := by
    have h := enc_of_encode hty he
    cases h with
    | list _ _ _ h _ => simpa using h
  have hw : wireType env (.named k) = 5#8 := by unfold wireType; rw [hk]
  have key : ∀ l : List (BitVec 32), Enc env anyStep (.elems (.named k) (l.map Val.enum))
      (l.flatMap fun x => varint (zigzag x.toInt)) := by
    intro l
    induction l with
    | nil => exact .elemsNil _
    | cons i l ih => exact .elemsCons _ _ _ _ _ (.enum k name _ hk) ih
  have h := encode_of_enc (Enc.list (.named k) _ _ (by rw [List.length_map]; omega) (key xs))
  rw [he, hw, List.length_map] at h
  injection h with h
  subst h
  obtain ⟨mask, h1, h2⟩ := C39_read_set cfg env (xs.map fun x => (varint (zigzag x.toInt), x)) (by simpa using hl) (by
    intro q hq
    obtain ⟨x, hxm, rfl⟩ := List.mem_map.1 hq
    exact ⟨varint_isVarint _, varint_zigzag_length (by omega) (by omega) _, leb_zigzag_mod (by omega) _, hx x hxm⟩)
  refine ⟨mask, ?_, fun suf => ?_⟩
  · rw [List.map_map] at h1
    simpa [Function.comp_def] using h1
  · have := h2 suf
    rwa [List.length_map, List.flatMap_map] at this

/-- C39: `iter` lists the members in increasing order without repetition, `len` is their number, `is_empty` tells if there are none. -/
theorem C39_iter (mask : BitVec 32) :
    encodingSetIter mask = (members mask).map (BitVec.ofNat 32) ∧
    (members mask).Pairwise (· < ·) ∧ (∀ i, i ∈ members mask ↔ mask.toNat.testBit i = true) ∧
    encodingSetLen mask = (members mask).length ∧ (encodingSetIsEmpty mask = true ↔ members mask = []) := by
  refine ⟨encodingSetIter_eq mask, ?_, fun i => by rw [mem_members, getLsbD_eq_testBit], encodingSetLen_eq mask, ?_⟩
  · unfold members
    exact List.Pairwise.filter _ List.pairwise_lt_range
  · unfold encodingSetIsEmpty
    rw [beq_iff_eq]
    constructor
    · rintro rfl; rfl
    · intro h
      apply BitVec.eq_of_getLsbD_eq
      intro i _
      cases e : mask.getLsbD i with
      | false => simp
      | true => have := mem_members.2 e; rw [h] at this; cases this

example : IsSetOf 0x109#32 [3#32, 0#32, 8#32, 3#32] := by
  intro i
  rw [show members 0x109#32 = [0, 3, 8] by decide]
  simp
  omega

/-- The list 3, 0, 8 (padded), 3 as a set; and a list with 31 in it. -/
example : readThrift ⟨false, false, fun _ => true⟩ (sliceInput ⟨false, false, fun _ => true⟩) [] .encodingSet
      [0x45#8, 6#8, 0#8, 0x90#8, 0#8, 6#8] = .ok (.encodingSet 0x109#32, []) ∧
    readThrift ⟨false, false, fun _ => true⟩ (sliceInput ⟨false, false, fun _ => true⟩) [] .encodingSet
      [0x25#8, 6#8, 62#8] = .error (.err .invalidNumber) := ⟨rfl, rfl⟩

end CT.Props
