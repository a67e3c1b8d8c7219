import Verif.Proofs.Cut
/-! # C79, C80: the value left behind by a failed fill -/
namespace CT.Props
open CT Spec

variable {σ : Type}

/-- C79: the functions with the value left give the results of `fill_thrift` proper. -/
theorem C79_result (cfg : Cfg) (I : Input σ) (env : List Def) (t : Ty) (v : Val) (s : σ) :
    fillThrift cfg I env t v s = match fillThriftP cfg I env t v s with
      | .error (e, _) => .error e
      | .ok y => .ok y := by
  rw [← forget_fillThriftP]
  unfold Fl.forget
  rcases fillThriftP cfg I env t v s with ⟨e, w⟩ | y <;> rfl

/-- C79: whatever the input and whatever goes wrong (an error or a panic), what is left in a value of a type is a value of that type: strings are
UTF-8, masks of `EncodingSet` have only valid bits, unions hold a variant with its content. -/
theorem C79_typed (cfg : Cfg) (I : Input σ) {env : List Def} (hd : defaultsDefined env = true) (hc : envClosed env = true) {t : Ty}
    (ht : tyClosed env t = true) {v : Val} (hv : HasTy env v t) {s : σ} {e : Fail} {w : Val}
    (h : fillThriftP cfg I env t v s = .error (e, w)) : HasTy env w t := by
  have hdef : ∀ {k d}, env[k]? = some d → defClosed env d = true := fun hk => List.all_eq_true.1 hc _ (List.mem_of_getElem? hk)
  have inv : Inv env (fun t => tyClosed env t = true) (fun t v => HasTy env v t) := {
    leaf := fun h => by
      cases h with
      | bool b => exact .bool b
      | i8 x => exact .i8 x
      | i16 x => exact .i16 x
      | i32 x => exact .i32 x
      | i64 x => exact .i64 x
      | double x => exact .double x
      | binary bs => exact .binary bs
      | string bs h => exact .string bs h
      | encodingSet m h => exact .encodingSet m h
    dflt := fun h => by
      have hdf := isDefault_dflt hd h
      generalize dflt env _ = d at hdf
      clear h
      induction hdf with
      | bool => exact .bool _
      | i8 => exact .i8 _
      | i16 => exact .i16 _
      | i32 => exact .i32 _
      | i64 => exact .i64 _
      | double => exact .double _
      | binary => exact .binary _
      | string => exact .string _ rfl
      | encodingSet => exact .encodingSet _ (by decide)
      | list t => exact .list _ _ (by simp)
      | none t => exact .none _
      | box t v h ih => exact .box _ _ ih
      | rc t v h ih => exact .rc _ _ _ ih
      | enum k name hk => exact .enum k name _ hk
      | struct k name fs vs hk hl h ih => exact .struct k name fs vs hk hl ih
      | union k name u us v hk h ih => exact .union k name _ 0 u v hk rfl ih
    list := fun h => .inl ⟨by simpa [tyClosed] using h, fun vs hvs => .list _ vs hvs⟩
    option := fun h => ⟨by simpa [tyClosed] using h, fun w hw => .some _ w hw⟩
    box := fun h => ⟨by simpa [tyClosed] using h, fun v hv => by cases hv; assumption, fun w hw => .box _ w hw⟩
    rc := fun h => ⟨by simpa [tyClosed] using h, fun v hv => by cases hv; assumption, fun w hw => .rc _ _ w hw⟩
    struct := fun {k name fs vs i f v} _ hk hv hf hw => by
      refine ⟨?_, ?_, fun w hw' => ?_⟩
      · have := List.all_eq_true.1 (hdef hk) f (List.mem_of_getElem? hf)
        unfold Field.rustTy
        split
        · exact this
        · simpa [tyClosed] using this
      · cases hv with
        | struct _ _ fs' _ hk' _ h =>
          rw [hk] at hk'; obtain ⟨rfl, rfl⟩ : _ ∧ _ := by simpa using hk'
          exact h i f v hf hw
      · cases hv with
        | struct _ _ fs' _ hk' hl h =>
          rw [hk] at hk'; obtain ⟨rfl, rfl⟩ : _ ∧ _ := by simpa using hk'
          refine .struct k name fs _ hk (by simp [hl]) fun j g x hg hx => ?_
          by_cases hij : i = j
          · subst hij
            rw [List.getElem?_set_self (List.getElem?_eq_some_iff.1 hw).1] at hx
            rw [hf] at hg
            cases hg; cases hx
            exact hw'
          · rw [List.getElem?_set_ne hij] at hx
            exact h j g x hg hx
    union := fun {k name us i u} _ hk hu => .inl ⟨by
      have := List.all_eq_true.1 (hdef hk) u (List.mem_of_getElem? hu)
      exact this, fun w hw => .union k name us i u w hk hu hw⟩
    enum := fun {k name x} hk => .enum k name x hk }
  exact (always_fillThriftP cfg I inv ht hv s).1 e w h

/-- C79: a scalar (number, string, binary, `EncodingSet`) whose fill failed has kept its value. -/
theorem C79_scalar (cfg : Cfg) (I : Input σ) (env : List Def) {t : Ty} (ht : isScalar t = true) {v w : Val} {s : σ} {e : Fail}
    (h : fillThriftP cfg I env t v s = .error (e, w)) : w = v := by
  unfold fillThriftP at h
  rw [fillTyP_scalar ht] at h
  unfold Fl.keep at h
  split at h
  · cases h; rfl
  · cases h

/-- C79: an `Option` whose fill failed is `Some` afterwards, and every further fill is refused, whatever the input. -/
theorem C79_option (cfg : Cfg) (I : Input σ) (env : List Def) (t : Ty) {w : Val} {s : σ} {e : Fail}
    (h : fillThriftP cfg I env (.option t) .none s = .error (e, w)) :
    (∃ v, w = .some v) ∧ ∀ (cfg' : Cfg) (σ' : Type) (J : Input σ') (s' : σ'), fillThrift cfg' J env (.option t) w s' = .error (.err .duplicateField) := by
  unfold fillThriftP fillTyP at h
  rcases hx : fillTyP cfg I env (fillNamedP cfg I env (I.size s + 1)) t (dflt env t) s with ⟨e', w'⟩ | ⟨w', s'⟩
  · rw [Fl.into_err hx] at h
    cases h
    refine ⟨⟨w', rfl⟩, fun cfg' σ' J s' => ?_⟩
    unfold fillThrift fillTy
    rfl
  · rw [Fl.into_ok hx] at h
    cases h

/-- C79: if the type has no optional fields (outside lists and unions), a failed fill leaves a value that can be filled again. -/
theorem C79_refillable (cfg : Cfg) (I : Input σ) {env : List Def} (hd : defaultsDefined env = true) (hc : envClosed env = true) {t : Ty}
    (ht : tyClosed env t = true) (hr : Refillable env t) {v : Val} (hv : Fillable env t v) {s : σ} {e : Fail} {w : Val}
    (h : fillThriftP cfg I env t v s = .error (e, w)) : Fillable env t w := by
  have hdef : ∀ {k d}, env[k]? = some d → defClosed env d = true := fun hk => List.all_eq_true.1 hc _ (List.mem_of_getElem? hk)
  have inv : Inv env (fun t => tyClosed env t = true ∧ Refillable env t) (Fillable env) := {
    leaf := fun h => by
      cases h with
      | bool b => exact .bool b
      | i8 x => exact .i8 x
      | i16 x => exact .i16 x
      | i32 x => exact .i32 x
      | i64 x => exact .i64 x
      | double x => exact .double x
      | binary bs => exact .binary bs
      | string bs h => exact .string bs
      | encodingSet m h => exact .encodingSet m
    dflt := fun h => fillable_dflt_closed hd h.1
    list := fun _ => .inr fun vs => .list _ vs
    option := fun h => by cases h.2 with | scalar _ h => cases h
    box := fun h => ⟨⟨by simpa [tyClosed] using h.1, by cases h.2 with | scalar _ h => cases h | box _ h => exact h⟩,
      fun v hv => by cases hv; assumption, fun w hw => .box _ w hw⟩
    rc := fun h => ⟨⟨by simpa [tyClosed] using h.1, by cases h.2 with | scalar _ h => cases h | rc _ h => exact h⟩,
      fun v hv => by cases hv; assumption, fun w hw => .rc _ w hw⟩
    struct := fun {k name fs vs i f v} hT hk hv hf hw => by
      have hmem := List.mem_of_getElem? hf
      have hT2 : f.required = true ∧ Refillable env f.ty := by
        cases hT.2 with
        | scalar _ h => cases h
        | enum _ _ hk' => rw [hk] at hk'; cases hk'
        | union _ _ _ hk' => rw [hk] at hk'; cases hk'
        | struct _ _ fs' hk' h1 h2 =>
          rw [hk] at hk'; obtain ⟨rfl, rfl⟩ : _ ∧ _ := by simpa using hk'
          exact ⟨h1 f hmem, h2 f hmem⟩
      have hty : f.rustTy = f.ty := by unfold Field.rustTy; rw [if_pos hT2.1]
      cases hv with
      | struct _ _ fs' _ hk' hl h =>
        rw [hk] at hk'; obtain ⟨rfl, rfl⟩ : _ ∧ _ := by simpa using hk'
        refine ⟨⟨?_, ?_⟩, h i f v hf hw, fun w hw' => ?_⟩
        · rw [hty]; exact List.all_eq_true.1 (hdef hk) f hmem
        · rw [hty]; exact hT2.2
        · refine .struct k name fs _ hk (by simp [hl]) fun j g x hg hx => ?_
          by_cases hij : i = j
          · subst hij
            rw [List.getElem?_set_self (List.getElem?_eq_some_iff.1 hw).1] at hx
            rw [hf] at hg
            cases hg; cases hx
            exact hw'
          · rw [List.getElem?_set_ne hij] at hx
            exact h j g x hg hx
    union := fun {k name us i u} _ hk _ => .inr fun w => .union k name us i w hk
    enum := fun {k name x} hk => .enum k name x hk }
  exact (always_fillThriftP cfg I inv ⟨ht, hr⟩ hv s).1 e w h

/-- C79: for such types trying again works: after any failure on any input, filling the same value from the encoding of a value gives that value. -/
theorem C79_retry {cfg : Cfg} (ha : AllocOk cfg) {env : List Def} (hs : schemaOk env = true) (hc : envClosed env = true)
    (hst : stepsOk cfg.overflowChecks env = true) {t : Ty} (ht : tyClosed env t = true) (hr : Refillable env t)
    {I : Input σ} {s : σ} {e : Fail} {w : Val} (h : fillThriftP cfg I env t (dflt env t) s = .error (e, w))
    {v : Val} (hv : HasTy env v t) {bytes : Bytes} (he : encode env t v = .ok bytes) (suf : Bytes) :
    Reads cfg (fun I => fillThrift cfg I env t w) bytes suf v.unshare := by
  have hd : defaultsDefined env = true := by
    unfold schemaOk at hs; rw [Bool.and_eq_true] at hs; exact hs.2
  exact C22_fill ha hs hv (C79_refillable cfg I hd hc ht hr (fillable_dflt_closed hd ht) h) (enc_steps hs hst (enc_of_encode hv he)) suf

/-- `struct Pair { 1: required i32 a; 2: required list<string> b }`, `struct Loose { 1: required i32 a; 2: optional string b }`. -/
def pairEnv : List Def :=
  [.struct "Pair" [⟨1#16, true, "a", .i32⟩, ⟨2#16, true, "b", .list .string⟩],
   .struct "Loose" [⟨1#16, true, "a", .i32⟩, ⟨2#16, false, "b", .string⟩]]

example : schemaOk pairEnv = true ∧ envClosed pairEnv = true ∧ stepsOk true pairEnv = true ∧ Refillable pairEnv (.named 0) := by
  refine ⟨by decide, by decide, by decide, .struct 0 _ _ rfl (by simp) ?_⟩
  intro f hf
  simp only [List.mem_cons, List.not_mem_nil, or_false] at hf
  rcases hf with rfl | rfl
  · exact .scalar _ rfl
  · exact .list _

/-- `Pair` cut off in its second string: the number and the first string are there, and an empty second string. -/
example (ov sse : Bool) :
    let cfg : Cfg := ⟨ov, sse, fun _ => true⟩
    fillThriftP cfg (sliceInput cfg) pairEnv (.named 0) (dflt pairEnv (.named 0)) [0x15#8, 0x0E#8, 0x19#8, 0x28#8, 0x01#8, 0x61#8, 0x02#8, 0x62#8] =
      .error (.err (.io .unexpectedEof), .struct [.i32 7#32, .list [.string [0x61#8], .string []]]) := by
  cases ov <;> cases sse <;> rfl

/-- With optional fields trying again fails although the data is valid: the field that was begun counts as a duplicate. -/
theorem C79_counterexample_retry (ov sse : Bool) :
    let cfg : Cfg := ⟨ov, sse, fun _ => true⟩
    let bytes : Bytes := [0x15#8, 0x0E#8, 0x18#8, 0x01#8, 0x61#8, 0x00#8]
    let left : Val := .struct [.i32 7#32, .some (.string [])]
    encode pairEnv (.named 1) (.struct [.i32 7#32, .some (.string [0x61#8])]) = .ok bytes ∧
    fillThriftP cfg (sliceInput cfg) pairEnv (.named 1) (dflt pairEnv (.named 1)) (bytes.take 4) = .error (.err (.io .unexpectedEof), left) ∧
    fillThrift cfg (sliceInput cfg) pairEnv (.named 1) left bytes = .error (.err .duplicateField) := by
  refine ⟨?_, ?_, ?_⟩
  · rw [encode_of_enc (ok := anyStep) (.struct _ _ _ _ _ rfl
      (.fieldsCons _ _ _ _ _ _ _ (.fieldValue .i32 _ _ _ _ (by simp) (by simp) trivial (.i32 _))
      (.fieldsCons _ _ _ _ _ _ _ (.fieldSome _ _ _ _ _ (.fieldValue .string _ _ _ _ (by simp) (by simp) trivial (.string _ (by simp)))) (.fieldsNil _))))]
    have hv : ∀ n, n < 128 → varint n = [BitVec.ofNat 8 n] := fun n h => by rw [varint, if_pos h]
    rw [hv _ (by decide), hv _ (by decide)]
    rfl
  · cases ov <;> cases sse <;> rfl
  · cases ov <;> cases sse <;> rfl

/-! ## C80 -/

/-- C80: reading a message that ends too early (anywhere before its last byte) is refused with `UnexpectedEof`, and what is left is exactly what had
arrived: all complete fields and elements, none of an incomplete scalar, and defaults where a string, list, struct or union had begun. -/
theorem C80_cut {cfg : Cfg} (ha : AllocOk cfg) {env : List Def} (hs : schemaOk env = true) (hst : stepsOk cfg.overflowChecks env = true) {t : Ty} {v v0 : Val}
    (hv : HasTy env v t) (h0 : Fillable env t v0) {q r : Bytes} (he : encode env t v = .ok (q ++ r)) (hr : r ≠ []) :
    ∃ w, fillThriftP cfg (sliceInput cfg) env t v0 q = .error (.err (.io .unexpectedEof), w) ∧ CutAt env t v v0 w :=
  cuts hs ha (enc_steps hs hst (enc_of_encode hv he)) hv v0 h0 q r rfl hr (q.length + 1) (Nat.le_refl _)

/-- `Loose { a: 7, b: Some("a") }` without its last two bytes leaves `Loose { a: 7, b: Some("") }`. -/
example (ov sse : Bool) :
    ∃ w, fillThriftP ⟨ov, sse, fun _ => true⟩ (sliceInput ⟨ov, sse, fun _ => true⟩) pairEnv (.named 1) (dflt pairEnv (.named 1))
      [0x15#8, 0x0E#8, 0x18#8, 0x01#8] = .error (.err (.io .unexpectedEof), w) ∧
    CutAt pairEnv (.named 1) (.struct [.i32 7#32, .some (.string [0x61#8])]) (dflt pairEnv (.named 1)) w :=
  C80_cut (r := [0x61#8, 0x00#8]) (fun _ _ => rfl) (by decide) (show stepsOk ov pairEnv = true by cases ov <;> decide)
    (.struct 1 _ _ _ rfl rfl fun i f v hf hv => by
      match i with
      | 0 => simp at hf hv; subst hf hv; exact .i32 _
      | 1 => simp at hf hv; subst hf hv; exact .some _ _ (.string _ rfl)
      | i + 2 => simp at hf)
    (fillable_dflt_closed (by decide) (by decide)) (C79_counterexample_retry ov sse).1 (by simp)

/-- C80: in particular a struct cut off behind `i` complete fields has these fields. -/
theorem C80_fields {env : List Def} {k : Nat} {name : String} {fs : List Field} (hk : env[k]? = some (.struct name fs)) {vs v0s : List Val} {w : Val}
    (hl : v0s.length = vs.length) (h : CutAt env (.named k) (.struct vs) (.struct v0s) w) :
    ∃ ws, w = .struct ws ∧ ws.length = vs.length ∧ ∃ i, i ≤ vs.length ∧ (∀ j < i, ws[j]? = (vs[j]?).map Val.unshare) ∧ ∀ j > i, ws[j]? = v0s[j]? := by
  cases h with
  | scalar _ _ _ h => cases h
  | enum _ _ _ _ hk' => rw [hk] at hk'; cases hk'
  | unionHeader _ _ _ _ _ hk' => rw [hk] at hk'; cases hk'
  | structHeader _ _ _ _ _ i _ hi =>
    refine ⟨_, rfl, by simp; omega, i, hi, fun j hj => ?_, fun j hj => ?_⟩
    · rw [List.getElem?_append_left (by simp; omega), List.getElem?_map, List.getElem?_take_of_lt hj]
    · rw [List.getElem?_append_right (by simp; omega), List.getElem?_drop]
      congr 1; simp; omega
  | struct _ _ fs' _ _ i f v v0 w hk' hf hv hv0 h =>
    have hi := (List.getElem?_eq_some_iff.1 hv).1
    refine ⟨_, rfl, by simp; omega, i, by omega, fun j hj => ?_, fun j hj => ?_⟩
    · rw [List.getElem?_append_left (by simp; omega), List.getElem?_map, List.getElem?_take_of_lt hj]
    · rw [List.getElem?_append_right (by simp; omega)]
      obtain ⟨m, hm⟩ : ∃ m, j = i + 1 + m := ⟨j - i - 1, by omega⟩
      subst hm
      have : i + 1 + m - (List.map Val.unshare (List.take i vs)).length = m + 1 := by simp; omega
      rw [this, List.getElem?_cons_succ, List.getElem?_drop]

end CT.Props
