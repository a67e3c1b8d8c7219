import Verif.Props.Structs
import Verif.Props.Writing
import Verif.Spec.Evolution
/-! # Reading with a changed schema -/
namespace CT
open Spec Props

/-! ## Changed schemas -/

theorem evolves_get : ∀ {env₁ env₂ : List Def}, evolves env₁ env₂ = true → ∀ {k : Nat} {d : Def}, env₁[k]? = some d →
    ∃ e, env₂[k]? = some e ∧ defEvolves d e = true
  | [], _, _, k, d, h => by simp at h
  | d :: ds, [], he, _, _, _ => by simp [evolves] at he
  | d :: ds, e :: es, he, k, d', h => by
    simp only [evolves, Bool.and_eq_true] at he
    cases k with
    | zero => simp at h; subst h; exact ⟨e, rfl, he.1⟩
    | succ k => exact evolves_get he.2 (by simpa using h)

theorem evolves_length {env₁ env₂ : List Def} (h : evolves env₁ env₂ = true) : env₁.length ≤ env₂.length := by
  cases hl : env₁.length with
  | zero => omega
  | succ n =>
    obtain ⟨e, he, _⟩ := evolves_get h (k := n) (List.getElem?_eq_getElem (by omega))
    have := (List.getElem?_eq_some_iff.1 he).1
    omega

theorem evolves_closed {env₁ env₂ : List Def} (h : evolves env₁ env₂ = true) {t : Ty} (ht : tyClosed env₁ t = true) : tyClosed env₂ t = true := by
  induction t with
  | list t ih | option t ih | box t ih | rc t ih => exact ih ht
  | named k =>
    simp only [tyClosed, decide_eq_true_eq] at ht ⊢
    have := evolves_length h
    omega
  | _ => rfl

theorem evolves_wireType {env₁ env₂ : List Def} (h : evolves env₁ env₂ = true) {t : Ty} (ht : tyClosed env₁ t = true) :
    wireType env₁ t = wireType env₂ t := by
  induction t with
  | option t ih | box t ih | rc t ih => exact ih ht
  | named k =>
    simp only [tyClosed, decide_eq_true_eq] at ht
    obtain ⟨e, he, hd⟩ := evolves_get h (List.getElem?_eq_getElem ht)
    unfold wireType
    rw [he, List.getElem?_eq_getElem ht]
    generalize env₁[k] = d at hd
    cases d <;> cases e <;> first | rfl | simp [defEvolves] at hd
  | _ => rfl

/-! ## Reading -/

/-- What is shown of a present field: `t` is its type without `Option`. -/
def FieldReads (cfg : Cfg) (env₁ env₂ : List Def) (t : Ty) (v : Val) (p : Bytes) (id last : BitVec 16) : Prop :=
  ∃ ft q, p = fieldHeader ft id last ++ q ∧ HeaderOk cfg.overflowChecks last id ∧ ft ≠ 0#8 ∧ ft.toNat < 16 ∧
    (∀ suf, (sliceInput cfg).skip cfg ft false (q ++ suf) = .ok ((), suf)) ∧
    ∀ w, Conv env₁ env₂ t v w → ∀ v0, Fillable env₂ t v0 → ∀ suf,
      fillThriftField cfg (sliceInput cfg) env₂ t v0 ft (q ++ suf) = .ok (w, suf) ∧
      (t ≠ .bool → fillThrift cfg (sliceInput cfg) env₂ t v0 (q ++ suf) = .ok (w, suf))

/-- The value `w` of field `g` corresponds to the value `v` of field `f`. -/
def FieldTo (env₁ env₂ : List Def) (f : Field) (v : Val) (g : Field) (w : Val) : Prop :=
  f.ty = g.ty ∧
  ((f.required = false ∧ v = .none ∧ g.required = false ∧ w = .none) ∨
   ∃ v' w', v = (if f.required then v' else .some v') ∧ w = (if g.required then w' else .some w') ∧ Conv env₁ env₂ g.ty v' w')

/-- The values read so far: final for the fields not expected any more, fillable for the others. -/
structure Progress (env₂ : List Def) (gs : List Field) (ws : List Val) (rest : List Field) (cur : List Val) (flags : List Bool) : Prop where
  curLen : cur.length = gs.length
  flagsLen : flags.length = gs.length
  done : ∀ (j : Nat) (g : Field), gs[j]? = some g → (∀ f ∈ rest, f.id ≠ g.id) → cur[j]? = ws[j]? ∧ (g.required = true → flags[j]? = some true)
  open_ : ∀ (j : Nat) (g : Field), gs[j]? = some g → (∃ f ∈ rest, f.id = g.id) → ∀ x, cur[j]? = some x → Fillable env₂ g.rustTy x

def ReadsAs (cfg : Cfg) (env₁ env₂ : List Def) (p : Bytes) : EItem → Prop
  | .value t v => tyClosed env₁ t = true → HasTy env₁ v t → ∀ w, Conv env₁ env₂ t v w → ∀ v0, Fillable env₂ t v0 → ∀ suf,
      fillThrift cfg (sliceInput cfg) env₂ t v0 (p ++ suf) = .ok (w, suf)
  | .elems t vs => tyClosed env₁ t = true → (∀ v ∈ vs, HasTy env₁ v t) → ∀ ws : List Val, ws.length = vs.length →
      (∀ (i : Nat) (v w : Val), vs[i]? = some v → ws[i]? = some w → Conv env₁ env₂ t v w) → ∀ (suf : Bytes) (n : Nat), (p ++ suf).length + 1 ≤ n →
      fillElems (fillTy cfg (sliceInput cfg) env₂ (fillNamed cfg (sliceInput cfg) env₂ n) t (dflt env₂ t)) vs.length (p ++ suf) = .ok (ws, suf)
  | .field t v id last => tyClosed env₁ t = true → HasTy env₁ v t → boxedBool t = false →
      (Ty.isOption t = false → FieldReads cfg env₁ env₂ t v p id last) ∧
      (∀ t', t = .option t' → Ty.isOption t' = false → (v = .none ∧ p = []) ∨ ∃ v', v = .some v' ∧ present v' = true ∧
        FieldReads cfg env₁ env₂ t' v' p id last)
  | .fields fs vs last => (∀ f ∈ fs, tyClosed env₁ f.ty = true ∧ boxedBool f.ty = false ∧ Ty.isOption f.ty = false) →
      (fs.map (·.id)).Nodup → vs.length = fs.length →
      (∀ (i : Nat) (f : Field) (v : Val), fs[i]? = some f → vs[i]? = some v → HasTy env₁ v f.rustTy) →
      ∀ (name : String) (gs : List Field) (ws : List Val), (gs.map (·.id)).Nodup → ws.length = gs.length →
      (∀ (i : Nat) (f : Field) (v : Val), fs[i]? = some f → vs[i]? = some v → ∀ (j : Nat) (g : Field) (w : Val), gs[j]? = some g → ws[j]? = some w →
        f.id = g.id → FieldTo env₁ env₂ f v g w) →
      ∀ cur flags, Progress env₂ gs ws fs cur flags → ∀ suf,
        loopC cfg (sliceInput cfg) env₂ name gs last flags cur (p ++ 0#8 :: suf) = .ok (.struct ws, suf)

theorem SkipsAs.canon {cfg : Cfg} {ft : Byte} {ins : Bool} {p : Bytes} (h : SkipsAs cfg ft ins p) (suf : Bytes) :
    (sliceInput cfg).skip cfg ft ins (p ++ suf) = .ok ((), suf) := by
  obtain ⟨N, hN⟩ := h
  rw [← (C17_bound_irrelevant_slice cfg (p ++ suf) (N + 2 * (p ++ suf).length + 2)).1 (by omega)]
  exact hN _ (by omega) suf

theorem readsAs {cfg : Cfg} {env₁ env₂ : List Def} (hs₁ : schemaOk env₁ = true) (hs₂ : schemaOk env₂ = true) (hcl : envClosed env₁ = true)
    (hev : evolves env₁ env₂ = true) (hb : noBoxedBool env₁ = true) (ha : ∀ n, n ≤ 10000000 → cfg.alloc n = true) {i : EItem} {p : Bytes}
    (h : Enc env₁ (fun l i => HeaderOk cfg.overflowChecks l i ∧ Ascends l i) i p) : ReadsAs cfg env₁ env₂ p i := by
  have hI := slice_measured_nd cfg
  have hd₂ : defaultsDefined env₂ = true := by
    unfold schemaOk at hs₂; rw [Bool.and_eq_true] at hs₂; exact hs₂.2
  have hdef : ∀ {env : List Def} (_ : schemaOk env = true) (k : Nat) (d : Def), env[k]? = some d → defOk d = true := by
    intro env hs k d hk
    unfold schemaOk at hs; rw [Bool.and_eq_true, List.all_eq_true] at hs
    exact hs.1 d (List.mem_of_getElem? hk)
  have hcl' : ∀ (k : Nat) (d : Def), env₁[k]? = some d → defClosed env₁ d = true := by
    intro k d hk
    unfold envClosed at hcl; rw [List.all_eq_true] at hcl
    exact hcl d (List.mem_of_getElem? hk)
  have hb' : ∀ (k : Nat) (d : Def), env₁[k]? = some d → defNoBoxedBool d = true := by
    intro k d hk
    unfold noBoxedBool at hb; rw [List.all_eq_true] at hb
    exact hb d (List.mem_of_getElem? hk)
  have hdflt : ∀ {t}, tyClosed env₁ t = true → Fillable env₂ t (dflt env₂ t) := fun ht => fillable_dflt_closed hd₂ (evolves_closed hev ht)
  have hleaf : ∀ {t v p}, isLeaf t = true → Enc env₂ (HeaderOk cfg.overflowChecks) (.value t v) p → HasTy env₂ v t → v.unshare = v →
      ∀ w, Conv env₁ env₂ t v w → ∀ v0, Fillable env₂ t v0 → ∀ suf, fillThrift cfg (sliceInput cfg) env₂ t v0 (p ++ suf) = .ok (w, suf) := by
    intro t v p hl he hv hu w hw v0 h0 suf
    have : w = v := by
      cases hw <;> first | rfl | simp [isLeaf] at hl
    subst this
    have := (C22_fill (cfg := cfg) ha hs₂ hv h0 he suf).1
    rwa [hu] at this
  induction h with
  | bool b => exact fun _ _ => hleaf rfl (.bool _) (.bool _) (by simp [Val.unshare])
  | i8 x => exact fun _ _ => hleaf rfl (.i8 _) (.i8 _) (by simp [Val.unshare])
  | i16 x => exact fun _ _ => hleaf rfl (.i16 _) (.i16 _) (by simp [Val.unshare])
  | i32 x => exact fun _ _ => hleaf rfl (.i32 _) (.i32 _) (by simp [Val.unshare])
  | i64 x => exact fun _ _ => hleaf rfl (.i64 _) (.i64 _) (by simp [Val.unshare])
  | double x => exact fun _ _ => hleaf rfl (.double _) (.double _) (by simp [Val.unshare])
  | binary bs h => exact fun _ _ => hleaf rfl (.binary _ h) (.binary _) (by simp [Val.unshare])
  | string bs h =>
    intro _ hv
    cases hv with
    | string _ hu => exact hleaf rfl (.string _ h) (.string _ hu) (by simp [Val.unshare])
  | encodingSet mask =>
    intro _ hv
    cases hv with
    | encodingSet _ hm => exact hleaf rfl (.encodingSet _) (.encodingSet _ hm) (by simp [Val.unshare])
  | list t vs p hl hp ih =>
    intro ht hv w hw v0 _ suf
    have ht' : tyClosed env₁ t = true := ht
    cases hv with
    | list _ _ hv =>
      cases hw with
      | leaf _ _ h => simp [isLeaf] at h
      | list _ _ ws hlw hc =>
        rw [fillThrift, fillTy, List.append_assoc, Rd.bind_ok (readCollection_write cfg _ _ _ (by have := wireType_range env₁ t; omega) hl)]
        simp only [wireType_eq, evolves_wireType hev ht', ne_eq, not_true, false_and, if_false, ha _ hl]
        rw [Rd.bind_ok (ih ht' hv ws hlw hc suf _ ?_)]
        · rfl
        · simp only [sliceInput, List.length_append]; omega
  | some t v p hp ih =>
    intro ht hv w hw v0 h0 suf
    cases hv with
    | some _ _ hv =>
      cases hw with
      | leaf _ _ h => simp [isLeaf] at h
      | some _ _ w hc =>
        cases h0 with
        | none _ =>
          have := ih ht hv w hc _ (hdflt ht) suf
          rw [fillThrift] at this
          rw [fillThrift, fillTy, Rd.bind_ok this]; rfl
  | box t v p hp ih =>
    intro ht hv w hw v0 h0 suf
    cases hv with
    | box _ _ hv =>
      cases hw with
      | leaf _ _ h => simp [isLeaf] at h
      | box _ _ w hc =>
        cases h0 with
        | box _ v0 h0 =>
          have := ih ht hv w hc v0 h0 suf
          rw [fillThrift] at this
          rw [fillThrift, fillTy, Rd.bind_ok this]; rfl
  | rc t b v p hp ih =>
    intro ht hv w hw v0 h0 suf
    cases hv with
    | rc _ _ _ hv =>
      cases hw with
      | leaf _ _ h => simp [isLeaf] at h
      | rc _ _ _ w hc =>
        cases h0 with
        | rc _ v0 h0 =>
          have := ih ht hv w hc v0 h0 suf
          rw [fillThrift] at this
          rw [fillThrift, fillTy, if_neg (by simp), Rd.bind_ok this]; rfl
  | enum k name x hk =>
    intro ht hv w hw v0 h0 suf
    obtain ⟨e, hk', he⟩ := evolves_get hev hk
    cases e with
    | struct _ _ => simp [defEvolves] at he
    | union _ _ => simp [defEvolves] at he
    | enum name' =>
      have hx := (C22_fill (cfg := cfg) ha hs₂ (.enum k name' x hk') h0 (.enum k name' x hk') suf).1
      cases hw with
      | leaf _ _ h => simp [isLeaf] at h
      | enum => simpa [Val.unshare] using hx
  | struct k name fs vs p hk hp ih =>
    intro ht hv w hw v0 h0 suf
    have hok := hdef hs₁ k _ hk
    simp only [defOk, structOk, Bool.and_eq_true, decide_eq_true_eq, List.all_eq_true, Bool.not_eq_true'] at hok
    have hclk := hcl' k _ hk
    simp only [defClosed, List.all_eq_true] at hclk
    have hbk := hb' k _ hk
    simp only [defNoBoxedBool, List.all_eq_true, Bool.not_eq_true'] at hbk
    cases hv with
    | struct _ _ fs' _ hk₁ hl hv =>
      rw [hk] at hk₁; obtain ⟨rfl, rfl⟩ : _ ∧ _ := by simpa using hk₁
      cases hw with
      | leaf _ _ h => simp [isLeaf] at h
      | struct _ _ fs' name' gs _ ws hk₁ hk' hlw hc =>
        rw [hk] at hk₁; obtain ⟨rfl, rfl⟩ : _ ∧ _ := by simpa using hk₁
        have hok' := hdef hs₂ k _ hk'
        simp only [defOk, structOk, Bool.and_eq_true, decide_eq_true_eq, List.all_eq_true, Bool.not_eq_true'] at hok'
        cases h0 with
        | enum _ _ y hk₁ => rw [hk'] at hk₁; cases hk₁
        | union _ _ _ _ _ hk₁ => rw [hk'] at hk₁; cases hk₁
        | struct _ _ gs' v0s hk₁ hl0 h0 =>
          rw [hk'] at hk₁; obtain ⟨rfl, rfl⟩ : _ ∧ _ := by simpa using hk₁
          rw [fillThrift_struct hI env₂ name' gs hk', List.append_assoc, List.singleton_append]
          refine ih (fun f hf => ⟨hclk f hf, hbk f hf, hok.2 f hf⟩) hok.1 hl hv name' gs ws hok'.1 hlw ?_ v0s _ ?_ suf
          · intro i f v hf hv' j g w hg hw hid
            cases hc j g w hg hw with
            | content _ _ i' f' _ v' w' hf' hid' hty hv'' hcv =>
              obtain rfl := field_unique hok.1 hf hf' (hid.trans hid'.symm)
              rw [hf] at hf'; cases hf'
              rw [hv'] at hv''; cases hv''
              exact ⟨hty, .inr ⟨v', w', rfl, rfl, hcv⟩⟩
            | unset _ _ i' f' _ hf' hid' hty hr hv'' hg' =>
              obtain rfl := field_unique hok.1 hf hf' (hid.trans hid'.symm)
              rw [hf] at hf'; cases hf'
              rw [hv'] at hv''; cases hv''
              exact ⟨hty, .inl ⟨hr, rfl, hg', rfl⟩⟩
            | added _ _ _ hno _ => exact absurd hid (hno f (List.mem_of_getElem? hf))
          · refine ⟨hl0, by simp, fun j g hg hno => ?_, fun j g hg _ x hx => h0 j g x hg hx⟩
            have hj := (List.getElem?_eq_some_iff.1 hg).1
            have hjw : ws[j]? = some ws[j] := List.getElem?_eq_getElem (by omega)
            have hjv : v0s[j]? = some v0s[j] := List.getElem?_eq_getElem (by omega)
            have h0j := h0 j g _ hg hjv
            have hcj := hc j g _ hg hjw
            rw [hjw, hjv]
            generalize ws[j] = wj at hcj
            generalize v0s[j] = vj at h0j
            cases hcj with
            | content _ _ i' f' _ v' w' hf' hid' => exact absurd hid' (hno f' (List.mem_of_getElem? hf'))
            | unset _ _ i' f' _ hf' hid' => exact absurd hid' (hno f' (List.mem_of_getElem? hf'))
            | added _ _ _ _ hr =>
              refine ⟨?_, by simp [hr]⟩
              rw [show g.rustTy = .option g.ty by simp [Field.rustTy, hr]] at h0j
              cases h0j; rfl
  | union k name us i u v p hk hu hp ih =>
    intro ht hv w hw v0 h0 suf
    have hok := hdef hs₁ k _ hk
    simp only [defOk, unionOk, Bool.and_eq_true, decide_eq_true_eq, List.all_eq_true, Bool.not_eq_true', bne_iff_ne] at hok
    have hu2 := hok.2 u (List.mem_of_getElem? hu)
    have hclk := hcl' k _ hk
    simp only [defClosed, List.all_eq_true] at hclk
    have hcu := hclk u (List.mem_of_getElem? hu)
    have hbk := hb' k _ hk
    simp only [defNoBoxedBool, List.all_eq_true, Bool.not_eq_true'] at hbk
    cases hv with
    | union _ _ us' _ u' _ hk₁ hu' hv =>
      rw [hk] at hk₁; obtain ⟨rfl, rfl⟩ : _ ∧ _ := by simpa using hk₁
      rw [hu] at hu'; cases hu'
      cases hw with
      | leaf _ _ h => simp [isLeaf] at h
      | union _ _ us' name' xs _ j u' x _ w hk₁ hk' hu' hx hid hty hc =>
        rw [hk] at hk₁; obtain ⟨rfl, rfl⟩ : _ ∧ _ := by simpa using hk₁
        rw [hu] at hu'; cases hu'
        have hok' := hdef hs₂ k _ hk'
        simp only [defOk, unionOk, Bool.and_eq_true, decide_eq_true_eq] at hok'
        obtain ⟨ft, q, rfl, hh, hft0, hft, -, hr⟩ := (ih hcu hv (hbk u (List.mem_of_getElem? hu))).1 hu2.1
        cases h0 with
        | enum _ _ y hk₁ => rw [hk'] at hk₁; cases hk₁
        | struct _ _ _ _ hk₁ _ _ => rw [hk'] at hk₁; cases hk₁
        | union _ _ _ j0 w0 hk₁ =>
          refine (C32_ok_iff hI hk' hok'.1 _ _ _ _ _).2 ⟨ft, j, x, w, q ++ ([0#8] ++ suf), [0#8] ++ suf, hx, ?_, hft0, ?_, rfl, rfl⟩
          · rw [hid, List.append_assoc, List.append_assoc]
            exact (readHeader_written cfg ft hft hft0 0#16 u.id _).2 hh
          · rw [hty]
            exact (hr w hc _ (hdflt hcu) _).2 hu2.2
  | elemsNil t =>
    intro _ _ ws hl _ suf n _
    obtain rfl : ws = [] := by simpa using hl
    rfl
  | elemsCons t v vs p q hp hq ih1 ih2 =>
    intro ht hv ws hl hc suf n hn
    cases ws with
    | nil => simp at hl
    | cons w ws =>
      have h1 := ih1 ht (hv v (by simp)) w (hc 0 v w rfl rfl) _ (hdflt ht) (q ++ suf)
      rw [← fillTy_canon hI env₂ (n := n) (by simp [sliceInput] at hn ⊢; omega)] at h1
      have h2 := ih2 ht (fun w hw => hv w (by simp [hw])) ws (by simpa using hl)
        (fun i a b ha hb => hc (i + 1) a b (by simpa using ha) (by simpa using hb)) suf n (by simp at hn ⊢; omega)
      rw [List.length_cons, fillElems, List.append_assoc, Rd.bind_ok h1, Rd.bind_ok h2]
      rfl
  | fieldBool b id last hh =>
    intro _ _ _
    refine ⟨fun _ => ⟨boolByte b, [], by simp, hh.1, by cases b <;> decide, by cases b <;> decide, fun suf => ?_, fun w hw v0 _ suf =>
      ⟨?_, fun h => absurd rfl h⟩⟩, fun t' h => by cases h⟩
    · cases b <;> rfl
    · cases hw
      cases b <;> rfl
  | fieldNone t id last =>
    intro _ _ _
    exact ⟨fun h => by simp [Ty.isOption] at h, fun _ _ _ => .inl ⟨rfl, rfl⟩⟩
  | fieldSome t v id last p hp ih =>
    intro ht hv hbb
    refine ⟨fun h => by simp [Ty.isOption] at h, fun t' h ht' => .inr ⟨v, rfl, ?_, ?_⟩⟩
    · cases h
      cases hp with
      | fieldBool => rfl
      | fieldNone => simp [Ty.isOption] at ht'
      | fieldSome => simp [Ty.isOption] at ht'
      | fieldValue _ _ _ _ _ _ h2 _ hp => exact present_of_enc hp h2
    · cases h
      cases hv with
      | some _ _ hv => exact (ih ht hv hbb).1 ht'
  | fieldValue t v id last p h1 h2 hh hp ih =>
    intro ht hv hbb
    have hr := wireType_range env₁ t
    refine ⟨fun _ => ⟨wireType env₁ t, p, rfl, hh.1, ?_, by omega, fun suf => ?_, fun w hw v0 h0 suf => ⟨?_, fun _ => ih ht hv w hw v0 h0 suf⟩⟩,
      fun t' h => absurd h (h2 t')⟩
    · intro e; rw [e] at hr; simp at hr
    · exact ((skips_enc cfg hb (Enc.mono (fun _ _ h => h.2) hp)).2 (isBoolish_of_not_boxed t hbb h1 h2)).canon suf
    · unfold fillThriftField
      rw [fillField_value cfg _ env₂ _ v0 _ h1 h2, if_neg (by rw [wireType_eq, evolves_wireType hev ht]; simp)]
      exact ih ht hv w hw v0 h0 suf
  | fieldsNil last =>
    intro _ _ _ _ name gs ws _ hlw _ cur flags hpr suf
    rw [loopC_step hI env₂, List.nil_append, readHeader_stop cfg last suf]
    simp only [if_true]
    rw [firstMissing_none gs flags hpr.flagsLen fun i f hf hr => (hpr.done i f hf (by simp)).2 hr]
    have : cur = ws := by
      apply List.ext_getElem?
      intro j
      by_cases hj : j < gs.length
      · exact (hpr.done j _ (List.getElem?_eq_getElem hj) (by simp)).1
      · rw [List.getElem?_eq_none (by have := hpr.curLen; omega), List.getElem?_eq_none (by omega)]
    rw [this]
  | fieldsCons f fs v vs last p q hp hq ih1 ih2 =>
    intro hfs hnd hl hv name gs ws hndg hlw hto cur flags hpr suf
    obtain ⟨hcf, hbf, hof⟩ := hfs f (by simp)
    rw [List.map_cons, List.nodup_cons] at hnd
    have hnf : ∀ f' ∈ fs, f'.id ≠ f.id := fun f' hf' h => hnd.1 (List.mem_map.2 ⟨f', hf', h⟩)
    have hvf := hv 0 f v rfl rfl
    have ih2' := ih2 (fun f' hf' => hfs f' (by simp [hf'])) hnd.2 (by simpa using hl)
      (fun i g w hg hw => hv (i + 1) g w (by simpa using hg) (by simpa using hw)) name gs ws hndg hlw
      (fun i f v hf hv => hto (i + 1) f v (by simpa using hf) (by simpa using hv))
    have hcr : tyClosed env₁ f.rustTy = true := by unfold Field.rustTy; split <;> simpa [tyClosed] using hcf
    have hbr : boxedBool f.rustTy = false := by unfold Field.rustTy; split <;> simpa [boxedBool] using hbf
    -- either nothing is written or a field with content
    have key : (f.required = false ∧ v = .none ∧ p = []) ∨ ∃ v', v = (if f.required then v' else .some v') ∧ present v = true ∧
        FieldReads cfg env₁ env₂ f.ty v' p f.id last := by
      have hx := ih1 hcr hvf hbr
      unfold Field.rustTy at hx hvf hp
      cases hr : f.required with
      | true =>
        simp only [hr, if_true] at hx hvf hp
        refine .inr ⟨v, rfl, ?_, hx.1 hof⟩
        clear hx hvf ih1 hto hpr hcf hbf hcr hbr
        generalize f.ty = ft at hp hof
        cases hp with
        | fieldBool => rfl
        | fieldNone => simp [Ty.isOption] at hof
        | fieldSome => simp [Ty.isOption] at hof
        | fieldValue _ _ _ _ _ _ h2 _ hp => exact present_of_enc hp h2
      | false =>
        simp only [hr, Bool.false_eq_true, if_false] at hx
        rcases hx.2 _ rfl hof with ⟨rfl, rfl⟩ | ⟨v', rfl, hpv, h⟩
        · exact .inl ⟨rfl, rfl, rfl⟩
        · exact .inr ⟨v', rfl, hpv, h⟩
    rcases key with ⟨hr, rfl, rfl⟩ | ⟨v', hv', hpres, ft, q', rfl, hh, hft0, hft, hskip, hfill⟩
    · simp only [present, Bool.false_eq_true, if_false] at ih2'
      rw [List.nil_append]
      refine ih2' cur flags ⟨hpr.curLen, hpr.flagsLen, fun j g hg hno => ?_, fun j g hg ⟨f', hf', h⟩ => hpr.open_ j g hg ⟨f', by simp [hf'], h⟩⟩ suf
      by_cases hid : f.id = g.id
      · have hj := (List.getElem?_eq_some_iff.1 hg).1
        obtain ⟨w, hjw⟩ : ∃ w, ws[j]? = some w := ⟨_, List.getElem?_eq_getElem (h := by omega)⟩
        obtain ⟨c, hjc⟩ : ∃ c, cur[j]? = some c := ⟨_, List.getElem?_eq_getElem (h := by have := hpr.curLen; omega) ⟩
        have hop := hpr.open_ j g hg ⟨f, by simp, hid⟩ _ hjc
        rcases (hto 0 f .none rfl rfl j g _ hg hjw hid).2 with ⟨_, _, hgr, hw⟩ | ⟨v', w', hv', _, _⟩
        · rw [hjc, hjw, hw]
          rw [show g.rustTy = .option g.ty by simp [Field.rustTy, hgr]] at hop
          cases hop
          exact ⟨rfl, by simp [hgr]⟩
        · simp [hr] at hv'
      · exact hpr.done j g hg (by
          intro f' hf'
          rcases List.mem_cons.1 hf' with rfl | hf'
          · exact hid
          · exact hno f' hf')
    · rw [hpres, if_pos rfl] at ih2'
      rw [List.append_assoc, List.append_assoc, loopC_step hI env₂, (readHeader_written cfg ft hft hft0 last f.id _).2 hh]
      dsimp only
      rw [if_neg hft0]
      cases hff : findField gs f.id with
      | none =>
        dsimp only
        rw [hskip]
        dsimp only
        refine ih2' cur flags ⟨hpr.curLen, hpr.flagsLen, fun j g hg hno => hpr.done j g hg fun f' hf' => ?_,
          fun j g hg ⟨f', hf', h⟩ => hpr.open_ j g hg ⟨f', by simp [hf'], h⟩⟩ suf
        rcases List.mem_cons.1 hf' with rfl | hf'
        · exact fun h => findField_none.1 hff g (List.mem_of_getElem? hg) h.symm
        · exact hno f' hf'
      | some j =>
        obtain ⟨g, hg, hid⟩ := findField_get hff
        have hj := (List.getElem?_eq_some_iff.1 hg).1
        obtain ⟨w, hjw⟩ : ∃ w, ws[j]? = some w := ⟨_, List.getElem?_eq_getElem (h := by omega)⟩
        obtain ⟨c, hjc⟩ : ∃ c, cur[j]? = some c := ⟨_, List.getElem?_eq_getElem (h := by have := hpr.curLen; omega) ⟩
        have hop := hpr.open_ j g hg ⟨f, by simp, hid.symm⟩ _ hjc
        obtain ⟨hty, hcase⟩ := hto 0 f v rfl rfl j g _ hg hjw hid.symm
        have hread : fillThriftField cfg (sliceInput cfg) env₂ g.rustTy c ft (q' ++ (q ++ 0#8 :: suf)) = .ok (w, q ++ 0#8 :: suf) := by
          rcases hcase with ⟨_, rfl, _⟩ | ⟨v'', w', hv'', hw', hcv⟩
          · simp [present] at hpres
          · obtain rfl : v' = v'' := by
              rw [hv'] at hv''
              revert hv''; cases f.required <;> simp
            rw [← hty] at hcv
            rw [hw']
            unfold Field.rustTy
            unfold Field.rustTy at hop
            cases hgr : g.required with
            | true =>
              simp only [hgr, if_true] at hop ⊢
              rw [← hty] at hop ⊢
              exact (hfill w' hcv _ hop _).1
            | false =>
              simp only [hgr, Bool.false_eq_true, if_false] at hop ⊢
              cases hop
              have := (hfill w' hcv _ (hdflt hcf) (q ++ 0#8 :: suf)).1
              unfold fillThriftField at this
              unfold fillThriftField
              rw [← hty, fillField, Rd.bind_ok this]
              rfl
        dsimp only
        rw [hg, hjc]
        dsimp only
        rw [hread]
        dsimp only
        refine ih2' _ _ ⟨by simp [hpr.curLen], by split <;> simp [hpr.flagsLen], fun j' g' hg' hno => ?_, fun j' g' hg' ⟨f', hf', h⟩ x hx => ?_⟩ suf
        · by_cases hjj : j = j'
          · subst hjj
            rw [hg] at hg'; cases hg'
            refine ⟨by rw [List.getElem?_set_self (by have := hpr.curLen; omega), hjw], fun hgr => ?_⟩
            rw [if_pos hgr, List.getElem?_set_self (by have := hpr.flagsLen; omega)]
          · have hd := hpr.done j' g' hg' (by
              intro f' hf' h
              rcases List.mem_cons.1 hf' with rfl | hf'
              · exact hjj (field_unique hndg hg hg' (hid.trans h))
              · exact hno f' hf' h)
            refine ⟨by rw [List.getElem?_set_ne hjj]; exact hd.1, fun hgr => ?_⟩
            split
            · rw [List.getElem?_set_ne hjj]; exact hd.2 hgr
            · exact hd.2 hgr
        · have hjj : j ≠ j' := by
            rintro rfl
            rw [hg] at hg'; cases hg'
            exact hnf f' hf' (h.trans hid)
          rw [List.getElem?_set_ne hjj] at hx
          exact hpr.open_ j' g' hg' ⟨f', by simp [hf'], h⟩ x hx

end CT
