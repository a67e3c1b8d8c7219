import Verif.Proofs.Partial
import Verif.Spec.Partial
/-! # What an encoding that ends too early leaves behind: proofs -/
namespace CT
open Spec Props

theorem Fl.ok_of_forget {σ α : Type} {x : Fl σ α} {s : σ} {y : α × σ} (h : x.forget s = .ok y) : x s = .ok y := by
  unfold Fl.forget at h
  rcases hs : x s with ⟨e, w⟩ | z
  · rw [hs] at h; cases h
  · rw [hs] at h; cases h; rfl

theorem Fl.bind_ok {σ α β : Type} {x : Fl σ α} {f : α → Fl σ β} {s s' : σ} {a : α} (h : x s = .ok (a, s')) : (x >>= f) s = f a s' := by
  show Fl.bind x f s = _
  unfold Fl.bind; rw [h]

theorem Fl.bind_err {σ α β : Type} {x : Fl σ α} {f : α → Fl σ β} {s : σ} {e : Fail × Val} (h : x s = .error e) : (x >>= f) s = .error e := by
  show Fl.bind x f s = _
  unfold Fl.bind; rw [h]

theorem Fl.keep_ok {σ α : Type} {r : Rd σ α} {v : Val} {s : σ} {y : α × σ} (h : r s = .ok y) : Fl.keep v r s = .ok y := by
  unfold Fl.keep; rw [h]

theorem Fl.keep_err {σ α : Type} {r : Rd σ α} {v : Val} {s : σ} {e : Fail} (h : r s = .error e) : Fl.keep v r s = .error (e, v) := by
  unfold Fl.keep; rw [h]

theorem Fl.part_ok {σ : Type} {x : Fl σ Val} {g : Val → Val} {s : σ} {y : Val × σ} (h : x s = .ok y) : Fl.part g x s = .ok y := by
  unfold Fl.part; rw [h]

theorem Fl.part_err {σ : Type} {x : Fl σ Val} {g : Val → Val} {s : σ} {e : Fail} {w : Val} (h : x s = .error (e, w)) :
    Fl.part g x s = .error (e, g w) := by
  unfold Fl.part; rw [h]

theorem Fl.into_err {σ : Type} {x : Fl σ Val} {g : Val → Val} {s : σ} {e : Fail} {w : Val} (h : x s = .error (e, w)) :
    Fl.into g x s = .error (e, g w) := by
  unfold Fl.into; exact Fl.bind_err (Fl.part_err h)

theorem Fl.into_ok {σ : Type} {x : Fl σ Val} {g : Val → Val} {s s' : σ} {w : Val} (h : x s = .ok (w, s')) :
    Fl.into g x s = .ok (g w, s') := by
  unfold Fl.into; exact Fl.bind_ok (Fl.part_ok h)

abbrev eofFail : Fail := .err (.io .unexpectedEof)

/-! ## Primitive reads that are cut off -/

theorem cut_noSse2 {cfg : Cfg} {e : Fail} (h : Cut cfg.noSse2 e) : e = eofFail := by
  rcases h with h | ⟨h, _⟩
  · exact h
  · cases h

theorem ulebLoop_noSse2 {σ : Type} (cfg : Cfg) (rb : Rd σ Byte) : ∀ fuel shift value, ulebLoop cfg.noSse2 rb fuel shift value = ulebLoop cfg rb fuel shift value
  | 0, _, _ => rfl
  | fuel + 1, shift, value => by
    unfold ulebLoop
    simp only [ulebLoop_noSse2 cfg rb fuel]
    rfl

theorem uleb_noSse2 (cfg : Cfg) : (sliceInput cfg.noSse2).uleb cfg.noSse2 = (sliceInput cfg).uleb cfg := by
  funext s
  exact congrFun (ulebLoop_noSse2 cfg Slice.readByte (s.length + 1) 0#32 0#64) s

theorem readHeader_noSse2 (cfg : Cfg) (last : BitVec 16) :
    (sliceInput cfg.noSse2).readFieldHeader cfg.noSse2 last = (sliceInput cfg).readFieldHeader cfg last := by
  unfold Input.readFieldHeader Input.readFullFieldId
  rw [uleb_noSse2]; rfl

theorem readCollection_noSse2 (cfg : Cfg) :
    (sliceInput cfg.noSse2).readCollectionLenAndType cfg.noSse2 = (sliceInput cfg).readCollectionLenAndType cfg := by
  unfold Input.readCollectionLenAndType Input.readLen
  rw [uleb_noSse2]; rfl

theorem readI32_noSse2 (cfg : Cfg) : (sliceInput cfg.noSse2).readI32 cfg.noSse2 = (sliceInput cfg).readI32 cfg := by
  unfold Input.readI32
  rw [uleb_noSse2]

theorem readBinary_noSse2 (cfg : Cfg) : (sliceInput cfg.noSse2).readBinary = (sliceInput cfg).readBinary := by
  show Slice.readBinary cfg.noSse2 = Slice.readBinary cfg
  unfold Slice.readBinary Slice.readLen
  rw [show decodeUleb cfg.noSse2 List.length Slice.readByte = decodeUleb cfg List.length Slice.readByte from uleb_noSse2 cfg]

theorem encodingSetLoop_noSse2 (cfg : Cfg) : ∀ n mask, encodingSetLoop cfg.noSse2 (sliceInput cfg.noSse2) n mask = encodingSetLoop cfg (sliceInput cfg) n mask
  | 0, _ => rfl
  | n + 1, mask => by
    unfold encodingSetLoop
    rw [readI32_noSse2]
    simp only [encodingSetLoop_noSse2 cfg n]

theorem header_cut {cfg : Cfg} {last : BitVec 16} {q r suf : Bytes} {y : Byte × BitVec 16} (hr : r ≠ [])
    (h : (sliceInput cfg).readFieldHeader cfg last (q ++ r ++ suf) = .ok (y, suf)) :
    (sliceInput cfg).readFieldHeader cfg last q = .error eofFail := by
  rw [← readHeader_noSse2] at h ⊢
  obtain ⟨e, h1, h2⟩ := slice_truncated (cfg := cfg.noSse2) (generic_readFieldHeader last)
    (fun s h => (Tri.readFieldHeader (allowed_notDiverge _) (slice_measured_nd _) _ last).error (Nat.le_refl _) h rfl) hr h
  rw [← cut_noSse2 h2]; exact h1

theorem collection_cut {cfg : Cfg} {q r suf : Bytes} {y : Nat × Byte} (hr : r ≠ [])
    (h : (sliceInput cfg).readCollectionLenAndType cfg (q ++ r ++ suf) = .ok (y, suf)) :
    (sliceInput cfg).readCollectionLenAndType cfg q = .error eofFail := by
  rw [← readCollection_noSse2] at h ⊢
  obtain ⟨e, h1, h2⟩ := slice_truncated (cfg := cfg.noSse2) generic_readCollection
    (fun s h => (Tri.readCollectionLenAndType (allowed_notDiverge _) (slice_measured_nd _) _).error (Nat.le_refl _) h rfl) hr h
  rw [← cut_noSse2 h2]; exact h1

theorem i32_cut {cfg : Cfg} {q r suf : Bytes} {y : BitVec 32} (hr : r ≠ [])
    (h : (sliceInput cfg).readI32 cfg (q ++ r ++ suf) = .ok (y, suf)) : (sliceInput cfg).readI32 cfg q = .error eofFail := by
  rw [← readI32_noSse2] at h ⊢
  obtain ⟨e, h1, h2⟩ := slice_truncated (cfg := cfg.noSse2) generic_readI32
    (fun s h => (Tri.readI32 (allowed_notDiverge _) (slice_measured_nd _) _).error (Nat.le_refl _) h rfl) hr h
  rw [← cut_noSse2 h2]; exact h1

theorem scalar_read {t : Ty} (ht : isScalar t = true) (cfg : Cfg) (env : List Def) (hn : Nat → Val → Rd Bytes Val) (v0 : Val) (s : Bytes) :
    fillTy cfg (sliceInput cfg) env hn t v0 s = readThrift cfg.noSse2 (sliceInput cfg.noSse2) env t s := by
  cases t with
  | list _ | option _ | box _ | rc _ => cases ht
  | named _ => cases ht
  | bool | i8 | double => rfl
  | i16 => unfold readThrift fillThrift fillTy Input.readI16; rw [uleb_noSse2]
  | i32 => unfold readThrift fillThrift fillTy; rw [readI32_noSse2]
  | i64 => unfold readThrift fillThrift fillTy Input.readI64; rw [uleb_noSse2]
  | binary => unfold readThrift fillThrift fillTy; rw [readBinary_noSse2]
  | string => unfold readThrift fillThrift fillTy Input.readString; rw [readBinary_noSse2]
  | encodingSet => unfold readThrift fillThrift fillTy; simp only [readCollection_noSse2, encodingSetLoop_noSse2]

theorem scalar_cut {t : Ty} (ht : isScalar t = true) {cfg : Cfg} {env : List Def} {hn : Nat → Val → Rd Bytes Val} {v0 v : Val} {q r suf : Bytes}
    (hr : r ≠ []) (h : fillTy cfg (sliceInput cfg) env hn t v0 (q ++ r ++ suf) = .ok (v, suf)) (hn' : Nat → Val → Rd Bytes Val) (v0' : Val) :
    fillTy cfg (sliceInput cfg) env hn' t v0' q = .error eofFail := by
  rw [scalar_read ht] at h ⊢
  obtain ⟨e, h1, h2⟩ := slice_truncated (cfg := cfg.noSse2) (generic_readThrift env t)
    (fun s h => (Tri.readThrift (allowed_notDiverge _) (slice_measured_nd _) stuck_notDiverge env t _).error (Nat.le_refl _) h rfl) hr h
  rw [← cut_noSse2 h2]; exact h1

theorem fillTyP_scalar {σ : Type} {t : Ty} (ht : isScalar t = true) (cfg : Cfg) (I : Input σ) (env : List Def) (hp : Nat → Val → Fl σ Val) (v : Val) :
    fillTyP cfg I env hp t v = Fl.keep v (fillTy cfg I env (fun _ _ => Rd.fail .stuck) t v) := by
  cases t with
  | list _ | option _ | box _ | rc _ => cases ht
  | named _ => cases ht
  | _ => unfold fillTyP; rfl

theorem isDefault_hasTy {env : List Def} (h : defaultsDefined env = true) {t : Ty} {v : Val} (hv : HasTy env v t) : IsDefault env t (dflt env t) := by
  refine isDefault_dfltTy (fun k w hw hd => isDefault_defaults k w hw ?_ hd) t ?_
  · have := (List.getElem?_eq_some_iff.1 hw).1
    rwa [defaults_length] at this
  · have hname : ∀ k d, env[k]? = some d → defined (dfltTy (defaults env) (.named k)) = true := by
      intro k d hk
      rw [dfltTy, defaults_get hk]
      exact (definedList_iff _).1 h _ (List.mem_of_getElem? (defaults_get hk))
    induction hv with
    | enum k name x hk => exact hname _ _ hk
    | struct k name fs vs hk _ _ _ => exact hname _ _ hk
    | union k name us i u v hk _ _ _ => exact hname _ _ hk
    | box t v hv ih => simpa [dfltTy, defined] using ih
    | rc t b v hv ih => simpa [dfltTy, defined] using ih
    | _ => rfl

/-! ## Where the bytes end -/

/-- A prefix of two parts ends in the first or contains it. -/
theorem prefix_cases {p p' q r : Bytes} (h : p ++ p' = q ++ r) :
    (∃ x, x ≠ [] ∧ p = q ++ x) ∨ ∃ q', q = p ++ q' ∧ p' = q' ++ r := by
  rcases List.append_eq_append_iff.1 h with ⟨a, h1, h2⟩ | ⟨a, h1, h2⟩
  · exact .inr ⟨a, h1, h2⟩
  · cases a with
    | nil => exact .inr ⟨[], by simpa using h1.symm, by simpa using h2.symm⟩
    | cons x xs => exact .inl ⟨x :: xs, by simp, h1⟩

/-- The fields of a struct when the encoding ends too early. -/
inductive CutFields (env : List Def) : List Field → List Val → List Val → List Val → Prop where
  | header (fs vs v0s) : CutFields env fs vs v0s v0s
  | field (f : Field) (fs v vs v0 v0s w) (h : CutAt env f.rustTy v v0 w) : CutFields env (f :: fs) (v :: vs) (v0 :: v0s) (w :: v0s)
  | next (f fs v vs v0 v0s ws) (h : CutFields env fs vs v0s ws) : CutFields env (f :: fs) (v :: vs) (v0 :: v0s) (v.unshare :: ws)

theorem CutFields.struct {env : List Def} {fs : List Field} {vs v0s ws : List Val} (h : CutFields env fs vs v0s ws) :
    (∃ i, i ≤ vs.length ∧ ws = (vs.take i).map Val.unshare ++ v0s.drop i) ∨
    ∃ i f v v0 w, fs[i]? = some f ∧ vs[i]? = some v ∧ v0s[i]? = some v0 ∧ CutAt env f.rustTy v v0 w ∧
      ws = (vs.take i).map Val.unshare ++ w :: v0s.drop (i + 1) := by
  induction h with
  | header fs vs v0s => exact .inl ⟨0, Nat.zero_le _, by simp⟩
  | field f fs v vs v0 v0s w h => exact .inr ⟨0, f, v, v0, w, rfl, rfl, rfl, h, by simp⟩
  | next f fs v vs v0 v0s ws h ih =>
    rcases ih with ⟨i, h1, rfl⟩ | ⟨i, f, v', v0', w, h1, h2, h3, h4, rfl⟩
    · exact .inl ⟨i + 1, by simpa using h1, by simp⟩
    · exact .inr ⟨i + 1, f, v', v0', w, by simpa using h1, by simpa using h2, by simpa using h3, h4, by simp⟩

/-- What a part of the encoding of an item leaves. -/
def Cuts (cfg : Cfg) (env : List Def) (p : Bytes) : EItem → Prop
  | .value t v => HasTy env v t → ∀ v0, Fillable env t v0 → ∀ q r, p = q ++ r → r ≠ [] → ∀ n, q.length + 1 ≤ n →
      ∃ w, fillTyP cfg (sliceInput cfg) env (fillNamedP cfg (sliceInput cfg) env n) t v0 q = .error (eofFail, w) ∧ CutAt env t v v0 w
  | .elems t vs => (∀ v ∈ vs, HasTy env v t) → ∀ q r, p = q ++ r → r ≠ [] → ∀ n, q.length + 1 ≤ n → ∀ done,
      ∃ i v w, vs[i]? = some v ∧ CutAt env t v (dflt env t) w ∧ IsDefault env t (dflt env t) ∧
        fillElemsP (fillTyP cfg (sliceInput cfg) env (fillNamedP cfg (sliceInput cfg) env n) t (dflt env t)) vs.length done q =
          .error (eofFail, .list (done ++ ((vs.take i).map Val.unshare ++ [w])))
  | .field t v id last => HasTy env v t → (Ty.isOption t = false ∨ ∃ t', t = .option t' ∧ Ty.isOption t' = false) →
      (v = .none ∧ p = []) ∨ (present v = true ∧ ∃ ft q, p = fieldHeader ft id last ++ q ∧ HeaderOk cfg.overflowChecks last id ∧
        ft ≠ 0#8 ∧ ft.toNat < 16 ∧ ∀ v0, Fillable env t v0 →
          (∀ suf n, (q ++ suf).length + 1 ≤ n →
            fillField cfg (sliceInput cfg) env (fillNamed cfg (sliceInput cfg) env n) t v0 ft (q ++ suf) = .ok (v.unshare, suf) ∧
            (t ≠ .bool → Ty.isOption t = false →
              fillTy cfg (sliceInput cfg) env (fillNamed cfg (sliceInput cfg) env n) t v0 (q ++ suf) = .ok (v.unshare, suf))) ∧
          ∀ q' r, q = q' ++ r → r ≠ [] → ∀ n, q'.length + 1 ≤ n →
            ∃ w, CutAt env t v v0 w ∧
              fillFieldP cfg (sliceInput cfg) env (fillNamedP cfg (sliceInput cfg) env n) t v0 ft q' = .error (eofFail, w) ∧
              (t ≠ .bool → Ty.isOption t = false →
                fillTyP cfg (sliceInput cfg) env (fillNamedP cfg (sliceInput cfg) env n) t v0 q' = .error (eofFail, w)))
  | .fields fs vs last => vs.length = fs.length →
      (∀ (i : Nat) (f : Field) (v : Val), fs[i]? = some f → vs[i]? = some v → HasTy env v f.rustTy) →
      (∀ f ∈ fs, Ty.isOption f.ty = false) →
      ∀ (name : String) (pre : List Field) (ws v0s : List Val) (flags : List Bool), ((pre ++ fs).map (·.id)).Nodup →
        ws.length = pre.length → v0s.length = fs.length →
        (∀ (i : Nat) (f : Field) (v : Val), fs[i]? = some f → v0s[i]? = some v → Fillable env f.rustTy v) →
        ∀ q r, p ++ [0#8] = q ++ r → r ≠ [] → ∀ n, q.length ≤ n → ∀ fuel, q.length < fuel →
          ∃ us, CutFields env fs vs v0s us ∧
            structLoopP cfg (sliceInput cfg) env (fillNamedP cfg (sliceInput cfg) env n) name (pre ++ fs) fuel last flags (ws ++ v0s) q =
              .error (eofFail, .struct (ws ++ us))

section
variable {cfg : Cfg} {env : List Def}

theorem fillTyP_ok {t : Ty} {v0 v : Val} {s s' : Bytes} {n : Nat}
    (h : fillTy cfg (sliceInput cfg) env (fillNamed cfg (sliceInput cfg) env n) t v0 s = .ok (v, s')) :
    fillTyP cfg (sliceInput cfg) env (fillNamedP cfg (sliceInput cfg) env n) t v0 s = .ok (v, s') :=
  Fl.ok_of_forget (by rw [forget_fillTyP cfg _ env _ _ (forget_fillNamedP cfg (sliceInput cfg) env n)]; exact h)

theorem fillFieldP_ok {t : Ty} {v0 v : Val} {s s' : Bytes} {n : Nat} {ft : Byte}
    (h : fillField cfg (sliceInput cfg) env (fillNamed cfg (sliceInput cfg) env n) t v0 ft s = .ok (v, s')) :
    fillFieldP cfg (sliceInput cfg) env (fillNamedP cfg (sliceInput cfg) env n) t v0 ft s = .ok (v, s') :=
  Fl.ok_of_forget (by rw [forget_fillFieldP cfg _ env _ _ (forget_fillNamedP cfg (sliceInput cfg) env n)]; exact h)

variable (hs : schemaOk env = true) (ha : ∀ n, n ≤ 10000000 → cfg.alloc n = true)
include hs ha

theorem value_read {t : Ty} {v : Val} {p : Bytes} (h : Enc env (HeaderOk cfg.overflowChecks) (.value t v) p) (hv : HasTy env v t) {v0 : Val}
    (h0 : Fillable env t v0) (suf : Bytes) {n : Nat} (hn : (p ++ suf).length + 1 ≤ n) :
    fillTy cfg (sliceInput cfg) env (fillNamed cfg (sliceInput cfg) env n) t v0 (p ++ suf) = .ok (v.unshare, suf) := by
  obtain ⟨N, hN⟩ := readsBack hs ha h hv v0 h0
  have e1 := fillTy_canon (cfg := cfg) (slice_measured_nd cfg) env (n := n) (s := p ++ suf) (by show List.length _ + 1 ≤ _; omega) t v0
  have e2 := fillTy_canon (cfg := cfg) (slice_measured_nd cfg) env (n := max N n) (s := p ++ suf) (by show List.length _ + 1 ≤ _; omega) t v0
  rw [e1, ← e2]
  exact hN _ (by omega) suf

theorem cuts {i : EItem} {p : Bytes} (h : Enc env (HeaderOk cfg.overflowChecks) i p) : Cuts cfg env p i := by
  have hd : defaultsDefined env = true := by
    unfold schemaOk at hs; rw [Bool.and_eq_true] at hs; exact hs.2
  have hdef : ∀ (k : Nat) (d : Def), env[k]? = some d → defOk d = true := by
    intro k d hk
    unfold schemaOk at hs; rw [Bool.and_eq_true, List.all_eq_true] at hs
    exact hs.1 d (List.mem_of_getElem? hk)
  have scalar : ∀ {t : Ty} {v : Val} {p : Bytes}, isScalar t = true → Enc env (HeaderOk cfg.overflowChecks) (.value t v) p →
      Cuts cfg env p (.value t v) := by
    intro t v p ht he hv v0 h0 q r hpq hr n hn
    subst hpq
    refine ⟨v0, ?_, .scalar t v v0 ht⟩
    rw [fillTyP_scalar ht]
    exact Fl.keep_err (scalar_cut ht hr (value_read hs ha he hv h0 [] (Nat.le_refl _)) _ _)
  induction h with
  | bool b => exact scalar rfl (.bool b)
  | i8 x => exact scalar rfl (.i8 x)
  | i16 x => exact scalar rfl (.i16 x)
  | i32 x => exact scalar rfl (.i32 x)
  | i64 x => exact scalar rfl (.i64 x)
  | double x => exact scalar rfl (.double x)
  | binary bs h => exact scalar rfl (.binary bs h)
  | string bs h => exact scalar rfl (.string bs h)
  | encodingSet mask => exact scalar rfl (.encodingSet mask)
  | list t vs p hl hp ih =>
    intro hv v0 h0 q r hpq hr n hn
    cases hv with
    | list _ _ hv =>
      rcases prefix_cases hpq with ⟨x, hx, hh⟩ | ⟨q', rfl, hp'⟩
      · refine ⟨v0, ?_, .listHeader t _ v0⟩
        have hc := readCollection_write cfg (wireType env t) vs.length [] (by have := wireType_range env t; omega) hl
        rw [hh] at hc
        unfold fillTyP
        exact Fl.bind_err (Fl.keep_err (collection_cut hx hc))
      · obtain ⟨i, v, w, h1, h2, h3, h4⟩ := ih hv q' r hp' hr n (by simp at hn; omega) []
        refine ⟨_, ?_, .list t vs v0 i v _ w h1 h3 h2⟩
        unfold fillTyP
        rw [Fl.bind_ok (Fl.keep_ok (readCollection_write cfg _ _ _ (by have := wireType_range env t; omega) hl))]
        simp only [wireType_eq, ne_eq, not_true, false_and, if_false, ha _ hl]
        exact h4
  | some t v p hp ih =>
    intro hv v0 h0 q r hpq hr n hn
    cases hv with
    | some _ _ hv =>
      cases h0 with
      | none _ =>
        obtain ⟨w, h1, h2⟩ := ih hv _ (fillable_dflt hd hv) q r hpq hr n hn
        refine ⟨_, ?_, .some t v _ w (isDefault_hasTy hd hv) h2⟩
        unfold fillTyP
        exact Fl.into_err h1
  | box t v p hp ih =>
    intro hv v0 h0 q r hpq hr n hn
    cases hv with
    | box _ _ hv =>
      cases h0 with
      | box _ v0 h0 =>
        obtain ⟨w, h1, h2⟩ := ih hv _ h0 q r hpq hr n hn
        refine ⟨_, ?_, .box t v _ w h2⟩
        unfold fillTyP
        exact Fl.into_err h1
  | rc t b v p hp ih =>
    intro hv v0 h0 q r hpq hr n hn
    cases hv with
    | rc _ _ _ hv =>
      cases h0 with
      | rc _ v0 h0 =>
        obtain ⟨w, h1, h2⟩ := ih hv _ h0 q r hpq hr n hn
        refine ⟨_, ?_, .rc t b v _ w h2⟩
        unfold fillTyP
        rw [if_neg (by simp)]
        exact Fl.into_err h1
  | enum k name x hk =>
    intro hv v0 h0 q r hpq hr n hn
    obtain ⟨n, rfl⟩ : ∃ m, n = m + 1 := ⟨n - 1, by omega⟩
    refine ⟨v0, ?_, .enum k name _ v0 hk⟩
    cases h0 with
    | enum _ _ y _ =>
      have hc := readI32_write cfg x []
      rw [hpq] at hc
      unfold fillTyP fillNamedP
      rw [hk]
      exact Fl.bind_err (Fl.keep_err (i32_cut hr hc))
    | struct _ _ _ _ hk' _ _ => rw [hk] at hk'; cases hk'
    | union _ _ _ _ _ hk' => rw [hk] at hk'; cases hk'
  | struct k name fs vs p hk hp ih =>
    intro hv v0 h0 q r hpq hr n hn
    obtain ⟨n, rfl⟩ : ∃ m, n = m + 1 := ⟨n - 1, by omega⟩
    have hok := hdef k _ hk
    simp only [defOk, structOk, Bool.and_eq_true, decide_eq_true_eq, List.all_eq_true, Bool.not_eq_true'] at hok
    cases h0 with
    | enum _ _ y hk' => rw [hk] at hk'; cases hk'
    | union _ _ _ _ _ hk' => rw [hk] at hk'; cases hk'
    | struct _ _ fs' v0s hk' hl0 h0 =>
      rw [hk] at hk'; obtain ⟨rfl, rfl⟩ : _ ∧ _ := by simpa using hk'
      cases hv with
      | struct _ _ fs' vs hk' hl hv =>
        rw [hk] at hk'; obtain ⟨rfl, rfl⟩ : _ ∧ _ := by simpa using hk'
        obtain ⟨us, h1, h2⟩ := ih hl hv hok.2 name [] [] v0s (fs.map fun _ => false) (by simpa using hok.1) rfl hl0 h0 q r hpq hr n (by omega)
          (q.length + 1) (by omega)
        refine ⟨.struct us, ?_, ?_⟩
        · unfold fillTyP fillNamedP
          rw [hk]
          exact h2
        · rcases h1.struct with ⟨i, hi, rfl⟩ | ⟨i, f, v, v0, w, hf, hv, hv0, hc, rfl⟩
          · exact .structHeader k name fs vs v0s i hk hi
          · exact .struct k name fs vs v0s i f v v0 w hk hf hv hv0 hc
  | union k name us i u v p hk hu hp ih =>
    intro hv v0 h0 q r hpq hr n hn
    obtain ⟨n, rfl⟩ : ∃ m, n = m + 1 := ⟨n - 1, by omega⟩
    have hok := hdef k _ hk
    simp only [defOk, unionOk, Bool.and_eq_true, decide_eq_true_eq, List.all_eq_true, Bool.not_eq_true', bne_iff_ne] at hok
    have hu2 := hok.2 u (List.mem_of_getElem? hu)
    cases hv with
    | union _ _ us' _ u' _ hk' hu' hv =>
      rw [hk] at hk'; obtain ⟨rfl, rfl⟩ : _ ∧ _ := by simpa using hk'
      rw [hu] at hu'; obtain rfl : u = u' := by simpa using hu'
      rcases ih hv (.inl hu2.1) with ⟨rfl, rfl⟩ | ⟨_, ft, c, rfl, hh, hft0, hft, hq⟩
      · generalize u.ty = ut at hv hu2
        cases hv
        simp [Ty.isOption] at hu2
      · obtain ⟨hfull, hcut⟩ := hq _ (fillable_dflt hd hv)
        have main : ∃ w, fillUnionP cfg (sliceInput cfg) env (fillNamedP cfg (sliceInput cfg) env n) us v0 q = .error (eofFail, w) ∧
            CutAt env (.named k) (.union i v) v0 w := by
          rw [List.append_assoc] at hpq
          rcases prefix_cases hpq with ⟨x, hx, hh'⟩ | ⟨q', rfl, hp'⟩
          · refine ⟨v0, ?_, .unionHeader k name us _ v0 hk⟩
            have hc := (readHeader_written cfg ft hft hft0 0#16 u.id []).2 hh
            rw [hh'] at hc
            unfold fillUnionP
            exact Fl.bind_err (Fl.keep_err (header_cut hx hc))
          · have hlen := fieldHeader_length ft u.id 0#16
            have hstep : ∀ s, fillUnionP cfg (sliceInput cfg) env (fillNamedP cfg (sliceInput cfg) env n) us v0
                (fieldHeader ft u.id 0#16 ++ s) = (do
                  let v ← Fl.into (.union i) (fillTyP cfg (sliceInput cfg) env (fillNamedP cfg (sliceInput cfg) env n) u.ty (dflt env u.ty))
                  let stop ← Fl.keep v (sliceInput cfg).readByte
                  if stop ≠ 0#8 then Fl.keep v (Rd.throw .missingStop) else pure v : Fl Bytes Val) s := by
              intro s
              unfold fillUnionP
              rw [Fl.bind_ok (Fl.keep_ok ((readHeader_written cfg ft hft hft0 0#16 u.id _).2 hh))]
              simp only [hft0, if_false, findVariant_eq hok.1 hu, hu]
            rw [hstep]
            simp only [List.length_append] at hn
            rcases prefix_cases hp' with ⟨x, hx, hh'⟩ | ⟨q'', rfl, hp''⟩
            · obtain ⟨w, h1, _, h2⟩ := hcut q' x hh' hx n (by omega)
              exact ⟨_, Fl.bind_err (Fl.into_err (h2 hu2.2 hu2.1)), .union k name us i u v v0 _ w hk hu (isDefault_hasTy hd hv) h1⟩
            · obtain rfl : q'' = [] := by
                cases q'' with
                | nil => rfl
                | cons a as =>
                  have := congrArg List.length hp''
                  cases r with
                  | nil => exact absurd rfl hr
                  | cons b bs => simp at this
              simp only [List.length_append] at hn
              refine ⟨.union i v.unshare, ?_, .unionStop k name us i v v0 hk⟩
              rw [Fl.bind_ok (Fl.into_ok (fillTyP_ok ((hfull [] n (by simp; omega)).2 hu2.2 hu2.1)))]
              exact Fl.bind_err (Fl.keep_err rfl)
        cases h0 with
        | enum _ _ y hk' => rw [hk] at hk'; cases hk'
        | struct _ _ _ _ hk' _ _ => rw [hk] at hk'; cases hk'
        | union _ _ _ j w hk' =>
          unfold fillTyP fillNamedP
          rw [hk]
          exact main
  | elemsNil t =>
    intro _ q r hpq hr
    exact absurd (List.append_eq_nil_iff.1 hpq.symm).2 hr
  | elemsCons t v vs p q hp hq ih1 ih2 =>
    intro hv q' r hpq hr n hn done
    have hv1 := hv v (by simp)
    have hf := fillable_dflt hd hv1
    rcases prefix_cases hpq with ⟨x, hx, hh⟩ | ⟨q'', rfl, hp'⟩
    · obtain ⟨w, h1, h2⟩ := ih1 hv1 _ hf q' x hh hx n hn
      refine ⟨0, v, w, rfl, h2, isDefault_hasTy hd hv1, ?_⟩
      rw [List.length_cons]
      unfold fillElemsP
      exact Fl.bind_err (Fl.part_err h1)
    · obtain ⟨i, v', w, h1, h2, h3, h4⟩ := ih2 (fun w hw => hv w (by simp [hw])) q'' r hp' hr n (by simp at hn; omega) (done ++ [v.unshare])
      refine ⟨i + 1, v', w, by simpa using h1, h2, h3, ?_⟩
      rw [List.length_cons]
      unfold fillElemsP
      rw [Fl.bind_ok (Fl.part_ok (fillTyP_ok (value_read hs ha hp hv1 hf q'' hn)))]
      rw [h4]
      simp
  | fieldBool b id last hh =>
    intro _ _
    refine .inr ⟨rfl, boolByte b, [], by simp, hh, by cases b <;> decide, by cases b <;> decide, fun v0 _ => ⟨fun suf n _ => ⟨?_, fun h => absurd rfl h⟩,
      fun q' r h hr => absurd (List.append_eq_nil_iff.1 h.symm).2 hr⟩⟩
    rw [fillField]
    cases b <;> rfl
  | fieldNone t id last => intro _ _; exact .inl ⟨rfl, rfl⟩
  | fieldSome t v id last p hp ih =>
    intro hv ht
    have ht' : Ty.isOption t = false := by
      rcases ht with h | ⟨t', h, h'⟩
      · simp [Ty.isOption] at h
      · injection h with h; rw [h]; exact h'
    cases hv with
    | some _ _ hv =>
      rcases ih hv (.inl ht') with ⟨rfl, rfl⟩ | ⟨hpr, ft, q, rfl, hh, hft0, hft, hq⟩
      · cases hv; simp [Ty.isOption] at ht'
      · refine .inr ⟨hpr, ft, q, rfl, hh, hft0, hft, fun v0 h0 => ?_⟩
        cases h0 with
        | none _ =>
          obtain ⟨h1, h2⟩ := hq _ (fillable_dflt hd hv)
          refine ⟨fun suf n hn => ⟨?_, fun _ h => by simp [Ty.isOption] at h⟩, fun q' r hq' hr n hn => ?_⟩
          · rw [fillField, Rd.bind_ok (h1 suf n hn).1]
            simp only [Rd.pure_apply, Val.unshare]
          · obtain ⟨w, h3, h4, _⟩ := h2 q' r hq' hr n hn
            refine ⟨_, .some t v _ w (isDefault_hasTy hd hv) h3, ?_, fun _ h => by simp [Ty.isOption] at h⟩
            unfold fillFieldP
            exact Fl.into_err h4
  | fieldValue t v id last p h1 h2 hh hp ih =>
    intro hv ht
    have hr := wireType_range env t
    refine .inr ⟨present_of_enc hp h2, wireType env t, p, rfl, hh, ?_, by omega, fun v0 h0 => ⟨fun suf n hn => ?_, fun q' r hq' hr n hn => ?_⟩⟩
    · intro e; rw [e] at hr; simp at hr
    · have := value_read hs ha hp hv h0 suf hn
      refine ⟨?_, fun _ _ => this⟩
      rw [fillField_value cfg _ env _ v0 _ h1 h2, if_neg (by rw [wireType_eq]; simp)]
      exact this
    · obtain ⟨w, h3, h4⟩ := ih hv v0 h0 q' r hq' hr n hn
      refine ⟨w, h4, ?_, fun _ _ => h3⟩
      rw [← h3]
      cases t with
      | bool => exact absurd rfl h1
      | option t' => exact absurd rfl (h2 t')
      | _ => unfold fillFieldP; rw [if_neg (by rw [wireType_eq]; simp)]
  | fieldsNil last =>
    intro _ _ _ name pre ws v0s flags _ hws hv0 _ q r hpq hr n hn fuel hfuel
    obtain rfl : v0s = [] := by simpa using hv0
    obtain rfl : q = [] := by
      cases q with
      | nil => rfl
      | cons a as =>
        have := congrArg List.length hpq
        cases r with
        | nil => exact absurd rfl hr
        | cons b bs => simp at this
    obtain ⟨fuel, rfl⟩ : ∃ m, fuel = m + 1 := ⟨fuel - 1, by simp at hfuel; omega⟩
    refine ⟨[], .header _ _ _, ?_⟩
    unfold structLoopP
    exact Fl.bind_err (Fl.keep_err rfl)
  | fieldsCons f fs v vs last p q hp hq ih1 ih2 =>
    intro hl hv hopt name pre ws v0s flags hnd hws hv0 hf0 q' r hpq hr n hn fuel hfuel
    obtain ⟨v0, v0s, rfl⟩ : ∃ x xs, v0s = x :: xs := by
      cases v0s with
      | nil => simp at hv0
      | cons x xs => exact ⟨x, xs, rfl⟩
    have hvf := hv 0 f v rfl rfl
    have hff := hf0 0 f v0 rfl rfl
    have hof := hopt f (by simp)
    have hl' : vs.length = fs.length := by simpa using hl
    have hvt : ∀ (i : Nat) (g : Field) (w : Val), fs[i]? = some g → vs[i]? = some w → HasTy env w g.rustTy :=
      fun i g w hg hw => hv (i + 1) g w (by simpa using hg) (by simpa using hw)
    have hft : ∀ (i : Nat) (g : Field) (w : Val), fs[i]? = some g → v0s[i]? = some w → Fillable env g.rustTy w :=
      fun i g w hg hw => hf0 (i + 1) g w (by simpa using hg) (by simpa using hw)
    have hsplit : pre ++ f :: fs = (pre ++ [f]) ++ fs := by simp
    have ih2 := ih2 hl' hvt (fun g hg => hopt g (by simp [hg])) name (pre ++ [f])
    rcases ih1 hvf (rustTy_form hof) with ⟨rfl, rfl⟩ | ⟨hpr, ft, c, rfl, hh, hft0, hft16, hc⟩
    · have hr' : f.required = false := by
        cases hr : f.required with
        | false => rfl
        | true =>
          unfold Field.rustTy at hvf
          rw [hr, if_pos rfl] at hvf
          generalize f.ty = ft at hvf hof
          cases hvf
          simp [Ty.isOption] at hof
      have hv0n : v0 = .none := by
        unfold Field.rustTy at hff
        rw [hr'] at hff
        simp only [Bool.false_eq_true, if_false] at hff
        cases hff; rfl
      subst hv0n
      obtain ⟨us, h1, h2⟩ := ih2 (ws ++ [.none]) v0s flags (by rw [← hsplit]; exact hnd) (by simp [hws]) (by simpa using hv0) hft q' r
        (by simpa using hpq) hr n hn fuel hfuel
      refine ⟨Val.none :: us, .next f fs .none vs .none v0s us h1, ?_⟩
      rw [← hsplit] at h2
      simpa [present] using h2
    · obtain ⟨hfull, hcut⟩ := hc v0 hff
      obtain ⟨fuel, rfl⟩ : ∃ m, fuel = m + 1 := ⟨fuel - 1, by omega⟩
      rw [List.append_assoc, List.append_assoc] at hpq
      rcases prefix_cases hpq with ⟨x, hx, hh'⟩ | ⟨q'', rfl, hp'⟩
      · refine ⟨_, .header _ _ _, ?_⟩
        have hc := (readHeader_written cfg ft hft16 hft0 last f.id []).2 hh
        rw [hh'] at hc
        unfold structLoopP
        exact Fl.bind_err (Fl.keep_err (header_cut hx hc))
      · have hlen := fieldHeader_length ft f.id last
        have e1 : (pre ++ f :: fs)[pre.length]? = some f := by simp
        have e2 : (ws ++ v0 :: v0s)[pre.length]? = some v0 := by simp [← hws]
        have e3 : ∀ w, (ws ++ v0 :: v0s).set pre.length w = ws ++ w :: v0s := by
          intro w
          rw [← hws, List.set_append_right _ _ (Nat.le_refl _)]; simp
        have hstep : ∀ s, structLoopP cfg (sliceInput cfg) env (fillNamedP cfg (sliceInput cfg) env n) name (pre ++ f :: fs) (fuel + 1) last flags
            (ws ++ v0 :: v0s) (fieldHeader ft f.id last ++ s) = (do
              let v' ← Fl.part (fun w => .struct (ws ++ w :: v0s)) (fillFieldP cfg (sliceInput cfg) env (fillNamedP cfg (sliceInput cfg) env n) f.rustTy v0 ft)
              structLoopP cfg (sliceInput cfg) env (fillNamedP cfg (sliceInput cfg) env n) name (pre ++ f :: fs) fuel f.id
                (if f.required then flags.set pre.length true else flags) (ws ++ v' :: v0s) : Fl Bytes Val) s := by
          intro s
          rw [structLoopP, Fl.bind_ok (Fl.keep_ok ((readHeader_written cfg ft hft16 hft0 last f.id _).2 hh))]
          simp only [hft0, if_false, findField_eq hnd, e1, e2, e3]
        rw [hstep]
        simp only [List.length_append] at hn hfuel
        rcases prefix_cases hp' with ⟨x, hx, hh'⟩ | ⟨q3, rfl, hp''⟩
        · obtain ⟨w, h1, h2, _⟩ := hcut q'' x hh' hx n (by omega)
          exact ⟨_, .field f fs v vs v0 v0s w h1, Fl.bind_err (Fl.part_err h2)⟩
        · rw [hpr, if_pos rfl] at ih2
          simp only [List.length_append] at hn hfuel
          obtain ⟨us, h1, h2⟩ := ih2 (ws ++ [v.unshare]) v0s (if f.required then flags.set pre.length true else flags)
            (by rw [← hsplit]; exact hnd) (by simp [hws]) (by simpa using hv0) hft q3 r hp'' hr n (by omega) fuel (by omega)
          refine ⟨_, .next f fs v vs v0 v0s us h1, ?_⟩
          rw [Fl.bind_ok (Fl.part_ok (fillFieldP_ok (hfull q3 n (by simp; omega)).1))]
          rw [← hsplit] at h2
          simpa using h2

end

end CT
