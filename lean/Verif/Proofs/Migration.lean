import Verif.Proofs.Evolution
import Verif.Props.EncodingSet
import Verif.Spec.Migration
/-! # Reading with another schema -/
namespace CT
open Spec Props

variable {ρ : Nat → Nat} {env₁ env₂ : List Def}

theorem migrates_get (h : migrates ρ env₁ env₂ = true) {k : Nat} {d : Def} (hk : env₁[k]? = some d) :
    ∃ e, env₂[ρ k]? = some e ∧ defMigrates ρ env₁ d e = true := by
  unfold migrates at h
  rw [List.all_eq_true] at h
  have hl := (List.getElem?_eq_some_iff.1 hk).1
  have := h k (List.mem_range.2 hl)
  rw [hk] at this
  cases he : env₂[ρ k]? with
  | none => rw [he] at this; cases this
  | some e => rw [he] at this; exact ⟨e, rfl, this⟩

theorem bare_closed (env : List Def) (t : Ty) : tyClosed env (bare t) = tyClosed env t := by
  induction t with
  | list t ih | option t ih | box t ih | rc t ih => exact ih
  | _ => rfl

theorem bare_wireType (env : List Def) (t : Ty) : wireType env (bare t) = wireType env t := by
  induction t with
  | option t ih | box t ih | rc t ih => exact ih
  | _ => rfl

theorem sameBare_closed (h : migrates ρ env₁ env₂ = true) : ∀ {t u : Ty}, sameBare ρ env₁ t u = true → tyClosed env₁ t = true → tyClosed env₂ u = true := by
  intro t
  induction t with
  | list t ih =>
    intro u hs ht
    cases u <;> first | rfl | (simp [sameBare, isLeaf] at hs; done) | (rename_i u; exact ih (u := u) (by simpa [sameBare] using hs) ht)
  | option t ih =>
    intro u hs ht
    cases u <;> first | (simp [sameBare, isLeaf] at hs; done) | (rename_i u; exact ih (u := u) (by simpa [sameBare] using hs) ht)
  | named k =>
    intro u hs ht
    cases u <;> first | simp [sameBare, isLeaf] at hs | skip
    simp only [tyClosed, decide_eq_true_eq] at ht ⊢
    obtain ⟨e, he, _⟩ := migrates_get h (List.getElem?_eq_getElem ht)
    subst hs
    exact (List.getElem?_eq_some_iff.1 he).1
  | box t _ => intro u hs; cases u <;> simp [sameBare, isLeaf] at hs
  | rc t _ => intro u hs; cases u <;> simp [sameBare, isLeaf] at hs
  | _ => intro u hs _; cases u <;> first | rfl | simp [sameBare, isLeaf] at hs

theorem tyTo_closed (h : migrates ρ env₁ env₂ = true) {t u : Ty} (hs : tyTo ρ env₁ t u = true) (ht : tyClosed env₁ t = true) : tyClosed env₂ u = true := by
  rw [← bare_closed] at ht ⊢
  exact sameBare_closed h hs ht

theorem sameBare_wireType (h : migrates ρ env₁ env₂ = true) : ∀ {t u : Ty}, sameBare ρ env₁ t u = true → tyClosed env₁ t = true →
    wireType env₁ t = wireType env₂ u := by
  intro t
  induction t with
  | list t ih =>
    intro u hs ht
    cases u <;> first | rfl | simp [sameBare, isLeaf] at hs
  | option t ih =>
    intro u hs ht
    cases u <;> first | (simp [sameBare, isLeaf] at hs; done) | (rename_i u; exact ih (u := u) (by simpa [sameBare] using hs) ht)
  | named k =>
    intro u hs ht
    cases u <;> first | simp [sameBare, isLeaf] at hs | skip
    simp only [tyClosed, decide_eq_true_eq] at ht
    obtain ⟨e, he, hd⟩ := migrates_get h (List.getElem?_eq_getElem ht)
    subst hs
    unfold wireType
    rw [he, List.getElem?_eq_getElem ht]
    generalize env₁[k] = d at hd
    cases d <;> cases e <;> first | rfl | simp [defMigrates] at hd
  | box t _ => intro u hs; cases u <;> simp [sameBare, isLeaf] at hs
  | rc t _ => intro u hs; cases u <;> simp [sameBare, isLeaf] at hs
  | _ => intro u hs _; cases u <;> first | rfl | simp [sameBare, isLeaf] at hs

theorem tyTo_wireType (h : migrates ρ env₁ env₂ = true) {t u : Ty} (hs : tyTo ρ env₁ t u = true) (ht : tyClosed env₁ t = true) :
    wireType env₁ t = wireType env₂ u := by
  rw [← bare_wireType env₁, ← bare_wireType env₂]
  exact sameBare_wireType h hs (by rwa [bare_closed])

/-! ## Pointers -/

theorem mig_box_right : ∀ {t u : Ty} {v w : Val}, Mig ρ env₁ env₂ t (.box u) v w → ∃ w', w = .box w' ∧ Mig ρ env₁ env₂ t u v w' := by
  intro t
  induction t with
  | box t ih =>
    intro u v w h
    cases h with
    | leaf _ _ h => simp [isLeaf] at h
    | box _ _ _ w h => exact ⟨w, rfl, h⟩
    | unbox _ _ _ _ h =>
      obtain ⟨w', rfl, h'⟩ := ih h
      exact ⟨w', rfl, .unbox _ _ _ _ h'⟩
  | rc t ih =>
    intro u v w h
    cases h with
    | box _ _ _ w h => exact ⟨w, rfl, h⟩
    | unrc _ _ _ _ _ h =>
      obtain ⟨w', rfl, h'⟩ := ih h
      exact ⟨w', rfl, .unrc _ _ _ _ _ h'⟩
  | _ =>
    intro u v w h
    cases h with
    | box _ _ _ w h => exact ⟨w, rfl, h⟩

theorem mig_rc_right : ∀ {t u : Ty} {v w : Val}, Mig ρ env₁ env₂ t (.rc u) v w → ∃ w', w = .rc false w' ∧ Mig ρ env₁ env₂ t u v w' := by
  intro t
  induction t with
  | box t ih =>
    intro u v w h
    cases h with
    | rc _ _ _ w h => exact ⟨w, rfl, h⟩
    | unbox _ _ _ _ h =>
      obtain ⟨w', rfl, h'⟩ := ih h
      exact ⟨w', rfl, .unbox _ _ _ _ h'⟩
  | rc t ih =>
    intro u v w h
    cases h with
    | leaf _ _ h => simp [isLeaf] at h
    | rc _ _ _ w h => exact ⟨w, rfl, h⟩
    | unrc _ _ _ _ _ h =>
      obtain ⟨w', rfl, h'⟩ := ih h
      exact ⟨w', rfl, .unrc _ _ _ _ _ h'⟩
  | _ =>
    intro u v w h
    cases h with
    | rc _ _ _ w h => exact ⟨w, rfl, h⟩

theorem mig_box_left {t : Ty} {v : Val} : ∀ {u : Ty} {w : Val}, Mig ρ env₁ env₂ (.box t) u (.box v) w → Mig ρ env₁ env₂ t u v w := by
  intro u
  induction u with
  | box u ih =>
    intro w h
    cases h with
    | leaf _ _ h => simp [isLeaf] at h
    | unbox _ _ _ _ h => exact h
    | box _ _ _ _ h => exact .box _ _ _ _ (ih h)
  | rc u ih =>
    intro w h
    cases h with
    | unbox _ _ _ _ h => exact h
    | rc _ _ _ _ h => exact .rc _ _ _ _ (ih h)
  | _ =>
    intro w h
    cases h with
    | unbox _ _ _ _ h => exact h

theorem mig_rc_left {t : Ty} {b : Bool} {v : Val} : ∀ {u : Ty} {w : Val}, Mig ρ env₁ env₂ (.rc t) u (.rc b v) w → Mig ρ env₁ env₂ t u v w := by
  intro u
  induction u with
  | rc u ih =>
    intro w h
    cases h with
    | leaf _ _ h => simp [isLeaf] at h
    | unrc _ _ _ _ _ h => exact h
    | rc _ _ _ _ h => exact .rc _ _ _ _ (ih h)
  | box u ih =>
    intro w h
    cases h with
    | unrc _ _ _ _ _ h => exact h
    | box _ _ _ _ h => exact .box _ _ _ _ (ih h)
  | _ =>
    intro w h
    cases h with
    | unrc _ _ _ _ _ h => exact h

def isPtr : Ty → Bool
  | .box _ | .rc _ => true
  | _ => false

theorem isBoolish_of_bare : ∀ {t : Ty}, bare t = .bool → isBoolish t = true := by
  intro t
  induction t with
  | bool => intro _; rfl
  | box t ih | rc t ih => exact ih
  | _ => intro h; simp [bare] at h

theorem sameBare_bool_left : ∀ {u : Ty}, sameBare ρ env₁ .bool u = true → u = .bool := by
  intro u h; cases u <;> first | rfl | simp [sameBare, isLeaf] at h

theorem sameBare_bool_right : ∀ {t : Ty}, sameBare ρ env₁ t .bool = true → t = .bool := by
  intro u h; cases u <;> first | rfl | simp [sameBare, isLeaf] at h

theorem variant_unique {us : List Variant} (hn : (us.map (·.id)).Nodup) {i j : Nat} {u x : Variant} (hu : us[i]? = some u) (hx : us[j]? = some x)
    (h : u.id = x.id) : i = j := by
  have h1 : (us.map (·.id))[i]? = some u.id := by rw [List.getElem?_map, hu]; rfl
  have h2 : (us.map (·.id))[j]? = some x.id := by rw [List.getElem?_map, hx]; rfl
  have hi := (List.getElem?_eq_some_iff.1 h1).1
  exact (List.getElem?_inj hi hn).1 (by rw [h1, h2, h])

/-! ## Lists of enum values -/

theorem wireType_enum {env : List Def} {t : Ty} (h : isEnumTy env (bare t) = true) : wireType env t = 5#8 := by
  rw [← bare_wireType]
  generalize bare t = u at h
  cases u <;> simp only [isEnumTy, Bool.false_eq_true] at h
  rename_i k
  unfold wireType
  cases hk : env[k]? with
  | none => rw [hk] at h; cases h
  | some d => cases d <;> rw [hk] at h <;> first | rfl | cases h

theorem enc_enumVal {env : List Def} {ok : BitVec 16 → BitVec 16 → Prop} {v : Val} {x : BitVec 32} (h : EnumVal v x) :
    ∀ {t : Ty} {p : Bytes}, Enc env ok (.value t v) p → p = varint (zigzag x.toInt) := by
  induction h with
  | enum x => intro t p he; cases he; rfl
  | box v x _ ih => intro t p he; cases he with | box _ _ _ he => exact ih he
  | rc b v x _ ih => intro t p he; cases he with | rc _ _ _ _ he => exact ih he

theorem enc_enumVals {env : List Def} {ok : BitVec 16 → BitVec 16 → Prop} {t : Ty} : ∀ {vs : List Val} {xs : List (BitVec 32)} {p : Bytes},
    Enc env ok (.elems t vs) p → xs.length = vs.length → (∀ (i : Nat) (v : Val) (x : BitVec 32), vs[i]? = some v → xs[i]? = some x → EnumVal v x) →
    p = xs.flatMap fun x => varint (zigzag x.toInt)
  | [], xs, p, he, hl, _ => by
    obtain rfl : xs = [] := by simpa using hl
    cases he; rfl
  | v :: vs, [], p, he, hl, _ => by simp at hl
  | v :: vs, x :: xs, p, he, hl, h => by
    cases he with
    | elemsCons _ _ _ p q hp hq =>
      rw [List.flatMap_cons, enc_enumVal (h 0 v x rfl rfl) hp,
        enc_enumVals hq (by simpa using hl) fun i a b ha hb => h (i + 1) a b (by simpa using ha) (by simpa using hb)]

/-! ## Reading -/

/-- What is shown of a present field: `t` is its type without `Option`. -/
def FieldReadsTo (ρ : Nat → Nat) (cfg : Cfg) (env₁ env₂ : List Def) (t : Ty) (v : Val) (p : Bytes) (id last : BitVec 16) : Prop :=
  ∃ ft q, p = fieldHeader ft id last ++ q ∧ HeaderOk cfg.overflowChecks last id ∧ ft ≠ 0#8 ∧ ft.toNat < 16 ∧
    (∀ suf, (sliceInput cfg).skip cfg ft false (q ++ suf) = .ok ((), suf)) ∧
    ∀ u, tyTo ρ env₁ t u = true → boxedBool u = false → Ty.isOption u = false → ∀ w, Mig ρ env₁ env₂ t u v w → ∀ v0, Fillable env₂ u v0 → ∀ suf,
      fillThriftField cfg (sliceInput cfg) env₂ u v0 ft (q ++ suf) = .ok (w, suf) ∧
      (u ≠ .bool → fillThrift cfg (sliceInput cfg) env₂ u v0 (q ++ suf) = .ok (w, suf))

/-- The value `w` of field `g` corresponds to the value `v` of field `f`. -/
def FieldGoes (ρ : Nat → Nat) (env₁ env₂ : List Def) (f : Field) (v : Val) (g : Field) (w : Val) : Prop :=
  tyTo ρ env₁ f.ty g.ty = true ∧
  ((f.required = false ∧ v = .none ∧ g.required = false ∧ w = .none) ∨
   ∃ v' w', v = (if f.required then v' else .some v') ∧ w = (if g.required then w' else .some w') ∧ Mig ρ env₁ env₂ f.ty g.ty v' w')

def ReadsTo (ρ : Nat → Nat) (cfg : Cfg) (env₁ env₂ : List Def) (p : Bytes) : EItem → Prop
  | .value t v => tyClosed env₁ t = true → HasTy env₁ v t → ∀ u, tyTo ρ env₁ t u = true → ∀ w, Mig ρ env₁ env₂ t u v w →
      ∀ v0, Fillable env₂ u v0 → ∀ suf, fillThrift cfg (sliceInput cfg) env₂ u v0 (p ++ suf) = .ok (w, suf)
  | .elems t vs => tyClosed env₁ t = true → (∀ v ∈ vs, HasTy env₁ v t) → ∀ u, tyTo ρ env₁ t u = true → ∀ ws : List Val, ws.length = vs.length →
      (∀ (i : Nat) (v w : Val), vs[i]? = some v → ws[i]? = some w → Mig ρ env₁ env₂ t u v w) → ∀ (suf : Bytes) (n : Nat), (p ++ suf).length + 1 ≤ n →
      fillElems (fillTy cfg (sliceInput cfg) env₂ (fillNamed cfg (sliceInput cfg) env₂ n) u (dflt env₂ u)) vs.length (p ++ suf) = .ok (ws, suf)
  | .field t v id last => tyClosed env₁ t = true → HasTy env₁ v t → boxedBool t = false →
      (Ty.isOption t = false → FieldReadsTo ρ cfg env₁ env₂ t v p id last) ∧
      (∀ t', t = .option t' → Ty.isOption t' = false → (v = .none ∧ p = []) ∨ ∃ v', v = .some v' ∧ present v' = true ∧
        FieldReadsTo ρ cfg env₁ env₂ t' v' p id last)
  | .fields fs vs last => (∀ f ∈ fs, tyClosed env₁ f.ty = true ∧ boxedBool f.ty = false ∧ Ty.isOption f.ty = false) →
      (fs.map (·.id)).Nodup → vs.length = fs.length →
      (∀ (i : Nat) (f : Field) (v : Val), fs[i]? = some f → vs[i]? = some v → HasTy env₁ v f.rustTy) →
      ∀ (name : String) (gs : List Field) (ws : List Val), (gs.map (·.id)).Nodup → ws.length = gs.length →
      (∀ g ∈ gs, boxedBool g.ty = false ∧ Ty.isOption g.ty = false) →
      (∀ (i : Nat) (f : Field) (v : Val), fs[i]? = some f → vs[i]? = some v → ∀ (j : Nat) (g : Field) (w : Val), gs[j]? = some g → ws[j]? = some w →
        f.id = g.id → FieldGoes ρ env₁ env₂ f v g w) →
      ∀ cur flags, Progress env₂ gs ws fs cur flags → ∀ suf,
        loopC cfg (sliceInput cfg) env₂ name gs last flags cur (p ++ 0#8 :: suf) = .ok (.struct ws, suf)

theorem readsTo {cfg : Cfg} (hs₁ : schemaOk env₁ = true) (hs₂ : schemaOk env₂ = true) (hcl : envClosed env₁ = true)
    (hev : migrates ρ env₁ env₂ = true) (hb : noBoxedBool env₁ = true) (hb₂ : noBoxedBool env₂ = true)
    (ha : ∀ n, n ≤ 10000000 → cfg.alloc n = true) {i : EItem} {p : Bytes}
    (h : Enc env₁ (fun l i => HeaderOk cfg.overflowChecks l i ∧ Ascends l i) i p) : ReadsTo ρ cfg env₁ env₂ p i := by
  have hI := slice_measured_nd cfg
  have hd₂ : defaultsDefined env₂ = true := by
    unfold schemaOk at hs₂; rw [Bool.and_eq_true] at hs₂; exact hs₂.2
  have hdef : ∀ {env : List Def} (_ : schemaOk env = true) (k : Nat) (d : Def), env[k]? = some d → defOk d = true := by
    intro env hs k d hk
    unfold schemaOk at hs; rw [Bool.and_eq_true, List.all_eq_true] at hs
    exact hs.1 d (List.mem_of_getElem? hk)
  have hcl' : ∀ (k : Nat) (d : Def), env₁[k]? = some d → defClosed env₁ d = true := by
    intro k d hk
    unfold envClosed at hcl; rw [List.all_eq_true] at hcl
    exact hcl d (List.mem_of_getElem? hk)
  have hb' : ∀ {env : List Def} (_ : noBoxedBool env = true) (k : Nat) (d : Def), env[k]? = some d → defNoBoxedBool d = true := by
    intro env hb k d hk
    unfold noBoxedBool at hb; rw [List.all_eq_true] at hb
    exact hb d (List.mem_of_getElem? hk)
  have hdflt : ∀ {t u}, tyTo ρ env₁ t u = true → tyClosed env₁ t = true → Fillable env₂ u (dflt env₂ u) := fun hs ht =>
    fillable_dflt_closed hd₂ (tyTo_closed hev hs ht)
  have hptr : ∀ {t v p}, (∀ u, isPtr u = false → tyTo ρ env₁ t u = true → ∀ w, Mig ρ env₁ env₂ t u v w → ∀ v0, Fillable env₂ u v0 → ∀ suf,
      fillThrift cfg (sliceInput cfg) env₂ u v0 (p ++ suf) = .ok (w, suf)) → ∀ u, tyTo ρ env₁ t u = true → ∀ w, Mig ρ env₁ env₂ t u v w →
      ∀ v0, Fillable env₂ u v0 → ∀ suf, fillThrift cfg (sliceInput cfg) env₂ u v0 (p ++ suf) = .ok (w, suf) := by
    intro t v p hbase u
    induction u with
    | box u ih =>
      intro hs w hw v0 h0 suf
      obtain ⟨w', rfl, hw'⟩ := mig_box_right hw
      cases h0 with
      | box _ v0 h0 =>
        have := ih hs w' hw' v0 h0 suf
        rw [fillThrift] at this
        rw [fillThrift, fillTy, Rd.bind_ok this]; rfl
    | rc u ih =>
      intro hs w hw v0 h0 suf
      obtain ⟨w', rfl, hw'⟩ := mig_rc_right hw
      cases h0 with
      | rc _ v0 h0 =>
        have := ih hs w' hw' v0 h0 suf
        rw [fillThrift] at this
        rw [fillThrift, fillTy, if_neg (by simp), Rd.bind_ok this]; rfl
    | _ => exact hbase _ rfl
  have hleaf : ∀ {t v p}, isLeaf t = true → Enc env₂ (HeaderOk cfg.overflowChecks) (.value t v) p → HasTy env₂ v t → v.unshare = v →
      ∀ u, tyTo ρ env₁ t u = true → ∀ w, Mig ρ env₁ env₂ t u v w → ∀ v0, Fillable env₂ u v0 → ∀ suf,
      fillThrift cfg (sliceInput cfg) env₂ u v0 (p ++ suf) = .ok (w, suf) := by
    intro t v p hl he hv hu
    refine hptr ?_
    intro u hp hs w hw v0 h0 suf
    have : u = t ∧ w = v := by
      cases hw <;> first | exact ⟨rfl, rfl⟩ | (simp [isPtr] at hp; done) | simp [isLeaf] at hl
    obtain ⟨rfl, rfl⟩ := this
    have := (C22_fill (cfg := cfg) ha hs₂ hv h0 he suf).1
    rwa [hu] at this
  induction h with
  | bool b => exact fun _ _ => hleaf rfl (.bool _) (.bool _) (by simp [Val.unshare])
  | i8 x => exact fun _ _ => hleaf rfl (.i8 _) (.i8 _) (by simp [Val.unshare])
  | i16 x => exact fun _ _ => hleaf rfl (.i16 _) (.i16 _) (by simp [Val.unshare])
  | i32 x => exact fun _ _ => hleaf rfl (.i32 _) (.i32 _) (by simp [Val.unshare])
  | i64 x => exact fun _ _ => hleaf rfl (.i64 _) (.i64 _) (by simp [Val.unshare])
  | double x => exact fun _ _ => hleaf rfl (.double _) (.double _) (by simp [Val.unshare])
  | binary bs h => exact fun _ _ => hleaf rfl (.binary _ h) (.binary _) (by simp [Val.unshare])
  | string bs h =>
    intro _ hv
    cases hv with
    | string _ hu => exact hleaf rfl (.string _ h) (.string _ hu) (by simp [Val.unshare])
  | encodingSet mask =>
    intro _ hv
    cases hv with
    | encodingSet _ hm => exact hleaf rfl (.encodingSet _) (.encodingSet _ hm) (by simp [Val.unshare])
  | list t vs p hl hp ih =>
    intro ht hv
    refine hptr ?_
    intro u hpu hs w hw v0 _ suf
    have ht' : tyClosed env₁ t = true := ht
    cases hv with
    | list _ _ hv =>
      cases hw with
      | leaf _ _ h => simp [isLeaf] at h
      | box => simp [isPtr] at hpu
      | rc => simp [isPtr] at hpu
      | list _ u _ ws hlw hc =>
        have hs' : tyTo ρ env₁ t u = true := hs
        rw [fillThrift, fillTy, List.append_assoc, Rd.bind_ok (readCollection_write cfg _ _ _ (by have := wireType_range env₁ t; omega) hl)]
        simp only [wireType_eq, tyTo_wireType hev hs' ht', ne_eq, not_true, false_and, if_false, ha _ hl]
        rw [Rd.bind_ok (ih ht' hv u hs' ws hlw hc suf _ ?_)]
        · rfl
        · simp only [sliceInput, List.length_append]; omega
      | encodings _ mask _ xs het hlx hx hm =>
        have hpe := enc_enumVals hp hlx hx
        obtain ⟨mask', h1, h2⟩ := C39_read_set cfg env₂ (xs.map fun x => (varint (zigzag x.toInt), x)) (by simpa [hlx] using hl) (by
          intro q hq
          obtain ⟨x, hxm, rfl⟩ := List.mem_map.1 hq
          exact ⟨varint_isVarint _, varint_zigzag_length (by omega) (by omega) _, leb_zigzag_mod (by omega) _, by
            have := hm.1 x hxm
            unfold InRange; omega⟩)
        rw [List.map_map, show ((·.2) ∘ fun x : BitVec 32 => (varint (zigzag x.toInt), x)) = id from rfl, List.map_id] at h1
        obtain rfl : mask = mask' := IsSetOf.unique (xs := xs) hm.2 h1
        have h3 := (h2 suf).1
        rw [List.length_map, List.flatMap_map] at h3
        rw [wireType_enum het, hpe, ← hlx]
        dsimp only [readThrift] at h3
        rw [fillThrift, fillTy] at h3 ⊢
        exact h3
  | some t v p hp ih =>
    intro ht hv
    refine hptr ?_
    intro u hpu hs w hw v0 h0 suf
    cases hv with
    | some _ _ hv =>
      cases hw with
      | leaf _ _ h => simp [isLeaf] at h
      | box => simp [isPtr] at hpu
      | rc => simp [isPtr] at hpu
      | some _ u _ w hc =>
        cases h0 with
        | none _ =>
          have hs' : tyTo ρ env₁ t u = true := hs
          have := ih ht hv u hs' w hc _ (hdflt hs' ht) suf
          rw [fillThrift] at this
          rw [fillThrift, fillTy, Rd.bind_ok this]; rfl
  | box t v p hp ih =>
    intro ht hv u hs w hw v0 h0 suf
    cases hv with
    | box _ _ hv => exact ih ht hv u hs w (mig_box_left hw) v0 h0 suf
  | rc t b v p hp ih =>
    intro ht hv u hs w hw v0 h0 suf
    cases hv with
    | rc _ _ _ hv => exact ih ht hv u hs w (mig_rc_left hw) v0 h0 suf
  | enum k name x hk =>
    intro ht hv
    refine hptr ?_
    intro u hpu hs w hw v0 h0 suf
    obtain ⟨e, hk', he⟩ := migrates_get hev hk
    cases e with
    | struct _ _ => simp [defMigrates] at he
    | union _ _ => simp [defMigrates] at he
    | enum name' =>
      cases hw with
      | leaf _ _ h => simp [isLeaf] at h
      | box => simp [isPtr] at hpu
      | rc => simp [isPtr] at hpu
      | enum =>
        have hx := (C22_fill (cfg := cfg) ha hs₂ (.enum (ρ k) name' x hk') h0 (.enum (ρ k) name' x hk') suf).1
        simpa [Val.unshare] using hx
  | struct k name fs vs p hk hp ih =>
    intro ht hv
    refine hptr ?_
    intro u hpu hs w hw v0 h0 suf
    have hok := hdef hs₁ k _ hk
    simp only [defOk, structOk, Bool.and_eq_true, decide_eq_true_eq, List.all_eq_true, Bool.not_eq_true'] at hok
    have hclk := hcl' k _ hk
    simp only [defClosed, List.all_eq_true] at hclk
    have hbk := hb' hb k _ hk
    simp only [defNoBoxedBool, List.all_eq_true, Bool.not_eq_true'] at hbk
    obtain ⟨e, hke, he⟩ := migrates_get hev hk
    cases hv with
    | struct _ _ fs' _ hk₁ hl hv =>
      rw [hk] at hk₁; obtain ⟨rfl, rfl⟩ : _ ∧ _ := by simpa using hk₁
      cases hw with
      | leaf _ _ h => simp [isLeaf] at h
      | box => simp [isPtr] at hpu
      | rc => simp [isPtr] at hpu
      | struct _ _ fs' name' gs _ ws hk₁ hk' hlw hc =>
        rw [hk] at hk₁; obtain ⟨rfl, rfl⟩ : _ ∧ _ := by simpa using hk₁
        rw [hke] at hk'; cases hk'
        have hok' := hdef hs₂ _ _ hke
        simp only [defOk, structOk, Bool.and_eq_true, decide_eq_true_eq, List.all_eq_true, Bool.not_eq_true'] at hok'
        have hbk' := hb' hb₂ _ _ hke
        simp only [defNoBoxedBool, List.all_eq_true, Bool.not_eq_true'] at hbk'
        simp only [defMigrates, Bool.and_eq_true, List.all_eq_true, Bool.or_eq_true, bne_iff_ne] at he
        have hty : ∀ {i : Nat} {f : Field} {j : Nat} {g : Field}, fs[i]? = some f → gs[j]? = some g → f.id = g.id → tyTo ρ env₁ f.ty g.ty = true := by
          intro i f j g hf hg hid
          rcases he.2 f (List.mem_of_getElem? hf) g (List.mem_of_getElem? hg) with h | h
          · exact absurd hid h
          · exact h
        cases h0 with
        | enum _ _ y hk₁ => rw [hke] at hk₁; cases hk₁
        | union _ _ _ _ _ hk₁ => rw [hke] at hk₁; cases hk₁
        | struct _ _ gs' v0s hk₁ hl0 h0 =>
          rw [hke] at hk₁; obtain ⟨rfl, rfl⟩ : _ ∧ _ := by simpa using hk₁
          rw [fillThrift_struct hI env₂ name' gs hke, List.append_assoc, List.singleton_append]
          refine ih (fun f hf => ⟨hclk f hf, hbk f hf, hok.2 f hf⟩) hok.1 hl hv name' gs ws hok'.1 hlw (fun g hg => ⟨hbk' g hg, hok'.2 g hg⟩) ?_ v0s _ ?_ suf
          · intro i f v hf hv' j g w hg hw hid
            cases hc j g w hg hw with
            | content _ _ i' f' _ v' w' hf' hid' hv'' hcv =>
              obtain rfl := field_unique hok.1 hf hf' (hid.trans hid'.symm)
              rw [hf] at hf'; cases hf'
              rw [hv'] at hv''; cases hv''
              exact ⟨hty hf hg hid, .inr ⟨v', w', rfl, rfl, hcv⟩⟩
            | unset _ _ i' f' _ hf' hid' hr hv'' hg' =>
              obtain rfl := field_unique hok.1 hf hf' (hid.trans hid'.symm)
              rw [hf] at hf'; cases hf'
              rw [hv'] at hv''; cases hv''
              exact ⟨hty hf hg hid, .inl ⟨hr, rfl, hg', rfl⟩⟩
            | added _ _ _ hno _ => exact absurd hid (hno f (List.mem_of_getElem? hf))
          · refine ⟨hl0, by simp, fun j g hg hno => ?_, fun j g hg _ x hx => h0 j g x hg hx⟩
            have hj := (List.getElem?_eq_some_iff.1 hg).1
            have hjw : ws[j]? = some ws[j] := List.getElem?_eq_getElem (by omega)
            have hjv : v0s[j]? = some v0s[j] := List.getElem?_eq_getElem (by omega)
            have h0j := h0 j g _ hg hjv
            have hcj := hc j g _ hg hjw
            rw [hjw, hjv]
            generalize ws[j] = wj at hcj
            generalize v0s[j] = vj at h0j
            cases hcj with
            | content _ _ i' f' _ v' w' hf' hid' => exact absurd hid' (hno f' (List.mem_of_getElem? hf'))
            | unset _ _ i' f' _ hf' hid' => exact absurd hid' (hno f' (List.mem_of_getElem? hf'))
            | added _ _ _ _ hr =>
              refine ⟨?_, by simp [hr]⟩
              rw [show g.rustTy = .option g.ty by simp [Field.rustTy, hr]] at h0j
              cases h0j; rfl
  | union k name us i u v p hk hu hp ih =>
    intro ht hv
    refine hptr ?_
    intro u' hpu hs w hw v0 h0 suf
    have hok := hdef hs₁ k _ hk
    simp only [defOk, unionOk, Bool.and_eq_true, decide_eq_true_eq, List.all_eq_true, Bool.not_eq_true', bne_iff_ne] at hok
    have hu2 := hok.2 u (List.mem_of_getElem? hu)
    have hclk := hcl' k _ hk
    simp only [defClosed, List.all_eq_true] at hclk
    have hcu := hclk u (List.mem_of_getElem? hu)
    have hbk := hb' hb k _ hk
    simp only [defNoBoxedBool, List.all_eq_true, Bool.not_eq_true'] at hbk
    obtain ⟨e, hke, he⟩ := migrates_get hev hk
    cases hv with
    | union _ _ us' _ u' _ hk₁ hu' hv =>
      rw [hk] at hk₁; obtain ⟨rfl, rfl⟩ : _ ∧ _ := by simpa using hk₁
      rw [hu] at hu'; cases hu'
      cases hw with
      | leaf _ _ h => simp [isLeaf] at h
      | box => simp [isPtr] at hpu
      | rc => simp [isPtr] at hpu
      | union _ _ us' name' xs _ j u' x _ w hk₁ hk' hu' hx hid hc =>
        rw [hk] at hk₁; obtain ⟨rfl, rfl⟩ : _ ∧ _ := by simpa using hk₁
        rw [hu] at hu'; cases hu'
        rw [hke] at hk'; cases hk'
        have hok' := hdef hs₂ _ _ hke
        simp only [defOk, unionOk, Bool.and_eq_true, decide_eq_true_eq, List.all_eq_true, Bool.not_eq_true', bne_iff_ne] at hok'
        have hbk' := hb' hb₂ _ _ hke
        simp only [defNoBoxedBool, List.all_eq_true, Bool.not_eq_true'] at hbk'
        have hx2 := hok'.2 x (List.mem_of_getElem? hx)
        simp only [defMigrates, List.all_eq_true, List.any_eq_true, Bool.and_eq_true, beq_iff_eq] at he
        have hty : tyTo ρ env₁ u.ty x.ty = true := by
          obtain ⟨x', hx', hid', h⟩ := he u (List.mem_of_getElem? hu)
          obtain ⟨j', hj'⟩ := List.getElem?_of_mem hx'
          have : j = j' := variant_unique hok'.1 hx hj' (hid.trans hid'.symm)
          subst this
          rw [hx] at hj'; cases hj'; exact h
        obtain ⟨ft, q, rfl, hh, hft0, hft, -, hr⟩ := (ih hcu hv (hbk u (List.mem_of_getElem? hu))).1 hu2.1
        cases h0 with
        | enum _ _ y hk₁ => rw [hke] at hk₁; cases hk₁
        | struct _ _ _ _ hk₁ _ _ => rw [hke] at hk₁; cases hk₁
        | union _ _ _ j0 w0 hk₁ =>
          refine (C32_ok_iff hI hke hok'.1 _ _ _ _ _).2 ⟨ft, j, x, w, q ++ ([0#8] ++ suf), [0#8] ++ suf, hx, ?_, hft0, ?_, rfl, rfl⟩
          · rw [hid, List.append_assoc, List.append_assoc]
            exact (readHeader_written cfg ft hft hft0 0#16 u.id _).2 hh
          · exact (hr x.ty hty (hbk' x (List.mem_of_getElem? hx)) hx2.1 w hc _ (hdflt hty hcu) _).2 hx2.2
  | elemsNil t =>
    intro _ _ u _ ws hl _ suf n _
    obtain rfl : ws = [] := by simpa using hl
    rfl
  | elemsCons t v vs p q hp hq ih1 ih2 =>
    intro ht hv u hs ws hl hc suf n hn
    cases ws with
    | nil => simp at hl
    | cons w ws =>
      have h1 := ih1 ht (hv v (by simp)) u hs w (hc 0 v w rfl rfl) _ (hdflt hs ht) (q ++ suf)
      rw [← fillTy_canon hI env₂ (n := n) (by simp [sliceInput] at hn ⊢; omega)] at h1
      have h2 := ih2 ht (fun w hw => hv w (by simp [hw])) u hs ws (by simpa using hl)
        (fun i a b ha hb => hc (i + 1) a b (by simpa using ha) (by simpa using hb)) suf n (by simp at hn ⊢; omega)
      rw [List.length_cons, fillElems, List.append_assoc, Rd.bind_ok h1, Rd.bind_ok h2]
      rfl
  | fieldBool b id last hh =>
    intro _ _ _
    refine ⟨fun _ => ⟨boolByte b, [], by simp, hh.1, by cases b <;> decide, by cases b <;> decide, fun suf => ?_, fun u hs hbu hou w hw v0 _ suf => ?_⟩,
      fun t' h => by cases h⟩
    · cases b <;> rfl
    · have : u = .bool := by
        have h1 := isBoolish_of_bare (sameBare_bool_left (ρ := ρ) (env₁ := env₁) (u := bare u) hs)
        cases u <;> first | rfl | (simp [isBoolish] at h1; done) | (simp [Ty.isOption] at hou; done) | (simp only [isBoolish, boxedBool] at h1 hbu; rw [h1] at hbu; cases hbu)
      subst this
      refine ⟨?_, fun h => absurd rfl h⟩
      cases hw
      cases b <;> rfl
  | fieldNone t id last =>
    intro _ _ _
    exact ⟨fun h => by simp [Ty.isOption] at h, fun _ _ _ => .inl ⟨rfl, rfl⟩⟩
  | fieldSome t v id last p hp ih =>
    intro ht hv hbb
    refine ⟨fun h => by simp [Ty.isOption] at h, fun t' h ht' => .inr ⟨v, rfl, ?_, ?_⟩⟩
    · cases h
      cases hp with
      | fieldBool => rfl
      | fieldNone => simp [Ty.isOption] at ht'
      | fieldSome => simp [Ty.isOption] at ht'
      | fieldValue _ _ _ _ _ _ h2 _ hp => exact present_of_enc hp h2
    · cases h
      cases hv with
      | some _ _ hv => exact (ih ht hv hbb).1 ht'
  | fieldValue t v id last p h1 h2 hh hp ih =>
    intro ht hv hbb
    have hr := wireType_range env₁ t
    refine ⟨fun _ => ⟨wireType env₁ t, p, rfl, hh.1, ?_, by omega, fun suf => ?_, fun u hs hbu hou w hw v0 h0 suf => ⟨?_, fun _ => ih ht hv u hs w hw v0 h0 suf⟩⟩,
      fun t' h => absurd h (h2 t')⟩
    · intro e; rw [e] at hr; simp at hr
    · exact ((skips_enc cfg hb (Enc.mono (fun _ _ h => h.2) hp)).2 (isBoolish_of_not_boxed t hbb h1 h2)).canon suf
    · have hu1 : u ≠ .bool := by
        rintro rfl
        have h3 := isBoolish_of_bare (sameBare_bool_right (ρ := ρ) (env₁ := env₁) (t := bare t) hs)
        rw [isBoolish_of_not_boxed t hbb h1 h2] at h3; cases h3
      have hu2 : ∀ u', u ≠ .option u' := by rintro u' rfl; simp [Ty.isOption] at hou
      unfold fillThriftField
      rw [fillField_value cfg _ env₂ _ v0 _ hu1 hu2, if_neg (by rw [wireType_eq, tyTo_wireType hev hs ht]; simp)]
      exact ih ht hv u hs w hw v0 h0 suf
  | fieldsNil last =>
    intro _ _ _ _ name gs ws _ hlw _ _ cur flags hpr suf
    rw [loopC_step hI env₂, List.nil_append, readHeader_stop cfg last suf]
    simp only [if_true]
    rw [firstMissing_none gs flags hpr.flagsLen fun i f hf hr => (hpr.done i f hf (by simp)).2 hr]
    have : cur = ws := by
      apply List.ext_getElem?
      intro j
      by_cases hj : j < gs.length
      · exact (hpr.done j _ (List.getElem?_eq_getElem hj) (by simp)).1
      · rw [List.getElem?_eq_none (by have := hpr.curLen; omega), List.getElem?_eq_none (by omega)]
    rw [this]
  | fieldsCons f fs v vs last p q hp hq ih1 ih2 =>
    intro hfs hnd hl hv name gs ws hndg hlw hgs hto cur flags hpr suf
    obtain ⟨hcf, hbf, hof⟩ := hfs f (by simp)
    rw [List.map_cons, List.nodup_cons] at hnd
    have hnf : ∀ f' ∈ fs, f'.id ≠ f.id := fun f' hf' h => hnd.1 (List.mem_map.2 ⟨f', hf', h⟩)
    have hvf := hv 0 f v rfl rfl
    have ih2' := ih2 (fun f' hf' => hfs f' (by simp [hf'])) hnd.2 (by simpa using hl)
      (fun i g w hg hw => hv (i + 1) g w (by simpa using hg) (by simpa using hw)) name gs ws hndg hlw hgs
      (fun i f v hf hv => hto (i + 1) f v (by simpa using hf) (by simpa using hv))
    have hcr : tyClosed env₁ f.rustTy = true := by unfold Field.rustTy; split <;> simpa [tyClosed] using hcf
    have hbr : boxedBool f.rustTy = false := by unfold Field.rustTy; split <;> simpa [boxedBool] using hbf
    -- either nothing is written or a field with content
    have key : (f.required = false ∧ v = .none ∧ p = []) ∨ ∃ v', v = (if f.required then v' else .some v') ∧ present v = true ∧
        FieldReadsTo ρ cfg env₁ env₂ f.ty v' p f.id last := by
      have hx := ih1 hcr hvf hbr
      unfold Field.rustTy at hx hvf hp
      cases hr : f.required with
      | true =>
        simp only [hr, if_true] at hx hvf hp
        refine .inr ⟨v, rfl, ?_, hx.1 hof⟩
        clear hx hvf ih1 hto hpr hcf hbf hcr hbr
        generalize f.ty = ft at hp hof
        cases hp with
        | fieldBool => rfl
        | fieldNone => simp [Ty.isOption] at hof
        | fieldSome => simp [Ty.isOption] at hof
        | fieldValue _ _ _ _ _ _ h2 _ hp => exact present_of_enc hp h2
      | false =>
        simp only [hr, Bool.false_eq_true, if_false] at hx
        rcases hx.2 _ rfl hof with ⟨rfl, rfl⟩ | ⟨v', rfl, hpv, h⟩
        · exact .inl ⟨rfl, rfl, rfl⟩
        · exact .inr ⟨v', rfl, hpv, h⟩
    rcases key with ⟨hr, rfl, rfl⟩ | ⟨v', hv', hpres, ft, q', rfl, hh, hft0, hft, hskip, hfill⟩
    · simp only [present, Bool.false_eq_true, if_false] at ih2'
      rw [List.nil_append]
      refine ih2' cur flags ⟨hpr.curLen, hpr.flagsLen, fun j g hg hno => ?_, fun j g hg ⟨f', hf', h⟩ => hpr.open_ j g hg ⟨f', by simp [hf'], h⟩⟩ suf
      by_cases hid : f.id = g.id
      · have hj := (List.getElem?_eq_some_iff.1 hg).1
        obtain ⟨w, hjw⟩ : ∃ w, ws[j]? = some w := ⟨_, List.getElem?_eq_getElem (h := by omega)⟩
        obtain ⟨c, hjc⟩ : ∃ c, cur[j]? = some c := ⟨_, List.getElem?_eq_getElem (h := by have := hpr.curLen; omega) ⟩
        have hop := hpr.open_ j g hg ⟨f, by simp, hid⟩ _ hjc
        rcases (hto 0 f .none rfl rfl j g _ hg hjw hid).2 with ⟨_, _, hgr, hw⟩ | ⟨v', w', hv', _, _⟩
        · rw [hjc, hjw, hw]
          rw [show g.rustTy = .option g.ty by simp [Field.rustTy, hgr]] at hop
          cases hop
          exact ⟨rfl, by simp [hgr]⟩
        · simp [hr] at hv'
      · exact hpr.done j g hg (by
          intro f' hf'
          rcases List.mem_cons.1 hf' with rfl | hf'
          · exact hid
          · exact hno f' hf')
    · rw [hpres, if_pos rfl] at ih2'
      rw [List.append_assoc, List.append_assoc, loopC_step hI env₂, (readHeader_written cfg ft hft hft0 last f.id _).2 hh]
      dsimp only
      rw [if_neg hft0]
      cases hff : findField gs f.id with
      | none =>
        dsimp only
        rw [hskip]
        dsimp only
        refine ih2' cur flags ⟨hpr.curLen, hpr.flagsLen, fun j g hg hno => hpr.done j g hg fun f' hf' => ?_,
          fun j g hg ⟨f', hf', h⟩ => hpr.open_ j g hg ⟨f', by simp [hf'], h⟩⟩ suf
        rcases List.mem_cons.1 hf' with rfl | hf'
        · exact fun h => findField_none.1 hff g (List.mem_of_getElem? hg) h.symm
        · exact hno f' hf'
      | some j =>
        obtain ⟨g, hg, hid⟩ := findField_get hff
        have hj := (List.getElem?_eq_some_iff.1 hg).1
        obtain ⟨w, hjw⟩ : ∃ w, ws[j]? = some w := ⟨_, List.getElem?_eq_getElem (h := by omega)⟩
        obtain ⟨c, hjc⟩ : ∃ c, cur[j]? = some c := ⟨_, List.getElem?_eq_getElem (h := by have := hpr.curLen; omega) ⟩
        have hop := hpr.open_ j g hg ⟨f, by simp, hid.symm⟩ _ hjc
        obtain ⟨hty, hcase⟩ := hto 0 f v rfl rfl j g _ hg hjw hid.symm
        have hread : fillThriftField cfg (sliceInput cfg) env₂ g.rustTy c ft (q' ++ (q ++ 0#8 :: suf)) = .ok (w, q ++ 0#8 :: suf) := by
          rcases hcase with ⟨_, rfl, _⟩ | ⟨v'', w', hv'', hw', hcv⟩
          · simp [present] at hpres
          · obtain rfl : v' = v'' := by
              rw [hv'] at hv''
              revert hv''; cases f.required <;> simp
            have hgg := hgs g (List.mem_of_getElem? hg)
            rw [hw']
            unfold Field.rustTy
            unfold Field.rustTy at hop
            cases hgr : g.required with
            | true =>
              simp only [hgr, if_true] at hop ⊢
              exact (hfill g.ty hty hgg.1 hgg.2 w' hcv _ hop _).1
            | false =>
              simp only [hgr, Bool.false_eq_true, if_false] at hop ⊢
              cases hop
              have := (hfill g.ty hty hgg.1 hgg.2 w' hcv _ (hdflt hty hcf) (q ++ 0#8 :: suf)).1
              unfold fillThriftField at this
              unfold fillThriftField
              rw [fillField, Rd.bind_ok this]
              rfl
        dsimp only
        rw [hg, hjc]
        dsimp only
        rw [hread]
        dsimp only
        refine ih2' _ _ ⟨by simp [hpr.curLen], by split <;> simp [hpr.flagsLen], fun j' g' hg' hno => ?_, fun j' g' hg' ⟨f', hf', h⟩ x hx => ?_⟩ suf
        · by_cases hjj : j = j'
          · subst hjj
            rw [hg] at hg'; cases hg'
            refine ⟨by rw [List.getElem?_set_self (by have := hpr.curLen; omega), hjw], fun hgr => ?_⟩
            rw [if_pos hgr, List.getElem?_set_self (by have := hpr.flagsLen; omega)]
          · have hd := hpr.done j' g' hg' (by
              intro f' hf' h
              rcases List.mem_cons.1 hf' with rfl | hf'
              · exact hjj (field_unique hndg hg hg' (hid.trans h))
              · exact hno f' hf' h)
            refine ⟨by rw [List.getElem?_set_ne hjj]; exact hd.1, fun hgr => ?_⟩
            split
            · rw [List.getElem?_set_ne hjj]; exact hd.2 hgr
            · exact hd.2 hgr
        · have hjj : j ≠ j' := by
            rintro rfl
            rw [hg] at hg'; cases hg'
            exact hnf f' hf' (h.trans hid)
          rw [List.getElem?_set_ne hjj] at hx
          exact hpr.open_ j' g' hg' ⟨f', by simp [hf'], h⟩ x hx

end CT
