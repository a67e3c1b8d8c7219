import Verif.Proofs.Migration
import Verif.Props.Evolution
import Verif.Props.Macros
import Verif.Model.ThriftTokens
/-! # C75: reading with another schema; data of parquet.thrift with the types of format.rs -/
namespace CT
open Spec Props

variable {ρ : Nat → Nat} {env₁ env₂ : List Def}

/-! ## Existence of the corresponding value -/

def MigItem (ρ : Nat → Nat) (env₁ env₂ : List Def) : EItem → Prop
  | .value t v => HasTy env₁ v t → smallEnums v → ∀ u, tyTo ρ env₁ t u = true → ∃ w, Mig ρ env₁ env₂ t u v w ∧ HasTy env₂ w u
  | .elems t vs => (∀ v ∈ vs, HasTy env₁ v t) → smallEnumsList vs → ∀ u, tyTo ρ env₁ t u = true → ∃ ws : List Val, ws.length = vs.length ∧
      (∀ (i : Nat) (v w : Val), vs[i]? = some v → ws[i]? = some w → Mig ρ env₁ env₂ t u v w) ∧ ∀ w ∈ ws, HasTy env₂ w u
  | .field t v _ _ => HasTy env₁ v t → smallEnums v →
      (Ty.isOption t = false → ∀ u, tyTo ρ env₁ t u = true → ∃ w, Mig ρ env₁ env₂ t u v w ∧ HasTy env₂ w u) ∧
      (∀ t', t = .option t' → Ty.isOption t' = false → v = .none ∨ ∃ v', v = .some v' ∧ ∀ u, tyTo ρ env₁ t' u = true →
        ∃ w, Mig ρ env₁ env₂ t' u v' w ∧ HasTy env₂ w u)
  | .fields fs vs _ => (∀ f ∈ fs, Ty.isOption f.ty = false) →
      (∀ (i : Nat) (f : Field) (v : Val), fs[i]? = some f → vs[i]? = some v → HasTy env₁ v f.rustTy) → smallEnumsAll vs →
      ∀ (i : Nat) (f : Field) (v : Val), fs[i]? = some f → vs[i]? = some v → (f.required = false ∧ v = .none) ∨
        ∃ v', v = (if f.required then v' else .some v') ∧ ∀ u, tyTo ρ env₁ f.ty u = true → ∃ w, Mig ρ env₁ env₂ f.ty u v' w ∧ HasTy env₂ w u

theorem enumVal_exists {env : List Def} : ∀ {t : Ty} {v : Val}, isEnumTy env (bare t) = true → HasTy env v t → ∃ x, EnumVal v x := by
  intro t
  induction t with
  | box t ih =>
    intro v h hv
    cases hv with
    | box _ v hv => obtain ⟨x, hx⟩ := ih h hv; exact ⟨x, .box _ _ hx⟩
  | rc t ih =>
    intro v h hv
    cases hv with
    | rc _ _ v hv => obtain ⟨x, hx⟩ := ih h hv; exact ⟨x, .rc _ _ _ hx⟩
  | named k =>
    intro v h hv
    simp only [bare, isEnumTy] at h
    cases hv with
    | enum _ _ x _ => exact ⟨x, .enum x⟩
    | struct _ _ _ _ hk => rw [hk] at h; cases h
    | union _ _ _ _ _ _ hk => rw [hk] at h; cases h
  | _ => intro v h; simp [bare, isEnumTy] at h

theorem enumVals_exist {env : List Def} {t : Ty} (ht : isEnumTy env (bare t) = true) : ∀ {vs : List Val}, (∀ v ∈ vs, HasTy env v t) → smallEnumsList vs →
    ∃ xs : List (BitVec 32), xs.length = vs.length ∧ (∀ (i : Nat) (v : Val) (x : BitVec 32), vs[i]? = some v → xs[i]? = some x → EnumVal v x) ∧
      ∀ x ∈ xs, 0 ≤ x.toInt ∧ x.toInt ≤ 30
  | [], _, _ => ⟨[], rfl, by simp, by simp⟩
  | v :: vs, hv, hs => by
    simp only [smallEnumsList] at hs
    obtain ⟨x, hx⟩ := enumVal_exists ht (hv v (by simp))
    obtain ⟨xs, hl, h1, h2⟩ := enumVals_exist ht (fun w hw => hv w (by simp [hw])) hs.2.2
    refine ⟨x :: xs, by simp [hl], fun i a b ha hb => ?_, fun y hy => ?_⟩
    · cases i with
      | zero => simp at ha hb; subst ha hb; exact hx
      | succ i => exact h1 i a b (by simpa using ha) (by simpa using hb)
    · rcases List.mem_cons.1 hy with rfl | hy
      · exact hs.2.1 _ hx
      · exact h2 y hy

theorem setOf_exists {xs : List (BitVec 32)} (h : ∀ x ∈ xs, 0 ≤ x.toInt ∧ x.toInt ≤ 30) : ∃ mask, SetOf mask xs ∧ mask.toNat < 2 ^ 31 := by
  have hr : ∀ x ∈ xs, InRange x := fun x hx => by have := h x hx; unfold InRange; omega
  have hs := foldl_isSetOf xs hr
  refine ⟨_, ⟨h, hs⟩, ?_⟩
  refine Nat.lt_pow_two_of_testBit _ fun i hi => ?_
  have hn := hs i
  rw [mem_members, getLsbD_eq_testBit] at hn
  rw [← Bool.not_eq_true]
  intro hb
  obtain ⟨x, hx, hxi⟩ := hn.1 hb
  have := h x hx
  omega

theorem mig_exists {ok : BitVec 16 → BitVec 16 → Prop} (hs₁ : schemaOk env₁ = true) (hev : migrates ρ env₁ env₂ = true)
    {i : EItem} {p : Bytes} (h : Enc env₁ ok i p) : MigItem ρ env₁ env₂ i := by
  have hdef : ∀ (k : Nat) (d : Def), env₁[k]? = some d → defOk d = true := by
    intro k d hk
    unfold schemaOk at hs₁; rw [Bool.and_eq_true, List.all_eq_true] at hs₁
    exact hs₁.1 d (List.mem_of_getElem? hk)
  have hptr : ∀ {t v}, (∀ u, isPtr u = false → tyTo ρ env₁ t u = true → ∃ w, Mig ρ env₁ env₂ t u v w ∧ HasTy env₂ w u) →
      ∀ u, tyTo ρ env₁ t u = true → ∃ w, Mig ρ env₁ env₂ t u v w ∧ HasTy env₂ w u := by
    intro t v hbase u
    induction u with
    | box u ih =>
      intro hs
      obtain ⟨w, h1, h2⟩ := ih hs
      exact ⟨_, .box _ _ _ _ h1, .box _ _ h2⟩
    | rc u ih =>
      intro hs
      obtain ⟨w, h1, h2⟩ := ih hs
      exact ⟨_, .rc _ _ _ _ h1, .rc _ _ _ h2⟩
    | _ => exact hbase _ rfl
  have hleaf : ∀ {t v}, isLeaf t = true → HasTy env₂ v t → ∀ u, tyTo ρ env₁ t u = true → ∃ w, Mig ρ env₁ env₂ t u v w ∧ HasTy env₂ w u := by
    intro t v hl hv
    refine hptr fun u hp hs => ?_
    have : u = t := by
      cases t <;> (first | (simp [isLeaf] at hl; done) | cases u <;> first | rfl | (simp [isPtr] at hp; done) | simp [tyTo, bare, sameBare, isLeaf] at hs)
    subst this
    exact ⟨v, .leaf _ _ hl, hv⟩
  have hnamed : ∀ {k u}, isPtr u = false → tyTo ρ env₁ (.named k) u = true → u = .named (ρ k) := by
    intro k u hp hs
    cases u <;> first | (simp [isPtr] at hp; done) | (simp [tyTo, bare, sameBare, isLeaf] at hs; done) | skip
    simp only [tyTo, bare, sameBare, beq_iff_eq] at hs
    rw [hs]
  induction h with
  | bool b => exact fun _ _ => hleaf rfl (.bool _)
  | i8 x => exact fun _ _ => hleaf rfl (.i8 _)
  | i16 x => exact fun _ _ => hleaf rfl (.i16 _)
  | i32 x => exact fun _ _ => hleaf rfl (.i32 _)
  | i64 x => exact fun _ _ => hleaf rfl (.i64 _)
  | double x => exact fun _ _ => hleaf rfl (.double _)
  | binary bs h => exact fun _ _ => hleaf rfl (.binary _)
  | string bs h =>
    intro hv _
    cases hv with
    | string _ hu => exact hleaf rfl (.string _ hu)
  | encodingSet mask =>
    intro hv _
    cases hv with
    | encodingSet _ hm => exact hleaf rfl (.encodingSet _ hm)
  | list t vs p hl hp ih =>
    intro hv hsm
    simp only [smallEnums] at hsm
    cases hv with
    | list _ _ hv =>
      refine hptr fun u hpu hs => ?_
      cases u <;> first | (simp [isPtr] at hpu; done) | (simp [tyTo, bare, sameBare, isLeaf] at hs; done) | skip
      · obtain ⟨xs, h1, h2, h3⟩ := enumVals_exist (t := t) (by simpa [tyTo, bare, sameBare] using hs) hv hsm
        obtain ⟨mask, h4, h5⟩ := setOf_exists h3
        exact ⟨_, .encodings t mask vs xs (by simpa [tyTo, bare, sameBare] using hs) h1 h2 h4, .encodingSet _ h5⟩
      · rename_i u
        obtain ⟨ws, hlw, hc, ht⟩ := ih hv hsm u (by simpa [tyTo, bare, sameBare] using hs)
        exact ⟨_, .list _ _ _ _ hlw hc, .list _ _ ht⟩
  | some t v p hp ih =>
    intro hv hsm
    simp only [smallEnums] at hsm
    cases hv with
    | some _ _ hv =>
      refine hptr fun u hpu hs => ?_
      cases u <;> first | (simp [isPtr] at hpu; done) | (simp [tyTo, bare, sameBare, isLeaf] at hs; done) | skip
      rename_i u
      obtain ⟨w, hc, ht⟩ := ih hv hsm u (by simpa [tyTo, bare, sameBare] using hs)
      exact ⟨_, .some _ _ _ _ hc, .some _ _ ht⟩
  | box t v p hp ih =>
    intro hv hsm u hs
    simp only [smallEnums] at hsm
    cases hv with
    | box _ _ hv =>
      obtain ⟨w, hc, ht⟩ := ih hv hsm u hs
      exact ⟨_, .unbox _ _ _ _ hc, ht⟩
  | rc t b v p hp ih =>
    intro hv hsm u hs
    simp only [smallEnums] at hsm
    cases hv with
    | rc _ _ _ hv =>
      obtain ⟨w, hc, ht⟩ := ih hv hsm u hs
      exact ⟨_, .unrc _ _ _ _ _ hc, ht⟩
  | enum k name x hk =>
    intro _ _
    refine hptr fun u hpu hs => ?_
    obtain rfl := hnamed hpu hs
    obtain ⟨e, hk', he⟩ := migrates_get hev hk
    cases e with
    | struct _ _ => simp [defMigrates] at he
    | union _ _ => simp [defMigrates] at he
    | enum name' => exact ⟨_, .enum _ _ _ hk, .enum _ _ _ hk'⟩
  | struct k name fs vs p hk hp ih =>
    intro hv hsm
    simp only [smallEnums] at hsm
    refine hptr fun u hpu hs => ?_
    obtain rfl := hnamed hpu hs
    have hok := hdef k _ hk
    simp only [defOk, structOk, Bool.and_eq_true, decide_eq_true_eq, List.all_eq_true, Bool.not_eq_true'] at hok
    obtain ⟨e, hk', he⟩ := migrates_get hev hk
    cases e with
    | enum _ => simp [defMigrates] at he
    | union _ _ => simp [defMigrates] at he
    | struct name' gs =>
      simp only [defMigrates, List.all_eq_true, Bool.or_eq_true, List.any_eq_true, Bool.and_eq_true, beq_iff_eq, Bool.not_eq_true', bne_iff_ne] at he
      cases hv with
      | struct _ _ fs' _ hk₁ hl hv =>
        rw [hk] at hk₁; obtain ⟨rfl, rfl⟩ : _ ∧ _ := by simpa using hk₁
        have hfs := ih hok.2 hv hsm
        obtain ⟨ws, hlw, hws⟩ := exists_list (P := fun g w => MigField ρ env₁ env₂ fs vs g w ∧ HasTy env₂ w g.rustTy) gs (by
          intro g hg
          rcases he.1 g hg with ⟨f, hf, hid, hreq⟩ | ⟨hr, hno⟩
          · obtain ⟨i, hi⟩ := List.getElem?_of_mem hf
            have hil := (List.getElem?_eq_some_iff.1 hi).1
            obtain ⟨v, hiv⟩ : ∃ v, vs[i]? = some v := ⟨_, List.getElem?_eq_getElem (h := by omega)⟩
            rcases hfs i f v hi hiv with ⟨hfr, rfl⟩ | ⟨v', rfl, hx⟩
            · have hgr : g.required = false := by
                rcases hreq with h | h
                · rw [hfr] at h; cases h
                · exact h
              refine ⟨.none, .unset _ _ i f g hi hid hfr hiv hgr, ?_⟩
              rw [show g.rustTy = .option g.ty by simp [Field.rustTy, hgr]]
              exact .none _
            · have hty : tyTo ρ env₁ f.ty g.ty = true := by
                rcases he.2 f hf g hg with h | h
                · exact absurd hid h
                · exact h
              obtain ⟨w, hc, ht⟩ := hx _ hty
              refine ⟨_, .content _ _ i f g v' w hi hid hiv hc, ?_⟩
              unfold Field.rustTy
              split
              · exact ht
              · exact .some _ _ ht
          · refine ⟨.none, .added _ _ g (fun f hf h => by simpa [h] using hno f hf) hr, ?_⟩
            rw [show g.rustTy = .option g.ty by simp [Field.rustTy, hr]]
            exact .none _)
        exact ⟨.struct ws, .struct _ _ _ _ _ _ _ hk hk' hlw fun j g w hg hw => (hws j g w hg hw).1,
          .struct _ _ _ _ hk' hlw fun j g w hg hw => (hws j g w hg hw).2⟩
  | union k name us i u v p hk hu hp ih =>
    intro hv hsm
    simp only [smallEnums] at hsm
    refine hptr fun u' hpu hs => ?_
    obtain rfl := hnamed hpu hs
    have hok := hdef k _ hk
    simp only [defOk, unionOk, Bool.and_eq_true, decide_eq_true_eq, List.all_eq_true, Bool.not_eq_true', bne_iff_ne] at hok
    obtain ⟨e, hk', he⟩ := migrates_get hev hk
    cases e with
    | enum _ => simp [defMigrates] at he
    | struct _ _ => simp [defMigrates] at he
    | union name' xs =>
      simp only [defMigrates, List.all_eq_true, List.any_eq_true, Bool.and_eq_true, beq_iff_eq] at he
      cases hv with
      | union _ _ us' _ u' _ hk₁ hu' hv =>
        rw [hk] at hk₁; obtain ⟨rfl, rfl⟩ : _ ∧ _ := by simpa using hk₁
        rw [hu] at hu'; cases hu'
        obtain ⟨x, hx, hid, hty⟩ := he u (List.mem_of_getElem? hu)
        obtain ⟨w, hc, ht⟩ := (ih hv hsm).1 (hok.2 u (List.mem_of_getElem? hu)).1 _ hty
        obtain ⟨j, hj⟩ := List.getElem?_of_mem hx
        exact ⟨_, .union _ _ _ _ _ i j u x _ _ hk hk' hu hj hid hc, .union _ _ _ _ _ _ hk' hj ht⟩
  | elemsNil t => exact fun _ _ _ _ => ⟨[], rfl, by simp, by simp⟩
  | elemsCons t v vs p q hp hq ih1 ih2 =>
    intro hv hsm u hs
    simp only [smallEnumsList] at hsm
    obtain ⟨w, hc, ht⟩ := ih1 (hv v (by simp)) hsm.1 u hs
    obtain ⟨ws, hl, hcs, hts⟩ := ih2 (fun w hw => hv w (by simp [hw])) hsm.2.2 u hs
    refine ⟨w :: ws, by simp [hl], fun i a b ha hb => ?_, fun x hx => ?_⟩
    · cases i with
      | zero => simp at ha hb; subst ha hb; exact hc
      | succ i => exact hcs i a b (by simpa using ha) (by simpa using hb)
    · rcases List.mem_cons.1 hx with rfl | hx
      · exact ht
      · exact hts x hx
  | fieldBool b id last hh => exact fun _ _ => ⟨fun _ => hleaf rfl (.bool _), fun t' h => by cases h⟩
  | fieldNone t id last => exact fun _ _ => ⟨fun h => by simp [Ty.isOption] at h, fun _ _ _ => .inl rfl⟩
  | fieldSome t v id last p hp ih =>
    intro hv hsm
    simp only [smallEnums] at hsm
    refine ⟨fun h => by simp [Ty.isOption] at h, fun t' h ht' => ?_⟩
    cases h
    cases hv with
    | some _ _ hv => exact .inr ⟨v, rfl, (ih hv hsm).1 ht'⟩
  | fieldValue t v id last p h1 h2 hh hp ih => exact fun hv hsm => ⟨fun _ => ih hv hsm, fun t' h => absurd h (h2 t')⟩
  | fieldsNil last => intro _ _ _ i f v hf; simp at hf
  | fieldsCons f fs v vs last p q hp hq ih1 ih2 =>
    intro hof hv hsm i f' v' hf' hv'
    simp only [smallEnumsAll] at hsm
    cases i with
    | succ i =>
      exact ih2 (fun f hf => hof f (by simp [hf])) (fun i g w hg hw => hv (i + 1) g w (by simpa using hg) (by simpa using hw)) hsm.2 i f' v'
        (by simpa using hf') (by simpa using hv')
    | zero =>
      simp at hf' hv'; subst hf' hv'
      have hx := ih1 (hv 0 f v rfl rfl) hsm.1
      have hof := hof f (by simp)
      unfold Field.rustTy at hx
      cases hr : f.required with
      | true =>
        simp only [hr, if_true] at hx
        exact .inr ⟨v, rfl, hx.1 hof⟩
      | false =>
        simp only [hr, Bool.false_eq_true, if_false] at hx
        rcases hx.2 _ rfl hof with h | ⟨v', rfl, h⟩
        · exact .inl ⟨rfl, h⟩
        · exact .inr ⟨v', rfl, h⟩

end CT

namespace CT.Props
open CT Spec

/-- C75, whole schemas: data written with the schema `env₁`, read as the type `u` of a schema `env₂` it migrates to, gives the corresponding value, on slices and
readers, in every build. The condition on enum values matters only where a list has become an `EncodingSet`. -/
theorem C75_migration {cfg : Cfg} (ha : AllocOk cfg) {ρ : Nat → Nat} {env₁ env₂ : List Def} (hs₁ : schemaOk env₁ = true) (hs₂ : schemaOk env₂ = true)
    (hcl : envClosed env₁ = true) (hev : migrates ρ env₁ env₂ = true) (hb : noBoxedBool env₁ = true) (hb₂ : noBoxedBool env₂ = true)
    (hst : stepsForward cfg.overflowChecks env₁ = true) {t u : Ty} (ht : tyClosed env₁ t = true) (hu : tyTo ρ env₁ t u = true) {v : Val}
    (hv : HasTy env₁ v t) (hsm : smallEnums v) {bytes : Bytes} (he : encode env₁ t v = .ok bytes) :
    ∃ w, Mig ρ env₁ env₂ t u v w ∧ HasTy env₂ w u ∧ ∀ suf, Reads cfg (fun I => readThrift cfg I env₂ u) bytes suf w := by
  obtain ⟨w, hc, hw⟩ := mig_exists hs₁ hev (enc_of_encode hv he) hv hsm u hu
  refine ⟨w, hc, hw, fun suf => ?_⟩
  have henc : ∀ ov, stepsForward ov env₁ = true → Enc env₁ (fun l i => HeaderOk ov l i ∧ Ascends l i) (.value t v) bytes := fun ov h =>
    enc_stepsWith (fun _ _ h => by simpa using h) hs₁ h (enc_of_encode hv he)
  refine Reads.of_slice_cond (generic_readThrift env₂ u) (C := fun ov al => stepsForward ov env₁ = true ∧ ∀ n, n ≤ 10000000 → al n = true)
    (fun cfg h => ?_) cfg ⟨hst, ha⟩
  have hd₂ : defaultsDefined env₂ = true := by
    unfold schemaOk at hs₂; rw [Bool.and_eq_true] at hs₂; exact hs₂.2
  exact readsTo hs₁ hs₂ hcl hev hb hb₂ h.2 (henc _ h.1) ht hv u hu w hc _ (fillable_dflt_closed hd₂ (tyTo_closed hev hu ht)) suf

/-- C75: and only the corresponding value, also when some list of enum values has elements outside 0..30. -/
theorem C75_migration_unique {cfg : Cfg} (ha : AllocOk cfg) {ρ : Nat → Nat} {env₁ env₂ : List Def} (hs₁ : schemaOk env₁ = true)
    (hs₂ : schemaOk env₂ = true) (hcl : envClosed env₁ = true) (hev : migrates ρ env₁ env₂ = true) (hb : noBoxedBool env₁ = true)
    (hb₂ : noBoxedBool env₂ = true) (hst : stepsForward cfg.overflowChecks env₁ = true) {t u : Ty} (ht : tyClosed env₁ t = true)
    (hu : tyTo ρ env₁ t u = true) {v : Val} (hv : HasTy env₁ v t) {bytes : Bytes} (he : encode env₁ t v = .ok bytes) {w : Val}
    (hc : Mig ρ env₁ env₂ t u v w) (suf : Bytes) : (readThrift cfg (sliceInput cfg) env₂ u) (bytes ++ suf) = .ok (w, suf) := by
  have hd₂ : defaultsDefined env₂ = true := by
    unfold schemaOk at hs₂; rw [Bool.and_eq_true] at hs₂; exact hs₂.2
  exact readsTo hs₁ hs₂ hcl hev hb hb₂ ha (enc_stepsWith (fun _ _ h => by simpa using h) hs₁ hst (enc_of_encode hv he)) ht hv u hu w hc _
    (fillable_dflt_closed hd₂ (tyTo_closed hev hu ht)) suf

/-! ## parquet.thrift and format.rs -/

/-- The definitions of parquet.thrift. -/
abbrev thriftEnv : List Def := Format.Thrift.env

/-- Definitions correspond by name. -/
def byName (k : Nat) : Nat := (Format.parquetEnv.map nameOf).idxOf ((thriftEnv.map nameOf).getD k "")

theorem thriftEnv_ok : thriftEnv.length = 60 ∧ schemaOk thriftEnv = true ∧ envClosed thriftEnv = true ∧ noBoxedBool thriftEnv = true ∧
    stepsForward true thriftEnv = true ∧ stepsForward false thriftEnv = true := by
  decide +kernel

theorem thrift_migrates : migrates byName thriftEnv Format.parquetEnv = true := by decide +kernel

theorem byName_name : ∀ k < 60, ∃ d e, thriftEnv[k]? = some d ∧ Format.parquetEnv[byName k]? = some e ∧ nameOf d = nameOf e := by
  have h : (List.range 60).all (fun k => match thriftEnv[k]?, Format.parquetEnv[byName k]? with
      | some d, some e => decide (nameOf d = nameOf e) | _, _ => false) = true := by decide +kernel
  intro k hk
  have := List.all_eq_true.1 h k (List.mem_range.2 hk)
  revert this
  cases h1 : thriftEnv[k]? <;> cases h2 : Format.parquetEnv[byName k]? <;> simp

/-- C75: data of any type of parquet.thrift, in this library's encoding, is read with the type of the same name in format.rs as the corresponding value: what format.rs has
too is kept, the rest is skipped, the new fields are `None`, and the list of encodings becomes the set of its members. -/
theorem C75_parquet {cfg : Cfg} (ha : AllocOk cfg) {k : Nat} (hk : k < 60) {v : Val} (hv : HasTy thriftEnv v (.named k)) (hsm : smallEnums v) {bytes : Bytes}
    (he : encode thriftEnv (.named k) v = .ok bytes) :
    (∃ d e, thriftEnv[k]? = some d ∧ Format.parquetEnv[byName k]? = some e ∧ nameOf d = nameOf e) ∧
    ∃ w, Mig byName thriftEnv Format.parquetEnv (.named k) (.named (byName k)) v w ∧ HasTy Format.parquetEnv w (.named (byName k)) ∧
      ∀ suf, Reads cfg (fun I => readThrift cfg I Format.parquetEnv (.named (byName k))) bytes suf w := by
  obtain ⟨h1, h2, h3, h4, h5, h6⟩ := thriftEnv_ok
  refine ⟨byName_name k hk, C75_migration ha h2 (by decide +kernel) h3 thrift_migrates h4 (by decide +kernel) ?_ ?_ ?_ hv hsm he⟩
  · cases cfg.overflowChecks
    · exact h6
    · exact h5
  · simp [tyClosed, h1, hk]
  · simp [tyTo, bare, sameBare]

/-- The `ColumnMetaData` of parquet.thrift: an INT32 column `a` with encodings RLE, PLAIN, RLE and an `index_page_offset`. -/
def columnVal : Val := .struct [.enum 1#32, .list [.enum 3#32, .enum 0#32, .enum 3#32], .list [.string [0x61#8]], .enum 0#32, .i64 7#64, .i64 8#64, .i64 5#64, .none,
  .i64 4#64, .some (.i64 9#64), .none, .none, .none, .none, .none, .none]

/-- The same in format.rs: no path, no `index_page_offset`, the set of 0 and 3. -/
def columnVal' : Val := .struct [.enum 1#32, .encodingSet 0x9#32, .enum 0#32, .i64 7#64, .i64 8#64, .i64 5#64, .none, .i64 4#64, .none, .none, .none, .none, .none, .none, .none]

theorem thriftEnv_column : thriftEnv[0]? = some (.enum "Type") ∧ thriftEnv[25]? = some (.enum "Encoding") ∧ thriftEnv[26]? = some (.enum "CompressionCodec") ∧
    byName 0 = 0 ∧ byName 26 = 5 ∧ byName 44 = 50 ∧ thriftEnv[44]? = some (.struct "ColumnMetaData"
    [⟨1, true, "type", .named 0⟩, ⟨2, true, "encodings", .list (.named 25)⟩, ⟨3, true, "path_in_schema", .list .string⟩, ⟨4, true, "codec", .named 26⟩,
     ⟨5, true, "num_values", .i64⟩, ⟨6, true, "total_uncompressed_size", .i64⟩, ⟨7, true, "total_compressed_size", .i64⟩,
     ⟨8, false, "key_value_metadata", .list (.named 41)⟩, ⟨9, true, "data_page_offset", .i64⟩, ⟨10, false, "index_page_offset", .i64⟩,
     ⟨11, false, "dictionary_page_offset", .i64⟩, ⟨12, false, "statistics", .named 4⟩, ⟨13, false, "encoding_stats", .list (.named 43)⟩,
     ⟨14, false, "bloom_filter_offset", .i64⟩, ⟨15, false, "bloom_filter_length", .i32⟩, ⟨16, false, "size_statistics", .named 3⟩]) := by
  decide +kernel

theorem columnVal_typed : HasTy thriftEnv columnVal (.named 44) := by
  obtain ⟨h0, h25, h26, -, -, -, h44⟩ := thriftEnv_column
  unfold columnVal
  refine .struct _ _ _ _ h44 rfl fun i f v hf hv => ?_
  match i with
  | 0 => simp at hf hv; subst hf hv; exact .enum _ _ _ h0
  | 1 =>
    simp at hf hv; subst hf hv
    refine .list _ _ fun v hv => ?_
    simp at hv
    rcases hv with rfl | rfl | rfl <;> exact .enum _ _ _ h25
  | 2 =>
    simp at hf hv; subst hf hv
    refine .list _ _ fun v hv => ?_
    simp at hv; subst hv; exact .string _ rfl
  | 3 => simp at hf hv; subst hf hv; exact .enum _ _ _ h26
  | 4 | 5 | 6 | 8 => simp at hf hv; subst hf hv; exact .i64 _
  | 7 | 10 | 11 | 12 | 13 | 14 | 15 => simp at hf hv; subst hf hv; exact .none _
  | 9 => simp at hf hv; subst hf hv; exact .some _ _ (.i64 _)
  | i + 16 => simp at hf

/-- What becomes of it. -/
example : smallEnums columnVal ∧ Mig byName thriftEnv Format.parquetEnv (.named 44) (.named (byName 44)) columnVal columnVal' := by
  obtain ⟨h0, h25, h26, b0, b26, b44, h44⟩ := thriftEnv_column
  constructor
  · have he : ∀ x y, EnumVal (.enum x) y → y = x := fun x y h => by cases h; rfl
    simp only [columnVal, smallEnums, smallEnumsAll, smallEnumsList, true_and, and_true]
    refine ⟨⟨?_, ?_, ?_⟩, ?_⟩
    · intro x h; rw [he _ _ h]; decide
    · intro x h; rw [he _ _ h]; decide
    · intro x h; rw [he _ _ h]; decide
    · intro x h; cases h
  · have hm : SetOf 0x9#32 [3#32, 0#32, 3#32] := by
      have e3 : (3#32 : BitVec 32).toInt = 3 := rfl
      have e0 : (0#32 : BitVec 32).toInt = 0 := rfl
      refine ⟨fun x hx => ?_, fun i => ?_⟩
      · rcases List.mem_cons.1 hx with rfl | hx
        · omega
        · rcases List.mem_cons.1 hx with rfl | hx
          · omega
          · obtain rfl := List.mem_singleton.1 hx
            omega
      · rw [show members 0x9#32 = [0, 3] from rfl]
        simp only [List.mem_cons, List.not_mem_nil, or_false, exists_eq_or_imp, exists_eq_left, e3, e0]
        omega
    unfold columnVal columnVal'
    refine .struct _ _ _ "ColumnMetaData" _ _ _ h44 (by rw [b44]; rfl) rfl fun j g w hg hw => ?_
    match j with
    | 0 =>
      simp at hg hw; subst hg hw
      refine .content _ _ 0 _ _ _ _ rfl rfl rfl ?_
      have := Mig.enum (ρ := byName) (env₁ := thriftEnv) (env₂ := Format.parquetEnv) 0 _ 1#32 h0
      rwa [b0] at this
    | 1 =>
      simp at hg hw; subst hg hw
      refine .content _ _ 1 _ _ _ _ rfl rfl rfl (.encodings _ _ _ [3#32, 0#32, 3#32] ?_ rfl ?_ hm)
      · simp [bare, isEnumTy, h25]
      · intro i v x hv hx
        match i with
        | 0 | 1 | 2 => simp at hv hx; subst hv hx; exact .enum _
        | i + 3 => simp at hv
    | 2 =>
      simp at hg hw; subst hg hw
      refine .content _ _ 3 _ _ _ _ rfl rfl rfl ?_
      have := Mig.enum (ρ := byName) (env₁ := thriftEnv) (env₂ := Format.parquetEnv) 26 _ 0#32 h26
      rwa [b26] at this
    | 3 => simp at hg hw; subst hg hw; exact .content _ _ 4 _ _ _ _ rfl rfl rfl (.leaf _ _ rfl)
    | 4 => simp at hg hw; subst hg hw; exact .content _ _ 5 _ _ _ _ rfl rfl rfl (.leaf _ _ rfl)
    | 5 => simp at hg hw; subst hg hw; exact .content _ _ 6 _ _ _ _ rfl rfl rfl (.leaf _ _ rfl)
    | 6 => simp at hg hw; subst hg hw; exact .unset _ _ 7 _ _ rfl rfl rfl rfl rfl
    | 7 => simp at hg hw; subst hg hw; exact .content _ _ 8 _ _ _ _ rfl rfl rfl (.leaf _ _ rfl)
    | 8 => simp at hg hw; subst hg hw; exact .unset _ _ 10 _ _ rfl rfl rfl rfl rfl
    | 9 => simp at hg hw; subst hg hw; exact .unset _ _ 11 _ _ rfl rfl rfl rfl rfl
    | 10 => simp at hg hw; subst hg hw; exact .unset _ _ 12 _ _ rfl rfl rfl rfl rfl
    | 11 => simp at hg hw; subst hg hw; exact .unset _ _ 13 _ _ rfl rfl rfl rfl rfl
    | 12 => simp at hg hw; subst hg hw; exact .unset _ _ 14 _ _ rfl rfl rfl rfl rfl
    | 13 => simp at hg hw; subst hg hw; exact .unset _ _ 15 _ _ rfl rfl rfl rfl rfl
    | 14 => simp at hg hw; subst hg hw; exact .added _ _ _ (by decide) rfl
    | j + 15 => simp at hg

/-- The bytes of `columnVal'`. -/
def columnBytes : Bytes := [0x15#8, 0x02#8, 0x19#8, 0x25#8, 0x00#8, 0x06#8, 0x25#8, 0x00#8, 0x16#8, 0x0e#8, 0x16#8, 0x10#8, 0x16#8, 0x0a#8, 0x26#8, 0x08#8, 0x00#8]

/-- The converse of C75 is false: what format.rs writes is not always readable with the definitions of parquet.thrift. A `ColumnMetaData` lacks the required
`path_in_schema`. -/
theorem C75_counterexample_back (ov sse : Bool) : encode Format.parquetEnv (.named 50) columnVal' = .ok columnBytes ∧
    Fails ⟨ov, sse, fun _ => true⟩ (fun I => readThrift ⟨ov, sse, fun _ => true⟩ I thriftEnv (.named 44)) columnBytes (.err (.missingField "ColumnMetaData::path_in_schema")) := by
  constructor
  · have hv : ∀ n, n < 128 → varint n = [BitVec.ofNat 8 n] := fun n h => by rw [varint, if_pos h]
    unfold columnVal'
    rw [encode_of_enc (ok := anyStep) (.struct _ _ _ _ _ rfl
      (.fieldsCons _ _ _ _ _ _ _ (.fieldValue (.named 0) _ _ _ _ (by simp) (by simp) trivial (.enum _ _ _ rfl))
      (.fieldsCons _ _ _ _ _ _ _ (.fieldValue .encodingSet _ _ _ _ (by simp) (by simp) trivial (.encodingSet _))
      (.fieldsCons _ _ _ _ _ _ _ (.fieldValue (.named 5) _ _ _ _ (by simp) (by simp) trivial (.enum _ _ _ rfl))
      (.fieldsCons _ _ _ _ _ _ _ (.fieldValue .i64 _ _ _ _ (by simp) (by simp) trivial (.i64 _))
      (.fieldsCons _ _ _ _ _ _ _ (.fieldValue .i64 _ _ _ _ (by simp) (by simp) trivial (.i64 _))
      (.fieldsCons _ _ _ _ _ _ _ (.fieldValue .i64 _ _ _ _ (by simp) (by simp) trivial (.i64 _))
      (.fieldsCons _ _ _ _ _ _ _ (.fieldNone _ _ _)
      (.fieldsCons _ _ _ _ _ _ _ (.fieldValue .i64 _ _ _ _ (by simp) (by simp) trivial (.i64 _))
      (.fieldsCons _ _ _ _ _ _ _ (.fieldNone _ _ _) (.fieldsCons _ _ _ _ _ _ _ (.fieldNone _ _ _) (.fieldsCons _ _ _ _ _ _ _ (.fieldNone _ _ _)
      (.fieldsCons _ _ _ _ _ _ _ (.fieldNone _ _ _) (.fieldsCons _ _ _ _ _ _ _ (.fieldNone _ _ _) (.fieldsCons _ _ _ _ _ _ _ (.fieldNone _ _ _)
      (.fieldsCons _ _ _ _ _ _ _ (.fieldNone _ _ _) (.fieldsNil _)))))))))))))))))]
    rw [show members 0x9#32 = [0, 3] from rfl]
    rw [List.flatMap_cons, List.flatMap_cons, List.flatMap_nil, hv (zigzag (1#32).toInt) (by decide), hv (zigzag (0#32).toInt) (by decide), hv (zigzag ((0 : Nat) : Int)) (by decide),
      hv (zigzag ((3 : Nat) : Int)) (by decide), hv (zigzag (7#64).toInt) (by decide), hv (zigzag (8#64).toInt) (by decide), hv (zigzag (5#64).toInt) (by decide),
      hv (zigzag (4#64).toInt) (by decide)]
    rfl
  · refine Fails.of_slice_cond (f := fun c _ I => readThrift c I thriftEnv (.named 44)) (C := fun _ al => al = fun _ => true)
      (generic_readThrift thriftEnv (.named 44)) (by simp) (fun cfg h => ?_) ⟨ov, sse, fun _ => true⟩ rfl
    obtain ⟨ov, sse, al⟩ := cfg
    obtain rfl : al = fun _ => true := h
    cases ov <;> cases sse <;> rfl

end CT.Props
