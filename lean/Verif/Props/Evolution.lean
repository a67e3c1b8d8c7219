import Verif.Proofs.Evolution
import Verif.Props.Wire
import Verif.Props.Header
/-! # C29: unknown fields and changed schemas -/
namespace CT
open Spec Props

/-! ## Existence of the corresponding value -/

def ConvItem (env₁ env₂ : List Def) : EItem → Prop
  | .value t v => HasTy env₁ v t → ∃ w, Conv env₁ env₂ t v w ∧ HasTy env₂ w t
  | .elems t vs => (∀ v ∈ vs, HasTy env₁ v t) → ∃ ws : List Val, ws.length = vs.length ∧
      (∀ (i : Nat) (v w : Val), vs[i]? = some v → ws[i]? = some w → Conv env₁ env₂ t v w) ∧ ∀ w ∈ ws, HasTy env₂ w t
  | .field t v _ _ => HasTy env₁ v t → (Ty.isOption t = false → ∃ w, Conv env₁ env₂ t v w ∧ HasTy env₂ w t) ∧
      (∀ t', t = .option t' → Ty.isOption t' = false → v = .none ∨ ∃ v' w, v = .some v' ∧ Conv env₁ env₂ t' v' w ∧ HasTy env₂ w t')
  | .fields fs vs _ => (∀ f ∈ fs, Ty.isOption f.ty = false) →
      (∀ (i : Nat) (f : Field) (v : Val), fs[i]? = some f → vs[i]? = some v → HasTy env₁ v f.rustTy) →
      ∀ (i : Nat) (f : Field) (v : Val), fs[i]? = some f → vs[i]? = some v → (f.required = false ∧ v = .none) ∨
        ∃ v' w, v = (if f.required then v' else .some v') ∧ Conv env₁ env₂ f.ty v' w ∧ HasTy env₂ w f.ty

theorem exists_list {α β : Type} {P : α → β → Prop} : ∀ (as : List α), (∀ a ∈ as, ∃ b, P a b) →
    ∃ bs : List β, bs.length = as.length ∧ ∀ (i : Nat) (a : α) (b : β), as[i]? = some a → bs[i]? = some b → P a b
  | [], _ => ⟨[], rfl, by simp⟩
  | a :: as, h => by
    obtain ⟨b, hb⟩ := h a (by simp)
    obtain ⟨bs, hl, hbs⟩ := exists_list as fun a ha => h a (by simp [ha])
    refine ⟨b :: bs, by simp [hl], fun i x y hx hy => ?_⟩
    cases i with
    | zero => simp at hx hy; subst hx hy; exact hb
    | succ i => exact hbs i x y (by simpa using hx) (by simpa using hy)

theorem conv_exists {env₁ env₂ : List Def} {ok : BitVec 16 → BitVec 16 → Prop} (hs₁ : schemaOk env₁ = true) (hev : evolves env₁ env₂ = true)
    {i : EItem} {p : Bytes} (h : Enc env₁ ok i p) : ConvItem env₁ env₂ i := by
  have hdef : ∀ (k : Nat) (d : Def), env₁[k]? = some d → defOk d = true := by
    intro k d hk
    unfold schemaOk at hs₁; rw [Bool.and_eq_true, List.all_eq_true] at hs₁
    exact hs₁.1 d (List.mem_of_getElem? hk)
  induction h with
  | bool b => exact fun _ => ⟨_, .leaf _ _ rfl, .bool _⟩
  | i8 x => exact fun _ => ⟨_, .leaf _ _ rfl, .i8 _⟩
  | i16 x => exact fun _ => ⟨_, .leaf _ _ rfl, .i16 _⟩
  | i32 x => exact fun _ => ⟨_, .leaf _ _ rfl, .i32 _⟩
  | i64 x => exact fun _ => ⟨_, .leaf _ _ rfl, .i64 _⟩
  | double x => exact fun _ => ⟨_, .leaf _ _ rfl, .double _⟩
  | binary bs h => exact fun _ => ⟨_, .leaf _ _ rfl, .binary _⟩
  | string bs h =>
    intro hv
    cases hv with
    | string _ hu => exact ⟨_, .leaf _ _ rfl, .string _ hu⟩
  | encodingSet mask =>
    intro hv
    cases hv with
    | encodingSet _ hm => exact ⟨_, .leaf _ _ rfl, .encodingSet _ hm⟩
  | list t vs p hl hp ih =>
    intro hv
    cases hv with
    | list _ _ hv =>
      obtain ⟨ws, hlw, hc, ht⟩ := ih hv
      exact ⟨_, .list _ _ _ hlw hc, .list _ _ ht⟩
  | some t v p hp ih =>
    intro hv
    cases hv with
    | some _ _ hv =>
      obtain ⟨w, hc, ht⟩ := ih hv
      exact ⟨_, .some _ _ _ hc, .some _ _ ht⟩
  | box t v p hp ih =>
    intro hv
    cases hv with
    | box _ _ hv =>
      obtain ⟨w, hc, ht⟩ := ih hv
      exact ⟨_, .box _ _ _ hc, .box _ _ ht⟩
  | rc t b v p hp ih =>
    intro hv
    cases hv with
    | rc _ _ _ hv =>
      obtain ⟨w, hc, ht⟩ := ih hv
      exact ⟨_, .rc _ _ _ _ hc, .rc _ _ _ ht⟩
  | enum k name x hk =>
    intro _
    obtain ⟨e, hk', he⟩ := evolves_get hev hk
    cases e with
    | struct _ _ => simp [defEvolves] at he
    | union _ _ => simp [defEvolves] at he
    | enum name' => exact ⟨_, .enum _ _ _ hk, .enum _ _ _ hk'⟩
  | struct k name fs vs p hk hp ih =>
    intro hv
    have hok := hdef k _ hk
    simp only [defOk, structOk, Bool.and_eq_true, decide_eq_true_eq, List.all_eq_true, Bool.not_eq_true'] at hok
    obtain ⟨e, hk', he⟩ := evolves_get hev hk
    cases e with
    | enum _ => simp [defEvolves] at he
    | union _ _ => simp [defEvolves] at he
    | struct name' gs =>
      simp only [defEvolves, List.all_eq_true, Bool.or_eq_true, List.any_eq_true, Bool.and_eq_true, beq_iff_eq, Bool.not_eq_true', bne_iff_ne] at he
      cases hv with
      | struct _ _ fs' _ hk₁ hl hv =>
        rw [hk] at hk₁; obtain ⟨rfl, rfl⟩ : _ ∧ _ := by simpa using hk₁
        have hfs := ih hok.2 hv
        obtain ⟨ws, hlw, hws⟩ := exists_list (P := fun g w => ConvField env₁ env₂ fs vs g w ∧ HasTy env₂ w g.rustTy) gs (by
          intro g hg
          rcases he g hg with ⟨f, hf, ⟨hid, hty⟩, hreq⟩ | ⟨hr, hno⟩
          · obtain ⟨i, hi⟩ := List.getElem?_of_mem hf
            have hil := (List.getElem?_eq_some_iff.1 hi).1
            obtain ⟨v, hiv⟩ : ∃ v, vs[i]? = some v := ⟨_, List.getElem?_eq_getElem (h := by omega)⟩
            rcases hfs i f v hi hiv with ⟨hfr, rfl⟩ | ⟨v', w, rfl, hc, ht⟩
            · have hgr : g.required = false := by
                rcases hreq with h | h
                · rw [hfr] at h; cases h
                · exact h
              refine ⟨.none, .unset _ _ i f g hi hid hty hfr hiv hgr, ?_⟩
              rw [show g.rustTy = .option g.ty by simp [Field.rustTy, hgr]]
              exact .none _
            · refine ⟨_, .content _ _ i f g v' w hi hid hty hiv (hty ▸ hc), ?_⟩
              unfold Field.rustTy
              split
              · exact hty ▸ ht
              · exact .some _ _ (hty ▸ ht)
          · refine ⟨.none, .added _ _ g (fun f hf h => by simpa [h] using hno f hf) hr, ?_⟩
            rw [show g.rustTy = .option g.ty by simp [Field.rustTy, hr]]
            exact .none _)
        exact ⟨.struct ws, .struct _ _ _ _ _ _ _ hk hk' hlw fun j g w hg hw => (hws j g w hg hw).1,
          .struct _ _ _ _ hk' hlw fun j g w hg hw => (hws j g w hg hw).2⟩
  | union k name us i u v p hk hu hp ih =>
    intro hv
    have hok := hdef k _ hk
    simp only [defOk, unionOk, Bool.and_eq_true, decide_eq_true_eq, List.all_eq_true, Bool.not_eq_true', bne_iff_ne] at hok
    obtain ⟨e, hk', he⟩ := evolves_get hev hk
    cases e with
    | enum _ => simp [defEvolves] at he
    | struct _ _ => simp [defEvolves] at he
    | union name' xs =>
      simp only [defEvolves, List.all_eq_true, List.any_eq_true, Bool.and_eq_true, beq_iff_eq] at he
      cases hv with
      | union _ _ us' _ u' _ hk₁ hu' hv =>
        rw [hk] at hk₁; obtain ⟨rfl, rfl⟩ : _ ∧ _ := by simpa using hk₁
        rw [hu] at hu'; cases hu'
        obtain ⟨w, hc, ht⟩ := (ih hv).1 (hok.2 u (List.mem_of_getElem? hu)).1
        obtain ⟨x, hx, hid, hty⟩ := he u (List.mem_of_getElem? hu)
        obtain ⟨j, hj⟩ := List.getElem?_of_mem hx
        exact ⟨_, .union _ _ _ _ _ i j u x _ _ hk hk' hu hj hid hty hc, .union _ _ _ _ _ _ hk' hj (hty ▸ ht)⟩
  | elemsNil t => exact fun _ => ⟨[], rfl, by simp, by simp⟩
  | elemsCons t v vs p q hp hq ih1 ih2 =>
    intro hv
    obtain ⟨w, hc, ht⟩ := ih1 (hv v (by simp))
    obtain ⟨ws, hl, hcs, hts⟩ := ih2 fun w hw => hv w (by simp [hw])
    refine ⟨w :: ws, by simp [hl], fun i a b ha hb => ?_, fun x hx => ?_⟩
    · cases i with
      | zero => simp at ha hb; subst ha hb; exact hc
      | succ i => exact hcs i a b (by simpa using ha) (by simpa using hb)
    · rcases List.mem_cons.1 hx with rfl | hx
      · exact ht
      · exact hts x hx
  | fieldBool b id last hh => exact fun _ => ⟨fun _ => ⟨_, .leaf _ _ rfl, .bool _⟩, fun t' h => by cases h⟩
  | fieldNone t id last => exact fun _ => ⟨fun h => by simp [Ty.isOption] at h, fun _ _ _ => .inl rfl⟩
  | fieldSome t v id last p hp ih =>
    intro hv
    refine ⟨fun h => by simp [Ty.isOption] at h, fun t' h ht' => ?_⟩
    cases h
    cases hv with
    | some _ _ hv =>
      obtain ⟨w, hc, ht⟩ := (ih hv).1 ht'
      exact .inr ⟨v, w, rfl, hc, ht⟩
  | fieldValue t v id last p h1 h2 hh hp ih => exact fun hv => ⟨fun _ => ih hv, fun t' h => absurd h (h2 t')⟩
  | fieldsNil last => intro _ _ i f v hf; simp at hf
  | fieldsCons f fs v vs last p q hp hq ih1 ih2 =>
    intro hof hv i f' v' hf' hv'
    cases i with
    | succ i =>
      exact ih2 (fun f hf => hof f (by simp [hf])) (fun i g w hg hw => hv (i + 1) g w (by simpa using hg) (by simpa using hw)) i f' v'
        (by simpa using hf') (by simpa using hv')
    | zero =>
      simp at hf' hv'; subst hf' hv'
      have hx := ih1 (hv 0 f v rfl rfl)
      have hof := hof f (by simp)
      unfold Field.rustTy at hx
      cases hr : f.required with
      | true =>
        simp only [hr, if_true] at hx
        obtain ⟨w, hc, ht⟩ := hx.1 hof
        exact .inr ⟨v, w, rfl, hc, ht⟩
      | false =>
        simp only [hr, Bool.false_eq_true, if_false] at hx
        rcases hx.2 _ rfl hof with h | ⟨v', w, rfl, hc, ht⟩
        · exact .inl ⟨rfl, h⟩
        · exact .inr ⟨v', w, rfl, hc, ht⟩

/-! ## Inserting a field -/

theorem generic_fillThriftField (env : List Def) (t : Ty) (v : Val) (ft : Byte) : Generic (fun c _ I => fillThriftField c I env t v ft) := by
  intro σ₁ σ₂ P c₁ c₂ I₁ I₂ hc hI
  exact Sim.fuel (F := fun n => CT.fillField c₁ I₁ env (CT.fillNamed c₁ I₁ env (n + 1)) t v ft)
    (G := fun n => CT.fillField c₂ I₂ env (CT.fillNamed c₂ I₂ env (n + 1)) t v ft)
    hI.size fun n m hnm => Sim.fillField hc hI env (Sim.fillNamed hc hI env _ _ (by omega)) t v ft

theorem readHeader_proto (cfg : Cfg) (ft : Byte) (hft : ft.toNat < 16) (hft0 : ft ≠ 0#8) (id last : BitVec 16) (suf : Bytes) :
    (sliceInput cfg).readFieldHeader cfg last (protoHeader ft id last ++ suf) = .ok ((ft, id), suf) := by
  unfold protoHeader
  split
  · rename_i h
    refine (C09_form_independence cfg ft hft hft0 last id (id.toInt - last.toInt).toNat (by omega) (by omega) (by omega) _
      (varint_isVarint (zigzag id.toInt)) (varint_zigzag_length (by omega) (by omega) _) (leb_zigzag_mod (by omega) _).symm suf).1.1
  · rw [List.cons_append, readHeader_long cfg last ft _ hft hft0,
      readFullFieldId_varint cfg _ suf (varint_isVarint _) (varint_zigzag_length (by omega) (by omega) _) id (leb_zigzag_mod (by omega) _)]

/-- What was met does not depend on what follows. -/
theorem met_local {cfg : Cfg} {env : List Def} (name : String) {fs : List Field} (hn : (fs.map (·.id)).Nodup) {last last' : BitVec 16}
    {s s' : Bytes} {vs vs' : List Val} {occs : List (Occ Bytes)} (h : Met cfg (sliceInput cfg) env fs last s vs occs last' s' vs') :
    ∃ a, s = a ++ s' ∧ ∀ flags, ∃ flags', ∀ r,
      loopC cfg (sliceInput cfg) env name fs last flags vs (a ++ r) = loopC cfg (sliceInput cfg) env name fs last' flags' vs' r := by
  have hI := slice_measured_nd cfg
  have hnd : ∀ {α : Type} (x : Rd Bytes α), (∀ n, Tri (fun s => s.length ≤ n) x (fun _ _ => True) notDiverge) → ∀ s, x s ≠ .error .diverge :=
    fun x hx s h => (hx s.length).error (Nat.le_refl _) h rfl
  induction h with
  | nil last s vs => exact ⟨[], rfl, fun flags => ⟨flags, fun r => rfl⟩⟩
  | known last s vs ft id s₁ i f v v' s₂ occs last' s' vs' hh hft hf hid hv hfill hr ih =>
    obtain ⟨a, rfl, ha⟩ := ih
    obtain ⟨p, rfl, hp⟩ := slice_local (generic_readFieldHeader last) (hnd _ fun n =>
      (Tri.readFieldHeader (allowed_notDiverge cfg) hI n last).post fun _ _ _ => trivial) hh
    obtain ⟨q, rfl, hq⟩ := slice_local (generic_fillThriftField env f.rustTy v ft) (fun s h => by
      refine (Tri.fillField (allowed_notDiverge cfg) hI stuck_notDiverge env s.length
        (Tri.fillNamed (allowed_notDiverge cfg) hI stuck_notDiverge env (s.length + 1) s.length (by omega)) f.rustTy v ft).error
        (x := fillField cfg (sliceInput cfg) env (fillNamed cfg (sliceInput cfg) env (s.length + 1)) f.rustTy v ft) (Nat.le_refl _) h rfl) hfill
    refine ⟨p ++ (q ++ a), by simp, fun flags => ?_⟩
    obtain ⟨flags', hf'⟩ := ha (if f.required then flags.set i true else flags)
    refine ⟨flags', fun r => ?_⟩
    rw [loopC_step hI, show p ++ (q ++ a) ++ r = p ++ (q ++ (a ++ r)) by simp, hp]
    dsimp only
    rw [if_neg hft, ← hid, findField_some hn hf]
    dsimp only
    rw [hf, hv]
    dsimp only
    rw [hq]
    dsimp only
    rw [hid]
    exact hf' r
  | unknown last s vs ft id s₁ s₂ occs last' s' vs' hh hft hid hskip hr ih =>
    obtain ⟨a, rfl, ha⟩ := ih
    obtain ⟨p, rfl, hp⟩ := slice_local (generic_readFieldHeader last) (hnd _ fun n =>
      (Tri.readFieldHeader (allowed_notDiverge cfg) hI n last).post fun _ _ _ => trivial) hh
    obtain ⟨q, rfl, hq⟩ := slice_local (generic_skip ft false) (hnd _ fun n =>
      (Tri.skip (allowed_notDiverge cfg) hI ft false n).post fun _ _ _ => trivial) hskip
    refine ⟨p ++ (q ++ a), by simp, fun flags => ?_⟩
    obtain ⟨flags', hf'⟩ := ha flags
    refine ⟨flags', fun r => ?_⟩
    rw [loopC_step hI, show p ++ (q ++ a) ++ r = p ++ (q ++ (a ++ r)) by simp, hp]
    dsimp only
    rw [if_neg hft, findField_none.2 hid]
    dsimp only
    rw [hq]
    exact hf' r

end CT

namespace CT.Props
open CT Spec

variable {σ : Type} {cfg : Cfg} {env : List Def} {k : Nat} {name : String} {fs : List Field}

/-- C29, one field, in general: behind fields that were met, a field with an undeclared id and a payload that can be skipped makes no difference to the
outcome, be it a value or an error: the input with it and the input without it (where the next header refers to the field before) read the same. -/
theorem C29_insert_skippable (hk : env[k]? = some (.struct name fs)) (hn : (fs.map (·.id)).Nodup) {vs vs' : List Val} {a r₀ : Bytes}
    {occs : List (Occ Bytes)} {last : BitVec 16} (h : Met cfg (sliceInput cfg) env fs 0#16 (a ++ r₀) vs occs last r₀ vs') {ft : Byte}
    (hft : ft.toNat < 16) (hft0 : ft ≠ 0#8) {id : BitVec 16} (hid : ∀ f ∈ fs, f.id ≠ id) {p : Bytes}
    (hp : ∀ suf, (sliceInput cfg).skip cfg ft false (p ++ suf) = .ok ((), suf)) (suf : Bytes) :
    (∀ (ft₂ : Byte) (id₂ : BitVec 16), ft₂.toNat < 16 → ft₂ ≠ 0#8 →
      fillThrift cfg (sliceInput cfg) env (.named k) (.struct vs) (a ++ (protoHeader ft id last ++ (p ++ (protoHeader ft₂ id₂ id ++ suf)))) =
      fillThrift cfg (sliceInput cfg) env (.named k) (.struct vs) (a ++ (protoHeader ft₂ id₂ last ++ suf))) ∧
    fillThrift cfg (sliceInput cfg) env (.named k) (.struct vs) (a ++ (protoHeader ft id last ++ (p ++ 0#8 :: suf))) =
      fillThrift cfg (sliceInput cfg) env (.named k) (.struct vs) (a ++ 0#8 :: suf) := by
  have hI := slice_measured_nd cfg
  obtain ⟨a', ha, hloc⟩ := met_local name hn h
  obtain rfl : a = a' := List.append_cancel_right ha
  obtain ⟨flags', hl⟩ := hloc (fs.map fun _ => false)
  have hskip : ∀ s, loopC cfg (sliceInput cfg) env name fs last flags' vs' (protoHeader ft id last ++ (p ++ s)) =
      loopC cfg (sliceInput cfg) env name fs id flags' vs' s := by
    intro s
    rw [loopC_step hI, readHeader_proto cfg ft hft hft0]
    dsimp only
    rw [if_neg hft0, findField_none.2 hid]
    dsimp only
    rw [hp]
  constructor
  · intro ft₂ id₂ h₂ h₂0
    rw [fillThrift_struct hI env name fs hk, fillThrift_struct hI env name fs hk, hl, hl, hskip, loopC_step hI, loopC_step hI,
      readHeader_proto cfg ft₂ h₂ h₂0, readHeader_proto cfg ft₂ h₂ h₂0]
  · rw [fillThrift_struct hI env name fs hk, fillThrift_struct hI env name fs hk, hl, hl, hskip, loopC_step hI, loopC_step hI,
      readHeader_stop, readHeader_stop]
    dsimp only
    rw [if_pos rfl, if_pos rfl]

/-- C29, one field: any payload that is well-formed by the grammar of the protocol is skipped (slices). -/
theorem C29_insert (hov : cfg.overflowChecks = false) (hsse : cfg.sse2 = false) (hk : env[k]? = some (.struct name fs))
    (hn : (fs.map (·.id)).Nodup) {vs vs' : List Val} {a r₀ : Bytes}
    {occs : List (Occ Bytes)} {last : BitVec 16} (h : Met cfg (sliceInput cfg) env fs 0#16 (a ++ r₀) vs occs last r₀ vs') {ft : Byte}
    (hft : ft.toNat < 16) (hft0 : ft ≠ 0#8) {id : BitVec 16} (hid : ∀ f ∈ fs, f.id ≠ id) {p : Bytes}
    (hp : Wire strictStop (.value ft.toNat false) p) (suf : Bytes) :
    (∀ (ft₂ : Byte) (id₂ : BitVec 16), ft₂.toNat < 16 → ft₂ ≠ 0#8 →
      fillThrift cfg (sliceInput cfg) env (.named k) (.struct vs) (a ++ (protoHeader ft id last ++ (p ++ (protoHeader ft₂ id₂ id ++ suf)))) =
      fillThrift cfg (sliceInput cfg) env (.named k) (.struct vs) (a ++ (protoHeader ft₂ id₂ last ++ suf))) ∧
    fillThrift cfg (sliceInput cfg) env (.named k) (.struct vs) (a ++ (protoHeader ft id last ++ (p ++ 0#8 :: suf))) =
      fillThrift cfg (sliceInput cfg) env (.named k) (.struct vs) (a ++ 0#8 :: suf) :=
  C29_insert_skippable hk hn h hft hft0 hid (fun suf => C18_conforming cfg hov hsse ft false p suf hp) suf

/-- C29, one field, on readers, with or without SSE2: the two inputs give the same outcome. -/
theorem C29_insert_reader (hov : cfg.overflowChecks = false) (hk : env[k]? = some (.struct name fs))
    (hn : (fs.map (·.id)).Nodup) {vs vs' : List Val} {a r₀ : Bytes} {occs : List (Occ Bytes)} {last : BitVec 16}
    (h : Met cfg.noSse2 (sliceInput cfg.noSse2) env fs 0#16 (a ++ r₀) vs occs last r₀ vs') {ft : Byte}
    (hft : ft.toNat < 16) (hft0 : ft ≠ 0#8) {id : BitVec 16} (hid : ∀ f ∈ fs, f.id ≠ id) {p : Bytes}
    (hp : Wire strictStop (.value ft.toNat false) p) {suf next next' : Bytes}
    (hnext : (next = 0#8 :: suf ∧ next' = 0#8 :: suf) ∨ ∃ (ft₂ : Byte) (id₂ : BitVec 16), ft₂.toNat < 16 ∧ ft₂ ≠ 0#8 ∧
      next = protoHeader ft₂ id₂ id ++ suf ∧ next' = protoHeader ft₂ id₂ last ++ suf)
    {e e' : List REvent} (he : Delivers e (a ++ (protoHeader ft id last ++ (p ++ next)))) (he' : Delivers e' (a ++ next')) :
    Same (fun x y => ∃ s, Delivers x s ∧ Delivers y s)
      ((Op.fill env (.named k) (.struct vs)).run cfg (readerInput cfg) e) ((Op.fill env (.named k) (.struct vs)).run cfg (readerInput cfg) e') := by
  have heq : (Op.fill env (.named k) (.struct vs)).run cfg.noSse2 (sliceInput cfg.noSse2) (a ++ (protoHeader ft id last ++ (p ++ next))) =
      (Op.fill env (.named k) (.struct vs)).run cfg.noSse2 (sliceInput cfg.noSse2) (a ++ next') := by
    have := C29_insert (cfg := cfg.noSse2) hov rfl hk hn h hft hft0 hid hp suf
    have hfill : fillThrift cfg.noSse2 (sliceInput cfg.noSse2) env (.named k) (.struct vs) (a ++ (protoHeader ft id last ++ (p ++ next))) =
        fillThrift cfg.noSse2 (sliceInput cfg.noSse2) env (.named k) (.struct vs) (a ++ next') := by
      rcases hnext with ⟨rfl, rfl⟩ | ⟨ft₂, id₂, h1, h2, rfl, rfl⟩
      · exact this.2
      · exact this.1 ft₂ id₂ h1 h2
    unfold Op.run
    show Rd.bind _ _ _ = Rd.bind _ _ _
    unfold Rd.bind
    rw [hfill]
  have h1 := slice_reader_same cfg (.fill env (.named k) (.struct vs)) he
  have h2 := slice_reader_same cfg (.fill env (.named k) (.struct vs)) he'
  rw [heq] at h1
  revert h1 h2
  generalize (Op.fill env (.named k) (.struct vs)).run cfg.noSse2 (sliceInput cfg.noSse2) (a ++ next') = x
  generalize (Op.fill env (.named k) (.struct vs)).run cfg (readerInput cfg) e = y
  generalize (Op.fill env (.named k) (.struct vs)).run cfg (readerInput cfg) e' = z
  intro h1 h2
  cases x with
  | error f =>
    cases y with
    | ok _ => exact h1.elim
    | error g =>
      cases z with
      | ok _ => exact h2.elim
      | error g' => exact h1.symm.trans h2
  | ok q =>
    obtain ⟨v, s⟩ := q
    cases y with
    | error _ => exact h1.elim
    | ok q₁ =>
      obtain ⟨v₁, e₁⟩ := q₁
      cases z with
      | error _ => exact h2.elim
      | ok q₂ =>
        obtain ⟨v₂, e₂⟩ := q₂
        exact ⟨h1.1.symm.trans h2.1, s, h1.2, h2.2⟩

/-- An unknown field 9 of struct type behind the first two fields of `S`. -/
example (al : Nat → Bool) (suf : Bytes) : Wire strictStop (.value 12 false) [0x13#8, 0x05#8, 0x00#8] ∧
    fillThrift ⟨false, false, al⟩ (sliceInput ⟨false, false, al⟩) abcEnv (.named 0) (.struct [.i8 0#8, .none, .bool false])
      ([0x13#8, 0x07#8, 0x13#8, 0x08#8] ++ (protoHeader 12#8 9#16 2#16 ++ ([0x13#8, 0x05#8, 0x00#8] ++ (protoHeader 1#8 3#16 9#16 ++ suf)))) =
    fillThrift ⟨false, false, al⟩ (sliceInput ⟨false, false, al⟩) abcEnv (.named 0) (.struct [.i8 0#8, .none, .bool false])
      ([0x13#8, 0x07#8, 0x13#8, 0x08#8] ++ (protoHeader 1#8 3#16 2#16 ++ suf)) := by
  have hw : Wire strictStop (.value 12 false) [0x13#8, 0x05#8, 0x00#8] :=
    .struct _ _ (.fieldShort 0x13#8 [0x05#8] [0x00#8] (by decide) (by decide) (.byte _ _) (.fieldStop _ rfl))
  refine ⟨hw, (C29_insert (ft := 12#8) rfl rfl rfl (by decide) (r₀ := []) (abc_met al []) (by decide) (by decide) (by decide) hw suf).1 1#8 3#16 (by decide) (by decide)⟩

/-- C29, whole schemas: data written with the schema `env₁`, read with a schema `env₂` it evolves to, gives the corresponding value: well typed in `env₂`,
its common fields as they were, its new fields `None`; fields and nested definitions `env₂` does not know leave no trace. In every build, on slices and readers. -/
theorem C29_evolution {cfg : Cfg} (ha : AllocOk cfg) {env₁ env₂ : List Def} (hs₁ : schemaOk env₁ = true) (hs₂ : schemaOk env₂ = true)
    (hcl : envClosed env₁ = true) (hev : evolves env₁ env₂ = true) (hb : noBoxedBool env₁ = true) (hst : stepsForward cfg.overflowChecks env₁ = true)
    {t : Ty} (ht : tyClosed env₁ t = true) {v : Val} (hv : HasTy env₁ v t) {bytes : Bytes} (he : encode env₁ t v = .ok bytes) :
    ∃ w, Conv env₁ env₂ t v w ∧ HasTy env₂ w t ∧ ∀ suf, Reads cfg (fun I => readThrift cfg I env₂ t) bytes suf w := by
  obtain ⟨w, hc, hw⟩ := conv_exists hs₁ hev (enc_of_encode hv he) hv
  refine ⟨w, hc, hw, fun suf => ?_⟩
  have henc : ∀ ov, stepsForward ov env₁ = true → Enc env₁ (fun l i => HeaderOk ov l i ∧ Ascends l i) (.value t v) bytes := fun ov h =>
    enc_stepsWith (fun _ _ h => by simpa using h) hs₁ h (enc_of_encode hv he)
  refine Reads.of_slice_cond (generic_readThrift env₂ t) (C := fun ov al => stepsForward ov env₁ = true ∧ ∀ n, n ≤ 10000000 → al n = true)
    (fun cfg h => ?_) cfg ⟨hst, ha⟩
  have hd₂ : defaultsDefined env₂ = true := by
    unfold schemaOk at hs₂; rw [Bool.and_eq_true] at hs₂; exact hs₂.2
  exact readsAs hs₁ hs₂ hcl hev hb h.2 (henc _ h.1) ht hv w hc _ (fillable_dflt_closed hd₂ (evolves_closed hev ht)) suf

/-- C29: and only the corresponding value: any `w` that corresponds is what is read. -/
theorem C29_evolution_unique {cfg : Cfg} (ha : AllocOk cfg) {env₁ env₂ : List Def} (hs₁ : schemaOk env₁ = true) (hs₂ : schemaOk env₂ = true)
    (hcl : envClosed env₁ = true) (hev : evolves env₁ env₂ = true) (hb : noBoxedBool env₁ = true) (hst : stepsForward cfg.overflowChecks env₁ = true)
    {t : Ty} (ht : tyClosed env₁ t = true) {v : Val} (hv : HasTy env₁ v t) {bytes : Bytes} (he : encode env₁ t v = .ok bytes) {w : Val}
    (hc : Conv env₁ env₂ t v w) (suf : Bytes) : (readThrift cfg (sliceInput cfg) env₂ t) (bytes ++ suf) = .ok (w, suf) := by
  have hd₂ : defaultsDefined env₂ = true := by
    unfold schemaOk at hs₂; rw [Bool.and_eq_true] at hs₂; exact hs₂.2
  exact readsAs hs₁ hs₂ hcl hev hb ha (enc_stepsWith (fun _ _ h => by simpa using h) hs₁ hst (enc_of_encode hv he)) ht hv w hc _
    (fillable_dflt_closed hd₂ (evolves_closed hev ht)) suf

/-- A successor of `nodeEnv`: `name` has become optional, `next` is gone, a new field came between, `Choice` has a new variant, a definition was added. -/
def nodeEnv₂ : List Def :=
  [.struct "Node" [⟨16#16, false, "cs", .list (.named 1)⟩, ⟨1#16, false, "title", .string⟩, ⟨7#16, false, "extra", .named 2⟩],
   .union "Choice" [⟨300#16, "b", .i16⟩, ⟨2#16, "c", .double⟩, ⟨1#16, "a", .named 0⟩],
   .enum "Color"]

example : schemaOk nodeEnv = true ∧ schemaOk nodeEnv₂ = true ∧ envClosed nodeEnv = true ∧ evolves nodeEnv nodeEnv₂ = true ∧
    noBoxedBool nodeEnv = true ∧ stepsForward true nodeEnv = true ∧ stepsForward false nodeEnv = true := by decide

/-- What becomes of `nodeVal`. -/
example : Conv nodeEnv nodeEnv₂ (.named 0) (.struct [.string [0x61#8], .some (.box (.struct [.string [], .none, .none])), .some (.list [.union 1 (.i16 7#16)])])
    (.struct [.some (.list [.union 0 (.i16 7#16)]), .some (.string [0x61#8]), .none]) := by
  refine .struct _ _ _ _ _ _ _ rfl rfl rfl fun j g w hg hw => ?_
  match j with
  | 0 =>
    simp at hg hw; subst hg hw
    refine .content _ _ 2 ⟨16#16, false, "cs", .list (.named 1)⟩ ⟨16#16, false, "cs", .list (.named 1)⟩ _ (.list [.union 0 (.i16 7#16)]) rfl rfl rfl rfl ?_
    refine .list _ _ _ rfl fun i v w hv hw => ?_
    match i with
    | 0 =>
      simp at hv hw; subst hv hw
      exact .union _ _ _ _ _ 1 0 _ _ _ _ rfl rfl rfl rfl rfl rfl (.leaf _ _ rfl)
    | i + 1 => simp at hv
  | 1 =>
    simp at hg hw; subst hg hw
    exact .content _ _ 0 ⟨1#16, true, "name", .string⟩ ⟨1#16, false, "title", .string⟩ _ (.string [0x61#8]) rfl rfl rfl rfl (.leaf _ _ rfl)
  | 2 =>
    simp at hg hw; subst hg hw
    exact .added _ _ _ (by decide) rfl
  | j + 3 => simp at hg

/-- All Parquet types evolve to any schema that only differs as `evolves` allows. -/
theorem C29_parquet {cfg : Cfg} (ha : AllocOk cfg) {env₂ : List Def} (hs₂ : schemaOk env₂ = true) (hev : evolves Format.parquetEnv env₂ = true)
    {t : Ty} (ht : tyClosed Format.parquetEnv t = true) {v : Val} (hv : HasTy Format.parquetEnv v t) {bytes : Bytes}
    (he : encode Format.parquetEnv t v = .ok bytes) :
    ∃ w, Conv Format.parquetEnv env₂ t v w ∧ HasTy env₂ w t ∧ ∀ suf, Reads cfg (fun I => readThrift cfg I env₂ t) bytes suf w :=
  C29_evolution ha (by decide) hs₂ (by decide) hev (by decide) (by cases cfg.overflowChecks <;> decide) ht hv he

end CT.Props
