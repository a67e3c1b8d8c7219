import Verif.Proofs.Writer
import Verif.Proofs.Header
import Verif.Spec.Schema
/-! # Reading back what was written -/
namespace CT
open Spec

/-! ## Defaults -/

theorem definedList_iff (vs : List Val) : definedList vs = true ↔ ∀ v ∈ vs, defined v = true := by
  induction vs with
  | nil => simp [definedList]
  | cons v vs ih => simp [definedList, ih]

theorem defaultsFrom_get (env : List Def) : ∀ (ds : List Val) (k : Nat) (d : Def), env[k]? = some d →
    (defaultsFrom ds env)[ds.length + k]? = some (dfltDef ((defaultsFrom ds env).take (ds.length + k)) d) ∧
    (defaultsFrom ds env).take ds.length = ds := by
  induction env with
  | nil => intro ds k d h; simp at h
  | cons e env ih =>
    intro ds k d h
    have hpre : ∀ (env : List Def) (ds : List Val), (defaultsFrom ds env).take ds.length = ds := by
      intro env
      induction env with
      | nil => intro ds; simp [defaultsFrom]
      | cons e env ih =>
        intro ds
        have := ih (ds ++ [dfltDef ds e])
        rw [defaultsFrom]
        have h2 := congrArg (List.take ds.length) this
        rw [List.take_take, List.take_left'  rfl] at h2
        simpa using h2
    refine ⟨?_, hpre _ _⟩
    cases k with
    | zero =>
      simp at h
      subst h
      rw [Nat.add_zero, hpre, defaultsFrom]
      have h1 := hpre env (ds ++ [dfltDef ds e])
      have h2 := congrArg (fun l => l[ds.length]?) h1
      simp only [List.length_append, List.length_singleton] at h2
      rw [List.getElem?_take_of_lt (by omega)] at h2
      rw [h2]; simp
    | succ k =>
      rw [defaultsFrom]
      have := (ih (ds ++ [dfltDef ds e]) k d (by simpa using h)).1
      simp only [List.length_append, List.length_singleton] at this
      rw [show ds.length + 1 + k = ds.length + (k + 1) by omega] at this
      exact this

theorem defaults_get {env : List Def} {k : Nat} {d : Def} (h : env[k]? = some d) :
    (defaults env)[k]? = some (dfltDef ((defaults env).take k) d) := by
  have := (defaultsFrom_get env [] k d h).1
  simpa [defaults] using this

theorem fillable_dfltTy {env : List Def} {ds : List Val}
    (hds : ∀ k v, ds[k]? = some v → defined v = true → Fillable env (.named k) v) :
    ∀ t, defined (dfltTy ds t) = true → Fillable env t (dfltTy ds t) := by
  intro t
  induction t with
  | named k =>
    intro h
    unfold dfltTy at h ⊢
    cases e : ds[k]? with
    | none => rw [e] at h; simp [defined] at h
    | some v => rw [e] at h; simpa using hds k v e h
  | box t ih => intro h; exact .box _ _ (ih (by simpa [dfltTy, defined] using h))
  | rc t ih => intro h; exact .rc _ _ (ih (by simpa [dfltTy, defined] using h))
  | bool => intro _; exact .bool _
  | i8 => intro _; exact .i8 _
  | i16 => intro _; exact .i16 _
  | i32 => intro _; exact .i32 _
  | i64 => intro _; exact .i64 _
  | double => intro _; exact .double _
  | binary => intro _; exact .binary _
  | string => intro _; exact .string _
  | encodingSet => intro _; exact .encodingSet _
  | list t => intro _; exact .list _ _
  | option t => intro _; exact .none _

theorem fillable_defaults {env : List Def} : ∀ (k : Nat) (v : Val), (defaults env)[k]? = some v → k < env.length →
    defined v = true → Fillable env (.named k) v := by
  intro k
  induction k using Nat.strongRecOn with
  | _ k ih =>
    intro v hv hk hd
    have hg := defaults_get (List.getElem?_eq_getElem hk)
    rw [hg] at hv
    have hds : ∀ j w, ((defaults env).take k)[j]? = some w → defined w = true → Fillable env (.named j) w := by
      intro j w hj hw
      rw [List.getElem?_take] at hj
      split at hj
      · exact ih j ‹_› w hj (by omega) hw
      · cases hj
    have hek : env[k]? = some env[k] := List.getElem?_eq_getElem hk
    injection hv with hv
    subst hv
    cases hdef : env[k] with
    | enum name => rw [hdef] at hek; exact .enum k name _ hek
    | union name us =>
      rw [hdef] at hek hd
      cases us with
      | nil => simp [dfltDef, defined] at hd
      | cons u us => exact .union k name _ _ _ hek
    | struct name fs =>
      rw [hdef] at hek hd
      refine .struct k name fs _ hek (by simp) fun i f w hf hw => ?_
      simp only [List.getElem?_map, hf, Option.map_some, Option.some.injEq] at hw
      subst hw
      refine fillable_dfltTy hds _ ?_
      simp only [dfltDef, defined, definedList_iff] at hd
      exact hd _ (List.mem_map_of_mem (List.mem_of_getElem? hf))

theorem defaults_length (env : List Def) : (defaults env).length = env.length := by
  have : ∀ (env : List Def) (ds : List Val), (defaultsFrom ds env).length = ds.length + env.length := by
    intro env
    induction env with
    | nil => intro ds; rfl
    | cons e env ih => intro ds; rw [defaultsFrom, ih]; simp; omega
  exact (this env []).trans (by simp)

/-- The default of a type that has a value can be filled. -/
theorem fillable_dflt {env : List Def} (h : defaultsDefined env = true) {t : Ty} {v : Val} (hv : HasTy env v t) :
    Fillable env t (dflt env t) := by
  refine fillable_dfltTy (fun k w hw hd => fillable_defaults k w hw ?_ hd) t ?_
  · have := (List.getElem?_eq_some_iff.1 hw).1
    rwa [defaults_length] at this
  · have hname : ∀ k d, env[k]? = some d → defined (dfltTy (defaults env) (.named k)) = true := by
      intro k d hk
      rw [dfltTy, defaults_get hk]
      exact (definedList_iff _).1 h _ (List.mem_of_getElem? (defaults_get hk))
    induction hv with
    | enum k name x hk => exact hname _ _ hk
    | struct k name fs vs hk _ _ _ => exact hname _ _ hk
    | union k name us i u v hk _ _ _ => exact hname _ _ hk
    | box t v hv ih => simpa [dfltTy, defined] using ih
    | rc t b v hv ih => simpa [dfltTy, defined] using ih
    | list t vs _ _ => rfl
    | _ => rfl

/-! ## Encoding sets -/

theorem one_shl_getLsbD (k i : Nat) (hk : k < 32) : ((1#32) <<< k).getLsbD i = decide (i = k) := by
  rw [BitVec.getLsbD_shiftLeft]
  by_cases h : i = k
  · subst h; simp [hk]
  · simp only [h, decide_false]
    by_cases h2 : i < k
    · simp [h2]
    · have : i - k ≠ 0 := by omega
      simp [BitVec.getLsbD_one, this]

/-- The bits after the loop. -/
theorem foldl_or_getLsbD (xs : List (BitVec 32)) (hx : ∀ x ∈ xs, x.toNat < 32) : ∀ (mask : BitVec 32) (i : Nat),
    (xs.foldl (fun m x => m ||| (1#32 <<< x.toNat)) mask).getLsbD i =
      (mask.getLsbD i || decide (∃ x ∈ xs, x.toNat = i)) := by
  induction xs with
  | nil => intro mask i; simp
  | cons x xs ih =>
    intro mask i
    rw [List.foldl_cons, ih (fun y hy => hx y (by simp [hy])), BitVec.getLsbD_or, one_shl_getLsbD _ _ (hx x (by simp))]
    simp only [List.mem_cons, exists_eq_or_imp, Bool.or_assoc, Bool.decide_or]
    congr 2
    by_cases h : i = x.toNat <;> simp [h, eq_comm]

/-- Reading the elements `xs`, each in any varint form. -/
theorem encodingSetLoop_ok (cfg : Cfg) : ∀ (ps : List (Bytes × BitVec 32)) (mask : BitVec 32) (suf : Bytes),
    (∀ q ∈ ps, IsVarint q.1 ∧ q.1.length ≤ 10 ∧ zigzag q.2.toInt = leb q.1 % 2 ^ 32 ∧ q.2.toNat < 31) →
    encodingSetLoop cfg (sliceInput cfg) ps.length mask ((ps.flatMap (·.1)) ++ suf) =
      .ok ((ps.map (·.2)).foldl (fun m x => m ||| (1#32 <<< x.toNat)) mask, suf) := by
  intro ps
  induction ps with
  | nil => intro mask suf _; rfl
  | cons q ps ih =>
    intro mask suf h
    obtain ⟨h1, h2, h3, h4⟩ := h q (by simp)
    have hs : (BitVec.slt q.2 0#32 || BitVec.sle 31#32 q.2) = false := by
      have := BitVec.toInt_eq_toNat_cond q.2
      have e31 : (31#32 : BitVec 32).toInt = 31 := rfl
      rw [BitVec.slt_eq_decide, BitVec.sle_eq_decide, e31, BitVec.toInt_zero]
      simp; omega
    rw [List.length_cons, encodingSetLoop, List.flatMap_cons, List.append_assoc, Rd.bind_ok (readI32_varint cfg _ _ h1 h2 q.2 h3)]
    simp only [hs, Bool.false_eq_true, if_false]
    rw [ih _ suf (fun r hr => h r (by simp [hr]))]
    rfl

theorem encodingSet_read (cfg : Cfg) (mask : BitVec 32) (hm : mask.toNat < 2 ^ 31) (suf : Bytes) :
    encodingSetLoop cfg (sliceInput cfg) (members mask).length 0#32
      ((members mask).flatMap (fun (i : Nat) => varint (zigzag i)) ++ suf) = .ok (mask, suf) := by
  have hmem : ∀ i ∈ members mask, i < 31 := by
    intro i hi
    have h1 := mem_members.1 hi
    refine Classical.byContradiction fun h => ?_
    rw [getLsbD_eq_testBit, Nat.testBit_lt_two_pow (Nat.lt_of_lt_of_le hm (Nat.pow_le_pow_right (by omega) (by omega)))] at h1
    cases h1
  have hint : ∀ i, i < 31 → (BitVec.ofNat 32 i).toInt = (i : Int) := by
    intro i hi
    rw [BitVec.toInt_eq_toNat_cond, BitVec.toNat_ofNat]; omega
  have h := encodingSetLoop_ok cfg ((members mask).map fun i => (varint (zigzag (BitVec.ofNat 32 i).toInt), BitVec.ofNat 32 i)) 0#32 suf
    (by
      intro q hq
      obtain ⟨i, hi, rfl⟩ := List.mem_map.1 hq
      refine ⟨varint_isVarint _, varint_zigzag_length (by omega) (by omega) _, leb_zigzag_mod (by omega) _, ?_⟩
      have := hmem i hi
      simp only [BitVec.toNat_ofNat]; omega)
  rw [List.length_map, List.flatMap_map, List.map_map] at h
  have e : (members mask).flatMap (fun (i : Nat) => varint (zigzag i)) =
      (members mask).flatMap (fun i => varint (zigzag (BitVec.ofNat 32 i).toInt)) := by
    rw [List.flatMap_def, List.flatMap_def]
    congr 1
    exact List.map_congr_left fun i hi => by rw [hint i (hmem i hi)]
  rw [e]
  refine h.trans ?_
  congr 2
  apply BitVec.eq_of_getLsbD_eq
  intro i hi
  rw [foldl_or_getLsbD _ (by
    intro x hx
    obtain ⟨j, hj, rfl⟩ := List.mem_map.1 hx
    have := hmem j hj
    simp; omega)]
  simp only [List.mem_map, Function.comp]
  have : (∃ x, (∃ a, a ∈ members mask ∧ BitVec.ofNat 32 a = x) ∧ BitVec.toNat x = i) ↔ mask.getLsbD i = true := by
    rw [← mem_members]
    constructor
    · rintro ⟨x, ⟨a, ha, rfl⟩, hx⟩
      have := hmem a ha
      rw [BitVec.toNat_ofNat, Nat.mod_eq_of_lt (by omega)] at hx
      exact hx ▸ ha
    · intro h
      exact ⟨_, ⟨i, h, rfl⟩, by rw [BitVec.toNat_ofNat, Nat.mod_eq_of_lt (by omega)]⟩
  simp [this]

/-! ## Struct fields -/

theorem firstMissing_none : ∀ (fs : List Field) (flags : List Bool), flags.length = fs.length →
    (∀ (i : Nat) (f : Field), fs[i]? = some f → f.required = true → flags[i]? = some true) → firstMissing fs flags = none := by
  intro fs
  induction fs with
  | nil => intro flags _ _; cases flags <;> rfl
  | cons f fs ih =>
    intro flags hl h
    cases flags with
    | nil => simp at hl
    | cons b flags =>
      have h0 : ¬ ((f.required && !b) = true) := by
        intro hc
        rw [Bool.and_eq_true] at hc
        have := h 0 f rfl hc.1
        simp at this
        simp [this] at hc
      rw [firstMissing, if_neg h0]
      exact ih flags (by simpa using hl) fun i g hg hr => h (i + 1) g (by simpa using hg) hr

theorem findField_eq {pre fs : List Field} {f : Field} (hn : ((pre ++ f :: fs).map (·.id)).Nodup) :
    findField (pre ++ f :: fs) f.id = some pre.length := by
  unfold findField
  rw [List.findIdx?_eq_some_iff_getElem]
  refine ⟨by simp, by simp, fun j hj => ?_⟩
  rw [List.map_append, List.nodup_append] at hn
  rw [List.getElem_append_left hj]
  simp only [beq_iff_eq]
  exact hn.2.2 _ (List.mem_map_of_mem (List.getElem_mem hj)) _ (by simp)

theorem findVariant_eq {us : List Variant} {i : Nat} {u : Variant} (hn : (us.map (·.id)).Nodup) (hu : us[i]? = some u) :
    us.findIdx? (fun w => w.id == u.id) = some i := by
  obtain ⟨hi, he⟩ := List.getElem?_eq_some_iff.1 hu
  rw [List.findIdx?_eq_some_iff_getElem]
  refine ⟨hi, by simp [he], fun j hj => ?_⟩
  simp only [beq_iff_eq]
  intro h
  have := List.pairwise_iff_getElem.1 hn j i (by simpa using Nat.lt_trans hj hi) (by simpa using hi) hj
  simp only [List.getElem_map, he] at this
  exact this h

section
variable {σ : Type} {cfg : Cfg} {I : Input σ} {env : List Def} {k n : Nat}

theorem fillNamed_struct {name : String} {fs : List Field} {vs : List Val} (hk : env[k]? = some (.struct name fs)) (s : σ) :
    fillNamed cfg I env (n + 1) k (.struct vs) s =
      structLoop cfg I env (fillNamed cfg I env n) name fs (I.size s + 1) 0#16 (fs.map fun _ => false) vs s := by
  unfold fillNamed; simp only [hk]; rfl

theorem fillNamed_union {name : String} {us : List Variant} {i : Nat} {v : Val} (hk : env[k]? = some (.union name us)) :
    fillNamed cfg I env (n + 1) k (.union i v) = fillUnion cfg I env (fillNamed cfg I env n) us := by
  unfold fillNamed; simp only [hk]

theorem fillNamed_enum {name : String} {x : BitVec 32} (hk : env[k]? = some (.enum name)) :
    fillNamed cfg I env (n + 1) k (.enum x) = (do let x ← I.readI32 cfg; pure (.enum x)) := by
  unfold fillNamed; simp only [hk]
end

/-- What reading gives for an item of the specification. -/
def ReadsBack (cfg : Cfg) (env : List Def) (p : Bytes) : EItem → Prop
  | .value t v => HasTy env v t → ∀ v0, Fillable env t v0 → ∃ N, ∀ n, N ≤ n → ∀ suf,
      fillTy cfg (sliceInput cfg) env (fillNamed cfg (sliceInput cfg) env n) t v0 (p ++ suf) = .ok (v.unshare, suf)
  | .elems t vs => (∀ v ∈ vs, HasTy env v t) → ∃ N, ∀ n, N ≤ n → ∀ suf,
      fillElems (fillTy cfg (sliceInput cfg) env (fillNamed cfg (sliceInput cfg) env n) t (dflt env t)) vs.length (p ++ suf) =
        .ok (Val.unshareList vs, suf)
  | .field t v id last => HasTy env v t → (Ty.isOption t = false ∨ ∃ t', t = .option t' ∧ Ty.isOption t' = false) →
      (v = .none ∧ p = []) ∨ (present v = true ∧ ∃ ft q, p = fieldHeader ft id last ++ q ∧ HeaderOk cfg.overflowChecks last id ∧
        ft ≠ 0#8 ∧ ft.toNat < 16 ∧ ∀ v0, Fillable env t v0 → ∃ N, ∀ n, N ≤ n → ∀ suf,
          fillField cfg (sliceInput cfg) env (fillNamed cfg (sliceInput cfg) env n) t v0 ft (q ++ suf) = .ok (v.unshare, suf) ∧
          (t ≠ .bool → Ty.isOption t = false →
            fillTy cfg (sliceInput cfg) env (fillNamed cfg (sliceInput cfg) env n) t v0 (q ++ suf) = .ok (v.unshare, suf)))
  | .fields fs vs last => vs.length = fs.length →
      (∀ (i : Nat) (f : Field) (v : Val), fs[i]? = some f → vs[i]? = some v → HasTy env v f.rustTy) →
      (∀ f ∈ fs, Ty.isOption f.ty = false) →
      ∀ (name : String) (pre : List Field) (ws v0s : List Val) (flags : List Bool), ((pre ++ fs).map (·.id)).Nodup →
        ws.length = pre.length → v0s.length = fs.length →
        (∀ (i : Nat) (f : Field) (v : Val), fs[i]? = some f → v0s[i]? = some v → Fillable env f.rustTy v) →
        flags.length = (pre ++ fs).length →
        (∀ (i : Nat) (f : Field), pre[i]? = some f → f.required = true → flags[i]? = some true) →
        ∃ N, ∀ n, N ≤ n → ∀ suf fuel, (p ++ 0#8 :: suf).length < fuel →
          structLoop cfg (sliceInput cfg) env (fillNamed cfg (sliceInput cfg) env n) name (pre ++ fs) fuel last flags (ws ++ v0s)
            (p ++ 0#8 :: suf) = .ok (.struct (ws ++ Val.unshareList vs), suf)

theorem fillField_value {σ : Type} (cfg : Cfg) (I : Input σ) (env : List Def) (fn : Nat → Val → Rd σ Val) {t : Ty} (v : Val) (ft : Byte)
    (h1 : t ≠ .bool) (h2 : ∀ t', t ≠ .option t') : fillField cfg I env fn t v ft =
      if ft ≠ fieldType env t then Rd.throw .invalidType else fillTy cfg I env fn t v := by
  cases t with
  | bool => exact absurd rfl h1
  | option t => exact absurd rfl (h2 t)
  | _ => rw [fillField] <;> intros <;> contradiction

theorem isOption_false {t : Ty} (h : Ty.isOption t = false) : ∀ t', t ≠ .option t' := by
  rintro t' rfl; simp [Ty.isOption] at h

theorem isOption_of_ne {t : Ty} (h : ∀ t', t ≠ .option t') : Ty.isOption t = false := by
  cases t with
  | option t => exact absurd rfl (h t)
  | _ => rfl

theorem rustTy_form {f : Field} (h : Ty.isOption f.ty = false) :
    Ty.isOption f.rustTy = false ∨ ∃ t', f.rustTy = .option t' ∧ Ty.isOption t' = false := by
  unfold Field.rustTy
  split
  · exact .inl h
  · exact .inr ⟨_, rfl, h⟩

theorem fieldHeader_length (ft : Byte) (id last : BitVec 16) : 1 ≤ (fieldHeader ft id last).length := by
  unfold fieldHeader; split <;> simp

theorem readsBack {cfg : Cfg} {env : List Def} (hs : schemaOk env = true) (ha : ∀ n, n ≤ 10000000 → cfg.alloc n = true)
    {i : EItem} {p : Bytes} (h : Enc env (HeaderOk cfg.overflowChecks) i p) : ReadsBack cfg env p i := by
  have hd : defaultsDefined env = true := by
    unfold schemaOk at hs; rw [Bool.and_eq_true] at hs; exact hs.2
  have hdef : ∀ (k : Nat) (d : Def), env[k]? = some d → defOk d = true := by
    intro k d hk
    unfold schemaOk at hs; rw [Bool.and_eq_true, List.all_eq_true] at hs
    exact hs.1 d (List.mem_of_getElem? hk)
  induction h with
  | bool b =>
    intro _ v0 _
    refine ⟨0, fun n _ suf => ?_⟩
    rw [fillTy, List.singleton_append, Rd.bind_ok (slice_readByte_cons cfg _ suf)]
    cases b <;> rfl
  | i8 x =>
    intro _ v0 _
    refine ⟨0, fun n _ suf => ?_⟩
    rw [fillTy, List.singleton_append, Rd.bind_ok (slice_readByte_cons cfg _ suf)]; rfl
  | i16 x =>
    intro _ v0 _
    refine ⟨0, fun n _ suf => ?_⟩
    rw [fillTy, Rd.bind_ok (readI16_write cfg x suf)]; rfl
  | i32 x =>
    intro _ v0 _
    refine ⟨0, fun n _ suf => ?_⟩
    rw [fillTy, Rd.bind_ok (readI32_write cfg x suf)]; rfl
  | i64 x =>
    intro _ v0 _
    refine ⟨0, fun n _ suf => ?_⟩
    rw [fillTy, Rd.bind_ok (readI64_write cfg x suf)]; rfl
  | double x =>
    intro _ v0 _
    refine ⟨0, fun n _ suf => ?_⟩
    rw [fillTy, ← le64_eq]
    rw [Rd.bind_ok (show (sliceInput cfg).readDouble (toLeBytes 8 x ++ suf) = _ from readDouble_write x suf)]; rfl
  | binary bs h =>
    intro _ v0 _
    refine ⟨0, fun n _ suf => ?_⟩
    rw [fillTy, Rd.bind_ok (readBinary_write cfg bs suf h)]; rfl
  | string bs h =>
    intro hv v0 _
    refine ⟨0, fun n _ suf => ?_⟩
    cases hv with
    | string _ hu =>
      have hr : (sliceInput cfg).readString (varint bs.length ++ bs ++ suf) = .ok (bs, suf) := by
        unfold Input.readString
        rw [Rd.bind_ok (readBinary_write cfg bs suf h), if_pos hu]; rfl
      rw [fillTy, Rd.bind_ok hr]; rfl
  | encodingSet mask =>
    intro hv v0 _
    refine ⟨0, fun n _ suf => ?_⟩
    cases hv with
    | encodingSet _ hm =>
      rw [fillTy, List.append_assoc, Rd.bind_ok (readCollection_write cfg 5#8 _ _ (by decide)
        (by have := members_length_le mask; unfold MAX_COLLECTION_LEN; omega))]
      dsimp only
      rw [if_neg (show ¬ (5#8 ≠ fieldType env .i32) from fun h => h rfl), Rd.bind_ok (encodingSet_read cfg mask hm suf)]; rfl
  | list t vs p hl hp ih =>
    intro hv v0 _
    cases hv with
    | list _ _ hv =>
      obtain ⟨N, hN⟩ := ih hv
      refine ⟨N, fun n hn suf => ?_⟩
      rw [fillTy, List.append_assoc, Rd.bind_ok (readCollection_write cfg _ _ _ (by have := wireType_range env t; omega) hl)]
      simp only [wireType_eq, ne_eq, not_true, false_and, if_false, ha _ hl]
      rw [Rd.bind_ok (hN n hn suf)]
      simp only [Rd.pure_apply, Val.unshare]
  | some t v p hp ih =>
    intro hv v0 h0
    cases hv with
    | some _ _ hv =>
      cases h0 with
      | none _ =>
        obtain ⟨N, hN⟩ := ih hv _ (fillable_dflt hd hv)
        refine ⟨N, fun n hn suf => ?_⟩
        rw [fillTy, Rd.bind_ok (hN n hn suf)]
        simp only [Rd.pure_apply, Val.unshare]
  | box t v p hp ih =>
    intro hv v0 h0
    cases hv with
    | box _ _ hv =>
      cases h0 with
      | box _ v0 h0 =>
        obtain ⟨N, hN⟩ := ih hv v0 h0
        refine ⟨N, fun n hn suf => ?_⟩
        rw [fillTy, Rd.bind_ok (hN n hn suf)]
        simp only [Rd.pure_apply, Val.unshare]
  | rc t b v p hp ih =>
    intro hv v0 h0
    cases hv with
    | rc _ _ _ hv =>
      cases h0 with
      | rc _ v0 h0 =>
        obtain ⟨N, hN⟩ := ih hv v0 h0
        refine ⟨N, fun n hn suf => ?_⟩
        rw [fillTy, if_neg (by simp), Rd.bind_ok (hN n hn suf)]
        simp only [Rd.pure_apply, Val.unshare]
  | enum k name x hk =>
    intro hv v0 h0
    refine ⟨1, fun n hn suf => ?_⟩
    obtain ⟨n, rfl⟩ : ∃ m, n = m + 1 := ⟨n - 1, by omega⟩
    cases h0 with
    | enum _ _ y _ =>
      rw [fillTy, fillNamed_enum hk, Rd.bind_ok (readI32_write cfg x suf)]; simp [Val.unshare]
    | struct _ _ _ _ hk' _ _ => rw [hk] at hk'; cases hk'
    | union _ _ _ _ _ hk' => rw [hk] at hk'; cases hk'
  | struct k name fs vs p hk hp ih =>
    intro hv v0 h0
    have hok := hdef k _ hk
    simp only [defOk, structOk, Bool.and_eq_true, decide_eq_true_eq, List.all_eq_true, Bool.not_eq_true'] at hok
    cases h0 with
    | enum _ _ y hk' => rw [hk] at hk'; cases hk'
    | union _ _ _ _ _ hk' => rw [hk] at hk'; cases hk'
    | struct _ _ fs' v0s hk' hl0 h0 =>
      rw [hk] at hk'; obtain ⟨rfl, rfl⟩ : _ ∧ _ := by simpa using hk'
      cases hv with
      | struct _ _ fs' vs hk' hl hv =>
        rw [hk] at hk'; obtain ⟨rfl, rfl⟩ : _ ∧ _ := by simpa using hk'
        obtain ⟨N, hN⟩ := ih hl hv hok.2 name [] [] v0s (fs.map fun _ => false) (by simpa using hok.1) rfl hl0 h0 (by simp) (by simp)
        refine ⟨N + 1, fun n hn suf => ?_⟩
        obtain ⟨n, rfl⟩ : ∃ m, n = m + 1 := ⟨n - 1, by omega⟩
        rw [fillTy, fillNamed_struct hk]
        have := hN n (by omega) suf ((p ++ 0#8 :: suf).length + 1) (by omega)
        rw [List.append_assoc]
        simp only [List.nil_append] at this
        rw [List.singleton_append]
        simp only [Val.unshare]
        exact this
  | union k name us i u v p hk hu hp ih =>
    intro hv v0 h0
    have hok := hdef k _ hk
    simp only [defOk, unionOk, Bool.and_eq_true, decide_eq_true_eq, List.all_eq_true, Bool.not_eq_true', bne_iff_ne] at hok
    have hu2 := hok.2 u (List.mem_of_getElem? hu)
    cases hv with
    | union _ _ us' _ u' _ hk' hu' hv =>
      rw [hk] at hk'; obtain ⟨rfl, rfl⟩ : _ ∧ _ := by simpa using hk'
      rw [hu] at hu'; obtain rfl : u = u' := by simpa using hu'
      rcases ih hv (.inl hu2.1) with ⟨rfl, rfl⟩ | ⟨_, ft, q, rfl, hh, hft0, hft, hq⟩
      · generalize u.ty = ut at hv hu2
        cases hv
        simp [Ty.isOption] at hu2
      · obtain ⟨N, hN⟩ := hq _ (fillable_dflt hd hv)
        refine ⟨N + 1, fun n hn suf => ?_⟩
        obtain ⟨n, rfl⟩ : ∃ m, n = m + 1 := ⟨n - 1, by omega⟩
        have hfill : fillUnion cfg (sliceInput cfg) env (fillNamed cfg (sliceInput cfg) env n) us
            (fieldHeader ft u.id 0#16 ++ q ++ [0#8] ++ suf) = .ok (.union i v.unshare, suf) := by
          unfold fillUnion
          rw [List.append_assoc, List.append_assoc, Rd.bind_ok ((readHeader_written cfg ft hft hft0 0#16 u.id _).2 hh)]
          simp only [hft0, if_false, findVariant_eq hok.1 hu, hu]
          rw [Rd.bind_ok ((hN n (by omega) _).2 hu2.2 hu2.1)]
          rw [List.singleton_append, Rd.bind_ok (slice_readByte_cons cfg _ suf)]
          simp
        cases h0 with
        | enum _ _ y hk' => rw [hk] at hk'; cases hk'
        | struct _ _ _ _ hk' _ _ => rw [hk] at hk'; cases hk'
        | union _ _ _ j w hk' =>
          rw [fillTy, fillNamed_union hk]
          simp only [Val.unshare]
          exact hfill
  | elemsNil t =>
    intro _
    exact ⟨0, fun n _ suf => rfl⟩
  | elemsCons t v vs p q hp hq ih1 ih2 =>
    intro hv
    have hv1 := hv v (by simp)
    obtain ⟨N1, h1⟩ := ih1 hv1 _ (fillable_dflt hd hv1)
    obtain ⟨N2, h2⟩ := ih2 fun w hw => hv w (by simp [hw])
    refine ⟨max N1 N2, fun n hn suf => ?_⟩
    rw [List.length_cons, fillElems, List.append_assoc, Rd.bind_ok (h1 n (by omega) _), Rd.bind_ok (h2 n (by omega) suf)]
    simp only [Rd.pure_apply, Val.unshareList]
  | fieldBool b id last hh =>
    intro _ _
    refine .inr ⟨rfl, boolByte b, [], by simp, hh, by cases b <;> decide, by cases b <;> decide, fun v0 _ => ⟨0, fun n _ suf => ⟨?_, fun h => absurd rfl h⟩⟩⟩
    rw [fillField]
    cases b <;> rfl
  | fieldNone t id last => intro _ _; exact .inl ⟨rfl, rfl⟩
  | fieldSome t v id last p hp ih =>
    intro hv ht
    have ht' : Ty.isOption t = false := by
      rcases ht with h | ⟨t', h, h'⟩
      · simp [Ty.isOption] at h
      · injection h with h; rw [h]; exact h'
    cases hv with
    | some _ _ hv =>
      rcases ih hv (.inl ht') with ⟨rfl, rfl⟩ | ⟨hpr, ft, q, rfl, hh, hft0, hft, hq⟩
      · cases hv; simp [Ty.isOption] at ht'
      · refine .inr ⟨hpr, ft, q, rfl, hh, hft0, hft, fun v0 h0 => ?_⟩
        cases h0 with
        | none _ =>
          obtain ⟨N, hN⟩ := hq _ (fillable_dflt hd hv)
          refine ⟨N, fun n hn suf => ⟨?_, fun _ h => by simp [Ty.isOption] at h⟩⟩
          rw [fillField, Rd.bind_ok (hN n hn suf).1]
          simp only [Rd.pure_apply, Val.unshare]
  | fieldValue t v id last p h1 h2 hh hp ih =>
    intro hv ht
    have hr := wireType_range env t
    refine .inr ⟨present_of_enc hp h2, wireType env t, p, rfl, hh, ?_, by omega, fun v0 h0 => ?_⟩
    · intro e; rw [e] at hr; simp at hr
    · obtain ⟨N, hN⟩ := ih hv v0 h0
      refine ⟨N, fun n hn suf => ⟨?_, fun _ _ => hN n hn suf⟩⟩
      rw [fillField_value cfg _ env _ v0 _ h1 h2, if_neg (by rw [wireType_eq]; simp)]
      exact hN n hn suf
  | fieldsNil last =>
    intro _ _ _ name pre ws v0s flags _ hws hv0 _ hfl hreq
    obtain rfl : v0s = [] := by simpa using hv0
    refine ⟨0, fun n _ suf fuel hfuel => ?_⟩
    obtain ⟨fuel, rfl⟩ : ∃ m, fuel = m + 1 := ⟨fuel - 1, by simp at hfuel; omega⟩
    rw [structLoop, List.nil_append, Rd.bind_ok (readHeader_stop cfg last suf)]
    simp only [if_true]
    rw [firstMissing_none _ _ hfl (by simpa using hreq)]
    simp [Val.unshareList]
  | fieldsCons f fs v vs last p q hp hq ih1 ih2 =>
    intro hl hv hopt name pre ws v0s flags hnd hws hv0 hf0 hfl hreq
    obtain ⟨v0, v0s, rfl⟩ : ∃ x xs, v0s = x :: xs := by
      cases v0s with
      | nil => simp at hv0
      | cons x xs => exact ⟨x, xs, rfl⟩
    have hvf := hv 0 f v rfl rfl
    have hff := hf0 0 f v0 rfl rfl
    have hof := hopt f (by simp)
    have hl' : vs.length = fs.length := by simpa using hl
    have hvt : ∀ (i : Nat) (g : Field) (w : Val), fs[i]? = some g → vs[i]? = some w → HasTy env w g.rustTy :=
      fun i g w hg hw => hv (i + 1) g w (by simpa using hg) (by simpa using hw)
    have hft : ∀ (i : Nat) (g : Field) (w : Val), fs[i]? = some g → v0s[i]? = some w → Fillable env g.rustTy w :=
      fun i g w hg hw => hf0 (i + 1) g w (by simpa using hg) (by simpa using hw)
    have hsplit : pre ++ f :: fs = (pre ++ [f]) ++ fs := by simp
    rcases ih1 hvf (rustTy_form hof) with ⟨rfl, rfl⟩ | ⟨hpr, ft, q', rfl, hh, hft0, hft16, hq'⟩
    · have hr : f.required = false := by
        cases hr : f.required with
        | false => rfl
        | true =>
          unfold Field.rustTy at hvf
          rw [hr, if_pos rfl] at hvf
          generalize f.ty = ft at hvf hof
          cases hvf
          simp [Ty.isOption] at hof
      have hv0n : v0 = .none := by
        unfold Field.rustTy at hff
        rw [hr] at hff
        simp only [Bool.false_eq_true, if_false] at hff
        cases hff; rfl
      subst hv0n
      obtain ⟨N, hN⟩ := ih2 hl' hvt (fun g hg => hopt g (by simp [hg])) name (pre ++ [f]) (ws ++ [.none]) v0s flags
        (by rw [← hsplit]; exact hnd) (by simp [hws]) (by simpa using hv0) hft (by rw [← hsplit]; exact hfl)
        (by
          intro i g hg hgr
          by_cases hi : i < pre.length
          · rw [List.getElem?_append_left hi] at hg
            exact hreq i g hg hgr
          · rw [List.getElem?_append_right (by omega)] at hg
            have : i - pre.length = 0 := by
              have := (List.getElem?_eq_some_iff.1 hg).1
              simpa using this
            rw [this] at hg
            simp at hg
            subst hg
            rw [hr] at hgr; cases hgr)
      refine ⟨N, fun n hn suf fuel hfuel => ?_⟩
      have := hN n hn suf fuel (by simpa using hfuel)
      rw [← hsplit] at this
      simpa [Val.unshareList, Val.unshare, present] using this
    · obtain ⟨N1, h1⟩ := hq' v0 hff
      rw [hpr, if_pos rfl] at ih2
      obtain ⟨N2, h2⟩ := ih2 hl' hvt (fun g hg => hopt g (by simp [hg])) name (pre ++ [f]) (ws ++ [v.unshare]) v0s
        (if f.required then flags.set pre.length true else flags)
        (by rw [← hsplit]; exact hnd) (by simp [hws]) (by simpa using hv0) hft (by rw [← hsplit]; split <;> simp [hfl])
        (by
          intro i g hg hgr
          by_cases hi : i < pre.length
          · rw [List.getElem?_append_left hi] at hg
            have := hreq i g hg hgr
            split
            · rw [List.getElem?_set_ne (by omega)]; exact this
            · exact this
          · rw [List.getElem?_append_right (by omega)] at hg
            have h0 : i - pre.length = 0 := by
              have := (List.getElem?_eq_some_iff.1 hg).1
              simpa using this
            rw [h0] at hg
            simp at hg
            subst hg
            obtain rfl : i = pre.length := by omega
            rw [if_pos hgr, List.getElem?_set_self (by rw [hfl]; simp)])
      refine ⟨max N1 N2, fun n hn suf fuel hfuel => ?_⟩
      obtain ⟨fuel, rfl⟩ : ∃ m, fuel = m + 1 := ⟨fuel - 1, by simp at hfuel; omega⟩
      rw [structLoop]
      rw [List.append_assoc, List.append_assoc, Rd.bind_ok ((readHeader_written cfg ft hft16 hft0 last f.id _).2 hh)]
      simp only [hft0, if_false, findField_eq hnd]
      have e1 : (pre ++ f :: fs)[pre.length]? = some f := by simp
      have e2 : (ws ++ v0 :: v0s)[pre.length]? = some v0 := by simp [← hws]
      simp only [e1, e2]
      rw [Rd.bind_ok (h1 n (by omega) _).1]
      have e3 : (ws ++ v0 :: v0s).set pre.length v.unshare = (ws ++ [v.unshare]) ++ v0s := by
        rw [← hws, List.set_append_right _ _ (Nat.le_refl _)]; simp
      have := h2 n (by omega) suf fuel (by
        have := fieldHeader_length ft f.id last
        simp only [List.length_append, List.length_cons] at hfuel ⊢
        omega)
      rw [e3, hsplit, this]
      simp [Val.unshareList]

/-! ## Schemas whose headers always convey the id -/

/-- What the schema condition gives for an item. -/
def StepsItem (ok : BitVec 16 → BitVec 16 → Prop) (env : List Def) (p : Bytes) : EItem → Prop
  | .value t v => Enc env ok (.value t v) p
  | .elems t vs => Enc env ok (.elems t vs) p
  | .field t v id last => (present v = true → ok last id) →
      Enc env ok (.field t v id last) p ∧ (Ty.isOption t = false → present v = true)
  | .fields fs vs last => (∀ f ∈ fs, Ty.isOption f.ty = false) → ∀ lasts, last ∈ lasts →
      ∀ step : BitVec 16 → BitVec 16 → Bool, (∀ a b, step a b = true → ok a b) → fieldSteps step lasts fs = true →
      Enc env ok (.fields fs vs last) p

theorem enc_stepsWith {step : BitVec 16 → BitVec 16 → Bool} {ok' : BitVec 16 → BitVec 16 → Prop} {env : List Def}
    (hok : ∀ a b, step a b = true → ok' a b) (hs : schemaOk env = true) (hst : stepsWith step env = true) {i : EItem} {p : Bytes}
    {ok : BitVec 16 → BitVec 16 → Prop} (h : Enc env ok i p) : StepsItem ok' env p i := by
  have hdef : ∀ (k : Nat) (d : Def), env[k]? = some d → defOk d = true := by
    intro k d hk
    unfold schemaOk at hs; rw [Bool.and_eq_true, List.all_eq_true] at hs
    exact hs.1 d (List.mem_of_getElem? hk)
  have hstep : ∀ (k : Nat) (d : Def), env[k]? = some d → defSteps step d = true := by
    intro k d hk
    unfold stepsWith at hst; rw [List.all_eq_true] at hst
    exact hst d (List.mem_of_getElem? hk)
  induction h with
  | bool b => exact .bool b
  | i8 x => exact .i8 x
  | i16 x => exact .i16 x
  | i32 x => exact .i32 x
  | i64 x => exact .i64 x
  | double x => exact .double x
  | binary bs h => exact .binary bs h
  | string bs h => exact .string bs h
  | encodingSet mask => exact .encodingSet mask
  | list t vs p hl _ ih => exact .list t vs p hl ih
  | some t v p _ ih => exact .some t v p ih
  | box t v p _ ih => exact .box t v p ih
  | rc t b v p _ ih => exact .rc t b v p ih
  | enum k name x hk => exact .enum k name x hk
  | struct k name fs vs p hk _ ih =>
    have hf := hdef k _ hk
    simp only [defOk, structOk, Bool.and_eq_true, decide_eq_true_eq, List.all_eq_true, Bool.not_eq_true'] at hf
    exact .struct k name fs vs p hk (ih hf.2 [0#16] (by simp) step hok (hstep k _ hk))
  | union k name us i u v p hk hu _ ih =>
    have h1 := hstep k _ hk
    simp only [defSteps, List.all_eq_true] at h1
    exact .union k name us i u v p hk hu (ih fun _ => hok _ _ (h1 u (List.mem_of_getElem? hu))).1
  | elemsNil t => exact .elemsNil t
  | elemsCons t v vs p q _ _ ih1 ih2 => exact .elemsCons t v vs p q ih1 ih2
  | fieldBool b id last _ => exact fun h => ⟨.fieldBool b id last (h rfl), fun _ => rfl⟩
  | fieldNone t id last => exact fun _ => ⟨.fieldNone t id last, fun h => by simp [Ty.isOption] at h⟩
  | fieldSome t v id last p _ ih => exact fun h => ⟨.fieldSome t v id last p (ih h).1, fun h => by simp [Ty.isOption] at h⟩
  | fieldValue t v id last p h1 h2 _ hp ih =>
    have hpr := present_of_enc hp h2
    exact fun h => ⟨.fieldValue t v id last p h1 h2 (h hpr) ih, fun _ => hpr⟩
  | fieldsNil last => exact fun _ _ _ _ _ _ => .fieldsNil last
  | fieldsCons f fs v vs last p q _ _ ih1 ih2 =>
    intro hopt lasts hl step' hok' hfs
    simp only [fieldSteps, Bool.and_eq_true, List.all_eq_true] at hfs
    have h1 := ih1 fun _ => hok' _ _ (hfs.1 last hl)
    refine .fieldsCons f fs v vs last p q h1.1 (ih2 (fun g hg => hopt g (by simp [hg])) _ ?_ step' hok' hfs.2)
    cases hr : f.required with
    | true =>
      have : present v = true := h1.2 (by unfold Field.rustTy; rw [hr, if_pos rfl]; exact hopt f (by simp))
      simp [this]
    | false =>
      simp only [Bool.false_eq_true, if_false]
      split
      · simp
      · simp [hl]

theorem enc_steps {ov : Bool} {env : List Def} (hs : schemaOk env = true) (hst : stepsOk ov env = true) {i : EItem} {p : Bytes}
    {ok : BitVec 16 → BitVec 16 → Prop} (h : Enc env ok i p) : StepsItem (HeaderOk ov) env p i :=
  enc_stepsWith (fun _ _ h => of_decide_eq_true h) hs hst h

/-! ## `encode` and `Enc` -/

theorem runChunks_vec : ∀ (cs : List Bytes) (out : Bytes), runChunks vecSink cs out = (.ok (), out ++ cs.flatten) := by
  intro cs
  induction cs with
  | nil => intro out; simp [runChunks]
  | cons c cs ih =>
    intro out
    rw [runChunks, Wr.bind_ok (show vecSink.writeAll c out = (.ok (), out ++ c) from rfl), ih]; simp

theorem Outs.vec {α : Type} {x : Writer α} {bs : Bytes} {r : Except Fail α} (h : Outs x bs r) (out : Bytes) :
    x Bytes vecSink out = (r, out ++ bs) := by
  obtain ⟨cs, rfl, h⟩ := h
  rw [h, runChunks_vec]

theorem encode_of_enc {env : List Def} {ok : BitVec 16 → BitVec 16 → Prop} {t : Ty} {v : Val} {p : Bytes}
    (h : Enc env ok (.value t v) p) : encode env t v = .ok p := by
  unfold encode
  rw [show writeTy vecSink env t v [] = _ from Outs.vec (outs_of_enc h) []]
  rfl

/-- For well-typed values, what `encode` returns is the encoding of the specification. -/
theorem enc_of_encode {env : List Def} {t : Ty} {v : Val} {p : Bytes} (hv : HasTy env v t) (h : encode env t v = .ok p) :
    Encodes env t v p := by
  rcases (enc_or_refused hv).1 with ⟨q, hq⟩ | ⟨e, _, bs, ho⟩
  · have := encode_of_enc hq
    rw [h] at this
    injection this with this
    exact this ▸ hq
  · exfalso
    unfold encode at h
    rw [show writeTy vecSink env t v [] = _ from Outs.vec ho []] at h
    cases h

theorem Enc.mono {env : List Def} {ok ok' : BitVec 16 → BitVec 16 → Prop} (hok : ∀ a b, ok a b → ok' a b) {i : EItem} {p : Bytes}
    (h : Enc env ok i p) : Enc env ok' i p := by
  induction h with
  | bool b => exact .bool b
  | i8 x => exact .i8 x
  | i16 x => exact .i16 x
  | i32 x => exact .i32 x
  | i64 x => exact .i64 x
  | double x => exact .double x
  | binary bs h => exact .binary bs h
  | string bs h => exact .string bs h
  | encodingSet mask => exact .encodingSet mask
  | list t vs p hl _ ih => exact .list t vs p hl ih
  | some t v p _ ih => exact .some t v p ih
  | box t v p _ ih => exact .box t v p ih
  | rc t b v p _ ih => exact .rc t b v p ih
  | enum k name x hk => exact .enum k name x hk
  | struct k name fs vs p hk _ ih => exact .struct k name fs vs p hk ih
  | union k name us i u v p hk hu _ ih => exact .union k name us i u v p hk hu ih
  | elemsNil t => exact .elemsNil t
  | elemsCons t v vs p q _ _ ih1 ih2 => exact .elemsCons t v vs p q ih1 ih2
  | fieldBool b id last h => exact .fieldBool b id last (hok _ _ h)
  | fieldNone t id last => exact .fieldNone t id last
  | fieldSome t v id last p _ ih => exact .fieldSome t v id last p ih
  | fieldValue t v id last p h1 h2 h hp ih => exact .fieldValue t v id last p h1 h2 (hok _ _ h) ih
  | fieldsNil last => exact .fieldsNil last
  | fieldsCons f fs v vs last p q _ _ ih1 ih2 => exact .fieldsCons f fs v vs last p q ih1 ih2

end CT
