import Verif.Model.Partial
import Verif.Proofs.Decoding
/-! # What a failing fill leaves behind: proofs -/
namespace CT
open Spec

variable {σ α β : Type}

/-! ## Forgetting the value left -/

theorem Fl.forget_pure (a : α) : (pure a : Fl σ α).forget = pure a := rfl

theorem Fl.forget_bind (x : Fl σ α) (f : α → Fl σ β) : (x >>= f).forget = x.forget >>= fun a => (f a).forget := by
  funext s
  show Fl.forget (Fl.bind x f) s = Rd.bind x.forget (fun a => (f a).forget) s
  unfold Fl.forget Fl.bind Rd.bind
  dsimp only
  rcases x s with ⟨e, w⟩ | ⟨a, s'⟩ <;> rfl

theorem Fl.forget_keep (v : Val) (r : Rd σ α) : (Fl.keep v r).forget = r := by
  funext s
  unfold Fl.forget Fl.keep
  rcases r s with e | ⟨a, s'⟩ <;> rfl

theorem Fl.forget_part (g : Val → Val) (x : Fl σ Val) : (Fl.part g x).forget = x.forget := by
  funext s
  unfold Fl.forget Fl.part
  rcases x s with ⟨e, w⟩ | ⟨a, s'⟩ <;> rfl

theorem Fl.forget_into (g : Val → Val) (x : Fl σ Val) : (Fl.into g x).forget = (x.forget >>= fun w => pure (g w)) := by
  unfold Fl.into
  rw [Fl.forget_bind, Fl.forget_part]
  rfl

theorem Fl.forget_ite {c : Prop} [Decidable c] (x y : Fl σ α) : (if c then x else y).forget = if c then x.forget else y.forget := by
  split <;> rfl

theorem Rd.pure_bind' (a : α) (f : α → Rd σ β) : (pure a >>= f) = f a := rfl

theorem Rd.bind_assoc' {γ : Type} (x : Rd σ α) (f : α → Rd σ β) (g : β → Rd σ γ) : (x >>= f) >>= g = x >>= fun a => f a >>= g := by
  funext s
  show Rd.bind (Rd.bind x f) g s = Rd.bind x (fun a => Rd.bind (f a) g) s
  unfold Rd.bind
  rcases x s with e | ⟨a, s'⟩ <;> rfl

section Erase
variable (cfg : Cfg) (I : Input σ) (env : List Def)

theorem forget_fillElemsP (x : Fl σ Val) : ∀ n done,
    (fillElemsP x n done).forget = do let vs ← fillElems x.forget n; pure (.list (done ++ vs))
  | 0, done => by
    unfold fillElemsP fillElems
    rw [Rd.pure_bind', List.append_nil]; rfl
  | n + 1, done => by
    unfold fillElemsP fillElems
    rw [Fl.forget_bind, Fl.forget_part, Rd.bind_assoc']
    congr 1; funext v
    rw [forget_fillElemsP x n, Rd.bind_assoc']
    congr 1; funext vs
    rw [Rd.pure_bind', List.append_assoc]; rfl

theorem forget_fillTyP (hp : Nat → Val → Fl σ Val) (hn : Nat → Val → Rd σ Val) (h : ∀ k v, (hp k v).forget = hn k v) :
    ∀ t v, (fillTyP cfg I env hp t v).forget = fillTy cfg I env hn t v
  | .list t, v => by
    unfold fillTyP fillTy
    rw [Fl.forget_bind, Fl.forget_keep]
    congr 1; funext ⟨len, et⟩
    dsimp only
    rw [Fl.forget_ite, Fl.forget_keep, Fl.forget_ite, Fl.forget_keep, forget_fillElemsP, forget_fillTyP hp hn h t]
    rfl
  | .option t, v => by
    cases v with
    | some v => unfold fillTyP fillTy; exact Fl.forget_keep _ _
    | none =>
      unfold fillTyP fillTy
      rw [Fl.forget_into, forget_fillTyP hp hn h t]
    | _ => unfold fillTyP fillTy; rw [Fl.forget_keep]
  | .box t, v => by
    cases v with
    | box v => unfold fillTyP fillTy; rw [Fl.forget_into, forget_fillTyP hp hn h t]
    | _ => unfold fillTyP fillTy; rw [Fl.forget_keep]
  | .rc t, v => by
    cases v with
    | rc b v => unfold fillTyP fillTy; rw [Fl.forget_ite, Fl.forget_keep, Fl.forget_into, forget_fillTyP hp hn h t]
    | _ => unfold fillTyP fillTy; rw [Fl.forget_keep]
  | .named k, v => by unfold fillTyP fillTy; exact h k v
  | .bool, v | .i8, v | .i16, v | .i32, v | .i64, v | .double, v | .binary, v | .string, v | .encodingSet, v => by
    unfold fillTyP; rw [Fl.forget_keep]; unfold fillTy; rfl

theorem forget_fillFieldP (hp : Nat → Val → Fl σ Val) (hn : Nat → Val → Rd σ Val) (h : ∀ k v, (hp k v).forget = hn k v) :
    ∀ t v ft, (fillFieldP cfg I env hp t v ft).forget = fillField cfg I env hn t v ft
  | .bool, v, ft => by unfold fillFieldP fillField; rfl
  | .option t, v, ft => by
    cases v with
    | some v => unfold fillFieldP fillField; exact Fl.forget_keep _ _
    | none =>
      unfold fillFieldP fillField
      rw [Fl.forget_into, forget_fillFieldP hp hn h t]
    | _ => unfold fillFieldP fillField; rw [Fl.forget_keep]
  | .list t, v, ft | .box t, v, ft | .rc t, v, ft => by
    unfold fillFieldP fillField; rw [Fl.forget_ite, Fl.forget_keep, forget_fillTyP cfg I env hp hn h]
  | .named k, v, ft => by unfold fillFieldP fillField; rw [Fl.forget_ite, Fl.forget_keep, forget_fillTyP cfg I env hp hn h]
  | .i8, v, ft | .i16, v, ft | .i32, v, ft | .i64, v, ft | .double, v, ft | .binary, v, ft | .string, v, ft
  | .encodingSet, v, ft => by unfold fillFieldP fillField; rw [Fl.forget_ite, Fl.forget_keep, forget_fillTyP cfg I env hp hn h]

theorem forget_structLoopP (hp : Nat → Val → Fl σ Val) (hn : Nat → Val → Rd σ Val) (h : ∀ k v, (hp k v).forget = hn k v) (name : String)
    (fs : List Field) : ∀ fuel last flags vs,
    (structLoopP cfg I env hp name fs fuel last flags vs).forget = structLoop cfg I env hn name fs fuel last flags vs
  | 0, last, flags, vs => by unfold structLoopP structLoop; exact Fl.forget_keep _ _
  | fuel + 1, last, flags, vs => by
    unfold structLoopP structLoop
    rw [Fl.forget_bind, Fl.forget_keep]
    congr 1; funext ⟨ft, last'⟩
    dsimp only
    rw [Fl.forget_ite]
    congr 1
    · cases firstMissing fs flags with
      | none => rfl
      | some f => exact Fl.forget_keep _ _
    · cases findField fs last' with
      | none =>
        dsimp only
        rw [Fl.forget_bind, Fl.forget_keep]
        congr 1; funext _
        exact forget_structLoopP hp hn h name fs fuel _ _ _
      | some i =>
        dsimp only
        cases fs[i]? with
        | none => exact Fl.forget_keep _ _
        | some f =>
          cases vs[i]? with
          | none => exact Fl.forget_keep _ _
          | some v =>
            dsimp only
            rw [Fl.forget_bind, Fl.forget_part, forget_fillFieldP cfg I env hp hn h]
            congr 1; funext v'
            exact forget_structLoopP hp hn h name fs fuel _ _ _

theorem forget_fillUnionP (hp : Nat → Val → Fl σ Val) (hn : Nat → Val → Rd σ Val) (h : ∀ k v, (hp k v).forget = hn k v) (us : List Variant)
    (v0 : Val) : (fillUnionP cfg I env hp us v0).forget = fillUnion cfg I env hn us := by
  unfold fillUnionP fillUnion
  rw [Fl.forget_bind, Fl.forget_keep]
  congr 1; funext ⟨ft, id⟩
  dsimp only
  rw [Fl.forget_ite, Fl.forget_keep]
  congr 1
  cases us.findIdx? (fun u => u.id == id) with
  | none => exact Fl.forget_keep _ _
  | some i =>
    dsimp only
    cases us[i]? with
    | none => exact Fl.forget_keep _ _
    | some u =>
      dsimp only
      rw [Fl.forget_bind, Fl.forget_into, forget_fillTyP cfg I env hp hn h, Rd.bind_assoc']
      congr 1; funext v
      rw [Rd.pure_bind', Fl.forget_bind, Fl.forget_keep]
      congr 1; funext stop
      rw [Fl.forget_ite, Fl.forget_keep]
      rfl

theorem forget_fillNamedP : ∀ fuel k v, (fillNamedP cfg I env fuel k v).forget = fillNamed cfg I env fuel k v
  | 0, k, v => by unfold fillNamedP fillNamed; exact Fl.forget_keep _ _
  | fuel + 1, k, v => by
    have ih := forget_fillNamedP fuel
    unfold fillNamedP fillNamed
    cases env[k]? with
    | none => exact Fl.forget_keep _ _
    | some d =>
      cases d with
      | struct name fs =>
        cases v with
        | struct vs =>
          funext s
          have := congrFun (forget_structLoopP cfg I env _ _ ih name fs (I.size s + 1) 0#16 (fs.map fun _ => false) vs) s
          exact this
        | _ => exact Fl.forget_keep _ _
      | union name us =>
        cases v with
        | union i w => exact forget_fillUnionP cfg I env _ _ ih us _
        | _ => exact Fl.forget_keep _ _
      | enum name =>
        cases v with
        | enum x =>
          dsimp only
          rw [Fl.forget_bind, Fl.forget_keep]; rfl
        | _ => exact Fl.forget_keep _ _

theorem forget_fillThriftP (t : Ty) (v : Val) : (fillThriftP cfg I env t v).forget = fillThrift cfg I env t v := by
  funext s
  have h := congrFun (forget_fillTyP cfg I env _ _ (forget_fillNamedP cfg I env (I.size s + 1)) t v) s
  unfold fillThrift
  rw [← h]
  unfold Fl.forget fillThriftP
  rfl

end Erase

/-! ## Invariants of `*self` -/

/-- `Q` holds of the value in `*self` after `x`, whatever the outcome. -/
def Fl.Always (x : Fl σ Val) (Q : Val → Prop) : Prop :=
  ∀ s, (∀ e w, x s = .error (e, w) → Q w) ∧ ∀ w s', x s = .ok (w, s') → Q w

theorem Fl.always_keep {v : Val} {r : Rd σ Val} {Q : Val → Prop} (hv : Q v) (hr : ∀ s w s', r s = .ok (w, s') → Q w) :
    (Fl.keep v r).Always Q := by
  intro s
  unfold Fl.keep
  have := hr s
  rcases hs : r s with e | ⟨w, s'⟩
  · exact ⟨fun e' w h => by cases h; exact hv, fun w s' h => nomatch h⟩
  · exact ⟨fun e' w h => (nomatch h), fun w' s'' h => by cases h; exact this _ _ hs⟩

theorem Fl.always_pure {v : Val} {Q : Val → Prop} (hv : Q v) : (pure v : Fl σ Val).Always Q :=
  fun s => ⟨fun e w h => (nomatch h), fun w s' h => by cases h; exact hv⟩

theorem Fl.always_keep_bind {v : Val} {r : Rd σ α} {f : α → Fl σ Val} {Q : Val → Prop} (hv : Q v) (hf : ∀ a, (f a).Always Q) :
    (Fl.keep v r >>= f).Always Q := by
  intro s
  show (∀ e w, Fl.bind (Fl.keep v r) f s = .error (e, w) → Q w) ∧ ∀ w s', Fl.bind (Fl.keep v r) f s = .ok (w, s') → Q w
  unfold Fl.bind Fl.keep
  rcases r s with e | ⟨a, s'⟩
  · exact ⟨fun e' w h => by cases h; exact hv, fun w s' h => nomatch h⟩
  · exact hf a s'

theorem Fl.always_part_bind {g : Val → Val} {x : Fl σ Val} {f : Val → Fl σ Val} {P Q : Val → Prop} (hx : x.Always P) (hg : ∀ w, P w → Q (g w))
    (hf : ∀ w, P w → (f w).Always Q) : (Fl.part g x >>= f).Always Q := by
  intro s
  show (∀ e w, Fl.bind (Fl.part g x) f s = .error (e, w) → Q w) ∧ ∀ w s', Fl.bind (Fl.part g x) f s = .ok (w, s') → Q w
  unfold Fl.bind Fl.part
  have := hx s
  rcases hs : x s with ⟨e, w⟩ | ⟨a, s'⟩
  · exact ⟨fun e' w' h => by cases h; exact hg _ (this.1 _ _ hs), fun w s' h => nomatch h⟩
  · exact hf a (this.2 _ _ hs) s'

theorem Fl.always_into {g : Val → Val} {x : Fl σ Val} {P Q : Val → Prop} (hx : x.Always P) (hg : ∀ w, P w → Q (g w)) : (Fl.into g x).Always Q :=
  Fl.always_part_bind hx hg fun w hw => Fl.always_pure (hg w hw)

theorem Fl.always_bind {x : Fl σ Val} {f : Val → Fl σ Val} {P Q : Val → Prop} (hx : x.Always P) (hg : ∀ w, P w → Q w)
    (hf : ∀ w, P w → (f w).Always Q) : (x >>= f).Always Q := by
  intro s
  show (∀ e w, Fl.bind x f s = .error (e, w) → Q w) ∧ ∀ w s', Fl.bind x f s = .ok (w, s') → Q w
  unfold Fl.bind
  have := hx s
  rcases hs : x s with ⟨e, w⟩ | ⟨a, s'⟩
  · exact ⟨fun e' w' h => by cases h; exact hg _ (this.1 _ _ hs), fun w s' h => nomatch h⟩
  · exact hf a (this.2 _ _ hs) s'

theorem Fl.always_fail {v : Val} {e : Fail} {Q : Val → Prop} (hv : Q v) : (Fl.keep v (Rd.fail e) : Fl σ Val).Always Q :=
  Fl.always_keep hv fun _ _ _ h => nomatch h

theorem Fl.always_throw {v : Val} {e : ThriftError} {Q : Val → Prop} (hv : Q v) : (Fl.keep v (Rd.throw e) : Fl σ Val).Always Q :=
  Fl.always_keep hv fun _ _ _ h => nomatch h

/-- The values reading a type without parts can return. -/
inductive LeafVal : Ty → Val → Prop where
  | bool (b) : LeafVal .bool (.bool b)
  | i8 (x) : LeafVal .i8 (.i8 x)
  | i16 (x) : LeafVal .i16 (.i16 x)
  | i32 (x) : LeafVal .i32 (.i32 x)
  | i64 (x) : LeafVal .i64 (.i64 x)
  | double (x) : LeafVal .double (.double x)
  | binary (bs) : LeafVal .binary (.binary bs)
  | string (bs) (h : utf8Valid bs = true) : LeafVal .string (.string bs)
  | encodingSet (mask) (h : mask.toNat < 2 ^ 31) : LeafVal .encodingSet (.encodingSet mask)

/-- Properties `P` of values of the types in `T` that filling keeps up. -/
structure Inv (env : List Def) (T : Ty → Prop) (P : Ty → Val → Prop) : Prop where
  leaf : ∀ {t w}, LeafVal t w → P t w
  dflt : ∀ {t}, T t → P t (dflt env t)
  list : ∀ {t}, T (.list t) → (T t ∧ ∀ vs, (∀ v ∈ vs, P t v) → P (.list t) (.list vs)) ∨ ∀ vs, P (.list t) (.list vs)
  option : ∀ {t}, T (.option t) → T t ∧ ∀ w, P t w → P (.option t) (.some w)
  box : ∀ {t}, T (.box t) → T t ∧ (∀ v, P (.box t) (.box v) → P t v) ∧ ∀ w, P t w → P (.box t) (.box w)
  rc : ∀ {t}, T (.rc t) → T t ∧ (∀ v, P (.rc t) (.rc false v) → P t v) ∧ ∀ w, P t w → P (.rc t) (.rc false w)
  struct : ∀ {k name fs vs i f v}, T (.named k) → env[k]? = some (.struct name fs) → P (.named k) (.struct vs) → fs[i]? = some f →
    vs[i]? = some v → T f.rustTy ∧ P f.rustTy v ∧ ∀ w, P f.rustTy w → P (.named k) (.struct (vs.set i w))
  union : ∀ {k name us i u}, T (.named k) → env[k]? = some (.union name us) → us[i]? = some u →
    (T u.ty ∧ ∀ w, P u.ty w → P (.named k) (.union i w)) ∨ ∀ w, P (.named k) (.union i w)
  enum : ∀ {k name x}, env[k]? = some (.enum name) → P (.named k) (.enum x)

section Always
variable (cfg : Cfg) (I : Input σ) {env : List Def}

theorem encodingSetLoop_small : ∀ k mask s m s', mask.toNat < 2 ^ 31 → encodingSetLoop cfg I k mask s = .ok (m, s') → m.toNat < 2 ^ 31
  | 0, mask, s, m, s', h, e => by unfold encodingSetLoop at e; cases e; exact h
  | k + 1, mask, s, m, s', h, e => by
    unfold encodingSetLoop at e
    obtain ⟨v, s₁, _, e⟩ := Rd.bind_eq_ok.1 e
    split at e
    · exact nomatch e
    · rename_i hv
      refine encodingSetLoop_small k _ _ _ _ ?_ e
      simp only [Bool.or_eq_true, not_or, Bool.not_eq_true, BitVec.slt, BitVec.sle, decide_eq_false_iff_not] at hv
      obtain ⟨h1, h2⟩ := hv
      have h3 : v.toNat < 31 := by
        have e31 : (31#32 : BitVec 32).toInt = 31 := by decide
        have e0 : (0#32 : BitVec 32).toInt = 0 := by decide
        rw [e31] at h2; rw [e0] at h1
        rw [BitVec.toInt_eq_toNat_cond] at h1 h2
        split at h1 <;> omega
      rw [BitVec.toNat_or]
      refine Nat.or_lt_two_pow h ?_
      rw [BitVec.toNat_shiftLeft, BitVec.toNat_ofNat]
      refine Nat.lt_of_le_of_lt (Nat.mod_le _ _) ?_
      rw [Nat.shiftLeft_eq]
      simp only [Nat.reducePow, Nat.reduceMod, Nat.one_mul]
      calc 2 ^ v.toNat ≤ 2 ^ 30 := Nat.pow_le_pow_right (by omega) (by omega)
        _ < 2147483648 := by decide

theorem always_fillElemsP {x : Fl σ Val} {P Q : Val → Prop} (hx : x.Always P) (hQ : ∀ vs, (∀ v ∈ vs, P v) → Q (.list vs)) :
    ∀ n done, (∀ v ∈ done, P v) → (fillElemsP x n done).Always Q
  | 0, done, h => Fl.always_pure (hQ done h)
  | n + 1, done, h => by
    have ha : ∀ w, P w → ∀ v ∈ done ++ [w], P v := by
      intro w hw v hv
      rcases List.mem_append.1 hv with hv | hv
      · exact h v hv
      · obtain rfl : v = w := by simpa using hv
        exact hw
    unfold fillElemsP
    exact Fl.always_part_bind hx (fun w hw => hQ _ (ha w hw)) fun w hw => always_fillElemsP hx hQ n _ (ha w hw)

variable {T : Ty → Prop} {P : Ty → Val → Prop} (hP : Inv env T P)
include hP

theorem always_fillTyP {hp : Nat → Val → Fl σ Val} (h : ∀ k v, T (.named k) → P (.named k) v → (hp k v).Always (P (.named k))) :
    ∀ t v, T t → P t v → (fillTyP cfg I env hp t v).Always (P t)
  | .list t, v, ht, hv => by
    unfold fillTyP
    refine Fl.always_keep_bind hv fun ⟨len, et⟩ => ?_
    dsimp only
    have hall : (∀ vs, P (.list t) (.list vs)) → ∀ n done, (fillElemsP (fillTyP cfg I env hp t (dflt env t)) n done).Always (P (.list t)) :=
      fun hl n done => always_fillElemsP (P := fun _ => True) (fun s => ⟨fun _ _ _ => trivial, fun _ _ _ => trivial⟩) (fun vs _ => hl vs) n done
        fun _ _ => trivial
    split
    · exact Fl.always_throw hv
    · split
      · refine Fl.always_throw ?_
        rcases hP.list ht with h1 | h1
        · exact h1.2 _ (by simp)
        · exact h1 _
      · rcases hP.list ht with h1 | h1
        · exact always_fillElemsP (always_fillTyP h t _ h1.1 (hP.dflt h1.1)) h1.2 _ _ (by simp)
        · exact hall h1 _ _
  | .option t, v, ht, hv => by
    cases v with
    | some v => unfold fillTyP; exact Fl.always_throw hv
    | none =>
      unfold fillTyP
      exact Fl.always_into (always_fillTyP h t _ (hP.option ht).1 (hP.dflt (hP.option ht).1)) (hP.option ht).2
    | _ => unfold fillTyP; exact Fl.always_keep hv fun _ _ _ h => by unfold fillTy at h; exact nomatch h
  | .box t, v, ht, hv => by
    cases v with
    | box v =>
      unfold fillTyP
      exact Fl.always_into (always_fillTyP h t _ (hP.box ht).1 ((hP.box ht).2.1 _ hv)) (hP.box ht).2.2
    | _ => unfold fillTyP; exact Fl.always_keep hv fun _ _ _ h => by unfold fillTy at h; exact nomatch h
  | .rc t, v, ht, hv => by
    cases v with
    | rc b v =>
      unfold fillTyP
      cases b with
      | true => exact Fl.always_throw hv
      | false => exact Fl.always_into (always_fillTyP h t _ (hP.rc ht).1 ((hP.rc ht).2.1 _ hv)) (hP.rc ht).2.2
    | _ => unfold fillTyP; exact Fl.always_keep hv fun _ _ _ h => by unfold fillTy at h; exact nomatch h
  | .named k, v, ht, hv => by unfold fillTyP; exact h k v ht hv
  | .bool, v, ht, hv | .i8, v, ht, hv | .i16, v, ht, hv | .i32, v, ht, hv | .i64, v, ht, hv | .double, v, ht, hv | .binary, v, ht, hv => by
    unfold fillTyP
    refine Fl.always_keep hv fun s w s' h => hP.leaf ?_
    unfold fillTy at h
    obtain ⟨x, s₁, _, h⟩ := Rd.bind_eq_ok.1 h
    cases h
    constructor
  | .string, v, ht, hv => by
    unfold fillTyP
    refine Fl.always_keep hv fun s w s' h => hP.leaf ?_
    unfold fillTy at h
    obtain ⟨x, s₁, h1, h⟩ := Rd.bind_eq_ok.1 h
    cases h
    refine .string _ ?_
    unfold Input.readString at h1
    obtain ⟨y, s₂, _, h1⟩ := Rd.bind_eq_ok.1 h1
    split at h1
    · rename_i hu; cases h1; exact hu
    · exact nomatch h1
  | .encodingSet, v, ht, hv => by
    unfold fillTyP
    refine Fl.always_keep hv fun s w s' h => hP.leaf ?_
    unfold fillTy at h
    obtain ⟨⟨len, et⟩, s₁, _, h⟩ := Rd.bind_eq_ok.1 h
    dsimp only at h
    split at h
    · exact nomatch h
    · obtain ⟨m, s₂, h2, h⟩ := Rd.bind_eq_ok.1 h
      cases h
      exact .encodingSet _ (encodingSetLoop_small cfg I _ _ _ _ _ (by decide) h2)

theorem always_fillFieldP {hp : Nat → Val → Fl σ Val} (h : ∀ k v, T (.named k) → P (.named k) v → (hp k v).Always (P (.named k))) :
    ∀ t v ft, T t → P t v → (fillFieldP cfg I env hp t v ft).Always (P t)
  | .bool, v, ft, ht, hv => by unfold fillFieldP; exact Fl.always_pure (hP.leaf (.bool _))
  | .option t, v, ft, ht, hv => by
    cases v with
    | some v => unfold fillFieldP; exact Fl.always_throw hv
    | none =>
      unfold fillFieldP
      exact Fl.always_into (always_fillFieldP h t _ ft (hP.option ht).1 (hP.dflt (hP.option ht).1)) (hP.option ht).2
    | _ => unfold fillFieldP; exact Fl.always_fail hv
  | .list t, v, ft, ht, hv | .box t, v, ft, ht, hv | .rc t, v, ft, ht, hv => by
    unfold fillFieldP
    split
    · exact Fl.always_throw hv
    · exact always_fillTyP cfg I hP h _ v ht hv
  | .named k, v, ft, ht, hv => by
    unfold fillFieldP
    split
    · exact Fl.always_throw hv
    · exact always_fillTyP cfg I hP h _ v ht hv
  | .i8, v, ft, ht, hv | .i16, v, ft, ht, hv | .i32, v, ft, ht, hv | .i64, v, ft, ht, hv | .double, v, ft, ht, hv | .binary, v, ft, ht, hv
  | .string, v, ft, ht, hv | .encodingSet, v, ft, ht, hv => by
    unfold fillFieldP
    split
    · exact Fl.always_throw hv
    · exact always_fillTyP cfg I hP h _ v ht hv

theorem always_structLoopP {hp : Nat → Val → Fl σ Val} (h : ∀ k v, T (.named k) → P (.named k) v → (hp k v).Always (P (.named k))) {k : Nat}
    (hT : T (.named k)) {name : String} {fs : List Field} (hk : env[k]? = some (.struct name fs)) :
    ∀ fuel last flags vs, P (.named k) (.struct vs) → (structLoopP cfg I env hp name fs fuel last flags vs).Always (P (.named k))
  | 0, last, flags, vs, hv => by unfold structLoopP; exact Fl.always_fail hv
  | fuel + 1, last, flags, vs, hv => by
    unfold structLoopP
    refine Fl.always_keep_bind hv fun ⟨ft, last'⟩ => ?_
    dsimp only
    split
    · cases firstMissing fs flags with
      | none => exact Fl.always_pure hv
      | some f => exact Fl.always_throw hv
    · cases findField fs last' with
      | none => exact Fl.always_keep_bind hv fun _ => always_structLoopP h hT hk fuel _ _ _ hv
      | some i =>
        dsimp only
        cases hf : fs[i]? with
        | none => exact Fl.always_fail hv
        | some f =>
          cases hw : vs[i]? with
          | none => exact Fl.always_fail hv
          | some v =>
            obtain ⟨h1, h2, h3⟩ := hP.struct hT hk hv hf hw
            exact Fl.always_part_bind (always_fillFieldP cfg I hP h f.rustTy v ft h1 h2) h3
              fun w hw => always_structLoopP h hT hk fuel _ _ _ (h3 w hw)

theorem always_fillUnionP {hp : Nat → Val → Fl σ Val} (h : ∀ k v, T (.named k) → P (.named k) v → (hp k v).Always (P (.named k))) {k : Nat}
    (hT : T (.named k)) {name : String} {us : List Variant} (hk : env[k]? = some (.union name us)) {v0 : Val} (h0 : P (.named k) v0) :
    (fillUnionP cfg I env hp us v0).Always (P (.named k)) := by
  unfold fillUnionP
  refine Fl.always_keep_bind h0 fun ⟨ft, id⟩ => ?_
  dsimp only
  split
  · exact Fl.always_throw h0
  · cases us.findIdx? (fun u => u.id == id) with
    | none => exact Fl.always_throw h0
    | some i =>
      dsimp only
      cases hu : us[i]? with
      | none => exact Fl.always_fail h0
      | some u =>
        have hin : (Fl.into (.union i) (fillTyP cfg I env hp u.ty (dflt env u.ty))).Always (P (.named k)) := by
          rcases hP.union hT hk hu with h1 | h1
          · exact Fl.always_into (always_fillTyP cfg I hP h _ _ h1.1 (hP.dflt h1.1)) h1.2
          · exact Fl.always_into (P := fun _ => True) (fun s => ⟨fun _ _ _ => trivial, fun _ _ _ => trivial⟩) fun w _ => h1 w
        refine Fl.always_bind hin (fun _ hw => hw) fun w hw => Fl.always_keep_bind hw fun stop => ?_
        split
        · exact Fl.always_throw hw
        · exact Fl.always_pure hw

theorem always_fillNamedP : ∀ fuel k v, T (.named k) → P (.named k) v → (fillNamedP cfg I env fuel k v).Always (P (.named k))
  | 0, k, v, hT, hv => by unfold fillNamedP; exact Fl.always_fail hv
  | fuel + 1, k, v, hT, hv => by
    have ih := always_fillNamedP fuel
    unfold fillNamedP
    cases hk : env[k]? with
    | none => exact Fl.always_fail hv
    | some d =>
      cases d with
      | struct name fs =>
        cases v with
        | struct vs => exact fun s => always_structLoopP cfg I hP ih hT hk _ _ _ _ hv s
        | _ => exact Fl.always_fail hv
      | union name us =>
        cases v with
        | union i w => exact always_fillUnionP cfg I hP ih hT hk hv
        | _ => exact Fl.always_fail hv
      | enum name =>
        cases v with
        | enum x => exact Fl.always_keep_bind hv fun y => Fl.always_pure (hP.enum hk)
        | _ => exact Fl.always_fail hv

theorem always_fillThriftP {t : Ty} {v : Val} (ht : T t) (hv : P t v) : (fillThriftP cfg I env t v).Always (P t) :=
  fun s => always_fillTyP cfg I hP (always_fillNamedP cfg I hP _) t v ht hv s

end Always

end CT
