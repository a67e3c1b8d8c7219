import Verif.Proofs.RoundTrip
import Verif.Proofs.Ops
import Verif.Spec.Values
/-! # What reading returns -/
namespace CT
open Spec

variable {σ : Type}

/-! ## Clean values -/

theorem Spec.Clean.hasTy {env : List Def} {t : Ty} {v : Val} (h : Clean env t v) : HasTy env v t := by
  induction h with
  | bool b => exact .bool b
  | i8 x => exact .i8 x
  | i16 x => exact .i16 x
  | i32 x => exact .i32 x
  | i64 x => exact .i64 x
  | double x => exact .double x
  | binary bs h => exact .binary bs
  | string bs h hu => exact .string bs hu
  | encodingSet mask h => exact .encodingSet mask h
  | list t vs hl h ih => exact .list t vs ih
  | some t v h ih => exact .some t v ih
  | box t v h ih => exact .box t v ih
  | rc t v h ih => exact .rc t false v ih
  | enum k name x hk => exact .enum k name x hk
  | struct k name fs vs hk hl h ih =>
    refine .struct k name fs vs hk hl fun i f v hf hv => ?_
    by_cases hn : f.required = false ∧ v = .none
    · obtain ⟨h1, rfl⟩ := hn
      rw [Field.rustTy, h1]
      exact .none _
    · exact ih i f v hf hv hn
  | union k name us i u v hk hu h ih => exact .union k name us i u v hk hu ih

theorem unshareList_eq : ∀ {vs : List Val}, (∀ v ∈ vs, v.unshare = v) → Val.unshareList vs = vs
  | [], _ => rfl
  | v :: vs, h => by
    rw [Val.unshareList, h v (by simp), unshareList_eq fun w hw => h w (by simp [hw])]

theorem Spec.Clean.unshare {env : List Def} {t : Ty} {v : Val} (h : Clean env t v) : v.unshare = v := by
  induction h with
  | list t vs hl h ih => rw [Val.unshare, unshareList_eq ih]
  | some t v h ih => rw [Val.unshare, ih]
  | box t v h ih => rw [Val.unshare, ih]
  | rc t v h ih => rw [Val.unshare, ih]
  | struct k name fs vs hk hl h ih =>
    rw [Val.unshare, unshareList_eq]
    intro v hv
    obtain ⟨i, hi⟩ := List.getElem?_of_mem hv
    have hlt : i < fs.length := by rw [← hl]; exact (List.getElem?_eq_some_iff.1 hi).1
    by_cases hn : (fs[i]).required = false ∧ v = .none
    · rw [hn.2]; rfl
    · exact ih i _ v (List.getElem?_eq_getElem hlt) hi hn
  | union k name us i u v hk hu h ih => rw [Val.unshare, ih]
  | _ => rfl

theorem Spec.Clean.unrefused {env : List Def} {t : Ty} {v : Val} (h : Clean env t v) :
    (∀ e, ¬ Refused env t v e) ∧ ∀ e, ¬ RefusedField env t v e := by
  have plain : ∀ {t v}, (∀ t', t ≠ .option t') → (∀ e, ¬ Refused env t v e) →
      (∀ e, ¬ Refused env t v e) ∧ ∀ e, ¬ RefusedField env t v e := by
    intro t v ht hv
    refine ⟨hv, fun e h => ?_⟩
    cases h with
    | some t' _ _ _ => exact ht t' rfl
    | value _ _ _ _ h => exact hv e h
  induction h with
  | bool b => exact plain (by simp) fun e h => nomatch h
  | i8 x => exact plain (by simp) fun e h => nomatch h
  | i16 x => exact plain (by simp) fun e h => nomatch h
  | i32 x => exact plain (by simp) fun e h => nomatch h
  | i64 x => exact plain (by simp) fun e h => nomatch h
  | double x => exact plain (by simp) fun e h => nomatch h
  | binary bs h => refine plain (by simp) fun e hr => ?_; cases hr; omega
  | string bs h hu => refine plain (by simp) fun e hr => ?_; cases hr; omega
  | encodingSet mask h => exact plain (by simp) fun e h => nomatch h
  | list t vs hl h ih =>
    refine plain (by simp) fun e hr => ?_
    cases hr with
    | length _ _ h => omega
    | elem _ _ w _ hw h => exact (ih w hw).1 e h
  | some t v h ih =>
    refine ⟨fun e hr => ?_, fun e hr => ?_⟩
    · cases hr with | some _ _ _ h => exact ih.1 e h
    · cases hr with
      | some _ _ _ h => exact ih.2 e h
      | value _ _ _ h1 _ => exact h1 t rfl
  | box t v h ih => refine plain (by simp) fun e hr => ?_; cases hr with | box _ _ _ h => exact ih.1 e h
  | rc t v h ih => refine plain (by simp) fun e hr => ?_; cases hr with | rc _ _ _ _ h => exact ih.1 e h
  | enum k name x hk => exact plain (by simp) fun e h => nomatch h
  | struct k name fs vs hk hl h ih =>
    refine plain (by simp) fun e hr => ?_
    cases hr with
    | struct _ name' fs' _ i f v _ hk' hf hv h =>
      rw [hk] at hk'; cases hk'
      by_cases hn : f.required = false ∧ v = .none
      · obtain ⟨h1, rfl⟩ := hn
        rw [Field.rustTy, h1] at h
        cases h with
        | value _ _ _ h1 _ => exact h1 _ rfl
      · exact (ih i f v hf hv hn).2 e h
  | union k name us i u v hk hu h ih =>
    refine plain (by simp) fun e hr => ?_
    cases hr with
    | union _ _ _ _ u' _ _ hk' hu' h =>
      rw [hk] at hk'; cases hk'
      rw [hu] at hu'; cases hu'
      exact ih.2 e h

theorem Spec.Fillable.seed {env : List Def} {t : Ty} {v : Val} (h : Fillable env t v) : Seed env t v := by
  induction h with
  | bool b => exact .bool _
  | i8 x => exact .i8 _
  | i16 x => exact .i16 _
  | i32 x => exact .i32 _
  | i64 x => exact .i64 _
  | double x => exact .double _
  | binary bs => exact .binary _
  | string bs => exact .string _
  | encodingSet mask => exact .encodingSet _
  | list t vs => exact .list _ _
  | none t => exact .none t
  | box t v h ih => exact .box t v ih
  | rc t v h ih => exact .rc t _ v ih
  | enum k name x hk => exact .enum k name x hk
  | struct k name fs vs hk hl h ih => exact .struct k name fs vs hk hl ih
  | union k name us i v hk => exact .union k name us i v hk

theorem Spec.Clean.seed {env : List Def} {t : Ty} {v : Val} (h : Clean env t v) : Seed env t v := by
  induction h with
  | bool b => exact .bool _
  | i8 x => exact .i8 _
  | i16 x => exact .i16 _
  | i32 x => exact .i32 _
  | i64 x => exact .i64 _
  | double x => exact .double _
  | binary bs => exact .binary _
  | string bs => exact .string _
  | encodingSet mask => exact .encodingSet _
  | list t vs => exact .list _ _
  | some t v h ih => exact .some t v h
  | box t v h ih => exact .box t v ih
  | rc t v h ih => exact .rc t _ v ih
  | enum k name x hk => exact .enum k name x hk
  | struct k name fs vs hk hl h ih =>
    refine .struct k name fs vs hk hl fun i f v hf hv => ?_
    by_cases hn : f.required = false ∧ v = .none
    · obtain ⟨h1, rfl⟩ := hn
      rw [Field.rustTy, h1]
      exact .none _
    · exact ih i f v hf hv hn
  | union k name us i u v hk hu h ih => exact .union k name us i v hk

/-! ## Defaults -/

theorem tyClosed_dflt_defined {env : List Def} (h : defaultsDefined env = true) {t : Ty} (ht : tyClosed env t = true) :
    defined (dfltTy (defaults env) t) = true := by
  induction t with
  | named k =>
    have hk : k < env.length := by simpa [tyClosed] using ht
    rw [dfltTy, defaults_get (List.getElem?_eq_getElem hk)]
    exact (definedList_iff _).1 h _ (List.mem_of_getElem? (defaults_get (List.getElem?_eq_getElem hk)))
  | box t ih => simpa [dfltTy, defined] using ih (by simpa [tyClosed] using ht)
  | rc t ih => simpa [dfltTy, defined] using ih (by simpa [tyClosed] using ht)
  | _ => rfl

theorem fillable_dflt_closed {env : List Def} (h : defaultsDefined env = true) {t : Ty} (ht : tyClosed env t = true) :
    Fillable env t (dflt env t) := by
  refine fillable_dfltTy (fun k w hw hd => fillable_defaults k w hw ?_ hd) t (tyClosed_dflt_defined h ht)
  have := (List.getElem?_eq_some_iff.1 hw).1
  rwa [defaults_length] at this

theorem weight_dfltTy {ds : List Val} (h : ∀ v ∈ ds, weight v = 0) (t : Ty) : weight (dfltTy ds t) = 0 := by
  induction t with
  | named k =>
    rw [dfltTy]
    cases e : ds[k]? with
    | none => rfl
    | some v => exact h v (List.mem_of_getElem? e)
  | box t ih => simpa [dfltTy, weight] using ih
  | rc t ih => simpa [dfltTy, weight] using ih
  | _ => rfl

theorem weightList_eq_zero : ∀ {vs : List Val}, (∀ v ∈ vs, weight v = 0) → weightList vs = 0
  | [], _ => rfl
  | v :: vs, h => by
    rw [weightList, h v (by simp), weightList_eq_zero fun w hw => h w (by simp [hw])]

theorem weight_defaultsFrom : ∀ (env : List Def) (ds : List Val), (∀ v ∈ ds, weight v = 0) →
    ∀ v ∈ defaultsFrom ds env, weight v = 0
  | [], _, h => h
  | d :: env, ds, h => by
    rw [defaultsFrom]
    refine weight_defaultsFrom env _ fun v hv => ?_
    rcases List.mem_append.1 hv with hv | hv
    · exact h v hv
    · obtain rfl : v = _ := by simpa using hv
      cases d with
      | enum name => rfl
      | union name us =>
        cases us with
        | nil => rfl
        | cons u us => exact weight_dfltTy h _
      | struct name fs =>
        refine weightList_eq_zero fun w hw => ?_
        obtain ⟨f, _, rfl⟩ := List.mem_map.1 hw
        exact weight_dfltTy h _

theorem weight_dflt (env : List Def) (t : Ty) : weight (dflt env t) = 0 :=
  weight_dfltTy (weight_defaultsFrom env [] (by simp)) t

theorem weightList_set : ∀ {vs : List Val} {i : Nat} {v : Val}, vs[i]? = some v → ∀ w,
    weightList (vs.set i w) + weight v = weightList vs + weight w
  | [], _, _, h, _ => by simp at h
  | x :: vs, 0, v, h, w => by
    simp at h; subst h
    simp [weightList]; omega
  | x :: vs, i + 1, v, h, w => by
    have := weightList_set (vs := vs) (by simpa using h) w
    simp [weightList]; omega

/-! ## Reading -/

theorem Tri.fact {α : Type} {P : σ → Prop} {x : Rd σ α} {Q : α → σ → Prop} {E : Fail → Prop} {φ : Prop}
    (h : ∀ s, P s → φ) (h' : φ → Tri P x Q E) : Tri P x Q E := fun s hs => h' (h s hs) s hs

/-- An input that counts what it returns. -/
structure Counted (E : Fail → Prop) (I : Input σ) : Prop extends Measured E I where
  readDouble1 : ∀ n, Tri (fun s => I.size s ≤ n) I.readDouble (fun _ s => I.size s + 1 ≤ n) E
  readBinary1 : ∀ n, Tri (fun s => I.size s ≤ n) I.readBinary
    (fun bs s => bs.length + I.size s + 1 ≤ n ∧ bs.length ≤ 16777216) E

/-- What is to be shown of reads into `v0`. -/
abbrev Good (E : Fail → Prop) (I : Input σ) (env : List Def) (t : Ty) (v0 : Val) (n : Nat) (x : Rd σ Val) : Prop :=
  Tri (fun s => I.size s ≤ n) x (fun v s => Clean env t v ∧ weight v + I.size s + 1 ≤ n + weight v0 ∧ I.size s + 1 ≤ n) E

section
variable {E : Fail → Prop} {cfg : Cfg} (hE : Allowed E cfg) {I : Input σ} (hI : Counted E I) (env : List Def)

omit hE hI in
theorem fillElems_good {t : Ty} {N : Nat} {x : Rd σ Val}
    (h : ∀ n ≤ N, Tri (fun s => I.size s ≤ n) x (fun v s => Clean env t v ∧ weight v + I.size s + 1 ≤ n) E) :
    ∀ k, ∀ n ≤ N, Tri (fun s => I.size s ≤ n) (fillElems x k)
      (fun vs s => vs.length = k ∧ (∀ v ∈ vs, Clean env t v) ∧ k + weightList vs + I.size s ≤ n) E
  | 0, n, _ => Tri.pure fun s hs => ⟨rfl, by simp, by simpa [weightList] using hs⟩
  | k + 1, n, hn => by
    unfold fillElems
    refine Tri.bind (h n hn) fun v => Tri.fact (φ := Clean env t v ∧ weight v + 1 ≤ n) (fun s hs => ⟨hs.1, by omega⟩) fun hv => ?_
    refine Tri.bind ((fillElems_good h k (n - weight v - 1) (by omega)).pre fun s hs => by omega) fun vs => ?_
    refine Tri.pure fun s hs => ⟨by simp [hs.1], ?_, ?_⟩
    · intro w hw
      rcases List.mem_cons.1 hw with rfl | hw
      · exact hv.1
      · exact hs.2.1 w hw
    · have := hs.2.2; simp only [weightList]; omega

include hE hI

theorem encodingSetLoop_good : ∀ k n mask, mask.toNat < 2 ^ 31 →
    Tri (fun s => I.size s ≤ n) (encodingSetLoop cfg I k mask) (fun m s => m.toNat < 2 ^ 31 ∧ I.size s ≤ n) E
  | 0, n, mask, h => Tri.pure fun s hs => ⟨h, hs⟩
  | k + 1, n, mask, h => by
    unfold encodingSetLoop
    refine Tri.bind (Tri.readI32 hE hI.toMeasured n) fun v => Tri.ite (fun _ => Tri.throw (hE.err _ (by simp))) fun hv => ?_
    refine (encodingSetLoop_good k n _ ?_).pre fun s hs => by omega
    simp only [Bool.or_eq_true, not_or, Bool.not_eq_true, BitVec.slt, BitVec.sle, decide_eq_false_iff_not] at hv
    obtain ⟨h1, h2⟩ := hv
    have h3 : v.toNat < 31 := by
      have e31 : (31#32 : BitVec 32).toInt = 31 := by decide
      have e0 : (0#32 : BitVec 32).toInt = 0 := by decide
      rw [e31] at h2; rw [e0] at h1
      rw [BitVec.toInt_eq_toNat_cond] at h1 h2
      split at h1 <;> omega
    rw [BitVec.toNat_or]
    refine Nat.or_lt_two_pow h ?_
    rw [BitVec.toNat_shiftLeft, BitVec.toNat_ofNat]
    refine Nat.lt_of_le_of_lt (Nat.mod_le _ _) ?_
    rw [Nat.shiftLeft_eq]
    simp only [Nat.reducePow, Nat.reduceMod, Nat.one_mul]
    calc 2 ^ v.toNat ≤ 2 ^ 30 := Nat.pow_le_pow_right (by omega) (by omega)
      _ < 2147483648 := by decide

variable (hd : defaultsDefined env = true)
include hd

theorem fillTy_good {N : Nat} {hn : Nat → Val → Rd σ Val}
    (h : ∀ m ≤ N, ∀ k v0, Seed env (.named k) v0 → Good E I env (.named k) v0 m (hn k v0)) :
    ∀ t, tyClosed env t = true → ∀ n ≤ N, ∀ v0, Seed env t v0 → Good E I env t v0 n (fillTy cfg I env hn t v0) := by
  have hM := hI.toMeasured
  have dg : ∀ {t : Ty} {n : Nat}, tyClosed env t = true → n ≤ N →
      (∀ v0, Seed env t v0 → Good E I env t v0 n (fillTy cfg I env hn t v0)) →
      Tri (fun s => I.size s ≤ n) (fillTy cfg I env hn t (dflt env t))
        (fun v s => Clean env t v ∧ weight v + I.size s + 1 ≤ n) E := by
    intro t n ht hN ih
    refine (ih _ (fillable_dflt_closed hd ht).seed).post fun v s hs => ?_
    rw [weight_dflt] at hs; exact ⟨hs.1, by omega⟩
  intro t
  induction t with
  | bool =>
    intro _ n _ v0 _; unfold fillTy
    exact Tri.bind (hM.readByte n) fun _ => Tri.pure fun s hs => ⟨.bool _, by simp only [weight]; omega⟩
  | i8 =>
    intro _ n _ v0 _; unfold fillTy
    exact Tri.bind (hM.readByte n) fun _ => Tri.pure fun s hs => ⟨.i8 _, by simp only [weight]; omega⟩
  | i16 =>
    intro _ n _ v0 _; unfold fillTy
    exact Tri.bind (Tri.readI16 hE hM n) fun _ => Tri.pure fun s hs => ⟨.i16 _, by simp only [weight]; omega⟩
  | i32 =>
    intro _ n _ v0 _; unfold fillTy
    exact Tri.bind (Tri.readI32 hE hM n) fun _ => Tri.pure fun s hs => ⟨.i32 _, by simp only [weight]; omega⟩
  | i64 =>
    intro _ n _ v0 _; unfold fillTy
    exact Tri.bind (Tri.readI64 hE hM n) fun _ => Tri.pure fun s hs => ⟨.i64 _, by simp only [weight]; omega⟩
  | double =>
    intro _ n _ v0 _; unfold fillTy
    exact Tri.bind (hI.readDouble1 n) fun _ => Tri.pure fun s hs => ⟨.double _, by simp only [weight]; omega⟩
  | binary =>
    intro _ n _ v0 _; unfold fillTy
    exact Tri.bind (hI.readBinary1 n) fun _ => Tri.pure fun s hs => ⟨.binary _ hs.2, by simp only [weight]; omega⟩
  | string =>
    intro _ n _ v0 _; unfold fillTy Input.readString
    refine Tri.bind (Q := fun bs s => (bs.length + I.size s + 1 ≤ n ∧ bs.length ≤ 16777216) ∧ utf8Valid bs = true)
      (Tri.bind (hI.readBinary1 n) fun bs => Tri.ite (fun hu => Tri.pure fun s hs => ⟨hs, hu⟩) fun _ => Tri.throw (hE.err _ (by simp)))
      fun bs => Tri.pure fun s hs => ⟨.string _ hs.1.2 hs.2, by simp only [weight]; omega⟩
  | encodingSet =>
    intro _ n _ v0 _; unfold fillTy
    refine Tri.bind (Tri.readCollectionLenAndType hE hM n) fun p => Tri.ite (fun _ => Tri.throw (hE.err _ (by simp))) fun _ => ?_
    refine Tri.fact (φ := 1 ≤ n) (fun s hs => by omega) fun h1 => ?_
    refine Tri.bind ((encodingSetLoop_good hE hI p.1 (n - 1) 0#32 (by decide)).pre fun s hs => by omega) fun m => ?_
    exact Tri.pure fun s hs => ⟨.encodingSet _ hs.1, by simp only [weight]; omega⟩
  | list t ih =>
    intro ht n hN v0 _
    have ht' : tyClosed env t = true := by simpa [tyClosed] using ht
    unfold fillTy
    refine Tri.bind (Tri.readCollectionLenAndType hE hM n) fun p => Tri.ite (fun _ => Tri.throw (hE.err _ (by simp))) fun _ =>
        Tri.ite (fun ha s hs => hE.reserve _ hs.2 (by simpa using ha)) fun _ => ?_
    refine Tri.fact (φ := 1 ≤ n ∧ p.1 ≤ MAX_COLLECTION_LEN) (fun s hs => by omega) fun h1 => ?_
    refine Tri.bind ((fillElems_good env (t := t) (N := N) (fun m hm => dg ht' hm (ih ht' m hm)) p.1 (n - 1) (by omega)).pre
      fun s hs => by omega) fun vs => ?_
    refine Tri.pure fun s hs => ⟨.list t vs (by rw [hs.1]; exact h1.2) hs.2.1, ?_⟩
    have := hs.2.2
    simp only [weight, hs.1]; omega
  | option t ih =>
    intro ht n hN v0 h0
    have ht' : tyClosed env t = true := by simpa [tyClosed] using ht
    cases h0 with
    | none =>
      exact Tri.bind (dg ht' hN (ih ht' n hN)) fun v => Tri.pure fun s hs => ⟨.some _ _ hs.1, by simp only [weight]; omega⟩
    | some _ v hv => exact Tri.throw (hE.err _ (by simp))
  | box t ih =>
    intro ht n hN v0 h0
    have ht' : tyClosed env t = true := by simpa [tyClosed] using ht
    cases h0 with
    | box _ v hv =>
      exact Tri.bind (ih ht' n hN v hv) fun w => Tri.pure fun s hs => ⟨.box _ _ hs.1, by simp only [weight]; omega⟩
  | rc t ih =>
    intro ht n hN v0 h0
    have ht' : tyClosed env t = true := by simpa [tyClosed] using ht
    cases h0 with
    | rc _ b v hv =>
      exact Tri.ite (fun _ => Tri.throw (hE.err _ (by simp))) fun _ => Tri.bind (ih ht' n hN v hv) fun w =>
        Tri.pure fun s hs => ⟨.rc _ _ hs.1, by simp only [weight]; omega⟩
  | named k => intro _ n hN v0 h0; unfold fillTy; exact h n hN k v0 h0

theorem fillField_good {N : Nat} {hn : Nat → Val → Rd σ Val}
    (h : ∀ m ≤ N, ∀ k v0, Seed env (.named k) v0 → Good E I env (.named k) v0 m (hn k v0)) :
    ∀ t, tyClosed env t = true → ∀ n ≤ N, ∀ v0 ft, Seed env t v0 →
      Tri (fun s => I.size s ≤ n) (fillField cfg I env hn t v0 ft)
        (fun v s => Clean env t v ∧ weight v + I.size s ≤ n + weight v0 ∧ I.size s ≤ n) E := by
  intro t
  induction t with
  | bool => intro _ n _ v0 ft _; exact Tri.pure fun s hs => ⟨.bool _, by simp only [weight]; omega⟩
  | option t ih =>
    intro ht n hN v0 ft h0
    have ht' : tyClosed env t = true := by simpa [tyClosed] using ht
    cases h0 with
    | none =>
      refine Tri.bind (ih ht' n hN _ ft (fillable_dflt_closed hd ht').seed) fun v => Tri.pure fun s hs => ⟨.some _ _ hs.1, ?_⟩
      rw [weight_dflt] at hs
      simp only [weight]; omega
    | some _ v hv => exact Tri.throw (hE.err _ (by simp))
  | _ =>
    intro ht n hN v0 ft h0
    exact Tri.ite (fun _ => Tri.throw (hE.err _ (by simp))) fun _ =>
      (fillTy_good hE hI env hd h _ ht n hN v0 h0).post fun v s hs => ⟨hs.1, by omega⟩

omit hE hI hd in
theorem firstMissing_none_seen : ∀ {fs : List Field} {flags : List Bool}, flags.length = fs.length → firstMissing fs flags = none →
    ∀ (i : Nat) (f : Field), fs[i]? = some f → f.required = true → flags[i]? = some true
  | [], _, _, _, i, f, h, _ => by simp at h
  | g :: fs, [], hl, _, _, _, _, _ => by simp at hl
  | g :: fs, b :: flags, hl, hm, i, f, hf, hr => by
    unfold firstMissing at hm
    split at hm
    · cases hm
    · rename_i hb
      cases i with
      | zero => simp at hf; subst hf; simpa [hr] using hb
      | succ i => exact firstMissing_none_seen (by simpa using hl) hm i f (by simpa using hf) hr

/-- The state of the field loop. -/
structure LoopInv (env : List Def) (fs : List Field) (flags : List Bool) (vs : List Val) : Prop where
  flagLen : flags.length = fs.length
  vals : vs.length = fs.length
  seed : ∀ (i : Nat) (f : Field) (v : Val), fs[i]? = some f → vs[i]? = some v → Seed env f.rustTy v
  seen : ∀ (i : Nat) (f : Field) (v : Val), fs[i]? = some f → vs[i]? = some v → f.required = true → flags[i]? = some true →
    Clean env f.rustTy v

theorem structLoop_good {N : Nat} {hn : Nat → Val → Rd σ Val}
    (h : ∀ m, m + 1 ≤ N → ∀ k v0, Seed env (.named k) v0 → Good E I env (.named k) v0 m (hn k v0))
    (k : Nat) (name : String) (fs : List Field) (hk : env[k]? = some (.struct name fs))
    (hc : ∀ f ∈ fs, tyClosed env f.ty = true) :
    ∀ fuel m, m ≤ N → m < fuel → ∀ last flags vs, LoopInv env fs flags vs →
      Good E I env (.named k) (.struct vs) m (structLoop cfg I env hn name fs fuel last flags vs) := by
  have hM := hI.toMeasured
  intro fuel
  induction fuel with
  | zero => intro m _ hm; omega
  | succ fuel ih =>
    intro m hmN hm last flags vs hinv
    unfold structLoop
    refine Tri.bind (Tri.readFieldHeader hE hM m last) fun p => ?_
    obtain ⟨ft, last'⟩ := p
    dsimp only
    cases m with
    | zero => intro s hs; omega
    | succ m =>
      refine Tri.weaken (P := fun s => I.size s ≤ m)
        (Q := fun v s => Clean env (.named k) v ∧ weight v + I.size s ≤ m + weightList vs ∧ I.size s ≤ m) (E := E) ?_
        (by intro s hs; omega) (by intro v s hs; exact ⟨hs.1, by simp only [weight]; omega⟩) (fun _ h => h)
      refine Tri.ite (fun _ => ?_) fun _ => ?_
      · split
        · exact Tri.throw (hE.err _ (by simp))
        · rename_i hmiss
          refine Tri.pure fun s hs => ⟨.struct k name fs vs hk hinv.vals fun i f v hf hv hn => ?_, by simp only [weight]; omega⟩
          cases hr : f.required with
          | true => exact hinv.seen i f v hf hv hr (firstMissing_none_seen hinv.flagLen hmiss i f hf hr)
          | false =>
            have hs := hinv.seed i f v hf hv
            have hne : v ≠ .none := fun h => hn ⟨hr, h⟩
            rw [Field.rustTy, hr] at hs ⊢
            cases hs with
            | none => exact absurd rfl hne
            | some _ v hv' => exact .some _ _ hv'
      · split
        · rename_i i hi
          have hlt : i < fs.length := (List.findIdx?_eq_some_iff_getElem.1 hi).1
          rw [List.getElem?_eq_getElem hlt, List.getElem?_eq_getElem (by rw [hinv.vals]; exact hlt)]
          dsimp only
          generalize hf : fs[i] = f
          generalize hv : vs[i]'(by rw [hinv.vals]; exact hlt) = v
          have hf' : fs[i]? = some f := by rw [List.getElem?_eq_getElem hlt, hf]
          have hv' : vs[i]? = some v := by rw [List.getElem?_eq_getElem (by rw [hinv.vals]; exact hlt), hv]
          have hc' : tyClosed env f.rustTy = true := by
            have := hc f (List.mem_of_getElem? hf')
            unfold Field.rustTy
            split
            · exact this
            · simpa [tyClosed] using this
          refine Tri.bind (fillField_good hE hI env hd (N := m) (fun m' hm' => h m' (by omega)) f.rustTy hc' m (Nat.le_refl _) v ft
            (hinv.seed i f v hf' hv')) fun v' => ?_
          refine Tri.fact (φ := Clean env f.rustTy v' ∧ weight v' ≤ m + weight v) (fun s hs => ⟨hs.1, by omega⟩) fun hv1 => ?_
          have hw := weightList_set hv' v'
          have hinv' : LoopInv env fs (if f.required = true then flags.set i true else flags) (vs.set i v') := by
            refine ⟨by split <;> simp [hinv.flagLen], by simp [hinv.vals], fun j g w hg hw => ?_, fun j g w hg hw hr hs => ?_⟩
            · rw [List.getElem?_set] at hw
              split at hw
              · rename_i hij; subst hij
                rw [hf'] at hg; cases hg
                simp [hinv.vals, hlt] at hw; subst hw
                exact hv1.1.seed
              · exact hinv.seed j g w hg hw
            · rw [List.getElem?_set] at hw
              split at hw
              · rename_i hij; subst hij
                rw [hf'] at hg; cases hg
                simp [hinv.vals, hlt] at hw; subst hw
                exact hv1.1
              · rename_i hij
                refine hinv.seen j g w hg hw hr ?_
                split at hs
                · rw [List.getElem?_set, if_neg hij] at hs; exact hs
                · exact hs
          -- the new weight may exceed the old one by what was consumed
          by_cases hle : weight v' ≤ weight v
          · refine (ih m (by omega) (by omega) last' _ _ hinv').weaken (fun s hs => by omega) (fun w s hs => ⟨hs.1, ?_⟩) (fun _ h => h)
            have := hs.2
            simp only [weight] at this
            omega
          · refine (ih (m - (weight v' - weight v)) (by omega) (by omega) last' _ _ hinv').weaken (fun s hs => by omega)
              (fun w s hs => ⟨hs.1, ?_⟩) (fun _ h => h)
            have := hs.2
            simp only [weight] at this
            omega
        · refine Tri.bind (Tri.skip hE hM _ _ m) fun _ => ?_
          refine (ih m (by omega) (by omega) last' _ _ hinv).post fun w s hs => ⟨hs.1, ?_⟩
          have := hs.2
          simp only [weight] at this
          omega

theorem fillUnion_good {N : Nat} {hn : Nat → Val → Rd σ Val}
    (h : ∀ m, m + 1 ≤ N → ∀ k v0, Seed env (.named k) v0 → Good E I env (.named k) v0 m (hn k v0))
    (k : Nat) (name : String) (us : List Variant) (hk : env[k]? = some (.union name us))
    (hc : ∀ u ∈ us, tyClosed env u.ty = true) (v0 : Val) :
    Good E I env (.named k) v0 N (fillUnion cfg I env hn us) := by
  have hM := hI.toMeasured
  unfold fillUnion
  refine Tri.bind (Tri.readFieldHeader hE hM N _) fun p => ?_
  obtain ⟨ft, id⟩ := p
  dsimp only
  refine Tri.ite (fun _ => Tri.throw (hE.err _ (by simp))) fun _ => ?_
  split
  · rename_i i hi
    have hlt : i < us.length := (List.findIdx?_eq_some_iff_getElem.1 hi).1
    rw [List.getElem?_eq_getElem hlt]
    dsimp only
    have hc' := hc _ (List.getElem_mem hlt)
    cases N with
    | zero => intro s hs; omega
    | succ m =>
      refine Tri.bind ((fillTy_good hE hI env hd (N := m) (fun m' hm' => h m' (by omega)) _ hc' m (Nat.le_refl _) _
        (fillable_dflt_closed hd hc').seed).pre (by intro s hs; omega)) fun v => ?_
      rw [weight_dflt]
      refine Tri.fact (φ := Clean env us[i].ty v ∧ weight v + 1 ≤ m) (fun s hs => ⟨hs.1, by omega⟩) fun hv => ?_
      refine Tri.bind ((hM.readByte (m - weight v - 1)).pre (by intro s hs; omega)) fun _ => ?_
      refine Tri.ite (fun _ => Tri.throw (hE.err _ (by simp))) fun _ => Tri.pure fun s hs => ⟨?_, by simp only [weight]; omega⟩
      exact .union k name us i _ v hk (List.getElem?_eq_getElem hlt) hv.1
  · exact Tri.throw (hE.err _ (by simp))

variable (hcl : envClosed env = true)
include hcl

theorem fillNamed_good : ∀ fuel n, n < fuel → ∀ k v0, Seed env (.named k) v0 →
    Good E I env (.named k) v0 n (fillNamed cfg I env fuel k v0) := by
  have hM := hI.toMeasured
  have hc : ∀ {k d}, env[k]? = some d → defClosed env d = true := fun hk =>
    List.all_eq_true.1 hcl _ (List.mem_of_getElem? hk)
  intro fuel
  induction fuel with
  | zero => intro n h; omega
  | succ fuel ih =>
    intro n hn k v0 h0
    unfold fillNamed
    cases h0 with
    | enum _ name x hk =>
      rw [hk]
      exact Tri.bind (Tri.readI32 hE hM n) fun _ => Tri.pure fun s hs => ⟨.enum k name _ hk, by simp only [weight]; omega⟩
    | union _ name us i v hk =>
      rw [hk]
      exact fillUnion_good hE hI env hd (fun m hm => ih m (by omega)) k name us hk
        (fun u hu => List.all_eq_true.1 (hc hk) u hu) _
    | struct _ name fs vs hk hl hf =>
      rw [hk]
      dsimp only
      refine Tri.fuel (F := fun n' => structLoop cfg I env (fillNamed cfg I env fuel) name fs (n' + 1) 0#16
        (fs.map fun _ => false) vs) fun s hs => ?_
      refine (structLoop_good hE hI env hd (N := n) (fun m hm => ih m (by omega)) k name fs hk
        (fun f hf => List.all_eq_true.1 (hc hk) f hf) (I.size s + 1) (I.size s) hs
        (by omega) _ _ _ ⟨by simp, hl, hf, fun i f v hf' _ _ hflag => ?_⟩).weaken (by rintro _ rfl; omega)
          (by intro v s' hs'; exact ⟨hs'.1, by omega⟩) (fun _ h => h)
      simp [hf'] at hflag

/-- Reading into a seed gives a clean value whose weight was consumed, or fails in an allowed way. -/
theorem fillThrift_good {t : Ty} (ht : tyClosed env t = true) {v0 : Val} (h0 : Seed env t v0) (n : Nat) :
    Good E I env t v0 n (fillThrift cfg I env t v0) := by
  refine Tri.fuel (F := fun n' => fillTy cfg I env (fillNamed cfg I env (n' + 1)) t v0) fun s hs => ?_
  exact (fillTy_good hE hI env hd (N := I.size s) (fun m hm => fillNamed_good hE hI env hd hcl (I.size s + 1) m (by omega)) t ht
    (I.size s) (Nat.le_refl _) v0 h0).weaken (by rintro _ rfl; omega) (by intro v s' hs'; exact ⟨hs'.1, by omega⟩) (fun _ h => h)

end

/-! ## The inputs count -/

theorem slice_counted {E : Fail → Prop} {cfg : Cfg} (hE : Allowed E cfg) (h2 : cfg.sse2 = true → E .panic ∧ E .ub) :
    Counted E (sliceInput cfg) where
  toMeasured := slice_measured hE h2
  readDouble1 n := by
    show Tri (fun s : Bytes => s.length ≤ n) Slice.readDouble (fun _ s => s.length + 1 ≤ n) E
    intro s hs
    unfold Slice.readDouble
    by_cases h : s.length < 8
    · simp only [h, if_true]; exact hE.err _ (by simp)
    · simp only [h, if_false, List.length_drop]; omega
  readBinary1 n := by
    show Tri (fun s : Bytes => s.length ≤ n) (Slice.readBinary cfg) (fun bs s => bs.length + s.length + 1 ≤ n ∧ bs.length ≤ 16777216) E
    refine Tri.bind (slice_readLen_tri hE n) fun len => Tri.ite (fun _ => Tri.throw (hE.err _ (by simp))) fun hl => ?_
    intro s hs
    rw [Rd.of_apply]
    by_cases h : s.length < len
    · simp only [h, if_true]; exact hE.err _ (by simp)
    · simp only [h, if_false, List.length_drop, List.length_take]
      have : len ≤ 16777216 := by simpa [MAX_BINARY_LEN] using hl
      omega

theorem reader_counted {E : Fail → Prop} {cfg : Cfg} (hE : Allowed E cfg) : Counted E (readerInput cfg) where
  toMeasured := reader_measured hE
  readDouble1 n := by
    show Tri (fun s => readerSize s ≤ n) Reader.readDouble (fun _ s => readerSize s + 1 ≤ n) E
    intro s hs
    have h := readExact_tri hE.err n 8 s hs
    unfold Reader.readDouble
    cases hx : readExact 8 s with
    | error f => rw [hx] at h; exact h
    | ok p => obtain ⟨x, s'⟩ := p; rw [hx] at h; dsimp only at h ⊢; omega
  readBinary1 n := by
    show Tri (fun s => readerSize s ≤ n) (Reader.readBinary cfg)
      (fun bs s => bs.length + readerSize s + 1 ≤ n ∧ bs.length ≤ 16777216) E
    refine Tri.bind (Tri.decodeUleb hE (reader_readByte_tri hE.err) n) fun len =>
      Tri.ite (fun _ => Tri.throw (hE.err _ (by simp))) fun hl => ?_
    refine Tri.fact (φ := 1 ≤ n) (fun s hs => by omega) fun h1 => ?_
    refine (readExact_tri hE.err (n - 1) _).weaken (by intro s hs; omega) (fun bs s hs => ?_) (fun _ h => h)
    have : len.toNat ≤ 16777216 := by simpa [MAX_BINARY_LEN] using hl
    omega

end CT
