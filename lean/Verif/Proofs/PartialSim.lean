import Verif.Proofs.Partial
import Verif.Proofs.Ops
/-! # Simulation for the functions carrying the value left behind

As `Sim`, with the value a failure leaves: it is the same on both sides. -/
namespace CT

variable {σ₁ σ₂ α β : Type}

/-- From related states, success on the left is success with the same value and related states on the right, and a failure on the left (but for
those of `A` and `B`) is the corresponding failure on the right, leaving the same value. -/
def FSim (P : SimP σ₁ σ₂) (x : Fl σ₁ α) (y : Fl σ₂ α) : Prop := ∀ s t, P.R s t →
  match x s with
  | .ok (a, s') => ∃ t', y t = .ok (a, t') ∧ P.R s' t'
  | .error (f, w) => P.A f ∨ P.B f ∨ y t = .error (P.φ f, w)

section
variable {P : SimP σ₁ σ₂}

theorem FSim.pure (a : α) : FSim P (Pure.pure a : Fl σ₁ α) (Pure.pure a) := fun _ t h => ⟨t, rfl, h⟩

theorem FSim.keep (v : Val) {x : Rd σ₁ α} {y : Rd σ₂ α} (h : Sim P x y) : FSim P (Fl.keep v x) (Fl.keep v y) := by
  intro s t hR
  have h1 := h.run s t hR
  unfold Fl.keep
  cases hx : x s with
  | error f =>
    rw [hx] at h1
    rcases h1 with h1 | ⟨h1, _⟩ | h1
    · exact .inl h1
    · exact .inr (.inl h1)
    · exact .inr (.inr (by rw [h1]))
  | ok p =>
    obtain ⟨a, s'⟩ := p
    rw [hx] at h1
    obtain ⟨t', hy, hR'⟩ := h1
    exact ⟨t', by rw [hy], hR'⟩

theorem FSim.failA {f : Fail} (h : P.A f) (v : Val) (y : Fl σ₂ α) : FSim P (Fl.keep v (Rd.fail f) : Fl σ₁ α) y :=
  fun _ _ _ => .inl h

theorem FSim.bind {x : Fl σ₁ α} {y : Fl σ₂ α} {f : α → Fl σ₁ β} {g : α → Fl σ₂ β}
    (h : FSim P x y) (hf : ∀ a, FSim P (f a) (g a)) : FSim P (x >>= f) (y >>= g) := by
  intro s t hR
  have h1 := h s t hR
  show match Fl.bind x f s with
    | .ok (a, s') => ∃ t', Fl.bind y g t = .ok (a, t') ∧ P.R s' t'
    | .error (f, w) => P.A f ∨ P.B f ∨ Fl.bind y g t = .error (P.φ f, w)
  unfold Fl.bind
  rcases hx : x s with ⟨e, w⟩ | ⟨a, s'⟩
  · rw [hx] at h1
    rcases h1 with h1 | h1 | h1
    · exact .inl h1
    · exact .inr (.inl h1)
    · exact .inr (.inr (by rw [h1]))
  · rw [hx] at h1
    obtain ⟨t', hy, hR'⟩ := h1
    rw [hy]
    exact hf a s' t' hR'

theorem FSim.part (g : Val → Val) {x : Fl σ₁ Val} {y : Fl σ₂ Val} (h : FSim P x y) : FSim P (Fl.part g x) (Fl.part g y) := by
  intro s t hR
  have h1 := h s t hR
  unfold Fl.part
  rcases hx : x s with ⟨e, w⟩ | ⟨a, s'⟩
  · rw [hx] at h1
    rcases h1 with h1 | h1 | h1
    · exact .inl h1
    · exact .inr (.inl h1)
    · exact .inr (.inr (by rw [h1]))
  · rw [hx] at h1
    obtain ⟨t', hy, hR'⟩ := h1
    exact ⟨t', by rw [hy], hR'⟩

theorem FSim.into (g : Val → Val) {x : Fl σ₁ Val} {y : Fl σ₂ Val} (h : FSim P x y) : FSim P (Fl.into g x) (Fl.into g y) :=
  FSim.bind (FSim.part g h) fun _ => FSim.pure _

theorem FSim.ite {c : Prop} [Decidable c] {x x' : Fl σ₁ α} {y y' : Fl σ₂ α}
    (h : FSim P x y) (h' : FSim P x' y') : FSim P (if c then x else x') (if c then y else y') := by
  split
  · exact h
  · exact h'

theorem FSim.fuel {sz₁ : σ₁ → Nat} {sz₂ : σ₂ → Nat} {F : Nat → Fl σ₁ α} {G : Nat → Fl σ₂ α}
    (hsz : ∀ s t, P.R s t → sz₁ s ≤ sz₂ t) (h : ∀ n m, n ≤ m → FSim P (F n) (G m)) :
    FSim P (fun s => F (sz₁ s) s) (fun t => G (sz₂ t) t) :=
  fun s t hR => h _ _ (hsz s t hR) s t hR

theorem FSim.fillElems {x : Fl σ₁ Val} {y : Fl σ₂ Val} (h : FSim P x y) :
    ∀ n done, FSim P (CT.fillElemsP x n done) (CT.fillElemsP y n done)
  | 0, _ => FSim.pure _
  | n + 1, _ => FSim.bind (FSim.part _ h) fun _ => FSim.fillElems h n _

variable {c₁ c₂ : Cfg} {I₁ : Input σ₁} {I₂ : Input σ₂}
variable (hc : CfgSim P.A c₁ c₂) (hI : InputSim P c₂ I₁ I₂) (env : List Def)
include hc hI

theorem FSim.scalar (t : Ty) (v : Val) :
    FSim P (Fl.keep v (CT.fillTy c₁ I₁ env (fun _ _ => Rd.fail .stuck) t v)) (Fl.keep v (CT.fillTy c₂ I₂ env (fun _ _ => Rd.fail .stuck) t v)) :=
  FSim.keep _ (Sim.fillTy hc hI env (fun _ _ => Sim.fail _) t v)

theorem FSim.fillTy {hn₁ : Nat → Val → Fl σ₁ Val} {hn₂ : Nat → Val → Fl σ₂ Val}
    (hn : ∀ k v, FSim P (hn₁ k v) (hn₂ k v)) :
    ∀ t v, FSim P (CT.fillTyP c₁ I₁ env hn₁ t v) (CT.fillTyP c₂ I₂ env hn₂ t v) := by
  intro t
  induction t with
  | list t ih =>
    intro v; unfold CT.fillTyP
    refine FSim.bind (FSim.keep _ (Sim.readCollectionLenAndType hc hI)) fun p => FSim.ite (FSim.keep _ (Sim.throw _)) ?_
    obtain ⟨len, et⟩ := p
    dsimp only
    cases h1 : c₁.alloc len with
    | false =>
      cases h2 : c₂.alloc len with
      | false => simp only [Bool.false_eq_true, not_false_eq_true, if_true]; exact FSim.keep _ (Sim.throw _)
      | true => simp only [Bool.false_eq_true, not_false_eq_true, if_true]; exact FSim.failA (hc.allocA _ h1 h2) _ _
    | true =>
      rw [hc.alloc _ h1]
      simp only [not_true_eq_false, if_false]
      exact FSim.fillElems (ih _) _ _
  | option t ih =>
    intro v
    cases v <;> first
      | exact FSim.into _ (ih _)
      | exact FSim.scalar hc hI env _ _
      | exact FSim.keep _ (Sim.throw _)
  | box t ih =>
    intro v
    cases v <;> first
      | exact FSim.into _ (ih _)
      | exact FSim.scalar hc hI env _ _
  | rc t ih =>
    intro v
    cases v <;> first
      | exact FSim.scalar hc hI env _ _
      | exact FSim.ite (FSim.keep _ (Sim.throw _)) (FSim.into _ (ih _))
  | named k => intro v; unfold CT.fillTyP; exact hn k v
  | _ => intro v; exact FSim.scalar hc hI env _ _

theorem FSim.fillField {hn₁ : Nat → Val → Fl σ₁ Val} {hn₂ : Nat → Val → Fl σ₂ Val}
    (hn : ∀ k v, FSim P (hn₁ k v) (hn₂ k v)) :
    ∀ t v ft, FSim P (CT.fillFieldP c₁ I₁ env hn₁ t v ft) (CT.fillFieldP c₂ I₂ env hn₂ t v ft) := by
  intro t
  induction t with
  | bool => intro v ft; exact FSim.pure _
  | option t ih =>
    intro v ft
    cases v <;> first
      | exact FSim.into _ (ih _ _)
      | exact FSim.keep _ (Sim.throw _)
      | exact FSim.keep _ (Sim.fail _)
  | _ => intro v ft; exact FSim.ite (FSim.keep _ (Sim.throw _)) (FSim.fillTy hc hI env hn _ _)

theorem FSim.structLoop {hn₁ : Nat → Val → Fl σ₁ Val} {hn₂ : Nat → Val → Fl σ₂ Val}
    (hn : ∀ k v, FSim P (hn₁ k v) (hn₂ k v)) (name : String) (fs : List Field) :
    ∀ n m, n ≤ m → ∀ last flags vs, FSim P (CT.structLoopP c₁ I₁ env hn₁ name fs n last flags vs)
      (CT.structLoopP c₂ I₂ env hn₂ name fs m last flags vs) := by
  intro n
  induction n with
  | zero => intro m _ last flags vs; exact FSim.failA hI.diverge _ _
  | succ n ih =>
    intro m hm last flags vs
    obtain ⟨m, rfl⟩ : ∃ k, m = k + 1 := ⟨m - 1, by omega⟩
    unfold CT.structLoopP
    refine FSim.bind (FSim.keep _ (Sim.readFieldHeader hc hI last)) fun p => ?_
    obtain ⟨ft, last'⟩ := p
    dsimp only
    refine FSim.ite ?_ ?_
    · split
      · exact FSim.keep _ (Sim.throw _)
      · exact FSim.pure _
    · split
      · split
        · exact FSim.bind (FSim.part _ (FSim.fillField hc hI env hn _ _ _)) fun _ => ih m (by omega) _ _ _
        · exact FSim.keep _ (Sim.fail _)
      · exact FSim.bind (FSim.keep _ (Sim.skipField hc hI _)) fun _ => ih m (by omega) _ _ _

theorem FSim.fillUnion {hn₁ : Nat → Val → Fl σ₁ Val} {hn₂ : Nat → Val → Fl σ₂ Val}
    (hn : ∀ k v, FSim P (hn₁ k v) (hn₂ k v)) (us : List Variant) (v0 : Val) :
    FSim P (CT.fillUnionP c₁ I₁ env hn₁ us v0) (CT.fillUnionP c₂ I₂ env hn₂ us v0) := by
  unfold CT.fillUnionP
  refine FSim.bind (FSim.keep _ (Sim.readFieldHeader hc hI _)) fun p => ?_
  obtain ⟨ft, id⟩ := p
  dsimp only
  refine FSim.ite (FSim.keep _ (Sim.throw _)) ?_
  split
  · split
    · refine FSim.bind (FSim.into _ (FSim.fillTy hc hI env hn _ _)) fun _ => FSim.bind (FSim.keep _ hI.readByte) fun _ => ?_
      exact FSim.ite (FSim.keep _ (Sim.throw _)) (FSim.pure _)
    · exact FSim.keep _ (Sim.fail _)
  · exact FSim.keep _ (Sim.throw _)

theorem FSim.fillNamed : ∀ n m, n ≤ m → ∀ k v,
    FSim P (CT.fillNamedP c₁ I₁ env n k v) (CT.fillNamedP c₂ I₂ env m k v) := by
  intro n
  induction n with
  | zero => intro m _ k v; exact FSim.failA hI.diverge _ _
  | succ n ih =>
    intro m hm k v
    obtain ⟨m, rfl⟩ : ∃ k, m = k + 1 := ⟨m - 1, by omega⟩
    have ih' := ih m (by omega)
    unfold CT.fillNamedP
    generalize env[k]? = d
    rcases d with _ | ⟨name, fs⟩ | ⟨name, us⟩ | name <;> cases v <;> first
      | exact FSim.keep _ (Sim.fail _)
      | exact FSim.fillUnion hc hI env ih' _ _
      | exact FSim.bind (FSim.keep _ (Sim.readI32 hc hI)) fun _ => FSim.pure _
      | skip
    rename_i vs
    exact FSim.fuel
      (F := fun n' => CT.structLoopP c₁ I₁ env (CT.fillNamedP c₁ I₁ env n) name fs (n' + 1) 0#16 (fs.map fun _ => false) vs)
      (G := fun n' => CT.structLoopP c₂ I₂ env (CT.fillNamedP c₂ I₂ env m) name fs (n' + 1) 0#16 (fs.map fun _ => false) vs)
      hI.size fun a b hab => FSim.structLoop hc hI env ih' name fs _ _ (by omega) _ _ _

/-- The simulation theorem for filling a value, with the value left. -/
theorem FSim.fillThrift (t : Ty) (v : Val) :
    FSim P (CT.fillThriftP c₁ I₁ env t v) (CT.fillThriftP c₂ I₂ env t v) :=
  FSim.fuel (F := fun n => CT.fillTyP c₁ I₁ env (CT.fillNamedP c₁ I₁ env (n + 1)) t v)
    (G := fun n => CT.fillTyP c₂ I₂ env (CT.fillNamedP c₂ I₂ env (n + 1)) t v)
    hI.size fun n m hnm => FSim.fillTy hc hI env (FSim.fillNamed hc hI env _ _ (by omega)) t v

end

end CT
