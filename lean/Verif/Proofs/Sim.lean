import Verif.Proofs.Monad
/-!
# The simulation theorem

`Sim P x y`: from related states, if `x` succeeds then `y` succeeds with the same value and related states; if `x` fails
with `f` then `y` fails with the same `f`, up to the exceptions given by the parameters `P`.
Two inputs whose primitive operations are in simulation have the whole decoder in simulation.
-/
namespace CT

variable {σ₁ σ₂ α β : Type}

/-- Parameters of a simulation.
* `R`: related states;
* `A`: failures after which nothing is claimed about the other side;
* `B`: failures after which the other side, if it succeeds, ends in a state satisfying `D`;
* `D`: a set of states that is never left;
* `φ`: how the other side's I/O failures differ. -/
structure SimP (σ₁ σ₂ : Type) where
  A : Fail → Prop
  B : Fail → Prop
  D : σ₂ → Prop
  R : σ₁ → σ₂ → Prop
  φ : Fail → Fail
  hφ : ∀ f, (∀ k, f ≠ .err (.io k)) → φ f = f

/-- Parameters with `A` and `R` only. -/
abbrev SimP.std (A : Fail → Prop) (R : σ₁ → σ₂ → Prop) : SimP σ₁ σ₂ :=
  ⟨A, fun _ => False, fun _ => True, R, id, fun _ _ => rfl⟩

/-- `D` is never left. -/
def Pres (D : σ₂ → Prop) (y : Rd σ₂ α) : Prop := ∀ t a t', D t → y t = .ok (a, t') → D t'

theorem Pres.pure {D : σ₂ → Prop} (a : α) : Pres D (Pure.pure a : Rd σ₂ α) := by
  intro t b t' h e; cases e; exact h

theorem Pres.fail {D : σ₂ → Prop} (f : Fail) : Pres D (Rd.fail f : Rd σ₂ α) := by
  intro t b t' h e; cases e

theorem Pres.throw {D : σ₂ → Prop} (e : ThriftError) : Pres D (Rd.throw e : Rd σ₂ α) := by
  intro t b t' h e; cases e

theorem Pres.bind {D : σ₂ → Prop} {x : Rd σ₂ α} {f : α → Rd σ₂ β} (h : Pres D x) (hf : ∀ a, Pres D (f a)) :
    Pres D (x >>= f) := by
  intro t b t' hD e
  obtain ⟨a, u, h1, h2⟩ := Rd.bind_eq_ok.1 e
  exact hf a u b t' (h t a u hD h1) h2

theorem Pres.ite {D : σ₂ → Prop} {c : Prop} [Decidable c] {x y : Rd σ₂ α} (h : Pres D x) (h' : Pres D y) :
    Pres D (if c then x else y) := by
  split
  · exact h
  · exact h'

theorem Pres.fillElems {D : σ₂ → Prop} {x : Rd σ₂ Val} (h : Pres D x) : ∀ n, Pres D (CT.fillElems x n)
  | 0 => Pres.pure _
  | n + 1 => Pres.bind h fun _ => Pres.bind (Pres.fillElems h n) fun _ => Pres.pure _

structure Sim (P : SimP σ₁ σ₂) (x : Rd σ₁ α) (y : Rd σ₂ α) : Prop where
  run : ∀ s t, P.R s t →
    match x s with
    | .ok (a, s') => ∃ t', y t = .ok (a, t') ∧ P.R s' t'
    | .error f => P.A f ∨ (P.B f ∧ ∀ a t', y t = .ok (a, t') → P.D t') ∨ y t = .error (P.φ f)
  pres : Pres P.D y

/-- Relation between build configurations. -/
structure CfgSim (A : Fail → Prop) (c₁ c₂ : Cfg) : Prop where
  ov : c₂.overflowChecks = true → c₁.overflowChecks = true
  ovA : c₁.overflowChecks = true → c₂.overflowChecks = false → A .panic
  alloc : ∀ n, c₁.alloc n = true → c₂.alloc n = true
  allocA : ∀ n, c₁.alloc n = false → c₂.alloc n = true → A (.err .reserveError)

theorem CfgSim.refl (A : Fail → Prop) (c : Cfg) : CfgSim A c c where
  ov h := h
  ovA h h' := by rw [h] at h'; cases h'
  alloc _ h := h
  allocA _ h h' := by rw [h] at h'; cases h'

/-- The looping functions of the decoder stay within `D` for every fuel. -/
structure Closed (D : σ₂ → Prop) (c₂ : Cfg) (I₂ : Input σ₂) : Prop where
  uleb : ∀ m shift acc, Pres D (CT.ulebLoop c₂ I₂.readByte m shift acc)
  skipStruct : ∀ g : Byte → Rd σ₂ Unit, (∀ ft, Pres D (g ft)) → ∀ m last, Pres D (CT.skipStructLoop c₂ I₂ g m last)
  skipC : ∀ m, Pres D (CT.skipCollection c₂ I₂ m)
  skipM : ∀ m, Pres D (CT.skipMap c₂ I₂ m)
  skipF : ∀ m ft ins, Pres D (CT.skipFieldF c₂ I₂ m ft ins)
  struct : ∀ (env : List Def) (hn : Nat → Val → Rd σ₂ Val), (∀ k v, Pres D (hn k v)) → ∀ name fs m last flags vs,
    Pres D (CT.structLoop c₂ I₂ env hn name fs m last flags vs)
  named : ∀ (env : List Def) m k v, Pres D (CT.fillNamed c₂ I₂ env m k v)

/-- Nothing to show for the trivial `D`. -/
theorem Closed.trivial (c₂ : Cfg) (I₂ : Input σ₂) : Closed (fun _ => True) c₂ I₂ := by
  constructor <;> intros <;> intro _ _ _ _ _ <;> trivial

/-- Primitive operations of two inputs in simulation. -/
structure InputSim (P : SimP σ₁ σ₂) (c₂ : Cfg) (I₁ : Input σ₁) (I₂ : Input σ₂) : Prop where
  diverge : P.A .diverge
  closed : Closed P.D c₂ I₂
  size : ∀ s t, P.R s t → I₁.size s ≤ I₂.size t
  readByte : Sim P I₁.readByte I₂.readByte
  readDouble : Sim P I₁.readDouble I₂.readDouble
  readBinary : Sim P I₁.readBinary I₂.readBinary
  skipInteger : Sim P I₁.skipInteger I₂.skipInteger
  skipBinary : Sim P I₁.skipBinary I₂.skipBinary

section
variable {P : SimP σ₁ σ₂}

theorem Sim.pure (a : α) : Sim P (Pure.pure a : Rd σ₁ α) (Pure.pure a) :=
  ⟨fun _ t h => ⟨t, rfl, h⟩, Pres.pure a⟩

theorem Sim.fail (f : Fail) (h : ∀ k, f ≠ .err (.io k) := by nofun) : Sim P (Rd.fail f : Rd σ₁ α) (Rd.fail f) :=
  ⟨fun _ _ _ => .inr (.inr (by rw [P.hφ f h]; rfl)), Pres.fail f⟩

theorem Sim.failA {f : Fail} (h : P.A f) {y : Rd σ₂ α} (hy : Pres P.D y) : Sim P (Rd.fail f : Rd σ₁ α) y :=
  ⟨fun _ _ _ => .inl h, hy⟩

theorem Sim.throw (e : ThriftError) (h : ∀ k, Fail.err e ≠ .err (.io k) := by nofun) :
    Sim P (Rd.throw e : Rd σ₁ α) (Rd.throw e) :=
  ⟨fun _ _ _ => .inr (.inr (by rw [P.hφ _ h]; rfl)), Pres.throw e⟩

theorem Sim.bind {x : Rd σ₁ α} {y : Rd σ₂ α} {f : α → Rd σ₁ β} {g : α → Rd σ₂ β}
    (h : Sim P x y) (hf : ∀ a, Sim P (f a) (g a)) : Sim P (x >>= f) (y >>= g) := by
  refine ⟨?_, Pres.bind h.pres fun a => (hf a).pres⟩
  intro s t hR
  have h1 := h.run s t hR
  cases hx : x s with
  | error e =>
    rw [hx] at h1
    rw [Rd.bind_err hx]
    rcases h1 with h1 | ⟨h1, h2⟩ | h1
    · exact .inl h1
    · refine .inr (.inl ⟨h1, fun b t' e => ?_⟩)
      obtain ⟨a, u, hy, hg⟩ := Rd.bind_eq_ok.1 e
      exact (hf a).pres u b t' (h2 a u hy) hg
    · exact .inr (.inr (Rd.bind_err h1))
  | ok p =>
    obtain ⟨a, s'⟩ := p
    rw [hx] at h1
    obtain ⟨t', hy, hR'⟩ := h1
    rw [Rd.bind_ok hx, Rd.bind_ok hy]
    exact (hf a).run s' t' hR'

theorem Sim.ite {c : Prop} [Decidable c] {x x' : Rd σ₁ α} {y y' : Rd σ₂ α}
    (h : Sim P x y) (h' : Sim P x' y') : Sim P (if c then x else x') (if c then y else y') := by
  split
  · exact h
  · exact h'

theorem Sim.cond {c₁ c₂ : Bool} {x x' : Rd σ₁ α} {y y' : Rd σ₂ α}
    (h11 : c₁ = true → c₂ = true → Sim P x y) (h10 : c₁ = true → c₂ = false → Sim P x y')
    (h01 : c₁ = false → c₂ = true → Sim P x' y) (h00 : c₁ = false → c₂ = false → Sim P x' y') :
    Sim P (if c₁ then x else x') (if c₂ then y else y') := by
  cases c₁ <;> cases c₂ <;> simp_all

/-- Computations whose fuel depends on the state. -/
theorem Sim.fuel {sz₁ : σ₁ → Nat} {sz₂ : σ₂ → Nat} {F : Nat → Rd σ₁ α} {G : Nat → Rd σ₂ α}
    (hsz : ∀ s t, P.R s t → sz₁ s ≤ sz₂ t) (h : ∀ n m, n ≤ m → Sim P (F n) (G m)) :
    Sim P (fun s => F (sz₁ s) s) (fun t => G (sz₂ t) t) :=
  ⟨fun s t hR => (h _ _ (hsz s t hR)).run s t hR, fun t => (h (sz₂ t) (sz₂ t) (Nat.le_refl _)).pres t⟩

theorem Sim.ulebLoop {c₁ c₂ : Cfg} (hc : CfgSim P.A c₁ c₂) (hd : P.A .diverge) {x : Rd σ₁ Byte} {y : Rd σ₂ Byte}
    (hcl : ∀ m shift acc, Pres P.D (CT.ulebLoop c₂ y m shift acc))
    (h : Sim P x y) : ∀ n m, n ≤ m → ∀ shift acc,
    Sim P (CT.ulebLoop c₁ x n shift acc) (CT.ulebLoop c₂ y m shift acc) := by
  intro n
  induction n with
  | zero => intro m _ shift acc; exact Sim.failA hd (hcl _ _ _)
  | succ n ih =>
    intro m hm shift acc
    obtain ⟨m, rfl⟩ : ∃ k, m = k + 1 := ⟨m - 1, by omega⟩
    unfold CT.ulebLoop
    refine Sim.bind h fun b => ?_
    refine Sim.cond (fun _ _ => Sim.fail _) (fun h1 h2 => ?_) (fun h1 h2 => ?_) (fun _ _ => ?_)
    · have ho : c₁.overflowChecks = true := by simp at h1; exact h1.1
      have ho2 : c₂.overflowChecks = false := by
        cases hx : c₂.overflowChecks with
        | false => rfl
        | true => simp [ho, hx] at h1 h2; omega
      exact Sim.failA (hc.ovA ho ho2) (Pres.ite (Pres.pure _) (hcl _ _ _))
    · exfalso
      have ho : c₂.overflowChecks = true := by simp at h2; exact h2.1
      have ho1 := hc.ov ho
      simp [ho, ho1] at h1 h2; omega
    · exact Sim.ite (Sim.pure _) (ih m (by omega) _ _)

theorem Sim.decodeUleb {c₁ c₂ : Cfg} (hc : CfgSim P.A c₁ c₂) (hd : P.A .diverge) {sz₁ : σ₁ → Nat} {sz₂ : σ₂ → Nat}
    (hsz : ∀ s t, P.R s t → sz₁ s ≤ sz₂ t) {x : Rd σ₁ Byte} {y : Rd σ₂ Byte}
    (hcl : ∀ m shift acc, Pres P.D (CT.ulebLoop c₂ y m shift acc)) (h : Sim P x y) :
    Sim P (CT.decodeUleb c₁ sz₁ x) (CT.decodeUleb c₂ sz₂ y) :=
  Sim.fuel (F := fun n => CT.ulebLoop c₁ x (n + 1) 0#32 0#64) (G := fun n => CT.ulebLoop c₂ y (n + 1) 0#32 0#64)
    hsz fun n m hnm => Sim.ulebLoop hc hd hcl h _ _ (by omega) _ _

theorem Sim.repeatRd {x : Rd σ₁ Unit} {y : Rd σ₂ Unit} (h : Sim P x y) :
    ∀ n, Sim P (CT.repeatRd x n) (CT.repeatRd y n)
  | 0 => Sim.pure ()
  | n + 1 => Sim.bind h fun _ => Sim.repeatRd h n

theorem Sim.fillElems {x : Rd σ₁ Val} {y : Rd σ₂ Val} (h : Sim P x y) :
    ∀ n, Sim P (CT.fillElems x n) (CT.fillElems y n)
  | 0 => Sim.pure _
  | n + 1 => Sim.bind h fun _ => Sim.bind (Sim.fillElems h n) fun _ => Sim.pure _

variable {c₁ c₂ : Cfg} {I₁ : Input σ₁} {I₂ : Input σ₂}

section
variable (hc : CfgSim P.A c₁ c₂) (hI : InputSim P c₂ I₁ I₂)
include hc hI

theorem Sim.uleb : Sim P (I₁.uleb c₁) (I₂.uleb c₂) :=
  Sim.decodeUleb hc hI.diverge hI.size hI.closed.uleb hI.readByte

theorem Sim.readLen : Sim P (I₁.readLen c₁) (I₂.readLen c₂) := Sim.bind (Sim.uleb hc hI) fun _ => Sim.pure _
theorem Sim.readI16 : Sim P (I₁.readI16 c₁) (I₂.readI16 c₂) := Sim.bind (Sim.uleb hc hI) fun _ => Sim.pure _
theorem Sim.readI32 : Sim P (I₁.readI32 c₁) (I₂.readI32 c₂) := Sim.bind (Sim.uleb hc hI) fun _ => Sim.pure _
theorem Sim.readI64 : Sim P (I₁.readI64 c₁) (I₂.readI64 c₂) := Sim.bind (Sim.uleb hc hI) fun _ => Sim.pure _
theorem Sim.readFullFieldId : Sim P (I₁.readFullFieldId c₁) (I₂.readFullFieldId c₂) :=
  Sim.bind (Sim.uleb hc hI) fun _ => Sim.pure _

theorem Sim.readFieldHeader (last : BitVec 16) : Sim P (I₁.readFieldHeader c₁ last) (I₂.readFieldHeader c₂ last) := by
  unfold Input.readFieldHeader
  refine Sim.bind hI.readByte fun b => Sim.ite (Sim.pure _) (Sim.ite ?_ ?_)
  · refine Sim.cond (fun _ _ => Sim.fail _) (fun h1 h2 => ?_) (fun h1 h2 => ?_) (fun _ _ => Sim.pure _)
    · have ho : c₁.overflowChecks = true := by simp at h1; exact h1.1
      have ho2 : c₂.overflowChecks = false := by
        cases hx : c₂.overflowChecks with
        | false => rfl
        | true => simp [ho, hx] at h1 h2; omega
      exact Sim.failA (hc.ovA ho ho2) (Pres.pure _)
    · exfalso
      have ho : c₂.overflowChecks = true := by simp at h2; exact h2.1
      have ho1 := hc.ov ho
      simp [ho, ho1] at h1 h2; omega
  · exact Sim.bind (Sim.readFullFieldId hc hI) fun _ => Sim.pure _

theorem Sim.readCollectionLenAndType :
    Sim P (I₁.readCollectionLenAndType c₁) (I₂.readCollectionLenAndType c₂) := by
  unfold Input.readCollectionLenAndType
  refine Sim.bind hI.readByte fun b => Sim.bind (Sim.ite (Sim.pure _) (Sim.readLen hc hI)) fun n => ?_
  exact Sim.ite (Sim.throw _) (Sim.pure _)

theorem Sim.readMapLenAndTypes : Sim P (I₁.readMapLenAndTypes c₁) (I₂.readMapLenAndTypes c₂) := by
  unfold Input.readMapLenAndTypes
  refine Sim.bind (Sim.readLen hc hI) fun n => Sim.ite (Sim.pure _) (Sim.bind hI.readByte fun b => ?_)
  exact Sim.ite (Sim.throw _) (Sim.pure _)

theorem Sim.skipStructLoop {f : Byte → Rd σ₁ Unit} {g : Byte → Rd σ₂ Unit} (h : ∀ ft, Sim P (f ft) (g ft)) :
    ∀ n m, n ≤ m → ∀ last, Sim P (CT.skipStructLoop c₁ I₁ f n last) (CT.skipStructLoop c₂ I₂ g m last) := by
  intro n
  induction n with
  | zero => intro m _ last; exact Sim.failA hI.diverge (hI.closed.skipStruct _ (fun ft => (h ft).pres) _ _)
  | succ n ih =>
    intro m hm last
    obtain ⟨m, rfl⟩ : ∃ k, m = k + 1 := ⟨m - 1, by omega⟩
    unfold CT.skipStructLoop
    refine Sim.bind (Sim.readFieldHeader hc hI last) fun p => Sim.ite (Sim.pure _) ?_
    exact Sim.bind (h _) fun _ => ih m (by omega) _

omit hc hI in
theorem Sim.discard {α : Type} {x : Rd σ₁ α} {y : Rd σ₂ α} (h : Sim P x y) :
    Sim P (do let _ ← x; Pure.pure ()) (do let _ ← y; Pure.pure ()) :=
  Sim.bind h fun _ => Sim.pure _

theorem Sim.skipF : ∀ n m, n ≤ m →
    Sim P (skipCollection c₁ I₁ n) (skipCollection c₂ I₂ m) ∧
    Sim P (skipMap c₁ I₁ n) (skipMap c₂ I₂ m) ∧
    (∀ ft ins, Sim P (skipFieldF c₁ I₁ n ft ins) (skipFieldF c₂ I₂ m ft ins)) := by
  intro n
  induction n with
  | zero =>
    intro m _
    simp only [skipCollection, skipMap, skipFieldF]
    exact ⟨Sim.failA hI.diverge (hI.closed.skipC _), Sim.failA hI.diverge (hI.closed.skipM _),
      fun _ _ => Sim.failA hI.diverge (hI.closed.skipF _ _ _)⟩
  | succ n ih =>
    intro m hm
    obtain ⟨m, rfl⟩ : ∃ k, m = k + 1 := ⟨m - 1, by omega⟩
    obtain ⟨ihc, ihm, ihf⟩ := ih m (by omega)
    have hb := Sim.discard hI.readByte
    have hdb := Sim.discard hI.readDouble
    refine ⟨?_, ?_, ?_⟩
    · unfold skipCollection
      refine Sim.bind (Sim.readCollectionLenAndType hc hI) fun p => ?_
      obtain ⟨len, et⟩ := p
      dsimp only
      generalize et.toNat = k
      rcases k with _|_|_|_|_|_|_|_|_|_|_|_|_|k <;> first
        | exact Sim.repeatRd hb _
        | exact Sim.repeatRd hI.skipInteger _
        | exact Sim.repeatRd hdb _
        | exact Sim.repeatRd hI.skipBinary _
        | exact Sim.repeatRd ihc _
        | exact Sim.repeatRd ihm _
        | exact Sim.repeatRd (ihf _ _) _
        | exact Sim.throw _
    · unfold skipMap
      refine Sim.bind (Sim.readMapLenAndTypes hc hI) fun p => ?_
      exact Sim.repeatRd (Sim.bind (ihf _ _) fun _ => ihf _ _) _
    · intro ft ins
      unfold skipFieldF
      generalize ft.toNat = k
      rcases k with _|_|_|_|_|_|_|_|_|_|_|_|_|k <;> first
        | exact Sim.ite hb (Sim.pure _)
        | exact hb
        | exact hI.skipInteger
        | exact hdb
        | exact hI.skipBinary
        | exact ihc
        | exact ihm
        | exact Sim.throw _
        | exact Sim.fuel
            (F := fun n' => CT.skipStructLoop c₁ I₁ (fun ft => skipFieldF c₁ I₁ n ft false) (n' + 1) 0#16)
            (G := fun n' => CT.skipStructLoop c₂ I₂ (fun ft => skipFieldF c₂ I₂ m ft false) (n' + 1) 0#16)
            hI.size fun a b hab => Sim.skipStructLoop hc hI (fun ft => ihf ft false) _ _ (by omega) _

theorem Sim.skip (ft : Byte) (ins : Bool) : Sim P (I₁.skip c₁ ft ins) (I₂.skip c₂ ft ins) :=
  Sim.fuel (F := fun n => skipFieldF c₁ I₁ (2 * n + 2) ft ins) (G := fun n => skipFieldF c₂ I₂ (2 * n + 2) ft ins)
    hI.size fun n m hnm => (Sim.skipF hc hI _ _ (by omega)).2.2 ft ins

theorem Sim.skipField (ft : Byte) : Sim P (I₁.skipField c₁ ft) (I₂.skipField c₂ ft) := Sim.skip hc hI ft false

omit hc in
theorem Sim.readString : Sim P I₁.readString I₂.readString :=
  Sim.bind hI.readBinary fun _ => Sim.ite (Sim.pure _) (Sim.throw _)

theorem Sim.encodingSetLoop : ∀ n mask, Sim P (CT.encodingSetLoop c₁ I₁ n mask) (CT.encodingSetLoop c₂ I₂ n mask)
  | 0, _ => Sim.pure _
  | n + 1, mask => by
    unfold CT.encodingSetLoop
    exact Sim.bind (Sim.readI32 hc hI) fun v => Sim.ite (Sim.throw _) (Sim.encodingSetLoop n _)

variable (env : List Def)

theorem Sim.fillTy {hn₁ : Nat → Val → Rd σ₁ Val} {hn₂ : Nat → Val → Rd σ₂ Val}
    (hn : ∀ k v, Sim P (hn₁ k v) (hn₂ k v)) :
    ∀ t v, Sim P (CT.fillTy c₁ I₁ env hn₁ t v) (CT.fillTy c₂ I₂ env hn₂ t v) := by
  intro t
  induction t with
  | bool => intro v; unfold CT.fillTy; exact Sim.bind hI.readByte fun _ => Sim.pure _
  | i8 => intro v; unfold CT.fillTy; exact Sim.bind hI.readByte fun _ => Sim.pure _
  | i16 => intro v; unfold CT.fillTy; exact Sim.bind (Sim.readI16 hc hI) fun _ => Sim.pure _
  | i32 => intro v; unfold CT.fillTy; exact Sim.bind (Sim.readI32 hc hI) fun _ => Sim.pure _
  | i64 => intro v; unfold CT.fillTy; exact Sim.bind (Sim.readI64 hc hI) fun _ => Sim.pure _
  | double => intro v; unfold CT.fillTy; exact Sim.bind hI.readDouble fun _ => Sim.pure _
  | binary => intro v; unfold CT.fillTy; exact Sim.bind hI.readBinary fun _ => Sim.pure _
  | string => intro v; unfold CT.fillTy; exact Sim.bind (Sim.readString hI) fun _ => Sim.pure _
  | encodingSet =>
    intro v; unfold CT.fillTy
    refine Sim.bind (Sim.readCollectionLenAndType hc hI) fun p => Sim.ite (Sim.throw _) ?_
    exact Sim.bind (Sim.encodingSetLoop hc hI _ _) fun _ => Sim.pure _
  | list t ih =>
    intro v; unfold CT.fillTy
    refine Sim.bind (Sim.readCollectionLenAndType hc hI) fun p => Sim.ite (Sim.throw _) ?_
    obtain ⟨len, et⟩ := p
    dsimp only
    cases h1 : c₁.alloc len with
    | false =>
      cases h2 : c₂.alloc len with
      | false => simp only [Bool.false_eq_true, not_false_eq_true, if_true]; exact Sim.throw _
      | true => simp only [Bool.false_eq_true, not_false_eq_true, if_true]; exact Sim.failA (hc.allocA _ h1 h2) (Pres.bind (Pres.fillElems (ih _).pres _) fun _ => Pres.pure _)
    | true =>
      rw [hc.alloc _ h1]
      simp only [not_true_eq_false, if_false]
      exact Sim.bind (Sim.fillElems (ih _) _) fun _ => Sim.pure _
  | option t ih =>
    intro v
    cases v <;> first
      | exact Sim.throw _
      | exact Sim.bind (ih _) fun _ => Sim.pure _
      | exact Sim.fail _
  | box t ih =>
    intro v
    cases v <;> first
      | exact Sim.bind (ih _) fun _ => Sim.pure _
      | exact Sim.fail _
  | rc t ih =>
    intro v
    cases v <;> first
      | exact Sim.ite (Sim.throw _) (Sim.bind (ih _) fun _ => Sim.pure _)
      | exact Sim.fail _
  | named k => intro v; unfold CT.fillTy; exact hn k v

theorem Sim.fillField {hn₁ : Nat → Val → Rd σ₁ Val} {hn₂ : Nat → Val → Rd σ₂ Val}
    (hn : ∀ k v, Sim P (hn₁ k v) (hn₂ k v)) :
    ∀ t v ft, Sim P (CT.fillField c₁ I₁ env hn₁ t v ft) (CT.fillField c₂ I₂ env hn₂ t v ft) := by
  intro t
  induction t with
  | bool => intro v ft; exact Sim.pure _
  | option t ih =>
    intro v ft
    cases v <;> first
      | exact Sim.throw _
      | exact Sim.bind (ih _ _) fun _ => Sim.pure _
      | exact Sim.fail _
  | _ => intro v ft; exact Sim.ite (Sim.throw _) (Sim.fillTy hc hI env hn _ _)

theorem Sim.structLoop {hn₁ : Nat → Val → Rd σ₁ Val} {hn₂ : Nat → Val → Rd σ₂ Val}
    (hn : ∀ k v, Sim P (hn₁ k v) (hn₂ k v)) (name : String) (fs : List Field) :
    ∀ n m, n ≤ m → ∀ last flags vs, Sim P (CT.structLoop c₁ I₁ env hn₁ name fs n last flags vs)
      (CT.structLoop c₂ I₂ env hn₂ name fs m last flags vs) := by
  intro n
  induction n with
  | zero => intro m _ last flags vs; exact Sim.failA hI.diverge (hI.closed.struct _ _ (fun k v => (hn k v).pres) _ _ _ _ _ _)
  | succ n ih =>
    intro m hm last flags vs
    obtain ⟨m, rfl⟩ : ∃ k, m = k + 1 := ⟨m - 1, by omega⟩
    unfold CT.structLoop
    refine Sim.bind (Sim.readFieldHeader hc hI last) fun p => ?_
    obtain ⟨ft, last'⟩ := p
    dsimp only
    refine Sim.ite ?_ ?_
    · split
      · exact Sim.throw _
      · exact Sim.pure _
    · split
      · split
        · exact Sim.bind (Sim.fillField hc hI env hn _ _ _) fun _ => ih m (by omega) _ _ _
        · exact Sim.fail _
      · exact Sim.bind (Sim.skipField hc hI _) fun _ => ih m (by omega) _ _ _

theorem Sim.fillUnion {hn₁ : Nat → Val → Rd σ₁ Val} {hn₂ : Nat → Val → Rd σ₂ Val}
    (hn : ∀ k v, Sim P (hn₁ k v) (hn₂ k v)) (us : List Variant) :
    Sim P (CT.fillUnion c₁ I₁ env hn₁ us) (CT.fillUnion c₂ I₂ env hn₂ us) := by
  unfold CT.fillUnion
  refine Sim.bind (Sim.readFieldHeader hc hI _) fun p => ?_
  obtain ⟨ft, id⟩ := p
  dsimp only
  refine Sim.ite (Sim.throw _) ?_
  split
  · split
    · refine Sim.bind (Sim.fillTy hc hI env hn _ _) fun _ => Sim.bind hI.readByte fun _ => ?_
      exact Sim.ite (Sim.throw _) (Sim.pure _)
    · exact Sim.fail _
  · exact Sim.throw _

theorem Sim.fillNamed : ∀ n m, n ≤ m → ∀ k v,
    Sim P (CT.fillNamed c₁ I₁ env n k v) (CT.fillNamed c₂ I₂ env m k v) := by
  intro n
  induction n with
  | zero => intro m _ k v; exact Sim.failA hI.diverge (hI.closed.named _ _ _ _)
  | succ n ih =>
    intro m hm k v
    obtain ⟨m, rfl⟩ : ∃ k, m = k + 1 := ⟨m - 1, by omega⟩
    have ih' := ih m (by omega)
    unfold CT.fillNamed
    generalize env[k]? = d
    rcases d with _ | ⟨name, fs⟩ | ⟨name, us⟩ | name <;> cases v <;> first
      | exact Sim.fail _
      | exact Sim.fillUnion hc hI env ih' _
      | exact Sim.bind (Sim.readI32 hc hI) fun _ => Sim.pure _
      | skip
    rename_i vs
    exact Sim.fuel
      (F := fun n' => CT.structLoop c₁ I₁ env (CT.fillNamed c₁ I₁ env n) name fs (n' + 1) 0#16 (fs.map fun _ => false) vs)
      (G := fun n' => CT.structLoop c₂ I₂ env (CT.fillNamed c₂ I₂ env m) name fs (n' + 1) 0#16 (fs.map fun _ => false) vs)
      hI.size fun a b hab => Sim.structLoop hc hI env ih' name fs _ _ (by omega) _ _ _

/-- The simulation theorem for filling a value. -/
theorem Sim.fillThrift (t : Ty) (v : Val) :
    Sim P (CT.fillThrift c₁ I₁ env t v) (CT.fillThrift c₂ I₂ env t v) :=
  Sim.fuel (F := fun n => CT.fillTy c₁ I₁ env (CT.fillNamed c₁ I₁ env (n + 1)) t v)
    (G := fun n => CT.fillTy c₂ I₂ env (CT.fillNamed c₂ I₂ env (n + 1)) t v)
    hI.size fun n m hnm => Sim.fillTy hc hI env (Sim.fillNamed hc hI env _ _ (by omega)) t v

theorem Sim.readThrift (t : Ty) : Sim P (CT.readThrift c₁ I₁ env t) (CT.readThrift c₂ I₂ env t) :=
  Sim.fillThrift hc hI env t _

end
end

/-! ## The looping functions never leave a set the primitive operations do not leave -/

theorem pres_iff {σ : Type} {D : σ → Prop} {y : Rd σ α} :
    Pres D y ↔ Sim (SimP.std (fun f => f = .diverge) fun s t => s = t ∧ D s) y y := by
  constructor
  · intro h
    refine ⟨?_, fun _ _ _ _ _ => trivial⟩
    rintro s t ⟨rfl, hD⟩
    cases hy : y s with
    | error f => exact .inr (.inr rfl)
    | ok p => obtain ⟨a, s'⟩ := p; exact ⟨s', rfl, rfl, h s a s' hD hy⟩
  · intro h t a t' hD hy
    have := h.run t t ⟨rfl, hD⟩
    rw [hy] at this
    obtain ⟨u, hu, he, hD'⟩ := this
    exact hD'

theorem Closed.of_pres {σ : Type} {D : σ → Prop} (c : Cfg) {I : Input σ} (h1 : Pres D I.readByte)
    (h2 : Pres D I.readDouble) (h3 : Pres D I.readBinary) (h4 : Pres D I.skipInteger) (h5 : Pres D I.skipBinary) :
    Closed D c I := by
  have hc := CfgSim.refl (fun f => f = .diverge) c
  have hI : InputSim (SimP.std (fun f => f = .diverge) fun s t => s = t ∧ D s) c I I :=
    ⟨rfl, Closed.trivial _ _, by rintro s t ⟨rfl, _⟩; exact Nat.le_refl _, pres_iff.1 h1, pres_iff.1 h2, pres_iff.1 h3,
      pres_iff.1 h4, pres_iff.1 h5⟩
  constructor
  · intro m shift acc
    exact pres_iff.2 (Sim.ulebLoop hc rfl hI.closed.uleb hI.readByte m m (Nat.le_refl _) _ _)
  · intro g hg m last
    exact pres_iff.2 (Sim.skipStructLoop hc hI (fun ft => pres_iff.1 (hg ft)) m m (Nat.le_refl _) _)
  · intro m; exact pres_iff.2 (Sim.skipF hc hI m m (Nat.le_refl _)).1
  · intro m; exact pres_iff.2 (Sim.skipF hc hI m m (Nat.le_refl _)).2.1
  · intro m ft ins; exact pres_iff.2 ((Sim.skipF hc hI m m (Nat.le_refl _)).2.2 ft ins)
  · intro env hn hp name fs m last flags vs
    exact pres_iff.2 (Sim.structLoop hc hI env (fun k v => pres_iff.1 (hp k v)) name fs m m (Nat.le_refl _) _ _ _)
  · intro env m k v; exact pres_iff.2 (Sim.fillNamed hc hI env m m (Nat.le_refl _) k v)

end CT
