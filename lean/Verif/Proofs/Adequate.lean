import Verif.Proofs.Monad
/-!
# Triples, and adequacy of the fuel

`Tri P x Q E`: from a state satisfying `P`, `x` either succeeds with `Q` or fails with a failure in `E`.
-/
namespace CT

variable {σ α β : Type}

def Tri (P : σ → Prop) (x : Rd σ α) (Q : α → σ → Prop) (E : Fail → Prop) : Prop :=
  ∀ s, P s →
    match x s with
    | .ok (a, s') => Q a s'
    | .error f => E f

section
variable {P : σ → Prop} {Q : α → σ → Prop} {E : Fail → Prop}

theorem Tri.ok {x : Rd σ α} (h : Tri P x Q E) {s s' : σ} {a : α} (hp : P s) (hx : x s = .ok (a, s')) : Q a s' := by
  have := h s hp; rw [hx] at this; exact this

theorem Tri.error {x : Rd σ α} (h : Tri P x Q E) {s : σ} {f : Fail} (hp : P s) (hx : x s = .error f) : E f := by
  have := h s hp; rw [hx] at this; exact this

theorem Tri.pure {a : α} (h : ∀ s, P s → Q a s) : Tri P (Pure.pure a) Q E := fun s hs => h s hs

theorem Tri.fail {f : Fail} (h : E f) : Tri P (Rd.fail f) Q E := fun _ _ => h

theorem Tri.throw {e : ThriftError} (h : E (.err e)) : Tri P (Rd.throw e) Q E := fun _ _ => h

theorem Tri.bind {x : Rd σ α} {f : α → Rd σ β} {Q : α → σ → Prop} {Q' : β → σ → Prop}
    (h : Tri P x Q E) (hf : ∀ a, Tri (Q a) (f a) Q' E) : Tri P (x >>= f) Q' E := by
  intro s hs
  have h1 := h s hs
  cases hx : x s with
  | error e => rw [hx] at h1; rw [Rd.bind_err hx]; exact h1
  | ok p => obtain ⟨a, s'⟩ := p; rw [hx] at h1; rw [Rd.bind_ok hx]; exact hf a s' h1

theorem Tri.ite {c : Prop} [Decidable c] {x y : Rd σ α} (h : c → Tri P x Q E) (h' : ¬ c → Tri P y Q E) :
    Tri P (if c then x else y) Q E := by
  split
  · exact h ‹_›
  · exact h' ‹_›

theorem Tri.weaken {P' : σ → Prop} {Q' : α → σ → Prop} {E' : Fail → Prop} {x : Rd σ α} (h : Tri P x Q E)
    (hP : ∀ s, P' s → P s) (hQ : ∀ a s, Q a s → Q' a s) (hE : ∀ f, E f → E' f) : Tri P' x Q' E' := by
  intro s hs
  have := h s (hP s hs)
  cases hx : x s with
  | error e => rw [hx] at this; exact hE _ this
  | ok p => obtain ⟨a, s'⟩ := p; rw [hx] at this; exact hQ _ _ this

theorem Tri.pre {P' : σ → Prop} {x : Rd σ α} (h : Tri P x Q E) (hP : ∀ s, P' s → P s) : Tri P' x Q E :=
  h.weaken hP (fun _ _ h => h) (fun _ h => h)

theorem Tri.post {Q' : α → σ → Prop} {x : Rd σ α} (h : Tri P x Q E) (hQ : ∀ a s, Q a s → Q' a s) : Tri P x Q' E :=
  h.weaken (fun _ h => h) hQ (fun _ h => h)

/-- Fuel depending on the state. -/
theorem Tri.fuel {sz : σ → Nat} {F : Nat → Rd σ α} (h : ∀ s, P s → Tri (fun s' => s' = s) (F (sz s)) Q E) :
    Tri P (fun s => F (sz s) s) Q E := fun s hs => h s hs s rfl

end

/-- An input whose operations never increase the remaining size, strictly decrease it when a byte is read, and fail only
within `E`. -/
structure Measured (E : Fail → Prop) (I : Input σ) : Prop where
  readByte : ∀ n, Tri (fun s => I.size s ≤ n) I.readByte (fun _ s => I.size s + 1 ≤ n) E
  readDouble : ∀ n, Tri (fun s => I.size s ≤ n) I.readDouble (fun _ s => I.size s ≤ n) E
  readBinary : ∀ n, Tri (fun s => I.size s ≤ n) I.readBinary (fun _ s => I.size s ≤ n) E
  skipInteger : ∀ n, Tri (fun s => I.size s ≤ n) I.skipInteger (fun _ s => I.size s ≤ n) E
  skipBinary : ∀ n, Tri (fun s => I.size s ≤ n) I.skipBinary (fun _ s => I.size s ≤ n) E

/-- The failures the decoder itself may add to those of the input. -/
structure Allowed (E : Fail → Prop) (cfg : Cfg) : Prop where
  err : ∀ e, e ≠ .reserveError → E (.err e)
  panic : cfg.overflowChecks = true → E .panic
  reserve : ∀ n, n ≤ MAX_COLLECTION_LEN → cfg.alloc n = false → E (.err .reserveError)

section
variable {E : Fail → Prop} {cfg : Cfg} (hE : Allowed E cfg)
include hE

theorem Tri.ulebLoop {sz : σ → Nat} {x : Rd σ Byte}
    (h : ∀ n, Tri (fun s => sz s ≤ n) x (fun _ s => sz s + 1 ≤ n) E) :
    ∀ n fuel, n < fuel → ∀ shift acc,
      Tri (fun s => sz s ≤ n) (CT.ulebLoop cfg x fuel shift acc) (fun _ s => sz s + 1 ≤ n) E := by
  intro n fuel
  induction fuel generalizing n with
  | zero => intro h; omega
  | succ fuel ih =>
    intro hn shift acc
    unfold CT.ulebLoop
    refine Tri.bind (h n) fun b => ?_
    refine Tri.ite (fun hp => Tri.fail ?_) fun _ => Tri.ite (fun _ => Tri.pure fun _ h => h) fun _ => ?_
    · simp at hp; exact hE.panic hp.1
    · cases n with
      | zero => intro s hs; omega
      | succ n =>
        refine (ih n (by omega) _ _).weaken ?_ ?_ (fun _ h => h)
        · intro s hs; omega
        · intro _ s hs; omega

theorem Tri.decodeUleb {sz : σ → Nat} {x : Rd σ Byte}
    (h : ∀ n, Tri (fun s => sz s ≤ n) x (fun _ s => sz s + 1 ≤ n) E) (n : Nat) :
    Tri (fun s => sz s ≤ n) (CT.decodeUleb cfg sz x) (fun _ s => sz s + 1 ≤ n) E := by
  refine Tri.fuel (F := fun n => CT.ulebLoop cfg x (n + 1) 0#32 0#64) fun s hs => ?_
  refine (Tri.ulebLoop hE h (sz s) (sz s + 1) (by omega) _ _).weaken ?_ ?_ (fun _ h => h)
  · rintro _ rfl; omega
  · intro _ s' hs'; omega

omit hE in
theorem Tri.repeatRd {sz : σ → Nat} {n : Nat} {x : Rd σ Unit}
    (h : Tri (fun s => sz s ≤ n) x (fun _ s => sz s ≤ n) E) :
    ∀ k, Tri (fun s => sz s ≤ n) (CT.repeatRd x k) (fun _ s => sz s ≤ n) E
  | 0 => Tri.pure fun _ h => h
  | k + 1 => Tri.bind h fun _ => Tri.repeatRd h k

omit hE in
theorem Tri.fillElems {sz : σ → Nat} {n : Nat} {x : Rd σ Val}
    (h : Tri (fun s => sz s ≤ n) x (fun _ s => sz s ≤ n) E) :
    ∀ k, Tri (fun s => sz s ≤ n) (CT.fillElems x k) (fun _ s => sz s ≤ n) E
  | 0 => Tri.pure fun _ h => h
  | k + 1 => Tri.bind h fun _ => Tri.bind (Tri.fillElems h k) fun _ => Tri.pure fun _ h => h

variable {I : Input σ} (hI : Measured E I)
include hI

theorem Tri.uleb (n : Nat) : Tri (fun s => I.size s ≤ n) (I.uleb cfg) (fun _ s => I.size s + 1 ≤ n) E :=
  Tri.decodeUleb hE hI.readByte n

theorem Tri.readLen (n : Nat) : Tri (fun s => I.size s ≤ n) (I.readLen cfg) (fun _ s => I.size s + 1 ≤ n) E :=
  Tri.bind (Tri.uleb hE hI n) fun _ => Tri.pure fun _ h => h
theorem Tri.readI16 (n : Nat) : Tri (fun s => I.size s ≤ n) (I.readI16 cfg) (fun _ s => I.size s + 1 ≤ n) E :=
  Tri.bind (Tri.uleb hE hI n) fun _ => Tri.pure fun _ h => h
theorem Tri.readI32 (n : Nat) : Tri (fun s => I.size s ≤ n) (I.readI32 cfg) (fun _ s => I.size s + 1 ≤ n) E :=
  Tri.bind (Tri.uleb hE hI n) fun _ => Tri.pure fun _ h => h
theorem Tri.readI64 (n : Nat) : Tri (fun s => I.size s ≤ n) (I.readI64 cfg) (fun _ s => I.size s + 1 ≤ n) E :=
  Tri.bind (Tri.uleb hE hI n) fun _ => Tri.pure fun _ h => h
theorem Tri.readFullFieldId (n : Nat) :
    Tri (fun s => I.size s ≤ n) (I.readFullFieldId cfg) (fun _ s => I.size s + 1 ≤ n) E :=
  Tri.bind (Tri.uleb hE hI n) fun _ => Tri.pure fun _ h => h

theorem Tri.readFieldHeader (n : Nat) (last : BitVec 16) :
    Tri (fun s => I.size s ≤ n) (I.readFieldHeader cfg last) (fun _ s => I.size s + 1 ≤ n) E := by
  unfold Input.readFieldHeader
  refine Tri.bind (hI.readByte n) fun b => Tri.ite (fun _ => Tri.pure fun _ h => h) fun _ => Tri.ite (fun _ => ?_) fun _ => ?_
  · refine Tri.ite (fun hp => Tri.fail ?_) fun _ => Tri.pure fun _ h => h
    simp at hp; exact hE.panic hp.1
  · refine Tri.bind (Q := fun _ s => I.size s + 1 ≤ n) ?_ fun _ => Tri.pure fun _ h => h
    cases n with
    | zero => intro s hs; omega
    | succ n => exact (Tri.readFullFieldId hE hI n).weaken (by intro s hs; omega) (by intro _ s hs; omega) (fun _ h => h)

theorem Tri.readCollectionLenAndType (n : Nat) :
    Tri (fun s => I.size s ≤ n) (I.readCollectionLenAndType cfg)
      (fun p s => I.size s + 1 ≤ n ∧ p.1 ≤ MAX_COLLECTION_LEN) E := by
  unfold Input.readCollectionLenAndType
  refine Tri.bind (hI.readByte n) fun b => Tri.bind (Q := fun _ s => I.size s + 1 ≤ n) (Tri.ite (fun _ => Tri.pure fun _ h => h) fun _ => ?_) fun len => ?_
  · cases n with
    | zero => intro s hs; omega
    | succ n => exact (Tri.readLen hE hI n).weaken (by intro s hs; omega) (by intro _ s hs; omega) (fun _ h => h)
  · exact Tri.ite (fun _ => Tri.throw (hE.err _ (by simp))) fun h => Tri.pure fun _ h' => ⟨h', Nat.le_of_not_lt h⟩

theorem Tri.readMapLenAndTypes (n : Nat) :
    Tri (fun s => I.size s ≤ n) (I.readMapLenAndTypes cfg) (fun _ s => I.size s + 1 ≤ n) E := by
  unfold Input.readMapLenAndTypes
  refine Tri.bind (Tri.readLen hE hI n) fun len => Tri.ite (fun _ => Tri.pure fun _ h => h) fun _ => ?_
  cases n with
  | zero => intro s hs; omega
  | succ n =>
    refine Tri.bind ((hI.readByte n).pre (by intro s hs; omega)) fun b => ?_
    exact Tri.ite (fun _ => Tri.throw (hE.err _ (by simp))) fun _ => Tri.pure fun _ h => by omega

omit hE in
theorem Tri.readByte' (n : Nat) :
    Tri (fun s => I.size s ≤ n) (do let _ ← I.readByte; Pure.pure ()) (fun _ s => I.size s ≤ n) E :=
  Tri.bind (hI.readByte n) fun _ => Tri.pure fun _ h => by omega

omit hE in
theorem Tri.readDouble' (n : Nat) :
    Tri (fun s => I.size s ≤ n) (do let _ ← I.readDouble; Pure.pure ()) (fun _ s => I.size s ≤ n) E :=
  Tri.bind (hI.readDouble n) fun _ => Tri.pure fun _ h => h

theorem Tri.skipStructLoop {n : Nat} {f : Byte → Rd σ Unit}
    (h : ∀ ft m, m + 1 ≤ n → Tri (fun s => I.size s ≤ m) (f ft) (fun _ s => I.size s ≤ m) E) :
    ∀ fuel m, m ≤ n → m < fuel → ∀ last,
      Tri (fun s => I.size s ≤ m) (CT.skipStructLoop cfg I f fuel last) (fun _ s => I.size s + 1 ≤ m) E := by
  intro fuel
  induction fuel with
  | zero => intro m _ hm; omega
  | succ fuel ih =>
    intro m hmn hm last
    unfold CT.skipStructLoop
    refine Tri.bind (Tri.readFieldHeader hE hI m last) fun p => Tri.ite (fun _ => Tri.pure fun _ h => h) fun _ => ?_
    cases m with
    | zero => intro s hs; omega
    | succ m =>
      refine Tri.bind ((h p.1 m (by omega)).pre (by intro s hs; omega)) fun _ => ?_
      exact (ih m (by omega) (by omega) _).post (by intro _ s hs; omega)

/-- Two nested calls per remaining byte suffice for skipping. -/
theorem Tri.skipF : ∀ fuel n,
    (2 * n + 1 ≤ fuel → Tri (fun s => I.size s ≤ n) (skipCollection cfg I fuel) (fun _ s => I.size s ≤ n) E) ∧
    (2 * n + 1 ≤ fuel → Tri (fun s => I.size s ≤ n) (skipMap cfg I fuel) (fun _ s => I.size s ≤ n) E) ∧
    (2 * n + 2 ≤ fuel → ∀ ft ins, Tri (fun s => I.size s ≤ n) (skipFieldF cfg I fuel ft ins) (fun _ s => I.size s ≤ n) E) := by
  intro fuel
  induction fuel with
  | zero => intro n; exact ⟨by omega, by omega, by omega⟩
  | succ fuel ih =>
    intro n
    refine ⟨fun hf => ?_, fun hf => ?_, fun hf ft ins => ?_⟩
    · unfold skipCollection
      refine Tri.bind (Tri.readCollectionLenAndType hE hI n) fun p => ?_
      obtain ⟨len, et⟩ := p
      cases n with
      | zero => intro s hs; omega
      | succ n =>
        obtain ⟨ihc, ihm, ihf⟩ := ih n
        refine Tri.weaken (P := fun s => I.size s ≤ n) (Q := fun _ s => I.size s ≤ n) (E := E) ?_
          (by intro s hs; omega) (by intro _ s hs; omega) (fun _ h => h)
        dsimp only
        generalize et.toNat = k
        rcases k with _|_|_|_|_|_|_|_|_|_|_|_|_|k <;> first
          | exact Tri.repeatRd (Tri.readByte' hI n) _
          | exact Tri.repeatRd (hI.skipInteger n) _
          | exact Tri.repeatRd (Tri.readDouble' hI n) _
          | exact Tri.repeatRd (hI.skipBinary n) _
          | exact Tri.repeatRd (ihc (by omega)) _
          | exact Tri.repeatRd (ihm (by omega)) _
          | exact Tri.repeatRd (ihf (by omega) _ _) _
          | exact Tri.throw (hE.err _ (by simp))
    · unfold skipMap
      refine Tri.bind (Tri.readMapLenAndTypes hE hI n) fun p => ?_
      cases n with
      | zero => intro s hs; omega
      | succ n =>
        obtain ⟨ihc, ihm, ihf⟩ := ih n
        refine Tri.weaken (P := fun s => I.size s ≤ n) (Q := fun _ s => I.size s ≤ n) (E := E) ?_
          (by intro s hs; omega) (by intro _ s hs; omega) (fun _ h => h)
        exact Tri.repeatRd (Tri.bind (ihf (by omega) _ _) fun _ => ihf (by omega) _ _) _
    · obtain ⟨ihc, ihm, _⟩ := ih n
      unfold skipFieldF
      generalize ft.toNat = k
      rcases k with _|_|_|_|_|_|_|_|_|_|_|_|_|k <;> first
        | exact Tri.ite (fun _ => Tri.readByte' hI n) fun _ => Tri.pure fun _ h => h
        | exact Tri.readByte' hI n
        | exact hI.skipInteger n
        | exact Tri.readDouble' hI n
        | exact hI.skipBinary n
        | exact ihc (by omega)
        | exact ihm (by omega)
        | exact Tri.throw (hE.err _ (by simp))
        | skip
      refine Tri.fuel (F := fun n' => CT.skipStructLoop cfg I (fun ft => skipFieldF cfg I fuel ft false) (n' + 1) 0#16)
        fun s hs => ?_
      refine (Tri.skipStructLoop hE hI (n := n) (fun ft m hm => ?_) (I.size s + 1) (I.size s) hs (by omega) _).weaken
        (by rintro _ rfl; omega) (by intro _ s' hs'; omega) (fun _ h => h)
      exact (ih m).2.2 (by omega) ft false

theorem Tri.skip (ft : Byte) (ins : Bool) (n : Nat) :
    Tri (fun s => I.size s ≤ n) (I.skip cfg ft ins) (fun _ s => I.size s ≤ n) E := by
  refine Tri.fuel (F := fun n' => skipFieldF cfg I (2 * n' + 2) ft ins) fun s hs => ?_
  exact ((Tri.skipF hE hI (2 * I.size s + 2) (I.size s)).2.2 (by omega) ft ins).weaken
    (by rintro _ rfl; omega) (by intro _ s' hs'; omega) (fun _ h => h)

omit hE in
theorem Tri.readString (n : Nat) (h : E (.err .invalidString)) :
    Tri (fun s => I.size s ≤ n) I.readString (fun _ s => I.size s ≤ n) E :=
  Tri.bind (hI.readBinary n) fun _ => Tri.ite (fun _ => Tri.pure fun _ h => h) fun _ => Tri.throw h

theorem Tri.encodingSetLoop (n : Nat) : ∀ k mask,
    Tri (fun s => I.size s ≤ n) (CT.encodingSetLoop cfg I k mask) (fun _ s => I.size s ≤ n) E
  | 0, _ => Tri.pure fun _ h => h
  | k + 1, mask => by
    unfold CT.encodingSetLoop
    refine Tri.bind ((Tri.readI32 hE hI n).post (Q' := fun _ s => I.size s ≤ n) (by intro _ s hs; omega)) fun v => ?_
    exact Tri.ite (fun _ => Tri.throw (hE.err _ (by simp))) fun _ => Tri.encodingSetLoop n k _

variable (hS : E .stuck) (env : List Def)
include hS

theorem Tri.fillTy (n : Nat) {hn : Nat → Val → Rd σ Val}
    (h : ∀ k v, Tri (fun s => I.size s ≤ n) (hn k v) (fun _ s => I.size s ≤ n) E) :
    ∀ t v, Tri (fun s => I.size s ≤ n) (CT.fillTy cfg I env hn t v) (fun _ s => I.size s ≤ n) E := by
  have wk : ∀ {α : Type} {x : Rd σ α}, Tri (fun s => I.size s ≤ n) x (fun _ s => I.size s + 1 ≤ n) E →
      Tri (fun s => I.size s ≤ n) x (fun _ s => I.size s ≤ n) E :=
    fun h => h.post (by intro _ s hs; omega)
  have ret : ∀ {α : Type} (a : α), Tri (fun s => I.size s ≤ n) (Pure.pure a) (fun _ s => I.size s ≤ n) E :=
    fun a => Tri.pure fun _ h => h
  intro t
  induction t with
  | bool => intro v; unfold CT.fillTy; exact Tri.bind (wk (hI.readByte n)) fun _ => ret _
  | i8 => intro v; unfold CT.fillTy; exact Tri.bind (wk (hI.readByte n)) fun _ => ret _
  | i16 => intro v; unfold CT.fillTy; exact Tri.bind (wk (Tri.readI16 hE hI n)) fun _ => ret _
  | i32 => intro v; unfold CT.fillTy; exact Tri.bind (wk (Tri.readI32 hE hI n)) fun _ => ret _
  | i64 => intro v; unfold CT.fillTy; exact Tri.bind (wk (Tri.readI64 hE hI n)) fun _ => ret _
  | double => intro v; unfold CT.fillTy; exact Tri.bind (hI.readDouble n) fun _ => ret _
  | binary => intro v; unfold CT.fillTy; exact Tri.bind (hI.readBinary n) fun _ => ret _
  | string => intro v; unfold CT.fillTy; exact Tri.bind (Tri.readString hI n (hE.err _ (by simp))) fun _ => ret _
  | encodingSet =>
    intro v; unfold CT.fillTy
    refine Tri.bind ((Tri.readCollectionLenAndType hE hI n).post (Q' := fun _ s => I.size s ≤ n)
      (by intro _ s hs; omega)) fun p => Tri.ite (fun _ => Tri.throw (hE.err _ (by simp))) fun _ => ?_
    exact Tri.bind (Tri.encodingSetLoop hE hI n _ _) fun _ => ret _
  | list t ih =>
    intro v; unfold CT.fillTy
    refine Tri.bind (Tri.readCollectionLenAndType hE hI n) fun p => Tri.ite (fun _ => Tri.throw (hE.err _ (by simp))) fun _ =>
        Tri.ite (fun ha s hs => hE.reserve _ hs.2 (by simpa using ha)) fun _ => ?_
    exact Tri.bind ((Tri.fillElems (ih _) _).pre (by intro s hs; omega)) fun _ => ret _
  | option t ih =>
    intro v
    cases v <;> first
      | exact Tri.throw (hE.err _ (by simp))
      | exact Tri.bind (ih _) fun _ => ret _
      | exact Tri.fail hS
  | box t ih =>
    intro v
    cases v <;> first
      | exact Tri.bind (ih _) fun _ => ret _
      | exact Tri.fail hS
  | rc t ih =>
    intro v
    cases v <;> first
      | exact Tri.ite (fun _ => Tri.throw (hE.err _ (by simp))) fun _ => Tri.bind (ih _) fun _ => ret _
      | exact Tri.fail hS
  | named k => intro v; unfold CT.fillTy; exact h k v

theorem Tri.fillField (n : Nat) {hn : Nat → Val → Rd σ Val}
    (h : ∀ k v, Tri (fun s => I.size s ≤ n) (hn k v) (fun _ s => I.size s ≤ n) E) :
    ∀ t v ft, Tri (fun s => I.size s ≤ n) (CT.fillField cfg I env hn t v ft) (fun _ s => I.size s ≤ n) E := by
  intro t
  induction t with
  | bool => intro v ft; exact Tri.pure fun _ h => h
  | option t ih =>
    intro v ft
    cases v <;> first
      | exact Tri.throw (hE.err _ (by simp))
      | exact Tri.bind (ih _ _) fun _ => Tri.pure fun _ h => h
      | exact Tri.fail hS
  | _ =>
    intro v ft
    exact Tri.ite (fun _ => Tri.throw (hE.err _ (by simp))) fun _ => Tri.fillTy hE hI hS env n h _ _

theorem Tri.structLoop {n : Nat} {hn : Nat → Val → Rd σ Val}
    (h : ∀ m, m + 1 ≤ n → ∀ k v, Tri (fun s => I.size s ≤ m) (hn k v) (fun _ s => I.size s ≤ m) E)
    (name : String) (fs : List Field) :
    ∀ fuel m, m ≤ n → m < fuel → ∀ last flags vs,
      Tri (fun s => I.size s ≤ m) (CT.structLoop cfg I env hn name fs fuel last flags vs) (fun _ s => I.size s ≤ m) E := by
  intro fuel
  induction fuel with
  | zero => intro m _ hm; omega
  | succ fuel ih =>
    intro m hmn hm last flags vs
    unfold CT.structLoop
    refine Tri.bind (Tri.readFieldHeader hE hI m last) fun p => ?_
    obtain ⟨ft, last'⟩ := p
    dsimp only
    cases m with
    | zero => intro s hs; omega
    | succ m =>
      refine Tri.weaken (P := fun s => I.size s ≤ m) (Q := fun _ s => I.size s ≤ m) (E := E) ?_
        (by intro s hs; omega) (by intro _ s hs; omega) (fun _ h => h)
      refine Tri.ite (fun _ => ?_) fun _ => ?_
      · split
        · exact Tri.throw (hE.err _ (by simp))
        · exact Tri.pure fun _ h => h
      · split
        · split
          · exact Tri.bind (Tri.fillField hE hI hS env m (h m (by omega)) _ _ _) fun _ => ih m (by omega) (by omega) _ _ _
          · exact Tri.fail hS
        · exact Tri.bind (Tri.skip hE hI _ _ m) fun _ => ih m (by omega) (by omega) _ _ _

theorem Tri.fillUnion (n : Nat) {hn : Nat → Val → Rd σ Val}
    (h : ∀ m, m + 1 ≤ n → ∀ k v, Tri (fun s => I.size s ≤ m) (hn k v) (fun _ s => I.size s ≤ m) E)
    (us : List Variant) :
    Tri (fun s => I.size s ≤ n) (CT.fillUnion cfg I env hn us) (fun _ s => I.size s ≤ n) E := by
  unfold CT.fillUnion
  refine Tri.bind (Tri.readFieldHeader hE hI n _) fun p => ?_
  obtain ⟨ft, id⟩ := p
  dsimp only
  refine Tri.ite (fun _ => Tri.throw (hE.err _ (by simp))) fun _ => ?_
  split
  · split
    · cases n with
      | zero => intro s hs; omega
      | succ m =>
        refine Tri.bind ((Tri.fillTy hE hI hS env m (h m (by omega)) _ _).pre (by intro s hs; omega)) fun _ =>
          Tri.bind (hI.readByte m) fun _ => ?_
        exact Tri.ite (fun _ => Tri.throw (hE.err _ (by simp))) fun _ => Tri.pure fun _ h => by omega
    · exact Tri.fail hS
  · exact Tri.throw (hE.err _ (by simp))

theorem Tri.fillNamed : ∀ fuel n, n < fuel → ∀ k v,
    Tri (fun s => I.size s ≤ n) (CT.fillNamed cfg I env fuel k v) (fun _ s => I.size s ≤ n) E := by
  intro fuel
  induction fuel with
  | zero => intro n h; omega
  | succ fuel ih =>
    intro n hn k v
    unfold CT.fillNamed
    generalize env[k]? = d
    rcases d with _ | ⟨name, fs⟩ | ⟨name, us⟩ | name <;> cases v <;> first
      | exact Tri.fail hS
      | exact Tri.fillUnion hE hI hS env n (fun m hm => ih m (by omega)) _
      | exact Tri.bind (Tri.readI32 hE hI n) fun _ => Tri.pure fun _ h => by omega
      | skip
    rename_i vs
    refine Tri.fuel (F := fun n' => CT.structLoop cfg I env (CT.fillNamed cfg I env fuel) name fs (n' + 1) 0#16
      (fs.map fun _ => false) vs) fun s hs => ?_
    exact (Tri.structLoop hE hI hS env (n := n) (fun m hm => ih m (by omega)) name fs (I.size s + 1) (I.size s) hs
      (by omega) _ _ _).weaken (by rintro _ rfl; omega) (by intro _ s' hs'; omega) (fun _ h => h)

/-- Every failure of reading is one of the input or of the allowed ones; in particular the fuel never runs out. -/
theorem Tri.fillThrift (t : Ty) (v : Val) (n : Nat) :
    Tri (fun s => I.size s ≤ n) (CT.fillThrift cfg I env t v) (fun _ s => I.size s ≤ n) E := by
  refine Tri.fuel (F := fun n' => CT.fillTy cfg I env (CT.fillNamed cfg I env (n' + 1)) t v) fun s hs => ?_
  exact (Tri.fillTy hE hI hS env (I.size s) (Tri.fillNamed hE hI hS env (I.size s + 1) (I.size s) (by omega)) t v).weaken
    (by rintro _ rfl; omega) (by intro _ s' hs'; omega) (fun _ h => h)

theorem Tri.readThrift (t : Ty) (n : Nat) :
    Tri (fun s => I.size s ≤ n) (CT.readThrift cfg I env t) (fun _ s => I.size s ≤ n) E :=
  Tri.fillThrift hE hI hS env t _ n

end
end CT
