import Verif.Proofs.Prim
import Verif.Spec.Reads
/-! # From slices to readers -/
namespace CT
open Spec

/-- Only excepted failure: exhausted fuel. -/
abbrev OnlyDiverge (f : Fail) : Prop := f = .diverge

theorem cfgSim_noSse2 (A : Fail → Prop) (cfg : Cfg) : CfgSim A cfg.noSse2 cfg where
  ov h := h
  ovA h h' := by
    have : cfg.overflowChecks = true := h
    rw [this] at h'; cases h'
  alloc _ h := h
  allocA n h h' := by
    have : cfg.alloc n = false := h
    rw [this] at h'; cases h'

/-- The slice without SSE2 and readers. -/
theorem reader_sim (cfg : Cfg) :
    InputSim (SimP.std OnlyDiverge fun s evs => Delivers evs s) cfg (sliceInput cfg.noSse2) (readerInput cfg) :=
  slice_reader_sim (A := OnlyDiverge) rfl (cfgSim_noSse2 _ cfg) rfl

theorem Delivers.det {evs : List REvent} {s t : Bytes} (h : Delivers evs s) (h' : Delivers evs t) : s = t := by
  induction h generalizing t with
  | nil => cases h'; rfl
  | eof r =>
    cases h' with
    | eof => rfl
    | data _ _ _ hne _ => exact absurd rfl hne
  | data bs r s hne hr ih =>
    cases h' with
    | eof => exact absurd rfl hne
    | data _ _ s' _ hr' => rw [ih hr']
  | interrupted r s hr ih =>
    cases h' with
    | interrupted _ _ hr' => exact ih hr'

/-- A script delivering the bytes in one chunk. -/
theorem delivers_one (s : Bytes) : ∃ evs, Delivers evs s := by
  by_cases h : s = []
  · exact ⟨[], h ▸ .nil⟩
  · exact ⟨[.data s], by have := Delivers.data s [] [] h .nil; simpa using this⟩

section
variable {α : Type} {f : Cfg → ∀ {σ : Type}, Input σ → Rd σ α}

/-- The reading operation is in simulation between any two inputs in simulation. -/
def Generic (f : Cfg → ∀ {σ : Type}, Input σ → Rd σ α) : Prop :=
  ∀ {σ₁ σ₂ : Type} {P : SimP σ₁ σ₂} {c₁ c₂ : Cfg} {I₁ : Input σ₁} {I₂ : Input σ₂},
    CfgSim P.A c₁ c₂ → InputSim P c₂ I₁ I₂ → Sim P (f c₁ I₁) (f c₂ I₂)

theorem reader_ok (hg : Generic f) {cfg : Cfg} {s suf : Bytes} {a : α}
    (h : f cfg.noSse2 (sliceInput cfg.noSse2) s = .ok (a, suf)) {evs : List REvent} (he : Delivers evs s) :
    ∃ evs', f cfg (readerInput cfg) evs = .ok (a, evs') ∧ Delivers evs' suf := by
  have := hg (cfgSim_noSse2 OnlyDiverge cfg) (reader_sim cfg) |>.run s evs he
  rw [h] at this; exact this

theorem reader_error (hg : Generic f) {cfg : Cfg} {s : Bytes} {e : Fail}
    (h : f cfg.noSse2 (sliceInput cfg.noSse2) s = .error e) (hd : e ≠ .diverge) {evs : List REvent} (he : Delivers evs s) :
    f cfg (readerInput cfg) evs = .error e := by
  have := hg (cfgSim_noSse2 OnlyDiverge cfg) (reader_sim cfg) |>.run s evs he
  rw [h] at this
  rcases this with h | h | h
  · exact absurd h hd
  · exact h.1.elim
  · exact h

theorem Reads.of_slice (hg : Generic f) {p suf : Bytes} {a : α}
    (h : ∀ cfg, f cfg (sliceInput cfg) (p ++ suf) = .ok (a, suf)) (cfg : Cfg) :
    Reads cfg (fun I => f cfg I) p suf a :=
  ⟨h cfg, fun _ he => reader_ok hg (h cfg.noSse2) he⟩

/-- As `of_slice`, with a condition on the overflow checks and the allocator. -/
theorem Reads.of_slice_cond (hg : Generic f) {p suf : Bytes} {a : α} {C : Bool → (Nat → Bool) → Prop}
    (h : ∀ cfg, C cfg.overflowChecks cfg.alloc → f cfg (sliceInput cfg) (p ++ suf) = .ok (a, suf)) (cfg : Cfg)
    (hC : C cfg.overflowChecks cfg.alloc) : Reads cfg (fun I => f cfg I) p suf a :=
  ⟨h cfg hC, fun _ he => reader_ok hg (h cfg.noSse2 hC) he⟩

theorem Fails.of_slice (hg : Generic f) {s : Bytes} {e : Fail} (hd : e ≠ .diverge)
    (h : ∀ cfg, f cfg (sliceInput cfg) s = .error e) (cfg : Cfg) : Fails cfg (fun I => f cfg I) s e :=
  ⟨h cfg, fun _ he => reader_error hg (h cfg.noSse2) hd he⟩

theorem Fails.of_slice_cond (hg : Generic f) {s : Bytes} {e : Fail} (hd : e ≠ .diverge) {C : Bool → (Nat → Bool) → Prop}
    (h : ∀ cfg, C cfg.overflowChecks cfg.alloc → f cfg (sliceInput cfg) s = .error e) (cfg : Cfg)
    (hC : C cfg.overflowChecks cfg.alloc) : Fails cfg (fun I => f cfg I) s e :=
  ⟨h cfg hC, fun _ he => reader_error hg (h cfg.noSse2 hC) hd he⟩

/-- If both inputs yield something from `s`, no other result is possible. -/
theorem Reads.unique {cfg : Cfg} {g : ∀ {σ : Type}, Input σ → Rd σ α} {p q suf suf' : Bytes} {a b : α}
    (h : Reads cfg g p suf a) (h' : Reads cfg g q suf' b) (e : p ++ suf = q ++ suf') : a = b ∧ suf = suf' := by
  have h1 := h.1
  rw [e, h'.1] at h1
  simp at h1
  exact ⟨h1.1.symm, h1.2.symm⟩

end

theorem generic_readLen : Generic (fun c _ I => I.readLen c) := fun hc hI => Sim.readLen hc hI
theorem generic_readI16 : Generic (fun c _ I => I.readI16 c) := fun hc hI => Sim.readI16 hc hI
theorem generic_readI32 : Generic (fun c _ I => I.readI32 c) := fun hc hI => Sim.readI32 hc hI
theorem generic_readI64 : Generic (fun c _ I => I.readI64 c) := fun hc hI => Sim.readI64 hc hI
theorem generic_readBinary : Generic (fun _ _ I => I.readBinary) := fun _ hI => hI.readBinary
theorem generic_skipBinary : Generic (fun _ _ I => I.skipBinary) := fun _ hI => hI.skipBinary
theorem generic_readString : Generic (fun _ _ I => I.readString) := fun _ hI => Sim.readString hI
theorem generic_readFieldHeader (last : BitVec 16) : Generic (fun c _ I => I.readFieldHeader c last) :=
  fun hc hI => Sim.readFieldHeader hc hI last
theorem generic_readCollection : Generic (fun c _ I => I.readCollectionLenAndType c) :=
  fun hc hI => Sim.readCollectionLenAndType hc hI
theorem generic_readMap : Generic (fun c _ I => I.readMapLenAndTypes c) :=
  fun hc hI => Sim.readMapLenAndTypes hc hI
theorem generic_skipField (ft : Byte) : Generic (fun c _ I => I.skipField c ft) :=
  fun hc hI => Sim.skipField hc hI ft
theorem generic_skip (ft : Byte) (ins : Bool) : Generic (fun c _ I => I.skip c ft ins) :=
  fun hc hI => Sim.skip hc hI ft ins
theorem generic_readThrift (env : List Def) (t : Ty) : Generic (fun c _ I => readThrift c I env t) :=
  fun hc hI => Sim.readThrift hc hI env t
theorem generic_fillThrift (env : List Def) (t : Ty) (v : Val) : Generic (fun c _ I => fillThrift c I env t v) :=
  fun hc hI => Sim.fillThrift hc hI env t v

theorem Writes.emits {α : Type} {x : Wr Bytes α} {a : α} {bs : Bytes} (h : Writes x a bs) : Emits x bs :=
  fun out => ⟨a, h out⟩

end CT
