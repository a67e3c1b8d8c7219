import Verif.Spec.Decoder
import Verif.Proofs.Ops
import Verif.Proofs.Typed
import Verif.Proofs.RoundTrip
/-! # Programs that read by hand: simulation, adequacy, composition -/
namespace CT
open Spec

theorem generic_request {β : Type} (r : Request β) : Generic (fun c _ I => r.run c I) := by
  intro σ₁ σ₂ P c₁ c₂ I₁ I₂ hc hI
  cases r with
  | byte => exact hI.readByte
  | len => exact Sim.readLen hc hI
  | i16 => exact Sim.readI16 hc hI
  | i32 => exact Sim.readI32 hc hI
  | i64 => exact Sim.readI64 hc hI
  | double => exact hI.readDouble
  | binary => exact hI.readBinary
  | string => exact Sim.readString hI
  | skipInteger => exact hI.skipInteger
  | skipBinary => exact hI.skipBinary
  | skipField ft => exact Sim.skipField hc hI ft
  | fieldHeader last => exact Sim.readFieldHeader hc hI last
  | collection => exact Sim.readCollectionLenAndType hc hI
  | map => exact Sim.readMapLenAndTypes hc hI
  | read env t => exact Sim.readThrift hc hI env t
  | fill env t v => exact Sim.fillThrift hc hI env t v
  | fillField env t v ft =>
    exact Sim.fuel (F := fun n => fillField c₁ I₁ env (fillNamed c₁ I₁ env (n + 1)) t v ft)
      (G := fun n => fillField c₂ I₂ env (fillNamed c₂ I₂ env (n + 1)) t v ft) hI.size
      fun n m h => Sim.fillField hc hI env (Sim.fillNamed hc hI env _ _ (by omega)) t v ft

theorem Pres.fieldsLoop {σ : Type} {D : σ → Prop} {cfg : Cfg} {I : Input σ} (hh : ∀ last, Pres D (I.readFieldHeader cfg last)) {γ : Type}
    {field : γ → Byte → BitVec 16 → Rd σ γ} (hf : ∀ g ft id, Pres D (field g ft id)) : ∀ n last g, Pres D (Spec.fieldsLoop cfg I field n last g)
  | 0, _, _ => Pres.fail _
  | n + 1, last, _ => Pres.bind (hh last) fun _ => Pres.ite (Pres.pure _) (Pres.bind (hf _ _ _) fun _ => Pres.fieldsLoop hh hf n _ _)

theorem Sim.fieldsLoop {σ₁ σ₂ : Type} {P : SimP σ₁ σ₂} {c₁ c₂ : Cfg} {I₁ : Input σ₁} {I₂ : Input σ₂} (hc : CfgSim P.A c₁ c₂) (hI : InputSim P c₂ I₁ I₂)
    {γ : Type} {f₁ : γ → Byte → BitVec 16 → Rd σ₁ γ} {f₂ : γ → Byte → BitVec 16 → Rd σ₂ γ} (hf : ∀ g ft id, Sim P (f₁ g ft id) (f₂ g ft id)) :
    ∀ n m, n ≤ m → ∀ last g, Sim P (Spec.fieldsLoop c₁ I₁ f₁ n last g) (Spec.fieldsLoop c₂ I₂ f₂ m last g) := by
  intro n
  induction n with
  | zero =>
    intro m _ last g
    exact Sim.failA hI.diverge (Pres.fieldsLoop (fun last => (Sim.readFieldHeader hc hI last).pres) (fun g ft id => (hf g ft id).pres) m last g)
  | succ n ih =>
    intro m hm last g
    obtain ⟨m, rfl⟩ : ∃ m', m = m' + 1 := ⟨m - 1, by omega⟩
    exact Sim.bind (Sim.readFieldHeader hc hI last) fun _ => Sim.ite (Sim.pure _) (Sim.bind (hf _ _ _) fun _ => ih m (by omega) _ _)

theorem generic_decoder {α : Type} (d : Decoder α) : Generic (fun c _ I => d.run c I) := by
  intro σ₁ σ₂ P c₁ c₂ I₁ I₂ hc hI
  induction d with
  | done a => exact Sim.pure a
  | stop e h => exact Sim.throw e fun k hk => h k (by injection hk)
  | ask r next ih => exact Sim.bind (generic_request r hc hI) fun b => ih b
  | fields start field next ih1 ih2 =>
    refine Sim.bind (Sim.fuel (F := fun n => Spec.fieldsLoop c₁ I₁ _ (n + 1) 0#16 start) (G := fun n => Spec.fieldsLoop c₂ I₂ _ (n + 1) 0#16 start)
      hI.size fun n m h => ?_) fun g => ih2 g
    exact Sim.fieldsLoop hc hI (fun g ft id => ih1 g ft id) _ _ (by omega) _ _

/-- Never more bytes left, and every failure within `E`. -/
abbrev Shrinks {σ α : Type} (E : Fail → Prop) (I : Input σ) (x : Rd σ α) : Prop :=
  ∀ n, Tri (fun s => I.size s ≤ n) x (fun _ s => I.size s ≤ n) E

theorem shrinks_of {σ α : Type} {E : Fail → Prop} {I : Input σ} {x : Rd σ α}
    (h : ∀ n, Tri (fun s => I.size s ≤ n) x (fun _ s => I.size s + 1 ≤ n) E) : Shrinks E I x :=
  fun n => (h n).post fun _ s h => by omega

/-- The sizes from one statement, the failures from another. -/
theorem shrinks_both {σ α : Type} {E E' : Fail → Prop} {I : Input σ} {x : Rd σ α} {Q : Nat → α → σ → Prop}
    (h : ∀ n, Tri (fun s => I.size s ≤ n) x (Q n) E) (h' : Shrinks E' I x) : Shrinks E I x := by
  intro n s hs
  have a := h n s hs
  have b := h' n s hs
  split
  · rename_i e; rw [e] at b; exact b
  · rename_i e; rw [e] at a; exact a

/-- What a request needs so as not to leave the types of Rust. -/
def Spec.Request.Fits (E : Fail → Prop) {β : Type} : Request β → Prop
  | .read env t => E .stuck ∨ (defaultsDefined env = true ∧ envClosed env = true ∧ tyClosed env t = true)
  | .fill env t v => E .stuck ∨ (defaultsDefined env = true ∧ envClosed env = true ∧ tyClosed env t = true ∧ Seed env t v)
  | .fillField env t v _ => E .stuck ∨ (defaultsDefined env = true ∧ envClosed env = true ∧ tyClosed env t = true ∧ Seed env t v)
  | _ => True

theorem allowed_all (cfg : Cfg) : Allowed (fun _ => True) cfg := ⟨fun _ _ => trivial, fun _ => trivial, fun _ _ _ => trivial⟩

theorem Measured.all {σ : Type} {E : Fail → Prop} {I : Input σ} (h : Measured E I) : Measured (fun _ => True) I where
  readByte n := (h.readByte n).weaken (fun _ h => h) (fun _ _ h => h) fun _ _ => trivial
  readDouble n := (h.readDouble n).weaken (fun _ h => h) (fun _ _ h => h) fun _ _ => trivial
  readBinary n := (h.readBinary n).weaken (fun _ h => h) (fun _ _ h => h) fun _ _ => trivial
  skipInteger n := (h.skipInteger n).weaken (fun _ h => h) (fun _ _ h => h) fun _ _ => trivial
  skipBinary n := (h.skipBinary n).weaken (fun _ h => h) (fun _ _ h => h) fun _ _ => trivial

theorem shrinks_request {σ β : Type} {E : Fail → Prop} {cfg : Cfg} (hE : Allowed E cfg) {I : Input σ} (hI : Counted E I) (r : Request β)
    (hr : r.Fits E) : Shrinks E I (r.run cfg I) := by
  have hM := hI.toMeasured
  cases r with
  | byte => exact shrinks_of hM.readByte
  | len => exact shrinks_of (Tri.readLen hE hM)
  | i16 => exact shrinks_of (Tri.readI16 hE hM)
  | i32 => exact shrinks_of (Tri.readI32 hE hM)
  | i64 => exact shrinks_of (Tri.readI64 hE hM)
  | double => exact hM.readDouble
  | binary => exact hM.readBinary
  | string => exact fun n => Tri.readString hM n (hE.err _ (by simp))
  | skipInteger => exact hM.skipInteger
  | skipBinary => exact hM.skipBinary
  | skipField ft => exact Tri.skip hE hM ft false
  | fieldHeader last => exact shrinks_of fun n => Tri.readFieldHeader hE hM n last
  | collection => exact fun n => (Tri.readCollectionLenAndType hE hM n).post fun _ s h => by omega
  | map => exact shrinks_of (Tri.readMapLenAndTypes hE hM)
  | read env t =>
    rcases hr with hS | ⟨hd, hc, ht⟩
    · exact Tri.readThrift hE hM hS env t
    · exact shrinks_both (fillThrift_good hE hI env hd hc ht (fillable_dflt_closed hd ht).seed) (Tri.readThrift (allowed_all cfg) hM.all trivial env t)
  | fill env t v =>
    rcases hr with hS | ⟨hd, hc, ht, h0⟩
    · exact Tri.fillThrift hE hM hS env t v
    · exact shrinks_both (fillThrift_good hE hI env hd hc ht h0) (Tri.fillThrift (allowed_all cfg) hM.all trivial env t v)
  | fillField env t v ft =>
    intro n
    refine Tri.fuel (F := fun n' => fillField cfg I env (fillNamed cfg I env (n' + 1)) t v ft) fun s hs => ?_
    rcases hr with hS | ⟨hd, hc, ht, h0⟩
    · exact (Tri.fillField hE hM hS env (I.size s) (Tri.fillNamed hE hM hS env (I.size s + 1) (I.size s) (by omega)) t v ft).weaken
        (by rintro _ rfl; omega) (by intro _ s' hs'; omega) (fun _ h => h)
    · exact (fillField_good hE hI env hd (N := I.size s) (fun m hm => fillNamed_good hE hI env hd hc (I.size s + 1) m (by omega)) t ht
        (I.size s) (Nat.le_refl _) v ft h0).weaken (by rintro _ rfl; omega) (by intro v s' hs'; omega) (fun _ h => h)

theorem Tri.fieldsLoop {σ : Type} {E : Fail → Prop} {cfg : Cfg} (hE : Allowed E cfg) {I : Input σ} (hM : Measured E I) {γ : Type}
    {field : γ → Byte → BitVec 16 → Rd σ γ} (hf : ∀ g ft id, Shrinks E I (field g ft id)) :
    ∀ fuel n, n < fuel → ∀ last g, Tri (fun s => I.size s ≤ n) (Spec.fieldsLoop cfg I field fuel last g) (fun _ s => I.size s ≤ n) E := by
  intro fuel
  induction fuel with
  | zero => intro n h; omega
  | succ fuel ih =>
    intro n hn last g
    refine Tri.bind (Tri.readFieldHeader hE hM n last) fun p => Tri.ite (fun _ => Tri.pure fun s h => by omega) fun _ => ?_
    cases n with
    | zero => intro s hs; omega
    | succ n =>
      exact (Tri.bind (hf _ _ _ n) fun _ => ih n (by omega) _ _).weaken (fun s h => by omega) (fun _ s h => by omega) (fun _ h => h)

def Spec.Decoder.Fits (E : Fail → Prop) : {α : Type} → Decoder α → Prop
  | _, .done _ => True
  | _, .stop e _ => E (.err e)
  | _, .ask r next => r.Fits E ∧ ∀ b, (next b).Fits E
  | _, .fields _ field next => (∀ g ft id, (field g ft id).Fits E) ∧ ∀ g, (next g).Fits E

theorem shrinks_decoder {σ α : Type} {E : Fail → Prop} {cfg : Cfg} (hE : Allowed E cfg) {I : Input σ} (hI : Counted E I) (d : Decoder α)
    (hd : d.Fits E) : Shrinks E I (d.run cfg I) := by
  induction d with
  | done a => exact fun n => Tri.pure fun _ h => h
  | stop e h => exact fun n => Tri.throw hd
  | ask r next ih => exact fun n => Tri.bind (shrinks_request hE hI r hd.1 n) fun b => ih b (hd.2 b) n
  | fields start field next ih1 ih2 =>
    refine fun n => Tri.bind (Q := fun _ s => I.size s ≤ n) ?_ fun g => ih2 g (hd.2 g) n
    refine Tri.fuel (F := fun n' => Spec.fieldsLoop cfg I _ (n' + 1) 0#16 start) fun s hs => ?_
    exact (Tri.fieldsLoop hE hI.toMeasured (fun g ft id => ih1 g ft id (hd.1 g ft id)) (I.size s + 1) (I.size s) (by omega) _ _).weaken
      (by rintro _ rfl; omega) (by intro _ s' hs'; omega) (fun _ h => h)

theorem fits_stuck {E : Fail → Prop} (hS : E .stuck) (he : ∀ e, E (.err e)) {α : Type} (d : Decoder α) : d.Fits E := by
  induction d with
  | done a => trivial
  | stop e h => exact he e
  | ask r next ih => exact ⟨by cases r <;> first | trivial | exact .inl hS, ih⟩
  | fields start field next ih1 ih2 => exact ⟨ih1, ih2⟩

theorem decoder_slice_notDiverge {α : Type} (cfg : Cfg) (d : Decoder α) (s : Bytes) : d.run cfg (sliceInput cfg) s ≠ .error .diverge := by
  intro h
  exact (shrinks_decoder (allowed_notDiverge cfg) (slice_counted (allowed_notDiverge cfg) fun _ => by simp [notDiverge]) d
    (fits_stuck stuck_notDiverge (by simp [notDiverge]) d) _).error (Nat.le_refl _) h rfl

theorem decoder_reader_notDiverge {α : Type} (cfg : Cfg) (d : Decoder α) (evs : List REvent) :
    d.run cfg (readerInput cfg) evs ≠ .error .diverge := by
  intro h
  exact (shrinks_decoder (allowed_notDiverge cfg) (reader_counted (allowed_notDiverge cfg)) d
    (fits_stuck stuck_notDiverge (by simp [notDiverge]) d) _).error (Nat.le_refl _) h rfl

theorem decoder_same {α : Type} (cfg : Cfg) (d : Decoder α) {evs : List REvent} {s : Bytes} (h : Delivers evs s) :
    Same (fun s evs => Delivers evs s) (d.run cfg.noSse2 (sliceInput cfg.noSse2) s) (d.run cfg (readerInput cfg) evs) :=
  same_of_sim (generic_decoder d (P := SimP.std OnlyDiverge _) (cfgSim_noSse2 OnlyDiverge cfg) (reader_sim cfg)) h
    (by rintro f rfl; exact decoder_slice_notDiverge _ d s)

theorem decoder_breaks {α : Type} (cfg : Cfg) (d : Decoder α) {k : ErrorKind} {s : Bytes} {evs : List REvent} (h : Breaks k evs s) :
    match d.run cfg.noSse2 (sliceInput cfg.noSse2) s with
    | .ok (v, s') => ∃ e', d.run cfg (readerInput cfg) evs = .ok (v, e') ∧ Breaks k e' s'
    | .error f => d.run cfg (readerInput cfg) evs = .error (eofTo k f) := by
  have := (generic_decoder d (cfgSim_noSse2 OnlyDiverge cfg)
    (slice_breaks_sim k (A := OnlyDiverge) rfl (cfgSim_noSse2 _ cfg) rfl)).run s evs h
  cases e : d.run cfg.noSse2 (sliceInput cfg.noSse2) s with
  | error f =>
    simp only [e] at this
    rcases this with h | h | h
    · exact absurd (h ▸ e) (decoder_slice_notDiverge _ d s)
    · exact h.1.elim
    · exact h
  | ok p => obtain ⟨v, s'⟩ := p; simp only [e] at this; exact this

/-! ## One after the other -/

theorem Reads.ask {α β : Type} {cfg : Cfg} {r : Request β} {next : β → Decoder α} {p q suf : Bytes} {b : β} {a : α}
    (h : Reads cfg (fun I => r.run cfg I) p (q ++ suf) b) (h' : Reads cfg (fun I => (next b).run cfg I) q suf a) :
    Reads cfg (fun I => (Decoder.ask r next).run cfg I) (p ++ q) suf a := by
  refine ⟨?_, fun evs he => ?_⟩
  · have h1 := h.1
    show (r.run cfg (sliceInput cfg) >>= fun b => (next b).run cfg (sliceInput cfg)) (p ++ q ++ suf) = _
    rw [List.append_assoc, Rd.bind_ok h1]
    exact h'.1
  · rw [List.append_assoc] at he
    obtain ⟨e1, h1, h2⟩ := h.2 evs he
    obtain ⟨e2, h3, h4⟩ := h'.2 e1 h2
    refine ⟨e2, ?_, h4⟩
    show (r.run cfg (readerInput cfg) >>= fun b => (next b).run cfg (readerInput cfg)) evs = _
    rw [Rd.bind_ok h1]; exact h3

theorem Rd.bind_map {σ α β γ : Type} (x : Rd σ α) (f : α → Rd σ β) (f' : α → Rd σ γ) (g : β → γ) (h : ∀ a s, f' a s = (f a s).map fun p => (g p.1, p.2)) (s : σ) :
    (x >>= f') s = ((x >>= f) s).map fun p => (g p.1, p.2) := by
  cases e : x s with
  | error k => rw [Rd.bind_err e, Rd.bind_err e]; rfl
  | ok p => obtain ⟨b, s'⟩ := p; rw [Rd.bind_ok e, Rd.bind_ok e]; exact h b s'

theorem run_map {σ α β : Type} (cfg : Cfg) (I : Input σ) (f : α → β) (d : Decoder α) (s : σ) :
    (d.map f).run cfg I s = (d.run cfg I s).map fun p => (f p.1, p.2) := by
  induction d generalizing s with
  | done a => rfl
  | stop e h => rfl
  | ask r next ih => exact Rd.bind_map _ _ _ f (fun b s => ih b f s) s
  | fields start field next ih1 ih2 => exact Rd.bind_map _ _ _ f (fun b s => ih2 b f s) s

theorem run_bind {σ α β : Type} (cfg : Cfg) (I : Input σ) (d : Decoder α) (f : α → Decoder β) (s : σ) :
    (d.bind f).run cfg I s = (d.run cfg I >>= fun a => (f a).run cfg I) s := by
  have assoc : ∀ {γ δ : Type} (x : Rd σ γ) (g : γ → Rd σ δ) (h : γ → Rd σ β) (k : δ → Rd σ β), (∀ a s, h a s = (g a >>= k) s) → ∀ s, (x >>= h) s = ((x >>= g) >>= k) s := by
    intro γ δ x g h k hh s
    cases e : x s with
    | error k => rw [Rd.bind_err e, Rd.bind_err (Rd.bind_err e)]
    | ok p =>
      obtain ⟨b, s'⟩ := p
      rw [Rd.bind_ok e, hh]
      cases e2 : g b s' with
      | error k => rw [Rd.bind_err e2, Rd.bind_err (by rw [Rd.bind_ok e, e2])]
      | ok p => obtain ⟨c, s''⟩ := p; rw [Rd.bind_ok e2, Rd.bind_ok (by rw [Rd.bind_ok e, e2])]
  induction d generalizing s with
  | done a => rfl
  | stop e h => rfl
  | ask r next ih => exact assoc _ _ _ _ (fun b s => ih b f s) s
  | fields start field next ih1 ih2 => exact assoc _ _ _ _ (fun b s => ih2 b f s) s

theorem Reads.bind {α β : Type} {cfg : Cfg} {d : Decoder α} {f : α → Decoder β} {p q suf : Bytes} {a : α} {b : β}
    (h : Reads cfg (fun I => d.run cfg I) p (q ++ suf) a) (h' : Reads cfg (fun I => (f a).run cfg I) q suf b) :
    Reads cfg (fun I => (d.bind f).run cfg I) (p ++ q) suf b := by
  refine ⟨?_, fun evs he => ?_⟩
  · refine (run_bind cfg (sliceInput cfg) d f (p ++ q ++ suf)).trans ?_
    rw [List.append_assoc, Rd.bind_ok h.1]; exact h'.1
  · rw [List.append_assoc] at he
    obtain ⟨e1, h1, h2⟩ := h.2 evs he
    obtain ⟨e2, h3, h4⟩ := h'.2 e1 h2
    exact ⟨e2, (run_bind cfg (readerInput cfg) d f evs).trans (by rw [Rd.bind_ok h1]; exact h3), h4⟩

theorem Reads.done {α : Type} (cfg : Cfg) (a : α) (suf : Bytes) : Reads cfg (fun I => (Decoder.done a).run cfg I) [] suf a :=
  ⟨rfl, fun evs he => ⟨evs, rfl, he⟩⟩

theorem Reads.map {α β : Type} {cfg : Cfg} {d : Decoder α} {f : α → β} {p suf : Bytes} {a : α}
    (h : Reads cfg (fun I => d.run cfg I) p suf a) : Reads cfg (fun I => (d.map f).run cfg I) p suf (f a) := by
  refine ⟨?_, fun evs he => ?_⟩
  · exact (run_map cfg (sliceInput cfg) f d (p ++ suf)).trans (by rw [show d.run cfg (sliceInput cfg) (p ++ suf) = _ from h.1]; rfl)
  · obtain ⟨e1, h1, h2⟩ := h.2 evs he
    exact ⟨e1, (run_map cfg (readerInput cfg) f d evs).trans (by rw [show d.run cfg (readerInput cfg) evs = _ from h1]; rfl), h2⟩

theorem write_cases {env : List Def} {t : Ty} {v : Val} (hv : HasTy env v t) :
    (∃ p, encode env t v = .ok p ∧ ∀ out, writeTy vecSink env t v out = (.ok (), out ++ p)) ∨
    ∃ e bs, encode env t v = .error e ∧ ∀ out, writeTy vecSink env t v out = (.error e, out ++ bs) := by
  rcases (enc_or_refused hv).1 with ⟨q, hq⟩ | ⟨e, _, bs, ho⟩
  · exact .inl ⟨q, encode_of_enc hq, fun out => Outs.vec (outs_of_enc hq) out⟩
  · refine .inr ⟨_, bs, ?_, fun out => Outs.vec ho out⟩
    unfold encode
    rw [show writeTy vecSink env t v [] = _ from Outs.vec ho []]

end CT
