import Verif.Spec.Borrow
import Verif.Proofs.Cut
import Verif.Props.Wire
/-! # C81: binaries and strings are slices of the input -/
namespace CT.Props
open CT Spec

/-! ## Lemmas -/

namespace Borrow

theorem SliceOf.left {p bs : Bytes} (h : SliceOf p bs) (q : Bytes) : SliceOf (q ++ p) bs := by
  obtain ⟨a, l, b, rfl, hl⟩ := h
  exact ⟨q ++ a, l, b, by simp, hl⟩

theorem SliceOf.right {p bs : Bytes} (h : SliceOf p bs) (q : Bytes) : SliceOf (p ++ q) bs := by
  obtain ⟨a, l, b, rfl, hl⟩ := h
  exact ⟨a, l, b ++ q, by simp, hl⟩

/-- The leaves of the new value are empty, leaves of the old one or slices of what was read. -/
def Kept (o v : Val) (p : Bytes) : Prop := ∀ bs, Leaf v bs → bs = [] ∨ Leaf o bs ∨ SliceOf p bs

theorem Kept.right {o v : Val} {p : Bytes} (h : Kept o v p) (q : Bytes) : Kept o v (p ++ q) :=
  fun bs hb => (h bs hb).imp id fun h => h.imp id fun h => SliceOf.right h q

theorem Kept.left {o v : Val} {p : Bytes} (h : Kept o v p) (q : Bytes) : Kept o v (q ++ p) :=
  fun bs hb => (h bs hb).imp id fun h => h.imp id fun h => SliceOf.left h q

theorem leaf_dfltTy {ds : List Val} (h : ∀ v ∈ ds, ∀ bs, Leaf v bs → bs = []) (t : Ty) : ∀ bs, Leaf (dfltTy ds t) bs → bs = [] := by
  induction t with
  | named k =>
    rw [dfltTy]
    cases e : ds[k]? with
    | none => intro bs hb; cases hb
    | some v => exact h v (List.mem_of_getElem? e)
  | box t ih => intro bs hb; rw [dfltTy] at hb; cases hb; exact ih _ ‹_›
  | rc t ih => intro bs hb; rw [dfltTy] at hb; cases hb; exact ih _ ‹_›
  | list t ih => intro bs hb; rw [dfltTy] at hb; cases hb with | list _ v _ hv _ => cases hv
  | _ => intro bs hb; rw [dfltTy] at hb; cases hb <;> rfl

theorem leaf_defaultsFrom : ∀ (env : List Def) (ds : List Val), (∀ v ∈ ds, ∀ bs, Leaf v bs → bs = []) →
    ∀ v ∈ defaultsFrom ds env, ∀ bs, Leaf v bs → bs = []
  | [], _, h => h
  | d :: env, ds, h => by
    rw [defaultsFrom]
    refine leaf_defaultsFrom env _ fun v hv => ?_
    rcases List.mem_append.1 hv with hv | hv
    · exact h v hv
    · obtain rfl : v = _ := by simpa using hv
      cases d with
      | enum name => intro bs hb; cases hb
      | union name us =>
        cases us with
        | nil => intro bs hb; cases hb
        | cons u us => intro bs hb; cases hb; exact leaf_dfltTy h _ _ ‹_›
      | struct name fs =>
        intro bs hb
        cases hb with
        | struct _ w _ hw hb =>
          obtain ⟨f, _, rfl⟩ := List.mem_map.1 hw
          exact leaf_dfltTy h _ _ hb

theorem leaf_dflt (env : List Def) (t : Ty) {bs : Bytes} (h : Leaf (dflt env t) bs) : bs = [] :=
  leaf_dfltTy (leaf_defaultsFrom env [] (by simp)) t _ h

/-- Reading into the default: every leaf is empty or a slice of what was read. -/
def Fresh (v : Val) (p : Bytes) : Prop := ∀ bs, Leaf v bs → bs = [] ∨ SliceOf p bs

theorem Kept.fresh {env : List Def} {t : Ty} {v : Val} {p : Bytes} (h : Kept (dflt env t) v p) : Fresh v p :=
  fun bs hb => (h bs hb).elim .inl fun h => h.elim (fun h => .inl (leaf_dflt env t h)) .inr

theorem Fresh.kept {v : Val} {p : Bytes} (h : Fresh v p) (o : Val) : Kept o v p := fun bs hb => (h bs hb).imp id .inr

section
variable {cfg : Cfg} (hov : cfg.overflowChecks = false) {env : List Def}

/-- Consuming a prefix, whatever it is. -/
theorem sound_any {α : Type} {f : Cfg → ∀ {σ : Type}, Input σ → Rd σ α} (hg : Generic f) : Sound (f cfg (sliceInput cfg)) fun _ _ => True := by
  intro s a s' h
  obtain ⟨p, hp⟩ := slice_suffix hg h
  exact ⟨p, hp, trivial⟩

theorem sound_skipF (ft : Byte) : Sound ((sliceInput cfg).skipField cfg ft) fun _ _ => True := sound_any (generic_skipField ft)

theorem sound_set : ∀ n mask, Sound (encodingSetLoop cfg (sliceInput cfg) n mask) fun _ _ => True
  | 0, mask => (Sound.pure mask).mono fun _ _ _ => trivial
  | n + 1, mask => by
    rw [encodingSetLoop]
    refine Sound.bind (sound_any generic_readI32) (fun x p _ => ?_) (V := fun _ _ _ => True) fun _ _ _ _ _ _ => trivial
    split
    · exact Sound.throw _
    · exact sound_set n _

include hov in
theorem sound_bin : Sound (sliceInput cfg).readBinary fun bs p => ∃ q, p = q ++ bs ∧ VarintVal q bs.length := by
  rw [← readBinary_noSse2]
  exact (sound_readBinary (cfg := cfg.noSse2) (Plain.reads ⟨hov, rfl⟩)).mono fun bs p ⟨q, h1, h2, _⟩ => ⟨q, h1, h2⟩

theorem kept_elems {x : Rd Bytes Val} (hx : Sound x Fresh) : ∀ n, Sound (fillElems x n) fun vs p => ∀ v ∈ vs, Fresh v p
  | 0 => (Sound.pure []).mono fun vs p h => by rw [h.1]; simp
  | n + 1 => by
    rw [fillElems]
    refine Sound.bind hx (fun v p _ => Sound.bind (kept_elems hx n) (fun vs q _ => Sound.pure _)
      (U := fun r q => ∃ vs, r = v :: vs ∧ ∀ w ∈ vs, Fresh w q) ?_) ?_
    · rintro vs r p q h ⟨rfl, rfl⟩
      exact ⟨vs, rfl, by simpa using h⟩
    · rintro v r p q h1 ⟨vs, rfl, h2⟩ w hw bs hb
      rcases List.mem_cons.1 hw with rfl | hw
      · exact (h1 bs hb).imp id fun h => SliceOf.right h q
      · exact (h2 w hw bs hb).imp id fun h => SliceOf.left h p

include hov in
theorem kept_fillTy {fn : Nat → Val → Rd Bytes Val} (hfn : ∀ k o, Sound (fn k o) (Kept o)) :
    ∀ t o, Sound (fillTy cfg (sliceInput cfg) env fn t o) (Kept o) := by
  have prim : ∀ {α : Type} {x : Rd Bytes α} {W : α → Bytes → Prop} {g : α → Val} {o : Val}, Sound x W → (∀ a p, W a p → Kept o (g a) p) →
      Sound (do let a ← x; pure (g a)) (Kept o) := by
    intro α x W g o hx h
    refine hx.bind (fun a p _ => Sound.pure _) ?_
    rintro a v p q hW ⟨rfl, rfl⟩
    simpa using h a p hW
  intro t
  induction t with
  | bool => intro o; rw [fillTy]; exact prim sound_readByte fun a p _ bs hb => by cases hb
  | i8 => intro o; rw [fillTy]; exact prim sound_readByte fun a p _ bs hb => by cases hb
  | i16 => intro o; rw [fillTy]; exact prim (sound_any generic_readI16) fun a p _ bs hb => by cases hb
  | i32 => intro o; rw [fillTy]; exact prim (sound_any generic_readI32) fun a p _ bs hb => by cases hb
  | i64 => intro o; rw [fillTy]; exact prim (sound_any generic_readI64) fun a p _ bs hb => by cases hb
  | double => intro o; rw [fillTy]; exact prim (sound_readDouble) fun a p _ bs hb => by cases hb
  | binary =>
    intro o; rw [fillTy]
    refine prim (sound_bin hov) fun a p h bs hb => ?_
    obtain ⟨q, rfl, hq⟩ := h
    cases hb
    exact .inr (.inr ⟨[], q, [], by simp, hq⟩)
  | string =>
    intro o; rw [fillTy]
    refine prim (W := fun bs p => ∃ q, p = q ++ bs ∧ VarintVal q bs.length) ?_ fun a p h bs hb => ?_
    · intro s bs s' h
      unfold Input.readString at h
      obtain ⟨x, t, h1, h2⟩ := Rd.bind_eq_ok.1 h
      rw [Rd.ite_apply'] at h2
      split at h2
      · cases h2; exact sound_bin hov _ _ _ h1
      · cases h2
    · obtain ⟨q, rfl, hq⟩ := h
      cases hb
      exact .inr (.inr ⟨[], q, [], by simp, hq⟩)
  | encodingSet =>
    intro o; rw [fillTy]
    refine Sound.bind (sound_any generic_readCollection) (fun a p _ => ?_) (V := fun _ v _ => ∃ m, v = .encodingSet m) ?_
    · dsimp only
      split
      · exact Sound.throw _
      · refine Sound.bind (sound_set _ _) (fun m p _ => Sound.pure _) ?_
        rintro m v p q _ ⟨rfl, _⟩
        exact ⟨m, rfl⟩
    · rintro a v p q _ ⟨m, rfl⟩ bs hb
      cases hb
  | list t ih =>
    intro o; rw [fillTy]
    refine Sound.bind (sound_any generic_readCollection) (fun a p _ => ?_) (V := fun _ v q => ∃ vs, v = .list vs ∧ ∀ w ∈ vs, Fresh w q) ?_
    · dsimp only
      split
      · exact Sound.throw _
      · split
        · exact Sound.throw _
        · refine Sound.bind (kept_elems ((ih _).mono fun v p h => h.fresh) _) (fun m p _ => Sound.pure _) ?_
          rintro m v p q h ⟨rfl, rfl⟩
          exact ⟨m, rfl, by simpa using h⟩
    · rintro a v p q _ ⟨vs, rfl, h⟩ bs hb
      cases hb with
      | list _ w _ hw hb => exact ((h w hw).kept _).left p bs hb
  | option t ih =>
    intro o
    cases o with
    | none => rw [fillTy]; exact prim ((ih _).mono fun v p h => h.fresh) fun v p h bs hb => by cases hb; exact h.kept _ _ ‹_›
    | some v => rw [fillTy]; exact Sound.throw _
    | _ => rw [fillTy] <;> first | exact Sound.fail _ | (intros; contradiction)
  | box t ih =>
    intro o
    cases o with
    | box o => rw [fillTy]; exact prim (ih o) fun v p h bs hb => by cases hb; exact (h _ ‹_›).imp id fun h => h.imp (.box _ _) id
    | _ => rw [fillTy] <;> first | exact Sound.fail _ | (intros; contradiction)
  | rc t ih =>
    intro o
    cases o with
    | rc b o =>
      rw [fillTy]
      cases b with
      | true => exact Sound.throw _
      | false => exact prim (ih o) fun v p h bs hb => by cases hb; exact (h _ ‹_›).imp id fun h => h.imp (.rc _ _ _) id
    | _ => rw [fillTy] <;> first | exact Sound.fail _ | (intros; contradiction)
  | named k => intro o; rw [fillTy]; exact hfn k o

include hov in
theorem kept_fillField {fn : Nat → Val → Rd Bytes Val} (hfn : ∀ k o, Sound (fn k o) (Kept o)) :
    ∀ t o ft, Sound (fillField cfg (sliceInput cfg) env fn t o ft) (Kept o) := by
  intro t
  have value : ∀ t, t ≠ .bool → (∀ t', t ≠ .option t') → ∀ o ft, Sound (fillField cfg (sliceInput cfg) env fn t o ft) (Kept o) := by
    intro t h1 h2 o ft
    rw [fillField_value cfg _ env _ o ft h1 h2]
    split
    · exact Sound.throw _
    · exact kept_fillTy hov hfn t o
  induction t with
  | bool =>
    intro o ft; rw [fillField]
    exact (Sound.pure _).mono fun v p h bs hb => by rw [h.1] at hb; cases hb
  | option t ih =>
    intro o ft
    cases o with
    | none =>
      rw [fillField]
      refine Sound.bind (ih _ ft) (fun a p _ => Sound.pure _) ?_
      rintro a v p q h ⟨rfl, rfl⟩ bs hb
      cases hb
      exact (h.fresh.kept _).right [] _ ‹_›
    | some v => rw [fillField]; exact Sound.throw _
    | _ => rw [fillField] <;> first | exact Sound.fail _ | (intros; contradiction)
  | _ => exact value _ (by simp) (by simp)

include hov in
theorem kept_loop {fn : Nat → Val → Rd Bytes Val} (hfn : ∀ k o, Sound (fn k o) (Kept o)) (name : String) (fs : List Field) :
    ∀ fuel last flags vs, Sound (structLoop cfg (sliceInput cfg) env fn name fs fuel last flags vs) (Kept (.struct vs)) := by
  intro fuel
  induction fuel with
  | zero => intro last flags vs; exact Sound.fail _
  | succ fuel ih =>
    intro last flags vs
    rw [structLoop]
    refine Sound.bind (sound_any (generic_readFieldHeader last)) (fun a p _ => ?_) (V := fun _ => Kept (.struct vs)) fun a v p q _ h => h.left p
    dsimp only
    split
    · split
      · exact Sound.throw _
      · exact (Sound.pure _).mono fun v p h bs hb => .inr (.inl (h.1 ▸ hb))
    · split
      · split
        · rename_i hv
          refine Sound.bind (kept_fillField hov hfn _ _ _) (fun a p _ => ih _ _ _) fun w v p q h1 h2 bs hb => ?_
          rcases h2 bs hb with h2 | h2 | h2
          · exact .inl h2
          · cases h2 with
            | struct _ x _ hx hb =>
              rcases List.mem_or_eq_of_mem_set hx with hx | rfl
              · exact .inr (.inl (.struct _ _ _ hx hb))
              · rcases h1 bs hb with h1 | h1 | h1
                · exact .inl h1
                · exact .inr (.inl (.struct _ _ _ (List.mem_of_getElem? hv) h1))
                · exact .inr (.inr (SliceOf.right h1 q))
          · exact .inr (.inr (SliceOf.left h2 p))
        · exact Sound.fail _
      · exact Sound.bind (sound_skipF _) (fun a p _ => ih _ _ _) fun a v p q _ h => h.left p

include hov in
theorem kept_union {fn : Nat → Val → Rd Bytes Val} (hfn : ∀ k o, Sound (fn k o) (Kept o)) (us : List Variant) (o : Val) :
    Sound (fillUnion cfg (sliceInput cfg) env fn us) (Kept o) := by
  rw [fillUnion]
  refine Sound.bind (sound_any (generic_readFieldHeader 0#16)) (fun a p _ => ?_) (V := fun _ => Kept o) fun a v p q _ h => h.left p
  dsimp only
  split
  · exact Sound.throw _
  · split
    · split
      · refine Sound.bind ((kept_fillTy hov hfn _ _).mono fun v p h => h.fresh) (fun a p _ => ?_)
          (V := fun a v _ => ∃ i, v = .union i a) fun a v p q h ⟨i, e⟩ => ?_
        · refine Sound.bind sound_readByte (fun b p _ => ?_) (V := fun _ v _ => ∃ i, v = .union i a) fun _ _ _ _ _ h => h
          split
          · exact Sound.throw _
          · exact (Sound.pure _).mono fun v p h => ⟨_, h.1⟩
        · rintro bs hb
          rw [e] at hb
          cases hb
          exact (h.kept _).right q _ ‹_›
      · exact Sound.fail _
    · exact Sound.throw _

include hov in
theorem kept_fillNamed : ∀ n k o, Sound (fillNamed cfg (sliceInput cfg) env n k o) (Kept o) := by
  intro n
  induction n with
  | zero => intro k o; exact Sound.fail _
  | succ n ih =>
    intro k o
    unfold fillNamed
    split
    · exact fun s => kept_loop hov ih _ _ _ _ _ _ s
    · exact kept_union hov ih _ _
    · refine Sound.bind (sound_any generic_readI32) (fun a p _ => Sound.pure _) ?_
      rintro a v p q _ ⟨rfl, _⟩ bs hb
      cases hb
    · exact Sound.fail _

include hov in
theorem kept_fillThrift (t : Ty) (o : Val) : Sound (fillThrift cfg (sliceInput cfg) env t o) (Kept o) :=
  fun s => kept_fillTy hov (fun k o => kept_fillNamed hov _ k o) t o s

end

/-- With overflow checks a read that succeeds is the one without. -/
theorem fill_unchecked {cfg : Cfg} {env : List Def} {t : Ty} {o v : Val} {s s' : Bytes} (h : fillThrift cfg (sliceInput cfg) env t o s = .ok (v, s')) :
    fillThrift (unchecked cfg) (sliceInput (unchecked cfg)) env t o s = .ok (v, s') := by
  have e : (Op.fill env t o).run cfg (sliceInput cfg) s = .ok (some v, s') := by
    unfold Op.run; rw [Rd.bind_eq_ok]; exact ⟨v, s', h, rfl⟩
  rcases (C60_overflow_checks cfg (.fill env t o)).1 s with hp | hp
  · rw [hp] at e; cases e
  · rw [hp] at e
    unfold Op.run at e
    obtain ⟨w, t, h1, h2⟩ := Rd.bind_eq_ok.1 e
    cases h2
    exact h1

end Borrow

/-! ## C81 -/

/-- C81: after filling a value from a slice, in any build, every binary and string in it that is not empty was there before or is a contiguous part of the
bytes consumed, where it follows its length: nothing is made up, nothing comes from beyond what was consumed. -/
theorem C81_fill {cfg : Cfg} {env : List Def} {t : Ty} {o v : Val} {s s' : Bytes} (h : fillThrift cfg (sliceInput cfg) env t o s = .ok (v, s')) :
    ∃ p, s = p ++ s' ∧ ∀ bs, Leaf v bs → bs = [] ∨ Leaf o bs ∨ SliceOf p bs :=
  Borrow.kept_fillThrift rfl t o _ _ _ (Borrow.fill_unchecked h)

/-- C81 for `read_thrift`. -/
theorem C81_read {cfg : Cfg} {env : List Def} {t : Ty} {v : Val} {s s' : Bytes} (h : readThrift cfg (sliceInput cfg) env t s = .ok (v, s')) :
    ∃ p, s = p ++ s' ∧ ∀ bs, Leaf v bs → bs = [] ∨ SliceOf p bs := by
  obtain ⟨p, hp, hk⟩ := Borrow.kept_fillThrift rfl t (dflt env t) _ _ _ (Borrow.fill_unchecked h)
  exact ⟨p, hp, Borrow.Kept.fresh hk⟩

/-- C81 for readers: the buffers hold bytes that the reader delivered, in their order. -/
theorem C81_reader {cfg : Cfg} {env : List Def} {t : Ty} {o v : Val} {evs evs' : List REvent} {s : Bytes} (hd : Delivers evs s)
    (h : fillThrift cfg (readerInput cfg) env t o evs = .ok (v, evs')) :
    ∃ p s', s = p ++ s' ∧ Delivers evs' s' ∧ ∀ bs, Leaf v bs → bs = [] ∨ Leaf o bs ∨ SliceOf p bs := by
  have a := slice_reader_same cfg (.fill env t o) hd
  have e : (Op.fill env t o).run cfg (readerInput cfg) evs = .ok (some v, evs') := by
    unfold Op.run; rw [Rd.bind_eq_ok]; exact ⟨v, evs', h, rfl⟩
  rw [e] at a
  cases e' : (Op.fill env t o).run cfg.noSse2 (sliceInput cfg.noSse2) s with
  | error f => rw [e'] at a; exact a.elim
  | ok q =>
    obtain ⟨w, s'⟩ := q
    rw [e'] at a
    obtain ⟨rfl, hd'⟩ := a
    unfold Op.run at e'
    obtain ⟨w, t, h1, h2⟩ := Rd.bind_eq_ok.1 e'
    cases h2
    obtain ⟨p, hp, hk⟩ := C81_fill h1
    exact ⟨p, _, hp, hd', hk⟩

/-- A list of two strings, one of them empty, read by every build; the leaf "ab" is a slice of the input. -/
example (cfg : Cfg) (ha : cfg.alloc 2 = true) : readThrift cfg (sliceInput cfg) [] (.list .string) [0x28#8, 2#8, 0x61#8, 0x62#8, 0#8, 7#8] =
    .ok (.list [.string [0x61#8, 0x62#8], .string []], [7#8]) ∧ Leaf (.list [.string [0x61#8, 0x62#8], .string []]) [0x61#8, 0x62#8] := by
  refine ⟨?_, .list _ (.string [0x61#8, 0x62#8]) _ (by simp) (.string _)⟩
  obtain ⟨ov, sse, al⟩ := cfg
  dsimp only at ha
  unfold readThrift fillThrift fillTy
  rw [Rd.bind_ok (show _ = Except.ok ((2, 8#8), [2#8, 0x61#8, 0x62#8, 0#8, 7#8]) by cases ov <;> rfl)]
  dsimp only
  rw [if_neg (by decide), if_neg (by simp [ha])]
  cases ov <;> rfl

end CT.Props
