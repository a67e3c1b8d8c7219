import Verif.Spec.InStep
import Verif.Props.Decoding
import Verif.Props.Shortest
/-! # C94: reading and skipping keep in step -/
namespace CT.Props
open CT Spec

theorem inStep_struct {S : Nat → Bool} {env : List Def} (hS : inStep S env = true) {k : Nat} {name : String} {fs : List Field} (h : S k = true)
    (hk : env[k]? = some (.struct name fs)) : ∀ f ∈ fs, tyIn S f.ty = true ∧ wireType env f.ty ≠ 2#8 := by
  have hlt := (List.getElem?_eq_some_iff.1 hk).1
  have h1 := List.all_eq_true.1 hS k (List.mem_range.2 hlt)
  rw [hk, h] at h1
  simp only [Bool.not_true, Bool.false_or, List.all_eq_true, Bool.and_eq_true, bne_iff_ne] at h1
  exact fun f hf => h1 f hf

theorem inStep_union {S : Nat → Bool} {env : List Def} (hS : inStep S env = true) {k : Nat} {name : String} {us : List Variant} (h : S k = true)
    (hk : env[k]? = some (.union name us)) : False := by
  have hlt := (List.getElem?_eq_some_iff.1 hk).1
  have h1 := List.all_eq_true.1 hS k (List.mem_range.2 hlt)
  rw [hk, h] at h1
  simp at h1

theorem wireType_rustTy (env : List Def) (f : Field) : wireType env f.rustTy = wireType env f.ty := by
  unfold Field.rustTy; split <;> simp [wireType]

theorem tyIn_rustTy (S : Nat → Bool) (f : Field) : tyIn S f.rustTy = tyIn S f.ty := by
  unfold Field.rustTy; split <;> simp [tyIn]

/-- What an item is on the wire. -/
def StepItem (S : Nat → Bool) (env : List Def) : DItem → Bytes → Prop
  | .value t _ _, p => tyIn S t = true → Wire lenientStop (.value (wireType env t).toNat true) p ∧
      (wireType env t ≠ 2#8 → Wire lenientStop (.value (wireType env t).toNat false) p)
  | .field t ft _ _, p => tyIn S t = true → wireType env t ≠ 2#8 → Wire lenientStop (.value ft false) p
  | .elems t vs, p => tyIn S t = true → ∀ et, ElemType env t et → Wire lenientStop (.elems et vs.length) p
  | .fields fs _ _ _ _, p => (∀ f ∈ fs, tyIn S f.ty = true ∧ wireType env f.ty ≠ 2#8) → Wire lenientStop .fields p

theorem header_wire {last : BitVec 16} {h : Bytes} {ft : Nat} {id : BitVec 16} (hh : FieldHeader last h ft id) {p q : Bytes}
    (hp : Wire lenientStop (.value ft false) p) (hq : Wire lenientStop .fields q) : Wire lenientStop .fields (h ++ p ++ q) := by
  cases hh with
  | short b h1 h2 => simpa using WireOf.fieldShort b p q h1 h2 hp hq
  | long b i n _ h1 h2 hi hid => simpa using WireOf.fieldLong b i p q h1 h2 hi.1 hp hq

theorem both {ft : Nat} {p : Bytes} (h : ∀ ins, Wire lenientStop (.value ft ins) p) {c : Prop} :
    Wire lenientStop (.value ft true) p ∧ (c → Wire lenientStop (.value ft false) p) := ⟨h true, fun _ => h false⟩

theorem dec_inStep {S : Nat → Bool} {env : List Def} (hS : inStep S env = true) {i : DItem} {p : Bytes} (h : Dec env i p) : StepItem S env i p := by
  induction h with
  | bool o b => intro _; exact ⟨.boolElem _ _ (.inr rfl), fun h => absurd rfl h⟩
  | i8 o b => intro _; exact both fun ins => .byte ins b
  | i16 o p n x hp hx => intro _; exact both fun ins => .int 4 ins p (.inl rfl) hp.1
  | i32 o p n x hp hx => intro _; exact both fun ins => .int 5 ins p (.inr (.inl rfl)) hp.1
  | i64 o p n x hp hx => intro _; exact both fun ins => .int 6 ins p (.inr (.inr rfl)) hp.1
  | double o x => intro _; exact both fun ins => .double ins _ rfl
  | binary o p bs hp hb => intro _; exact both fun ins => .binary ins p bs hp hb
  | string o p bs hp hb hu => intro _; exact both fun ins => .binary ins p bs hp hb
  | encodingSet o h p mask xs hh hp hm ih =>
    intro _
    have := ih rfl 5 (.inl rfl)
    rw [List.length_map] at this
    exact both fun ins => .list 9 ins h 5 _ p (.inl rfl) hh this
  | list t o h et vs p hh he hp ih => intro ht; exact both fun ins => .list 9 ins h et _ p (.inl rfl) hh (ih ht et he)
  | some t d v p hd hp ih => exact ih
  | box t o v p hp ih => exact ih
  | rc t o v p hp ih => exact ih
  | enum k name o p n x hk hp hx =>
    intro _
    have : wireType env (.named k) = 5#8 := by unfold wireType; rw [hk]
    rw [this]
    exact both fun ins => .int 5 ins p (.inr (.inl rfl)) hp.1
  | struct k name fs met old new p hk hp hr ih =>
    intro ht
    have : wireType env (.named k) = 12#8 := by unfold wireType; rw [hk]
    rw [this]
    have := ih (inStep_struct hS ht hk)
    exact both fun ins => .struct ins p this
  | union k name us i u j o d v h ft p hk hu hfst hh hd hp ih => intro ht; exact (inStep_union hS ht hk).elim
  | elemsNil t =>
    intro _ et het
    refine .elemsNil et ?_
    have := wireType_range env t
    rcases het with rfl | ⟨h, rfl⟩ <;> omega
  | elemsCons t d v vs p q hd hp hq ih1 ih2 =>
    intro ht et het
    refine .elemsCons et _ p q ?_ (ih2 ht et het)
    have h1 := (ih1 ht).1
    rcases het with rfl | ⟨hb, rfl⟩
    · exact h1
    · rw [hb] at h1
      cases h1 with
      | boolElem _ b h => exact .boolElem _ b (.inl rfl)
      | int _ _ _ h => simp at h
      | list _ _ _ _ _ _ h => simp at h
  | fieldBool ft o => intro _ h; exact absurd rfl h
  | fieldSome t ft d v p hd hp ih => exact ih
  | fieldValue t o v p h1 h2 hp ih => intro ht hw; exact (ih ht).2 hw
  | stop fs last vs b h => intro _; exact .fieldStop b h
  | known fs last met vs new h ft i f o v p q hh hf hfst ho hp hq ih1 ih2 =>
    intro hfs
    have hf' := hfs f (List.mem_of_getElem? hf)
    exact header_wire hh (ih1 (by rw [tyIn_rustTy]; exact hf'.1) (by rw [wireType_rustTy]; exact hf'.2)) (ih2 hfs)
  | unknown fs last met vs new h ft id p q hh hid hp hq ih => intro hfs; exact header_wire hh hp (ih hfs)

/-! ## Leaving out fields -/

theorem getElem?_restrict (keep : Keep) (env : List Def) (k : Nat) : (restrict keep env)[k]? = (env[k]?).map fun d => match d with
    | .struct name fs => .struct name (pick (keep k) fs)
    | d => d := by
  unfold restrict
  rw [List.getElem?_mapIdx]
  cases env[k]? with
  | none => rfl
  | some d => cases d <;> rfl

theorem restrict_struct {keep : Keep} {env : List Def} {k : Nat} {name : String} {fs : List Field} (h : env[k]? = some (.struct name fs)) :
    (restrict keep env)[k]? = some (.struct name (pick (keep k) fs)) := by rw [getElem?_restrict, h]; rfl
theorem restrict_union {keep : Keep} {env : List Def} {k : Nat} {name : String} {us : List Variant} (h : env[k]? = some (.union name us)) :
    (restrict keep env)[k]? = some (.union name us) := by rw [getElem?_restrict, h]; rfl
theorem restrict_enum {keep : Keep} {env : List Def} {k : Nat} {name : String} (h : env[k]? = some (.enum name)) :
    (restrict keep env)[k]? = some (.enum name) := by rw [getElem?_restrict, h]; rfl

theorem wireType_restrict (keep : Keep) (env : List Def) (t : Ty) : wireType (restrict keep env) t = wireType env t := by
  induction t with
  | named k =>
    simp only [wireType, getElem?_restrict]
    cases h : env[k]? with
    | none => rfl
    | some d => cases d <;> rfl
  | option t ih => exact ih
  | box t ih => exact ih
  | rc t ih => exact ih
  | _ => rfl

/-- the position of a kept element in what is kept -/
def rank : List Bool → Nat → Nat
  | _, 0 => 0
  | [], _ => 0
  | true :: ks, n + 1 => rank ks n + 1
  | false :: ks, n + 1 => rank ks n

theorem pick_getElem? {α : Type} : ∀ {ks : List Bool} {xs : List α} {i : Nat}, ks[i]? = some true → (i < xs.length) → (pick ks xs)[rank ks i]? = xs[i]? := by
  intro ks
  induction ks with
  | nil => intro xs i h; simp at h
  | cons b ks ih =>
    intro xs i h hi
    cases xs with
    | nil => simp at hi
    | cons x xs =>
      cases i with
      | zero => simp at h; subst h; simp [pick, rank]
      | succ i =>
        simp at h hi
        cases b <;> simp [pick, rank, ih h hi]

theorem pick_mem {α : Type} : ∀ {ks : List Bool} {xs : List α} {j : Nat} {x : α}, (pick ks xs)[j]? = some x → ∃ i, ks[i]? = some true ∧ xs[i]? = some x ∧ rank ks i = j := by
  intro ks
  induction ks with
  | nil => intro xs j x h; simp [pick] at h
  | cons b ks ih =>
    intro xs j x h
    cases xs with
    | nil => cases b <;> simp [pick] at h
    | cons y xs =>
      cases b with
      | false =>
        simp only [pick] at h
        obtain ⟨i, h1, h2, h3⟩ := ih h
        exact ⟨i + 1, by simpa using h1, by simpa using h2, by simpa [rank] using h3⟩
      | true =>
        cases j with
        | zero => simp [pick] at h; exact ⟨0, rfl, by simpa using h, by simp [rank]⟩
        | succ j =>
          simp [pick] at h
          obtain ⟨i, h1, h2, h3⟩ := ih h
          exact ⟨i + 1, by simpa using h1, by simpa using h2, by simpa [rank] using h3⟩

theorem pick_set {α : Type} : ∀ {ks : List Bool} {xs : List α} {i : Nat} (v : α), ks[i]? = some true → pick ks (xs.set i v) = (pick ks xs).set (rank ks i) v := by
  intro ks
  induction ks with
  | nil => intro xs i v h; simp at h
  | cons b ks ih =>
    intro xs i v h
    cases xs with
    | nil => cases b <;> simp [pick]
    | cons x xs =>
      cases i with
      | zero => simp at h; subst h; simp [pick, rank]
      | succ i =>
        simp at h
        cases b <;> simp [pick, rank, ih v h]

theorem pick_set_out {α : Type} : ∀ {ks : List Bool} {xs : List α} {i : Nat} (v : α), ks[i]? = some false → pick ks (xs.set i v) = pick ks xs := by
  intro ks
  induction ks with
  | nil => intro xs i v h; simp at h
  | cons b ks ih =>
    intro xs i v h
    cases xs with
    | nil => simp
    | cons x xs =>
      cases i with
      | zero => simp at h; subst h; simp [pick]
      | succ i =>
        simp at h
        cases b <;> simp [pick, ih v h]

theorem pick_length {α β : Type} : ∀ {ks : List Bool} {xs : List α} {ys : List β}, xs.length = ys.length → (pick ks xs).length = (pick ks ys).length := by
  intro ks
  induction ks with
  | nil => intros; simp [pick]
  | cons b ks ih =>
    intro xs ys h
    cases xs <;> cases ys <;> cases b <;> simp [pick] at h ⊢
    all_goals exact ih h

theorem projectFields_getElem? {keep : Keep} {env : List Def} : ∀ {vs : List Val} {fs : List Field} {i : Nat} {v : Val} {f : Field}, vs[i]? = some v → fs[i]? = some f →
    (projectFields keep env vs fs)[i]? = some (project keep env v f.rustTy) := by
  intro vs
  induction vs with
  | nil => intro fs i v f h; simp at h
  | cons w vs ih =>
    intro fs i v f h1 h2
    cases fs with
    | nil => simp at h2
    | cons g fs =>
      cases i with
      | zero => simp at h1 h2; subst h1 h2; simp [projectFields]
      | succ i => simp at h1 h2; simpa [projectFields] using ih h1 h2

theorem projectFields_set {keep : Keep} {env : List Def} : ∀ {vs : List Val} {fs : List Field} {i : Nat} (v : Val) {f : Field}, fs[i]? = some f →
    projectFields keep env (vs.set i v) fs = (projectFields keep env vs fs).set i (project keep env v f.rustTy) := by
  intro vs
  induction vs with
  | nil => intro fs i v f h; simp [projectFields]
  | cons w vs ih =>
    intro fs i v f h2
    cases fs with
    | nil => simp at h2
    | cons g fs =>
      cases i with
      | zero => simp at h2; subst h2; simp [projectFields]
      | succ i => simp at h2; simpa [projectFields] using ih v h2

theorem projectFields_length {keep : Keep} {env : List Def} : ∀ {vs : List Val} {fs : List Field}, (projectFields keep env vs fs).length = vs.length := by
  intro vs
  induction vs with
  | nil => intro fs; simp [projectFields]
  | cons w vs ih => intro fs; cases fs <;> simp [projectFields, ih]

theorem projectList_length {keep : Keep} {env : List Def} (t : Ty) : ∀ {vs : List Val}, (projectList keep env vs t).length = vs.length := by
  intro vs
  induction vs with
  | nil => simp [projectList]
  | cons w vs ih => simp [projectList, ih]

theorem isDefault_project {keep : Keep} {env : List Def} {t : Ty} {d : Val} (h : IsDefault env t d) : IsDefault (restrict keep env) t (project keep env d t) := by
  induction h with
  | list t => simp only [project, projectList]; exact .list t
  | none t => simp only [project]; exact .none t
  | box t v h ih => simp only [project]; exact .box t _ ih
  | rc t v h ih => simp only [project]; exact .rc t _ ih
  | enum k name hk => simp only [project]; exact .enum k name (restrict_enum hk)
  | struct k name fs vs hk hl h ih =>
    simp only [project, hk]
    refine .struct k name _ _ (restrict_struct hk) (pick_length (by rw [projectFields_length, hl])) ?_
    intro j f v hf hv
    obtain ⟨i, hk1, hf1, rfl⟩ := pick_mem hf
    have hi : i < vs.length := by rw [hl]; exact (List.getElem?_eq_some_iff.1 hf1).1
    rw [pick_getElem? hk1 (by rw [projectFields_length]; exact hi), projectFields_getElem? (List.getElem?_eq_getElem hi) hf1] at hv
    cases hv
    exact ih i f _ hf1 (List.getElem?_eq_getElem hi)
  | union k name u us v hk h ih =>
    simp only [project, hk, List.getElem?_cons_zero]
    exact .union k name u us _ (restrict_union hk) ih
  | _ => simp only [project]; constructor

theorem keepsStep_struct {S : Nat → Bool} {keep : Keep} {env : List Def} (h : keepsStep S keep env = true) {k : Nat} {name : String} {fs : List Field}
    (hk : env[k]? = some (.struct name fs)) : (keep k).length = fs.length ∧ (fs.map (·.id)).Nodup ∧
      ∀ (i : Nat) (f : Field), fs[i]? = some f → (keep k)[i]? = some false → tyIn S f.ty = true ∧ wireType env f.ty ≠ 2#8 := by
  have hlt := (List.getElem?_eq_some_iff.1 hk).1
  have h1 := List.all_eq_true.1 h k (List.mem_range.2 hlt)
  rw [hk] at h1
  simp only [Bool.and_eq_true, beq_iff_eq, decide_eq_true_eq, List.all_eq_true] at h1
  refine ⟨h1.1.1, h1.1.2, fun i f hf hi => ?_⟩
  have := h1.2 (f, false) (List.mem_of_getElem? (i := i) (by simp [List.getElem?_zip_eq_some, hf, hi]))
  simpa using this

/-- What is left of an item in the schema with fewer fields. -/
def Projected (S : Nat → Bool) (keep : Keep) (env : List Def) : DItem → Bytes → Prop
  | .value t o v, p => Dec (restrict keep env) (.value t (project keep env o t) (project keep env v t)) p
  | .field t ft o v, p => Dec (restrict keep env) (.field t ft (project keep env o t) (project keep env v t)) p
  | .elems t vs, p => Dec (restrict keep env) (.elems t (projectList keep env vs t)) p
  | .fields fs last met old new, p => ∀ ks : List Bool, ks.length = fs.length → (fs.map (·.id)).Nodup →
      (∀ (i : Nat) (f : Field), fs[i]? = some f → ks[i]? = some false → tyIn S f.ty = true ∧ wireType env f.ty ≠ 2#8) →
      ∃ met', Dec (restrict keep env) (.fields (pick ks fs) last met' (pick ks (projectFields keep env old fs)) (pick ks (projectFields keep env new fs))) p ∧
        ∀ i ∈ met, ks[i]? = some true → rank ks i ∈ met'

theorem projectList_i32 (keep : Keep) (env : List Def) : ∀ xs : List (BitVec 32), projectList keep env (xs.map .i32) .i32 = xs.map .i32 := by
  intro xs
  induction xs with
  | nil => simp [projectList]
  | cons x xs ih => simp [projectList, project, ih]

theorem nodup_index {fs : List Field} (h : (fs.map (·.id)).Nodup) {i j : Nat} {f g : Field} (hi : fs[i]? = some f) (hj : fs[j]? = some g) (e : f.id = g.id) : i = j := by
  obtain ⟨h1, e1⟩ := List.getElem?_eq_some_iff.1 hi
  obtain ⟨h2, e2⟩ := List.getElem?_eq_some_iff.1 hj
  have := List.pairwise_iff_getElem.1 h
  rcases Nat.lt_trichotomy i j with hlt | rfl | hlt
  · exact (this i j (by simpa using h1) (by simpa using h2) hlt (by simp [e1, e2, e])).elim
  · rfl
  · exact (this j i (by simpa using h2) (by simpa using h1) hlt (by simp [e1, e2, e])).elim

theorem dec_project {S : Nat → Bool} {keep : Keep} {env : List Def} (hS : inStep S env = true) (hK : keepsStep S keep env = true)
    {i : DItem} {p : Bytes} (h : Dec env i p) : Projected S keep env i p := by
  induction h with
  | bool o b => simp only [Projected, project]; exact .bool _ b
  | i8 o b => simp only [Projected, project]; exact .i8 _ b
  | i16 o p n x hp hx => simp only [Projected, project]; exact .i16 _ p n x hp hx
  | i32 o p n x hp hx => simp only [Projected, project]; exact .i32 _ p n x hp hx
  | i64 o p n x hp hx => simp only [Projected, project]; exact .i64 _ p n x hp hx
  | double o x => simp only [Projected, project]; exact .double _ x
  | binary o p bs hp hb => simp only [Projected, project]; exact .binary _ p bs hp hb
  | string o p bs hp hb hu => simp only [Projected, project]; exact .string _ p bs hp hb hu
  | encodingSet o h p mask xs hh hp hm ih =>
    simp only [Projected, project, projectList_i32] at ih ⊢
    exact .encodingSet _ h p mask xs hh ih hm
  | list t o h et vs p hh he hp ih =>
    simp only [Projected, project] at ih ⊢
    refine .list t _ h et _ p (by rw [projectList_length]; exact hh) ?_ ih
    unfold ElemType at he ⊢; rwa [wireType_restrict]
  | some t d v p hd hp ih => simp only [Projected, project] at ih ⊢; exact .some t _ _ p (isDefault_project hd) ih
  | box t o v p hp ih => simp only [Projected, project] at ih ⊢; exact .box t _ _ p ih
  | rc t o v p hp ih => simp only [Projected, project] at ih ⊢; exact .rc t _ _ p ih
  | enum k name o p n x hk hp hx => simp only [Projected, project]; exact .enum k name o p n x (restrict_enum hk) hp hx
  | struct k name fs met old new p hk hp hr ih =>
    simp only [Projected, project, hk] at ih ⊢
    obtain ⟨h1, h2, h3⟩ := keepsStep_struct hK hk
    obtain ⟨met', h4, h5⟩ := ih (keep k) h1 h2 h3
    refine .struct k name _ met' _ _ p (restrict_struct hk) h4 ?_
    intro j f hf hq
    obtain ⟨i, hk1, hf1, rfl⟩ := pick_mem hf
    exact h5 i (hr i f hf1 hq) hk1
  | union k name us i u j o d v h ft p hk hu hfst hh hd hp ih =>
    simp only [Projected, project, hk, hu] at ih ⊢
    cases us[j]? with
    | none => exact .union k name us i u j o _ _ h ft p (restrict_union hk) hu hfst hh (isDefault_project hd) ih
    | some w => exact .union k name us i u j _ _ _ h ft p (restrict_union hk) hu hfst hh (isDefault_project hd) ih
  | elemsNil t => simp only [Projected, projectList]; exact .elemsNil t
  | elemsCons t d v vs p q hd hp hq ih1 ih2 => simp only [Projected, projectList] at ih1 ih2 ⊢; exact .elemsCons t _ _ _ p q (isDefault_project hd) ih1 ih2
  | fieldBool ft o => simp only [Projected, project]; exact .fieldBool ft _
  | fieldSome t ft d v p hd hp ih => simp only [Projected, project] at ih ⊢; exact .fieldSome t ft _ _ p (isDefault_project hd) ih
  | fieldValue t o v p h1 h2 hp ih =>
    simp only [Projected] at ih ⊢
    rw [← wireType_restrict keep]
    exact .fieldValue t _ _ p h1 h2 ih
  | stop fs last vs b h => intro ks _ _ _; exact ⟨[], .stop _ _ _ b h, by simp⟩
  | known fs last met vs new h ft i f o v p q hh hf hfst ho hp hq ih1 ih2 =>
    intro ks h1 h2 h3
    obtain ⟨met', h4, h5⟩ := ih2 ks h1 h2 h3
    rw [projectFields_set v hf] at h4
    have hi := (List.getElem?_eq_some_iff.1 hf).1
    rcases hb : ks[i]? with _ | b
    · rw [List.getElem?_eq_none_iff] at hb; omega
    · cases b with
      | true =>
        rw [pick_set _ hb] at h4
        have hf' : (pick ks fs)[rank ks i]? = some f := by rw [pick_getElem? hb hi, hf]
        have ho' : (pick ks (projectFields keep env vs fs))[rank ks i]? = some (project keep env o f.rustTy) := by
          rw [pick_getElem? hb (by rw [projectFields_length]; exact (List.getElem?_eq_some_iff.1 ho).1), projectFields_getElem? ho hf]
        refine ⟨rank ks i :: met', .known _ last met' _ _ h ft _ f _ _ p q hh hf' ?_ ho' ih1 h4, ?_⟩
        · intro j g hj hg e
          obtain ⟨i', h6, h7, rfl⟩ := pick_mem hg
          have := nodup_index h2 h7 hf e
          subst this
          omega
        · intro j hj hk
          rcases List.mem_cons.1 hj with rfl | hj
          · simp
          · exact List.mem_cons_of_mem _ (h5 j hj hk)
      | false =>
        rw [pick_set_out _ hb] at h4
        obtain ⟨ht, hw⟩ := h3 i f hf hb
        refine ⟨met', .unknown _ last met' _ _ h ft f.id p q hh ?_ (dec_inStep hS hp (by rw [tyIn_rustTy]; exact ht) (by rw [wireType_rustTy]; exact hw)) h4, ?_⟩
        · intro g hg e
          obtain ⟨j, hj⟩ := List.getElem?_of_mem hg
          obtain ⟨i', h6, h7, rfl⟩ := pick_mem hj
          have := nodup_index h2 h7 hf e
          subst this
          rw [hb] at h6; cases h6
        · intro j hj hk
          rcases List.mem_cons.1 hj with rfl | hj
          · rw [hb] at hk; cases hk
          · exact h5 j hj hk
  | unknown fs last met vs new h ft id p q hh hid hp hq ih =>
    intro ks h1 h2 h3
    obtain ⟨met', h4, h5⟩ := ih ks h1 h2 h3
    refine ⟨met', .unknown _ last met' _ _ h ft id p q hh ?_ hp h4, h5⟩
    intro g hg
    obtain ⟨j, hj⟩ := List.getElem?_of_mem hg
    obtain ⟨i', h6, h7, rfl⟩ := pick_mem hj
    exact hid g (List.mem_of_getElem? h7)

theorem tyClosed_restrict (keep : Keep) {env : List Def} {t : Ty} (h : tyClosed env t = true) : tyClosed (restrict keep env) t = true := by
  induction t with
  | named k => simpa [tyClosed, restrict] using h
  | list t ih => exact ih h
  | option t ih => exact ih h
  | box t ih => exact ih h
  | rc t ih => exact ih h
  | _ => rfl

/-! ## C94 -/

/-- C94 in step: what is read as a value of a type without unions and without boolean fields is skipped, over the same bytes. -/
theorem C94_in_step_slice {cfg : Cfg} (hov : cfg.overflowChecks = false) (h2 : cfg.sse2 = false) {env : List Def} (he : schemaReads env = true)
    {S : Nat → Bool} (hS : inStep S env = true) {t : Ty} (ht : tyClosed env t = true) (hin : tyIn S t = true) {o v : Val} {s s' : Bytes}
    (h : fillThrift cfg (sliceInput cfg) env t o s = .ok (v, s')) (ins : Bool) (hi : ins = true ∨ wireType env t ≠ 2#8) :
    (sliceInput cfg).skip cfg (wireType env t) ins s = .ok ((), s') := by
  obtain ⟨p, rfl, hp⟩ := (C76_slice (cfg := unlimited (unchecked cfg)) rfl h2 (fun _ _ => rfl) he ht o v s s').1 (fill_slice_any h)
  obtain ⟨h3, h4⟩ := dec_inStep hS hp hin
  refine (C18_slice cfg hov h2 _ _ _ _).2 ⟨p, rfl, ?_⟩
  cases ins with
  | true => exact h3
  | false => exact h4 (by simpa using hi)

/-- C94 in step, for readers. -/
theorem C94_in_step_reader {cfg : Cfg} (hov : cfg.overflowChecks = false) {env : List Def} (he : schemaReads env = true)
    {S : Nat → Bool} (hS : inStep S env = true) {t : Ty} (ht : tyClosed env t = true) (hin : tyIn S t = true) {o v : Val} {s s' : Bytes}
    {evs evs' : List REvent} (hd : Delivers evs s) (hd' : Delivers evs' s') (h : fillThrift cfg (readerInput cfg) env t o evs = .ok (v, evs'))
    (ins : Bool) (hi : ins = true ∨ wireType env t ≠ 2#8) :
    ∃ evs'', (readerInput cfg).skip cfg (wireType env t) ins evs = .ok ((), evs'') ∧ Delivers evs'' s' := by
  obtain ⟨p, rfl, hp⟩ := (C76_reader (cfg := unlimited (unchecked cfg)) rfl (fun _ _ => rfl) he ht o v hd s').1 ⟨evs', fill_reader_any h, hd'⟩
  obtain ⟨h3, h4⟩ := dec_inStep hS hp hin
  refine (C18_reader cfg hov _ _ _ _ _ hd).2 ⟨p, rfl, ?_⟩
  cases ins with
  | true => exact h3
  | false => exact h4 (by simpa using hi)

/-- C94 leaving out fields: what is read with all fields is read, over the same bytes, by a schema without some of the fields, and the value is the same
without those fields. -/
theorem C94_fewer_fields {cfg : Cfg} (hov : cfg.overflowChecks = false) (h2 : cfg.sse2 = false) (ha : AllocOk cfg) {env : List Def} (he : schemaReads env = true)
    {S : Nat → Bool} (hS : inStep S env = true) {keep : Keep} (hK : keepsStep S keep env = true) (he' : schemaReads (restrict keep env) = true)
    {t : Ty} (ht : tyClosed env t = true) {v : Val} {s s' : Bytes} (h : readThrift cfg (sliceInput cfg) env t s = .ok (v, s')) :
    readThrift cfg (sliceInput cfg) (restrict keep env) t s = .ok (project keep env v t, s') := by
  obtain ⟨p, rfl, d, hd, hp⟩ := (C76_read hov h2 ha he ht v s s').1 h
  exact (C76_read hov h2 ha he' (tyClosed_restrict keep ht) _ _ _).2 ⟨p, rfl, _, isDefault_project hd, dec_project hS hK hp⟩

/-- C94 leaving out fields, for readers. -/
theorem C94_fewer_fields_reader {cfg : Cfg} (hov : cfg.overflowChecks = false) (ha : AllocOk cfg) {env : List Def} (he : schemaReads env = true)
    {S : Nat → Bool} (hS : inStep S env = true) {keep : Keep} (hK : keepsStep S keep env = true) (he' : schemaReads (restrict keep env) = true)
    {t : Ty} (ht : tyClosed env t = true) {v : Val} {s s' : Bytes} {evs evs' : List REvent} (hd : Delivers evs s) (hd' : Delivers evs' s')
    (h : readThrift cfg (readerInput cfg) env t evs = .ok (v, evs')) :
    ∃ evs'', readThrift cfg (readerInput cfg) (restrict keep env) t evs = .ok (project keep env v t, evs'') ∧ Delivers evs'' s' := by
  obtain ⟨p, rfl, d, hd1, hp⟩ := (C76_read_reader hov ha he ht v hd s').1 ⟨evs', h, hd'⟩
  exact (C76_read_reader hov ha he' (tyClosed_restrict keep ht) _ hd _).2 ⟨p, rfl, _, isDefault_project hd1, dec_project hS hK hp⟩

/-- The enums and structs of the Parquet schema without unions and boolean fields: among others statistics of sizes and places, key-value pairs, statistics of
encodings, and the indexes of columns and offsets. -/
def parquetStep (k : Nat) : Bool := [0, 1, 2, 3, 4, 5, 6, 7, 8, 9, 10, 12, 13, 14, 15, 16, 17, 18, 19, 20, 21, 22, 23, 28, 29, 30, 31, 32, 36, 39, 41, 43,
  47, 49, 51, 52, 56, 58, 59, 60].contains k

/-- C94 for Parquet: whatever fields of these types (numbers, strings and lists included) a reader of metadata leaves out of the schema, what it reads is what
the full schema reads, without them. -/
theorem C94_parquet {cfg : Cfg} (hov : cfg.overflowChecks = false) (h2 : cfg.sse2 = false) (ha : AllocOk cfg) {keep : Keep}
    (hK : keepsStep parquetStep keep Format.parquetEnv = true) (he' : schemaReads (restrict keep Format.parquetEnv) = true)
    {t : Ty} (ht : tyClosed Format.parquetEnv t = true) {v : Val} {s s' : Bytes} (h : readThrift cfg (sliceInput cfg) Format.parquetEnv t s = .ok (v, s')) :
    readThrift cfg (sliceInput cfg) (restrict keep Format.parquetEnv) t s = .ok (project keep Format.parquetEnv v t, s') :=
  C94_fewer_fields hov h2 ha (by decide) (by decide) hK he' ht h

/-- All fields of these types can be left out at once. -/
def keepRest (k : Nat) : List Bool := match Format.parquetEnv[k]? with
  | some (.struct _ fs) => fs.map fun f => !(tyIn parquetStep f.ty && wireType Format.parquetEnv f.ty != 2#8)
  | _ => []

example : keepsStep parquetStep keepRest Format.parquetEnv = true ∧ schemaReads (restrict keepRest Format.parquetEnv) = true := by decide

/-! ### Examples -/

/-- `struct A { 1: required i32 x; 2: optional list<B> b; 3: required string s }`, `struct B { 1: optional i64 y; 2: required double z }` -/
def stepEnv : List Def := [.struct "B" [⟨1#16, false, "y", .i64⟩, ⟨2#16, true, "z", .double⟩],
  .struct "A" [⟨1#16, true, "x", .i32⟩, ⟨2#16, false, "b", .list (.named 0)⟩, ⟨3#16, true, "s", .string⟩]]

/-- `B` without `y`, and `A` with or without `b` -/
def stepKeep (b : Bool) : Keep := fun k => match k with
  | 0 => [false, true]
  | _ => [true, b, true]

/-- A message with two elements in `b`, where `y` is written after `z` with a long header. -/
def stepMsg : Bytes := [0x15#8, 5#8, 0x19#8, 0x2c#8, 0x16#8, 7#8, 0x17#8, 0#8, 0#8, 0#8, 0#8, 0#8, 0#8, 0#8, 0#8, 0#8,
  0x27#8, 0#8, 0#8, 0#8, 0#8, 0#8, 0#8, 0#8, 0#8, 0x06#8, 2#8, 8#8, 0#8, 0x18#8, 1#8, 0x61#8, 0#8]

/-- what it means -/
def stepVal : Val := .struct [.i32 (-3#32), .some (.list [.struct [.some (.i64 (-4#64)), .double 0#64], .struct [.some (.i64 4#64), .double 0#64]]), .string [0x61#8]]

example : inStep (fun _ => true) stepEnv = true ∧ schemaReads stepEnv = true ∧ (∀ b, keepsStep (fun _ => true) (stepKeep b) stepEnv = true ∧
      schemaReads (restrict (stepKeep b) stepEnv) = true) ∧
    readThrift ⟨false, false, fun _ => true⟩ (sliceInput ⟨false, false, fun _ => true⟩) stepEnv (.named 1) stepMsg = .ok (stepVal, []) ∧
    project (stepKeep false) stepEnv stepVal (.named 1) = .struct [.i32 (-3#32), .string [0x61#8]] ∧
    project (stepKeep true) stepEnv stepVal (.named 1) =
      .struct [.i32 (-3#32), .some (.list [.struct [.double 0#64], .struct [.double 0#64]]), .string [0x61#8]] :=
  ⟨by decide, by decide, by decide, rfl, by simp [project, projectFields, pick, stepKeep, stepEnv, stepVal, Field.rustTy],
    by simp [project, projectFields, projectList, pick, stepKeep, stepEnv, stepVal, Field.rustTy]⟩

def dropBool : List Def := [Def.struct "A" [⟨1#16, true, "b", .bool⟩]]
def dropUnion : List Def := [.union "U" [⟨1#16, "x", .i32⟩], .struct "A" [⟨1#16, true, "u", .named 0⟩]]
def dropBoxed : List Def := [Def.struct "A" [⟨1#16, true, "b", .box .bool⟩]]

/-- Without the conditions C94 fails. A boolean field of another wire type: read as `false` in no bytes, skipped as what the type says. A union: read whatever
wire type its variant is announced with, skipped by that type. A boxed boolean: read from a byte of its own, skipped in none. Each time the schema without the
field refuses the message. -/
theorem C94_counterexample :
    (readThrift ⟨false, false, fun _ => true⟩ (sliceInput ⟨false, false, fun _ => true⟩) dropBool (.named 0) [0x15#8, 0#8] = .ok (.struct [.bool false], []) ∧
      readThrift ⟨false, false, fun _ => true⟩ (sliceInput ⟨false, false, fun _ => true⟩) (restrict (fun _ => [false]) dropBool) (.named 0) [0x15#8, 0#8] =
        .error (.err (.io .unexpectedEof))) ∧
    (readThrift ⟨false, false, fun _ => true⟩ (sliceInput ⟨false, false, fun _ => true⟩) dropUnion (.named 1) [0x1c#8, 0x13#8, 0x80#8, 1#8, 0#8, 0#8] =
        .ok (.struct [.union 0 (.i32 64#32)], []) ∧
      readThrift ⟨false, false, fun _ => true⟩ (sliceInput ⟨false, false, fun _ => true⟩) (restrict (fun _ => [false]) dropUnion) (.named 1)
        [0x1c#8, 0x13#8, 0x80#8, 1#8, 0#8, 0#8] = .error (.err (.io .unexpectedEof))) ∧
    (readThrift ⟨false, false, fun _ => true⟩ (sliceInput ⟨false, false, fun _ => true⟩) dropBoxed (.named 0) [0x12#8, 1#8, 0#8] = .ok (.struct [.box (.bool true)], []) ∧
      readThrift ⟨false, false, fun _ => true⟩ (sliceInput ⟨false, false, fun _ => true⟩) (restrict (fun _ => [false]) dropBoxed) (.named 0) [0x12#8, 1#8, 0#8] =
        .error (.err (.io .unexpectedEof))) := ⟨⟨rfl, rfl⟩, ⟨rfl, rfl⟩, ⟨rfl, rfl⟩⟩

end CT.Props
