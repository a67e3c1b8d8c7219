import Verif.Props.Builds
import Verif.Props.PageIndex
import Verif.Spec.PageIndex
/-!
# C106: what `read_page_index` does with any chunk and any metadata
-/
namespace CT.Props
open CT Spec CT.Parquet

/-- What a run ends with -/
inductive Gives {α : Type} : Except PFail α → Result α → Prop where
  | value (a) : Gives (.ok a) (.value a)
  | error (e) : Gives (.error (.err e)) .error
  | panic : Gives (.error .panic) .panic
  | undefined : Gives (.error .ub) .undefined

theorem gives_det {α : Type} {r : Except PFail α} {x y : Result α} (h : Gives r x) (h' : Gives r y) : x = y := by
  cases h <;> cases h' <;> rfl

theorem gives_fail {α β : Type} {e : Except PFail α} {x : Result α} {y : Result β} (h : Gives e x) (hy : SameFailure x y) (k : α → Except PFail β) : Gives (e >>= k) y := by
  cases hy <;> cases h
  · exact .error _
  · exact .panic
  · exact .undefined

/-! ## Lists -/

theorem allEnd_gives {α β : Type} {g : α → Except PFail β} {P : α → Result β → Prop} (hg : ∀ a x, P a x → Gives (g a) x) {l : List α} {x : Result (List β)}
    (h : AllEnd P l x) : Gives (l.mapM g) x := by
  induction h with
  | nil => exact .value []
  | stop a as x y h hy => rw [List.mapM_cons]; exact gives_fail (hg a x h) hy _
  | fails a as b x y h _ hy ih =>
    rw [List.mapM_cons]
    have h1 := hg a _ h
    generalize g a = r at h1
    cases h1
    exact gives_fail ih hy _
  | cons a as b bs h _ ih =>
    rw [List.mapM_cons]
    have h1 := hg a _ h
    generalize g a = r at h1
    cases h1
    generalize as.mapM g = r at ih
    cases ih
    exact .value _

theorem sameFailure_or {α : Type} (β : Type) (x : Result α) : (∃ a, x = .value a) ∨ ∃ y : Result β, SameFailure x y := by
  cases x with
  | value a => exact .inl ⟨a, rfl⟩
  | error => exact .inr ⟨_, .error⟩
  | panic => exact .inr ⟨_, .panic⟩
  | undefined => exact .inr ⟨_, .undefined⟩

theorem allEnd_exists {α β : Type} {P : α → Result β → Prop} (hg : ∀ a, ∃ x, P a x) : ∀ l : List α, ∃ x, AllEnd P l x
  | [] => ⟨_, .nil⟩
  | a :: l => by
    obtain ⟨x, hx⟩ := hg a
    rcases sameFailure_or (List β) x with ⟨b, rfl⟩ | ⟨y, hy⟩
    · obtain ⟨x, hr⟩ := allEnd_exists hg l
      rcases sameFailure_or (List β) x with ⟨bs, rfl⟩ | ⟨y, hy⟩
      · exact ⟨_, .cons a l b bs hx hr⟩
      · exact ⟨y, .fails a l b x y hx hr hy⟩
    · exact ⟨y, .stop a l x y hx hy⟩

/-! ## One column -/

theorem asUsize32_pos {l : BitVec 32} (h : ¬ l.toInt ≤ 0) : asUsize32 l = l.toNat := by
  have h2 := asUsize32_nonneg (x := l) (by omega)
  have h3 := BitVec.toInt_eq_toNat_cond l
  have h4 : l.toNat < 2 ^ 32 := l.isLt
  split at h3 <;> omega

theorem relRange_bad {cfg : Cfg} {a : Nat} {o : BitVec 64} {l : BitVec 32} (h : BadPlace cfg.overflowChecks a o l) : relRange cfg a o l = .error .panic := by
  unfold relRange
  by_cases h1 : o.toNat < a
  · rw [if_pos (show asUsize64 o < a from h1)]
  rw [if_neg (show ¬ asUsize64 o < a from h1)]
  by_cases h2 : l.toInt ≤ 0
  · rw [if_pos (show BitVec.sle l 0#32 = true by simpa [BitVec.sle] using h2)]
  rw [if_neg (show ¬ BitVec.sle l 0#32 = true by simpa [BitVec.sle] using h2)]
  rcases h with h | h | ⟨hc, h⟩
  · exact (h1 h).elim
  · exact (h2 h).elim
  · dsimp only
    rw [asUsize32_pos h2]
    unfold addUsize asUsize64
    rw [if_pos (by simp only [hc, Bool.true_and, decide_eq_true_eq]; exact h)]
    rfl

theorem relRange_good {cfg : Cfg} {a : Nat} {o : BitVec 64} {l : BitVec 32} (h : ¬ BadPlace cfg.overflowChecks a o l) :
    relRange cfg a o l = .ok (o.toNat - a, (o.toNat - a + l.toNat) % 2 ^ 64) := by
  obtain ⟨h1, h⟩ := not_or.1 h
  obtain ⟨h2, h3⟩ := not_or.1 h
  unfold relRange
  rw [if_neg (show ¬ asUsize64 o < a from h1), if_neg (show ¬ BitVec.sle l 0#32 = true by simpa [BitVec.sle] using h2)]
  dsimp only
  rw [asUsize32_pos h2]
  unfold addUsize asUsize64
  rw [if_neg (by simp only [Bool.and_eq_true, decide_eq_true_eq]; exact h3)]
  rfl

theorem slice_inside {chunk : Bytes} (hc : chunk.length < 2 ^ 64) {a : Nat} {o : BitVec 64} {l : BitVec 32} {bs : Bytes} (h : InChunk chunk a o l bs) :
    sliceRange chunk (o.toNat - a, (o.toNat - a + l.toNat) % 2 ^ 64) = .ok bs := by
  obtain ⟨h, rfl⟩ := h
  rw [Nat.mod_eq_of_lt (by omega)]
  unfold sliceRange part
  rw [if_pos ⟨by dsimp only; omega, h⟩]
  dsimp only
  rw [Nat.add_sub_cancel_left]

theorem slice_outside {chunk : Bytes} {a : Nat} {o : BitVec 64} {l : BitVec 32} (h : ∀ bs, ¬ InChunk chunk a o l bs) :
    sliceRange chunk (o.toNat - a, (o.toNat - a + l.toNat) % 2 ^ 64) = .error .panic := by
  have h : ¬ o.toNat - a + l.toNat ≤ chunk.length := fun h' => h _ ⟨h', rfl⟩
  have h1 : o.toNat < 2 ^ 64 := o.isLt
  have h2 : l.toNat < 2 ^ 32 := l.isLt
  unfold sliceRange
  refine if_neg ?_
  dsimp only
  rintro ⟨h3, h4⟩
  by_cases h5 : o.toNat - a + l.toNat < 2 ^ 64
  · rw [Nat.mod_eq_of_lt h5] at h4; omega
  · rw [Nat.mod_eq_sub_mod (by omega), Nat.mod_eq_of_lt (by omega)] at h3; omega

section
variable {cfg : Cfg} (ha : AllocOk cfg)
include ha

theorem index_gives {t : Ty} (ht : tyClosed Format.parquetEnv t = true) {bs : Bytes} {x : Result Val} (h : IndexEnds cfg.sse2 cfg.overflowChecks t bs x) :
    Gives (readSlice cfg t bs) x := by
  obtain ⟨d, y, hd, hy, rfl⟩ := h
  have h := (ends_read (cfg := cfg) ha (by decide) ht hd bs y).2 hy
  unfold readSlice
  generalize readThrift cfg (sliceInput cfg) Format.parquetEnv t bs = r at h
  cases h with
  | value => exact .value _
  | error => exact .error _
  | panic => exact .panic
  | undefined => exact .undefined

variable {chunk : Bytes} (hl : chunk.length < 2 ^ 64) {off : Nat}
include hl

theorem column_gives {c : IndexFields} {x : Result (Option (Val × Val))} (h : ColumnEnds cfg.sse2 cfg.overflowChecks chunk off c x) :
    Gives (readColumnIndex cfg chunk off c) x := by
  have ho := fun {bs x} => index_gives ha (t := Format.tOffsetIndex) (by decide) (bs := bs) (x := x)
  have hi := fun {bs x} => index_gives ha (t := Format.tColumnIndex) (by decide) (bs := bs) (x := x)
  cases h with
  | noOffset c h =>
    obtain ⟨oo, ol, co, cl⟩ := c
    rcases h with h | h
    · dsimp only at h; subst h; exact .value _
    · dsimp only at h; subst h; cases oo <;> exact .value _
  | badOffset oo ol co cl h =>
    unfold readColumnIndex
    dsimp only
    rw [relRange_bad h]
    exact .panic
  | noColumn oo ol co cl h hc =>
    unfold readColumnIndex
    dsimp only
    rw [relRange_good h]
    rcases hc with rfl | rfl
    · exact .value _
    · cases co <;> exact .value _
  | badColumn oo ol co cl h hc =>
    unfold readColumnIndex
    dsimp only
    rw [relRange_good h, relRange_bad hc]
    exact .panic
  | offsetOutside oo ol co cl h hc h1 =>
    unfold readColumnIndex
    dsimp only
    rw [relRange_good h, relRange_good hc]
    simp only [bind, Except.bind]
    rw [slice_outside h1]
    exact .panic
  | offsetFails oo ol co cl bs x y h hc h1 hx hy =>
    unfold readColumnIndex
    dsimp only
    rw [relRange_good h, relRange_good hc]
    show Gives (sliceRange _ _ >>= fun _ => _) _
    rw [slice_inside hl h1]
    exact gives_fail (ho hx) hy _
  | columnOutside oo ol co cl bs v h hc h1 hx h2 =>
    unfold readColumnIndex
    dsimp only
    rw [relRange_good h, relRange_good hc]
    show Gives (sliceRange _ _ >>= fun _ => _) _
    rw [slice_inside hl h1]
    have := ho hx
    show Gives (readSlice _ _ _ >>= fun _ => _) _
    generalize readSlice cfg Format.tOffsetIndex bs = r at this
    cases this
    show Gives (sliceRange _ _ >>= fun _ => _) _
    rw [slice_outside h2]
    exact .panic
  | columnFails oo ol co cl bs bs' v x y h hc h1 hx h2 hx' hy =>
    unfold readColumnIndex
    dsimp only
    rw [relRange_good h, relRange_good hc]
    show Gives (sliceRange _ _ >>= fun _ => _) _
    rw [slice_inside hl h1]
    have := ho hx
    show Gives (readSlice _ _ _ >>= fun _ => _) _
    generalize readSlice cfg Format.tOffsetIndex bs = r at this
    cases this
    show Gives (sliceRange _ _ >>= fun _ => _) _
    rw [slice_inside hl h2]
    exact gives_fail (hi hx') hy _
  | both oo ol co cl bs bs' v w h hc h1 hx h2 hx' =>
    unfold readColumnIndex
    dsimp only
    rw [relRange_good h, relRange_good hc]
    show Gives (sliceRange _ _ >>= fun _ => _) _
    rw [slice_inside hl h1]
    have := ho hx
    show Gives (readSlice _ _ _ >>= fun _ => _) _
    generalize readSlice cfg Format.tOffsetIndex bs = r at this
    cases this
    show Gives (sliceRange _ _ >>= fun _ => _) _
    rw [slice_inside hl h2]
    have := hi hx'
    show Gives (readSlice _ _ _ >>= fun _ => _) _
    generalize readSlice cfg Format.tColumnIndex bs' = r at this
    cases this
    exact .value _

end

theorem index_exists (sse2 checks : Bool) {t : Ty} (ht : tyClosed Format.parquetEnv t = true) (bs : Bytes) : ∃ x, IndexEnds sse2 checks t bs x := by
  have hsr : schemaReads Format.parquetEnv = true := by decide
  obtain ⟨hcl, hdf⟩ := schemaReads_iff.1 hsr
  obtain ⟨y, hy, _⟩ := C105_one sse2 checks hsr ht (fillable_dflt_closed hdf ht).seed bs
  exact ⟨_, _, y, isDefault_dflt hdf ht, hy, rfl⟩

theorem column_exists (sse2 checks : Bool) (chunk : Bytes) (off : Nat) (c : IndexFields) : ∃ x, ColumnEnds sse2 checks chunk off c x := by
  obtain ⟨oo, ol, co, cl⟩ := c
  match oo, ol with
  | none, _ => exact ⟨_, .noOffset _ (.inl rfl)⟩
  | some _, none => exact ⟨_, .noOffset _ (.inr rfl)⟩
  | some oo, some ol =>
    by_cases h : BadPlace checks off oo ol
    · exact ⟨_, .badOffset oo ol co cl h⟩
    match co, cl with
    | none, _ => exact ⟨_, .noColumn _ _ _ _ h (.inl rfl)⟩
    | some _, none => exact ⟨_, .noColumn _ _ _ _ h (.inr rfl)⟩
    | some co, some cl =>
      by_cases hc : BadPlace checks off co cl
      · exact ⟨_, .badColumn _ _ _ _ h hc⟩
      by_cases h1 : ∃ bs, InChunk chunk off oo ol bs
      · obtain ⟨bs, h1⟩ := h1
        obtain ⟨x, hx⟩ := index_exists sse2 checks (t := Format.tOffsetIndex) (by decide) bs
        rcases sameFailure_or (Option (Val × Val)) x with ⟨v, rfl⟩ | ⟨y, hy⟩
        · by_cases h2 : ∃ bs, InChunk chunk off co cl bs
          · obtain ⟨bs', h2⟩ := h2
            obtain ⟨x, hx'⟩ := index_exists sse2 checks (t := Format.tColumnIndex) (by decide) bs'
            rcases sameFailure_or (Option (Val × Val)) x with ⟨w, rfl⟩ | ⟨y, hy⟩
            · exact ⟨_, .both _ _ _ _ _ _ _ _ h hc h1 hx h2 hx'⟩
            · exact ⟨_, .columnFails _ _ _ _ _ _ _ _ _ h hc h1 hx h2 hx' hy⟩
          · exact ⟨_, .columnOutside _ _ _ _ _ _ h hc h1 hx fun bs h => h2 ⟨bs, h⟩⟩
        · exact ⟨_, .offsetFails _ _ _ _ _ _ _ h hc h1 hx hy⟩
      · exact ⟨_, .offsetOutside _ _ _ _ h hc fun bs h => h1 ⟨bs, h⟩⟩

/-! ## All columns -/

theorem mapM_pairwise {α β : Type} {f : α → Option β} {R : α → β → Prop} (hf : ∀ a b, f a = some b ↔ R a b) : ∀ {l : List α} {m : List β},
    l.mapM f = some m ↔ Pairwise₂ R l m
  | [], m => by
    constructor
    · intro h; cases h; exact .nil
    · intro h; cases h; rfl
  | a :: l, m => by
    rw [List.mapM_cons]
    constructor
    · intro h
      simp only [Option.bind_eq_bind, Option.bind_eq_some_iff, Option.pure_def, Option.some.injEq] at h
      obtain ⟨b, hb, bs, hbs, rfl⟩ := h
      exact .cons _ _ _ _ ((hf a b).1 hb) ((mapM_pairwise hf).1 hbs)
    · intro h
      cases h with
      | cons _ b _ bs h hr =>
        rw [(hf a b).2 h, (mapM_pairwise hf).2 hr]
        rfl

theorem columns_iff {md : Val} {rgs : List (List IndexFields)} : metadataFields md = some rgs ↔ HasColumns md rgs := by
  unfold metadataFields HasColumns
  simp only [Option.bind_eq_bind, Option.bind_eq_some_iff, items_iff]
  have hr : ∀ g cs, rowGroupFields g = some cs ↔ ∃ cols, getField Format.dRowGroup "columns" g = some (.list cols) ∧ Pairwise₂ HasIndexFields cols cs := by
    intro g cs
    unfold rowGroupFields
    simp only [Option.bind_eq_bind, Option.bind_eq_some_iff, items_iff]
    constructor
    · rintro ⟨l, ⟨w, hw, rfl⟩, h⟩
      exact ⟨l, hw, (mapM_pairwise fun a b => indexFields_iff).1 h⟩
    · rintro ⟨l, hw, h⟩
      exact ⟨l, ⟨_, hw, rfl⟩, (mapM_pairwise fun a b => indexFields_iff).2 h⟩
  constructor
  · rintro ⟨l, ⟨w, hw, rfl⟩, h⟩
    exact ⟨l, hw, (mapM_pairwise hr).1 h⟩
  · rintro ⟨l, hw, h⟩
    exact ⟨l, ⟨_, hw, rfl⟩, (mapM_pairwise hr).2 h⟩

/-- C106: for any chunk, offset and metadata, and in every build, `read_page_index` ends exactly as the specification says. -/
theorem C106_outcome {cfg : Cfg} (ha : AllocOk cfg) {chunk : Bytes} (hl : chunk.length < 2 ^ 64) (off : Nat) {md : Val}
    (hm : HasTy Format.parquetEnv md Format.tFileMetaData) (x : Result (List (List (Option (Val × Val))))) :
    Gives (readPageIndex cfg chunk off md) x ↔ PageIndexEnds cfg.sse2 cfg.overflowChecks chunk off md x := by
  obtain ⟨rgs, hr⟩ := metadataFields_typed hm
  have key : ∀ x, AllEnd (AllEnd (ColumnEnds cfg.sse2 cfg.overflowChecks chunk off)) rgs x → Gives (readPageIndex cfg chunk off md) x := by
    intro x h
    unfold readPageIndex
    rw [hr]
    exact allEnd_gives (fun a x h => allEnd_gives (fun c x h => column_gives ha hl h) h) h
  constructor
  · intro h
    obtain ⟨y, hy⟩ := allEnd_exists (allEnd_exists (column_exists cfg.sse2 cfg.overflowChecks chunk off)) rgs
    obtain rfl := gives_det h (key y hy)
    exact ⟨rgs, columns_iff.1 hr, hy⟩
  · rintro ⟨rgs', hr', h⟩
    rw [← columns_iff, hr] at hr'
    cases hr'
    exact key x h

/-- C106: there is exactly one outcome. -/
theorem C106_one (sse2 checks : Bool) {chunk : Bytes} (hl : chunk.length < 2 ^ 64) (off : Nat) {md : Val} (hm : HasTy Format.parquetEnv md Format.tFileMetaData) :
    ∃ x, PageIndexEnds sse2 checks chunk off md x ∧ ∀ y, PageIndexEnds sse2 checks chunk off md y → y = x := by
  obtain ⟨rgs, hr⟩ := metadataFields_typed hm
  obtain ⟨x, hx⟩ := allEnd_exists (allEnd_exists (column_exists sse2 checks chunk off)) rgs
  have h : PageIndexEnds sse2 checks chunk off md x := ⟨rgs, columns_iff.1 hr, hx⟩
  have key := C106_outcome (cfg := ⟨checks, sse2, fun _ => true⟩) (fun _ _ => rfl) hl off hm
  exact ⟨x, h, fun y hy => gives_det ((key y).2 hy) ((key x).2 h)⟩

/-- Some result fits each element. -/
theorem allEnd_value {α β : Type} {P : α → Result β → Prop} {l : List α} {m : List β} (h : AllEnd P l (.value m)) : Pairwise₂ (fun a b => P a (.value b)) l m := by
  generalize hx : (Result.value m : Result (List β)) = x at h
  induction h generalizing m with
  | nil => cases hx; exact .nil
  | stop _ _ _ _ _ hy => subst hx; cases hy
  | fails _ _ _ _ _ _ _ hy => subst hx; cases hy
  | cons a as b bs h _ ih => cases hx; exact .cons _ _ _ _ h (ih rfl)

theorem pairwise_mono {α β : Type} {R S : α → β → Prop} (h : ∀ a b, R a b → S a b) {l : List α} {m : List β} (hp : Pairwise₂ R l m) : Pairwise₂ S l m := by
  induction hp with
  | nil => exact .nil
  | cons a b as bs h' _ ih => exact .cons _ _ _ _ (h a b h') ih

/-- C106: what is returned has an entry for each column of each row group, in their order, and the entry is `None` exactly if one of the four fields is not set. -/
theorem C106_shape {cfg : Cfg} (ha : AllocOk cfg) {chunk : Bytes} (hl : chunk.length < 2 ^ 64) {off : Nat} {md : Val} (hm : HasTy Format.parquetEnv md Format.tFileMetaData)
    {r : List (List (Option (Val × Val)))} (h : readPageIndex cfg chunk off md = .ok r) :
    ∃ rgs, HasColumns md rgs ∧ Pairwise₂ (Pairwise₂ fun c e =>
      e = none ↔ c.offsetOffset = none ∨ c.offsetLength = none ∨ c.columnOffset = none ∨ c.columnLength = none) rgs r := by
  obtain ⟨rgs, hr, h⟩ := (C106_outcome ha hl off hm (.value r)).1 (by rw [h]; exact .value r)
  refine ⟨rgs, hr, pairwise_mono (fun cs es h => pairwise_mono (fun c e h => ?_) (allEnd_value h)) (allEnd_value h)⟩
  generalize hx : (Result.value e : Result (Option (Val × Val))) = x at h
  cases h with
  | noOffset _ h => cases hx; exact ⟨fun _ => h.elim .inl fun h => .inr (.inl h), fun _ => rfl⟩
  | noColumn _ _ _ _ _ h => cases hx; exact ⟨fun _ => h.elim (fun h => .inr (.inr (.inl h))) fun h => .inr (.inr (.inr h)), fun _ => rfl⟩
  | both => cases hx; simp
  | offsetFails _ _ _ _ _ _ _ _ _ _ _ hy => subst hx; cases hy
  | columnFails _ _ _ _ _ _ _ _ _ _ _ _ _ _ _ hy => subst hx; cases hy
  | _ => cases hx

/-- C106: builds differ. A column chunk with a negative `offset_index_offset` and no column index: with overflow checks a panic, without them no index. -/
theorem C106_counterexample (sse2 : Bool) (alloc : Nat → Bool) (chunk : Bytes) :
    let md := mdVal [⟨some 0xFFFFFFFFFFFFFFFF#64, some 1#32, none, none⟩]
    readPageIndex ⟨true, sse2, alloc⟩ chunk 0 md = .error .panic ∧ readPageIndex ⟨false, sse2, alloc⟩ chunk 0 md = .ok [[none]] := ⟨rfl, rfl⟩

/-- The conditions hold: an index that is cut off makes the x86-64 build panic or report an error, one that lies outside the chunk panics. -/
example : let cfg : Cfg := ⟨false, true, fun _ => true⟩
    AllocOk cfg ∧ (sampleFile.data.drop 8).length < 2 ^ 64 ∧
    PageIndexEnds true false (sampleFile.data.drop 8) 8 (mdVal [⟨some 8#64, some 3#32, some 11#64, some 9#32⟩, ⟨none, none, none, none⟩])
      (.value [[some (.struct [.list [], .none], .struct [.list [], .list [], .list [], .enum 0#32, .none, .none, .none]), none]]) ∧
    PageIndexEnds true false (sampleFile.data.drop 8) 8 (mdVal [⟨some 8#64, some 3#32, some 11#64, some 8#32⟩]) .error ∧
    PageIndexEnds true false (sampleFile.data.drop 8) 8 (mdVal [⟨some 8#64, some 3#32, some 11#64, some 10#32⟩]) .panic ∧
    PageIndexEnds true false (0x95#8 :: List.replicate 16 0xFF#8) 0 (mdVal [⟨some 0#64, some 17#32, some 0#64, some 1#32⟩]) .undefined := by
  refine ⟨fun _ _ => rfl, by decide, ?_, ?_, ?_, ?_⟩
  · exact (C106_outcome (cfg := ⟨false, true, fun _ => true⟩) (fun _ _ => rfl) (by decide) 8 (mdVal_typed _) _).1 (.value _)
  · exact (C106_outcome (cfg := ⟨false, true, fun _ => true⟩) (fun _ _ => rfl) (by decide) 8 (mdVal_typed _) _).1 (.error _)
  · exact (C106_outcome (cfg := ⟨false, true, fun _ => true⟩) (fun _ _ => rfl) (by decide) 8 (mdVal_typed _) _).1 .panic
  · exact (C106_outcome (cfg := ⟨false, true, fun _ => true⟩) (fun _ _ => rfl) (by decide) 0 (mdVal_typed _) _).1 .undefined

end CT.Props
