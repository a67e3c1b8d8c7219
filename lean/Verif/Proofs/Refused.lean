import Verif.Spec.Refused
import Verif.Model.SchemaAlloc
/-!
# Lemmas about refused memory
-/
namespace CT.Spec
open CT CT.Parquet CT.Schema

variable {α β : Type} {cap : Nat → Except PFail Unit}

theorem granted_all {ks : List Nat} (h : ∀ k ∈ ks, cap k = .ok ()) : granted cap ks = (ks, none) := by
  induction ks with
  | nil => rfl
  | cons k ks ih =>
    rw [granted, h k List.mem_cons_self, ih fun k hk => h k (List.mem_cons_of_mem _ hk)]

theorem granted_none {ks : List Nat} (h : (granted cap ks).2 = none) : (granted cap ks).1 = ks ∧ ∀ k ∈ ks, cap k = .ok () := by
  induction ks with
  | nil => exact ⟨rfl, nofun⟩
  | cons k ks ih =>
    rw [granted] at h ⊢
    cases hk : cap k with
    | error x => rw [hk] at h; cases h
    | ok u =>
      rw [hk] at h
      obtain ⟨h1, h2⟩ := ih h
      refine ⟨congrArg (k :: ·) h1, fun j hj => ?_⟩
      rcases List.mem_cons.1 hj with rfl | hj
      · exact hk
      · exact h2 j hj

theorem granted_some {ks : List Nat} {x : PFail} (h : (granted cap ks).2 = some x) :
    ∃ a k b, ks = a ++ k :: b ∧ (∀ j ∈ a, cap j = .ok ()) ∧ cap k = .error x ∧ (granted cap ks).1 = a ++ [k] := by
  induction ks with
  | nil => cases h
  | cons k ks ih =>
    rw [granted] at h ⊢
    cases hk : cap k with
    | error y =>
      rw [hk] at h
      cases h
      exact ⟨[], k, ks, rfl, nofun, hk, rfl⟩
    | ok u =>
      rw [hk] at h
      obtain ⟨a, j, b, rfl, h2, h3, h4⟩ := ih h
      refine ⟨k :: a, j, b, rfl, fun i hi => ?_, h3, congrArg (k :: ·) h4⟩
      rcases List.mem_cons.1 hi with rfl | hi
      · exact hk
      · exact h2 i hi

theorem granted_append (a b : List Nat) : granted cap (a ++ b) = match (granted cap a).2 with
    | some x => ((granted cap a).1, some x)
    | none => ((granted cap a).1 ++ (granted cap b).1, (granted cap b).2) := by
  induction a with
  | nil => rfl
  | cons k a ih =>
    rw [List.cons_append, granted, ih, granted]
    cases cap k with
    | error x => rfl
    | ok u => dsimp only; cases (granted cap a).2 <;> rfl

theorem withMemory_nil (r : Except PFail α) : withMemory cap ([], r) = ([], r) := rfl

theorem withMemory_cons_error {k : Nat} {x : PFail} (h : cap k = .error x) (ks : List Nat) (r : Except PFail α) : withMemory cap (k :: ks, r) = ([k], .error x) := by
  simp only [withMemory, granted, h]

theorem withMemory_cons_ok {k : Nat} (h : cap k = .ok ()) (ks : List Nat) (r : Except PFail α) :
    withMemory cap (k :: ks, r) = (k :: (withMemory cap (ks, r)).1, (withMemory cap (ks, r)).2) := by
  simp only [withMemory, granted, h]
  cases (granted cap ks).2 <;> rfl

theorem withMemory_all {o : List Nat × Except PFail α} (h : ∀ k ∈ o.1, cap k = .ok ()) : withMemory cap o = o := by
  rw [withMemory, granted_all h]

/-- The loop over the children, with this allocator. -/
theorem withMemory_loop (rec : List Element → Nat → List Nat × Except PFail (SField × List Element × Nat)) :
    ∀ (m : Nat) (es : List Element) (i : Nat), withMemory cap (childLoopCap rec m es i) = childLoopCap (fun es i => withMemory cap (rec es i)) m es i
  | 0, _, _ => rfl
  | m + 1, es, i => by
    rw [childLoopCap, childLoopCap]
    rcases hr : rec es i with ⟨caps, x | ⟨f, es', i'⟩⟩
    · cases hg : (granted cap caps).2 <;> simp only [withMemory, hg]
    · dsimp only
      have ih := withMemory_loop rec m es' i'
      cases hg : (granted cap caps).2 with
      | some x =>
        rcases hc : childLoopCap rec m es' i' with ⟨caps', y | ⟨fs, es'', i''⟩⟩ <;> simp only [withMemory, hg, granted_append]
      | none =>
        rcases hc : childLoopCap rec m es' i' with ⟨caps', y | ⟨fs, es'', i''⟩⟩ <;>
          (rw [hc] at ih
           cases hg' : (granted cap caps').2 <;> simp only [withMemory, hg'] at ih <;> simp only [withMemory, hg, hg', granted_append, ← ih])

end CT.Spec
