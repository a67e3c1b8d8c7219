import Verif.Spec.Work
import Verif.Proofs.Ops
import Verif.Proofs.Typed
import Verif.Proofs.SkipInt
/-! # C82: the work done is bounded by the bytes consumed -/
namespace CT.Props
open CT Spec

/-! ## Lemmas -/

namespace Work

/-- Every operation that succeeds consumes something. -/
structure Strict {σ : Type} (I : Input σ) : Prop where
  readByte : ∀ s a s', I.readByte s = .ok (a, s') → I.size s' < I.size s
  readDouble : ∀ s a s', I.readDouble s = .ok (a, s') → I.size s' < I.size s
  readBinary : ∀ s a s', I.readBinary s = .ok (a, s') → I.size s' < I.size s
  skipInteger : ∀ s a s', I.skipInteger s = .ok (a, s') → I.size s' < I.size s
  skipBinary : ∀ s a s', I.skipBinary s = .ok (a, s') → I.size s' < I.size s

theorem strict_of_counted {σ : Type} {I : Input σ} {E : Fail → Prop} (h : Counted E I)
    (h1 : ∀ n, Tri (fun s => I.size s ≤ n) I.skipInteger (fun _ s => I.size s + 1 ≤ n) E)
    (h2 : ∀ n, Tri (fun s => I.size s ≤ n) I.skipBinary (fun _ s => I.size s + 1 ≤ n) E) : Strict I where
  readByte s _ _ e := (h.readByte (I.size s)).ok (Nat.le_refl _) e
  readDouble s _ _ e := (h.readDouble1 (I.size s)).ok (Nat.le_refl _) e
  readBinary s _ _ e := by have := ((h.readBinary1 (I.size s)).ok (Nat.le_refl _) e).1; omega
  skipInteger s _ _ e := (h1 (I.size s)).ok (Nat.le_refl _) e
  skipBinary s _ _ e := (h2 (I.size s)).ok (Nat.le_refl _) e

theorem slice_strict (cfg : Cfg) : Strict (sliceInput cfg) := by
  have hE := allowed_notDiverge cfg
  refine strict_of_counted (slice_counted hE fun _ => by simp [notDiverge]) (fun n => ?_) fun n => ?_
  · show Tri (fun s : Bytes => s.length ≤ n) (Slice.skipInteger cfg) (fun _ s => s.length + 1 ≤ n) notDiverge
    unfold Slice.skipInteger
    refine Tri.ite (fun hs2 => ?_) fun _ => ?_
    · intro s hs
      rw [Rd.of_apply]
      by_cases h16 : 16 ≤ s.length
      · simp only [h16, if_true]
        rw [skipUlebSse2_eq]
        by_cases h : scanContinuation (s.take 16) + 1 ≤ s.length
        · simp only [h, if_true, List.length_drop]; omega
        · simp only [h, if_false]; simp [notDiverge]
      · simp only [h16, if_false]
        unfold skipUlebFallback
        dsimp only
        by_cases h : scanContinuation s + 1 ≤ s.length
        · simp only [h, if_true, List.length_drop]; omega
        · simp only [h, if_false]; simp [notDiverge]
    · exact Tri.bind (Tri.decodeUleb hE (slice_readByte_tri hE) n) fun _ => Tri.pure fun _ h => h
  · show Tri (fun s : Bytes => s.length ≤ n) (Slice.skipBinary cfg) (fun _ s => s.length + 1 ≤ n) notDiverge
    refine Tri.bind (slice_readLen_tri hE n) fun len => Tri.ite (fun _ => Tri.throw (hE.err _ (by simp))) fun _ => ?_
    intro s hs
    rw [Rd.of_apply]
    by_cases h : s.length < len
    · simp only [h, if_true]; exact hE.err _ (by simp)
    · simp only [h, if_false, List.length_drop]; omega

theorem reader_strict (cfg : Cfg) : Strict (readerInput cfg) := by
  have hE := allowed_notDiverge cfg
  have hc := reader_counted hE
  refine strict_of_counted hc (fun n => ?_) fun n => ?_
  · exact Tri.bind (Tri.decodeUleb hE (reader_readByte_tri hE.err) n) fun _ => Tri.pure fun (s : List REvent) h => by
      show readerSize s + 1 ≤ n; omega
  · exact Tri.bind (hc.readBinary1 n) fun bs => Tri.pure fun s h => by omega

/-- The budget covers the bytes that are left, and more. -/
abbrev Covers {σ : Type} (I : Input σ) (n : Nat) (s : σ) (t : σ × Nat) : Prop := t.1 = s ∧ I.size s + n + 1 ≤ t.2

theorem sim_budgetedOp {σ α : Type} {I : Input σ} {f : Fail} {n : Nat} {x : Rd σ α} (hx : ∀ s a s', x s = .ok (a, s') → I.size s' < I.size s) :
    Sim (SimP.std OnlyDiverge (Covers I n)) x (budgetedOp f x) := by
  refine ⟨?_, fun _ _ _ _ _ => trivial⟩
  rintro s ⟨s₂, b⟩ ⟨h, hb⟩
  dsimp only at h hb
  subst h
  cases b with
  | zero => omega
  | succ b =>
    unfold budgetedOp
    dsimp only
    cases e : x s₂ with
    | error g => exact .inr (.inr rfl)
    | ok p =>
      obtain ⟨a, s'⟩ := p
      have := hx s₂ a s' e
      exact ⟨_, rfl, rfl, by dsimp only; omega⟩

theorem sim_budgeted {σ : Type} {I : Input σ} (h : Strict I) (cfg : Cfg) (f : Fail) (n : Nat) :
    InputSim (SimP.std OnlyDiverge (Covers I n)) cfg I (budgeted I f) where
  diverge := rfl
  closed := Closed.trivial _ _
  size := by rintro s ⟨_, b⟩ ⟨rfl, _⟩; exact Nat.le_refl _
  readByte := sim_budgetedOp h.readByte
  readDouble := sim_budgetedOp h.readDouble
  readBinary := sim_budgetedOp h.readBinary
  skipInteger := sim_budgetedOp h.skipInteger
  skipBinary := sim_budgetedOp h.skipBinary

end Work

/-! ## C82 -/

/-- C82: a request on a slice never uses more operations of the input than there are bytes, plus one: with a budget of that many (and any reserve `n`)
its outcome, success or failure, is the same as without. When it succeeds it has used at most one operation for each byte consumed. -/
theorem C82_slice (cfg : Cfg) (op : Op) (f : Fail) (n : Nat) (s : Bytes) :
    Same (fun s' t => t.1 = s' ∧ s'.length + n + 1 ≤ t.2) (op.run cfg (sliceInput cfg) s) (op.run cfg (budgeted (sliceInput cfg) f) (s, s.length + n + 1)) :=
  same_of_sim (generic_op op (CfgSim.refl _ cfg) (Work.sim_budgeted (Work.slice_strict cfg) cfg f n)) ⟨rfl, Nat.le_refl _⟩
    (by rintro f rfl; exact op_slice_notDiverge cfg op s)

/-- C82 for readers. -/
theorem C82_reader (cfg : Cfg) (op : Op) (f : Fail) (n : Nat) (evs : List REvent) :
    Same (fun e' t => t.1 = e' ∧ readerSize e' + n + 1 ≤ t.2) (op.run cfg (readerInput cfg) evs)
      (op.run cfg (budgeted (readerInput cfg) f) (evs, readerSize evs + n + 1)) :=
  same_of_sim (generic_op op (CfgSim.refl _ cfg) (Work.sim_budgeted (Work.reader_strict cfg) cfg f n)) ⟨rfl, Nat.le_refl _⟩
    (by rintro f rfl; exact op_reader_notDiverge cfg op evs)

/-- The bound is attained: skipping a list of two booleans that should be three uses four operations, one for each of the three bytes and the one that
fails; with a budget of three the outcome would be another. -/
example (ov : Bool) (al : Nat → Bool) :
    (Op.skip 9#8 false).run ⟨ov, false, al⟩ (sliceInput ⟨ov, false, al⟩) [0x31#8, 1#8, 1#8] = .error (.err (.io .unexpectedEof)) ∧
    (Op.skip 9#8 false).run ⟨ov, false, al⟩ (budgeted (sliceInput ⟨ov, false, al⟩) .panic) ([0x31#8, 1#8, 1#8], 4) = .error (.err (.io .unexpectedEof)) ∧
    (Op.skip 9#8 false).run ⟨ov, false, al⟩ (budgeted (sliceInput ⟨ov, false, al⟩) .panic) ([0x31#8, 1#8, 1#8], 3) = .error .panic := by
  cases ov <;> exact ⟨rfl, rfl, rfl⟩

end CT.Props
