import Verif.Props.Decoding
import Verif.Props.Size
import Verif.Props.Primitive
import Verif.Props.Reading
/-! # C91: nothing that is accepted is shorter than what is written -/
namespace CT.Props
open CT Spec

/-! ## Numbers -/

theorem varint_length_mono (m n : Nat) (h : m ≤ n) : (varint m).length ≤ (varint n).length := by
  induction n using varint.induct generalizing m with
  | case1 n hn => rw [varint, if_pos (by omega), varint, if_pos hn]; simp
  | case2 n hn ih =>
    rw [varint.eq_def n, if_neg hn, varint.eq_def m]
    split
    · simp
    · have := ih (m / 128) (by omega)
      simp only [List.length_cons]; omega

theorem varintVal_length {p : Bytes} {n : Nat} (h : VarintVal p n) : (varint n).length ≤ p.length := by
  by_cases hl : p.length ≤ 10
  · rw [VarintVal.unique h (varintVal_leb h.1 hl)]
    exact Nat.le_trans (varint_length_mono _ _ (Nat.mod_le _ _)) (varint_minimal p h.1)
  · have := varint_length_le n 9 (Nat.lt_of_lt_of_le h.2.1 (by decide))
    omega

theorem varintVal_length_mod {p : Bytes} {n m k : Nat} (h : VarintVal p n) (hm : m = n % k) : (varint m).length ≤ p.length :=
  Nat.le_trans (varint_length_mono _ _ (hm ▸ Nat.mod_le _ _)) (varintVal_length h)

theorem listHeader_shortest {h : Bytes} {et n : Nat} (hh : ListHeader h et n) (ft : Byte) : (listHeader ft n).length ≤ h.length := by
  cases hh with
  | short b hb => unfold listHeader; rw [if_pos hb]; simp
  | long b p n hb hp hn =>
    have := varintVal_length hp
    unfold listHeader
    split <;> simp only [List.length_cons, List.length_nil] <;> omega

theorem fieldHeader_pos {last : BitVec 16} {h : Bytes} {ft : Nat} {id : BitVec 16} (hh : FieldHeader last h ft id) : 1 ≤ h.length := by
  cases hh <;> simp

/-- The bytes of the id in a header, if it cannot be a difference to 0. -/
def longId (i : Int) : Nat := if 15 < i then (varint (zigzag i)).length else 0

theorem zigzag_pos {i : Int} (h : 0 ≤ i) : zigzag i = (2 * i).toNat := by unfold zigzag; rw [if_pos h]

theorem longId_mono {i j : Int} (h : i ≤ j) : longId i ≤ longId j := by
  unfold longId
  split
  · rw [if_pos (by omega), zigzag_pos (by omega), zigzag_pos (by omega)]
    exact varint_length_mono _ _ (by omega)
  · omega

theorem longId_step {i j : Int} (h : j ≤ i + 15) : longId j ≤ longId i + 1 := by
  unfold longId
  by_cases hj : 15 < j
  · rw [if_pos hj, zigzag_pos (by omega)]
    by_cases hi : 15 < i
    · rw [if_pos hi, zigzag_pos (by omega), varint]
      split
      · simp
      · have := varint_length_mono ((2 * j).toNat / 128) (2 * i).toNat (by omega)
        simp only [List.length_cons]; omega
    · rw [if_neg hi]
      exact varint_length_le _ 0 (by omega)
  · rw [if_neg hj]; omega

/-- A lower bound for the bytes before and in the header of the field `id`. -/
def reached (id : BitVec 16) : Nat := if id = 0#16 then 0 else 1 + longId id.toInt

theorem reached_le (id : BitVec 16) : reached id ≤ 1 + longId id.toInt := by unfold reached; split <;> omega

theorem reached_header {last : BitVec 16} {h : Bytes} {ft : Nat} {id : BitVec 16} (hh : FieldHeader last h ft id) : 1 + longId id.toInt ≤ h.length + reached last := by
  cases hh with
  | short c h1 h2 =>
    have hc := c.isLt
    have hl := BitVec.toInt_lt (x := last); have hl' := BitVec.le_toInt (x := last)
    rw [BitVec.toInt_ofInt]
    unfold reached
    simp only [List.length_singleton]
    by_cases hw : last.toInt + (c.toNat / 16 : Nat) < 32768
    · rw [Int.bmod_eq_of_le (by omega) (by omega)]
      split
      · rename_i h0
        subst h0
        unfold longId
        rw [if_neg (by have : (0#16).toInt = 0 := by decide
                       omega)]
        omega
      · have := longId_step (i := last.toInt) (j := last.toInt + (c.toNat / 16 : Nat)) (by omega)
        omega
    · have : longId (Int.bmod (last.toInt + (c.toNat / 16 : Nat)) (2 ^ 16)) = 0 := by
        unfold longId
        rw [if_neg]
        rw [Int.bmod_def]
        split <;> omega
      omega
  | long c p n _ h1 h2 hp hid =>
    have := varintVal_length_mod hp hid
    unfold longId
    simp only [List.length_cons]
    split <;> omega

theorem unionHeader_length (b : Byte) (id : BitVec 16) : (fieldHeader b id 0#16).length = 1 + longId id.toInt := by
  unfold fieldHeader longId
  rw [show id - 0#16 = id from by simp]
  split <;> simp <;> omega

theorem members_length {mask : BitVec 32} {xs : List (BitVec 32)} (h : SetOf mask xs) : (members mask).length ≤ xs.length := by
  have h1 : ∀ (l : List Nat) (ys : List Nat), l.Nodup → (∀ i ∈ l, i ∈ ys) → l.length ≤ ys.length := by
    intro l
    induction l with
    | nil => simp
    | cons a l ih =>
      intro ys hn hm
      rw [List.nodup_cons] at hn
      have h2 := ih (ys.erase a) hn.2 fun i hi => (List.mem_erase_of_ne (by rintro rfl; exact hn.1 hi)).2 (hm i (List.mem_cons_of_mem _ hi))
      have h3 := List.length_erase_of_mem (hm a List.mem_cons_self)
      have h4 := List.length_pos_of_mem (hm a List.mem_cons_self)
      simp only [List.length_cons]; omega
  have h2 := h1 (members mask) (xs.map fun x => x.toInt.toNat) (by unfold members; exact List.nodup_range.filter _) fun i hi => by
    obtain ⟨x, hx, e⟩ := (h.2 i).1 hi
    exact List.mem_map.2 ⟨x, hx, by omega⟩
  simpa using h2

/-! ## The size of what is written -/

/-- Whether the value of a field is in its header. -/
def inHeader : Ty → Bool
  | .bool => true
  | .option t => inHeader t
  | _ => false

def elemCount (n : Nat) : Nat := (listHeader 0#8 n).length

/-- Whether a field is written. -/
def shown (f : Field) (v : Val) : Bool := f.required || present v

/-- The additional bytes in the first header of a struct. -/
def firstId : List Field → List Val → Nat
  | f :: fs, v :: vs => if shown f v then longId f.id.toInt else firstId fs vs
  | _, _ => 0

/-- The same if only optional fields are written. -/
def firstKept : List Field → List Val → Nat
  | f :: fs, v :: vs => if !f.required && present v then longId f.id.toInt else firstKept fs vs
  | _, _ => 0

mutual
/-- Bytes of a value. -/
def size (env : List Def) : Ty → Val → Nat
  | _, .bool _ => 1
  | _, .i8 _ => 1
  | _, .i16 x => (varint (zigzag x.toInt)).length
  | _, .i32 x => (varint (zigzag x.toInt)).length
  | _, .i64 x => (varint (zigzag x.toInt)).length
  | _, .double _ => 8
  | _, .binary bs => (varint bs.length).length + bs.length
  | _, .string bs => (varint bs.length).length + bs.length
  | _, .encodingSet mask => elemCount (members mask).length + (members mask).length
  | .list t, .list vs => elemCount vs.length + sizes env t vs
  | .option t, .some v => size env t v
  | .box t, .box v => size env t v
  | .rc t, .rc _ v => size env t v
  | _, .enum x => (varint (zigzag x.toInt)).length
  | .named k, .struct vs =>
    match env[k]? with
    | some (.struct _ fs) => 1 + fieldSizes env fs vs + firstId fs vs
    | _ => 0
  | .named k, .union i v =>
    match env[k]? with
    | some (.union _ us) =>
      match us[i]? with
      | some u => 1 + longId u.id.toInt + size env u.ty v + 1
      | none => 0
    | _ => 0
  | _, _ => 0
/-- Of elements. -/
def sizes (env : List Def) : Ty → List Val → Nat
  | _, [] => 0
  | t, v :: vs => size env t v + sizes env t vs
/-- Of fields, with headers of one byte; a required field is always there. -/
def fieldSizes (env : List Def) : List Field → List Val → Nat
  | f :: fs, v :: vs => (if shown f v then 1 + (if inHeader f.rustTy then 0 else size env f.rustTy v) else 0) + fieldSizes env fs vs
  | _, _ => 0
end

/-- Bytes of a field after its header. -/
def content (env : List Def) (t : Ty) (v : Val) : Nat := if inHeader t then 0 else size env t v

mutual
/-- Bytes of the parts of a value that reading into it retains: its optional fields. -/
def kept (env : List Def) : Ty → Val → Nat
  | .box t, .box v => kept env t v
  | .rc t, .rc _ v => kept env t v
  | .named k, .struct vs =>
    match env[k]? with
    | some (.struct _ fs) => keptFields env fs vs + firstKept fs vs
    | _ => 0
  | _, _ => 0
def keptFields (env : List Def) : List Field → List Val → Nat
  | f :: fs, v :: vs =>
    (if f.required then kept env f.ty v else if present v then 1 + (if inHeader f.rustTy then 0 else size env f.rustTy v) else 0) + keptFields env fs vs
  | _, _ => 0
end

theorem size_option (env : List Def) (t : Ty) (v : Val) : size env (.option t) (.some v) = size env t v := by rw [size.eq_def]

theorem content_option (env : List Def) (t : Ty) (v : Val) : content env (.option t) (.some v) = content env t v := by
  unfold content; rw [size_option]; rfl

theorem content_le (env : List Def) (t : Ty) (v : Val) : content env t v ≤ size env t v := by
  unfold content; split <;> omega

theorem fieldSizes_cons (env : List Def) (f : Field) (fs : List Field) (v : Val) (vs : List Val) :
    fieldSizes env (f :: fs) (v :: vs) = (if shown f v then 1 + content env f.rustTy v else 0) + fieldSizes env fs vs := by
  rw [fieldSizes.eq_def]; rfl

theorem keptFields_cons (env : List Def) (f : Field) (fs : List Field) (v : Val) (vs : List Val) :
    keptFields env (f :: fs) (v :: vs) =
      (if f.required then kept env f.ty v else if present v then 1 + content env f.rustTy v else 0) + keptFields env fs vs := by
  rw [keptFields.eq_def]; rfl

theorem kept_option (env : List Def) (t : Ty) (v : Val) : kept env (.option t) v = 0 := by
  cases v <;> rw [kept.eq_def]

theorem kept_bool (env : List Def) (v : Val) : kept env .bool v = 0 := by
  cases v <;> rw [kept.eq_def]

theorem keptContent (env : List Def) {f : Field} {v : Val} (h : f.required = true) (hk : kept env f.ty v ≤ size env f.ty v) :
    kept env f.ty v ≤ content env f.rustTy v := by
  have hr : f.rustTy = f.ty := by unfold Field.rustTy; rw [if_pos h]
  rw [hr]
  unfold content
  split
  · rename_i hi
    have : kept env f.ty v = 0 := by
      cases ht : f.ty with
      | bool => exact kept_bool env v
      | option t => exact kept_option env t v
      | _ => rw [ht] at hi; simp [inHeader] at hi
    omega
  · omega

/-- The schema condition: every header conveys its id, in all builds. -/
abbrev stepBool (l i : BitVec 16) : Bool := decide (HeaderOk true l i)

theorem step_of {l i : BitVec 16} (h : stepBool l i = true) (hl : l ≠ 0#16) : l.toInt < i.toInt ∧ i.toInt ≤ l.toInt + 15 := by
  have := of_decide_eq_true h
  unfold HeaderOk at this
  rcases this with h | h | h
  · omega
  · simp at h
  · exact absurd h.1 hl

theorem step_pos {l i : BitVec 16} (h : stepBool l i = true) (hl : 0 ≤ l.toInt) : l.toInt < i.toInt ∧ i ≠ 0#16 := by
  have := of_decide_eq_true h
  unfold HeaderOk at this
  have h0 : (0#16).toInt = 0 := by decide
  have h1 : l.toInt < i.toInt := by
    rcases this with h | h | h
    · omega
    · simp at h
    · rw [h.1, h0]; omega
  exact ⟨h1, by rintro rfl; omega⟩

mutual
theorem kept_le_size {env : List Def} (hs : stepsOk true env = true) : ∀ (v : Val) (t : Ty), kept env t v ≤ size env t v
  | .box v, t => by
    cases t with
    | box t => rw [kept.eq_def, size.eq_def]; exact kept_le_size hs v t
    | _ => rw [kept.eq_def]; exact Nat.zero_le _
  | .rc b v, t => by
    cases t with
    | rc t => rw [kept.eq_def, size.eq_def]; exact kept_le_size hs v t
    | _ => rw [kept.eq_def]; exact Nat.zero_le _
  | .struct vs, t => by
    cases t with
    | named k =>
      rw [kept.eq_def, size.eq_def]
      dsimp only
      cases hk : env[k]? with
      | none => simp
      | some d =>
        cases d with
        | struct n fs =>
          have hst : fieldSteps stepBool [0#16] fs = true := by
            unfold stepsOk stepsWith at hs; rw [List.all_eq_true] at hs
            exact hs _ (List.mem_of_getElem? hk)
          have := (kept_le_fieldSizes hs vs fs).2.1 _ hst (by simp) (fun l hl => by rw [List.mem_singleton.1 hl]; decide)
          dsimp only; omega
        | union n us => simp
        | enum n => simp
    | _ => rw [kept.eq_def]; exact Nat.zero_le _
  | .bool _, t => by cases t <;> (rw [kept.eq_def]; exact Nat.zero_le _)
  | .i8 _, t => by cases t <;> (rw [kept.eq_def]; exact Nat.zero_le _)
  | .i16 _, t => by cases t <;> (rw [kept.eq_def]; exact Nat.zero_le _)
  | .i32 _, t => by cases t <;> (rw [kept.eq_def]; exact Nat.zero_le _)
  | .i64 _, t => by cases t <;> (rw [kept.eq_def]; exact Nat.zero_le _)
  | .double _, t => by cases t <;> (rw [kept.eq_def]; exact Nat.zero_le _)
  | .binary _, t => by cases t <;> (rw [kept.eq_def]; exact Nat.zero_le _)
  | .string _, t => by cases t <;> (rw [kept.eq_def]; exact Nat.zero_le _)
  | .encodingSet _, t => by cases t <;> (rw [kept.eq_def]; exact Nat.zero_le _)
  | .list _, t => by cases t <;> (rw [kept.eq_def]; exact Nat.zero_le _)
  | .none, t => by cases t <;> (rw [kept.eq_def]; exact Nat.zero_le _)
  | .undef, t => by cases t <;> (rw [kept.eq_def]; exact Nat.zero_le _)
  | .some _, t => by cases t <;> (rw [kept.eq_def]; exact Nat.zero_le _)
  | .enum _, t => by cases t <;> (rw [kept.eq_def]; exact Nat.zero_le _)
  | .union _ _, t => by cases t <;> (rw [kept.eq_def]; exact Nat.zero_le _)
/-- Without heads, with heads, and with heads after the field `a`. -/
theorem kept_le_fieldSizes {env : List Def} (hs : stepsOk true env = true) : ∀ (vs : List Val) (fs : List Field),
    keptFields env fs vs ≤ fieldSizes env fs vs ∧
    (∀ lasts, fieldSteps stepBool lasts fs = true → lasts ≠ [] → (∀ l ∈ lasts, 0 ≤ l.toInt) → keptFields env fs vs + firstKept fs vs ≤ fieldSizes env fs vs + firstId fs vs) ∧
    (∀ lasts (a : BitVec 16), fieldSteps stepBool lasts fs = true → a ∈ lasts → 0 < a.toInt →
      keptFields env fs vs + firstKept fs vs ≤ fieldSizes env fs vs + 1 + longId a.toInt)
  | [], fs => by cases fs <;> simp [keptFields, firstKept]
  | v :: vs, [] => by simp [keptFields, firstKept]
  | v :: vs, f :: fs => by
    have h1 := kept_le_fieldSizes hs vs fs
    have h2 := kept_le_size hs v f.ty
    rw [keptFields_cons, fieldSizes_cons, firstKept, firstId]
    cases hr : f.required with
    | true =>
      have h3 := keptContent env hr h2
      have h4 : shown f v = true := by unfold shown; rw [hr]; rfl
      simp only [h4, if_true, Bool.not_true, Bool.false_and, Bool.false_eq_true, if_false]
      refine ⟨by omega, fun lasts hf hne hl => ?_, fun lasts a hf ha h0 => ?_⟩
      · simp only [fieldSteps, hr, if_true, Bool.and_eq_true, List.all_eq_true] at hf
        obtain ⟨l, hm⟩ := List.exists_mem_of_ne_nil _ hne
        have h5 := step_pos (hf.1 l hm) (hl l hm)
        have h6 := hl l hm
        have h7 := h1.2.2 _ f.id hf.2 (by simp) (by omega)
        omega
      · simp only [fieldSteps, hr, if_true, Bool.and_eq_true, List.all_eq_true] at hf
        have h5 := step_of (hf.1 a ha) (by rintro rfl; simp at h0)
        have h6 := h1.2.2 _ f.id hf.2 (by simp) (by omega)
        have h7 := longId_step h5.2
        omega
    | false =>
      have h4 : shown f v = present v := by unfold shown; rw [hr]; rfl
      simp only [h4, Bool.not_false, Bool.true_and, Bool.false_eq_true, if_false]
      refine ⟨by omega, fun lasts hf hne hl => ?_, fun lasts a hf ha h0 => ?_⟩
      · split
        · omega
        · simp only [fieldSteps, hr, if_false, Bool.false_eq_true, Bool.and_eq_true, List.all_eq_true] at hf
          have h7 := h1.2.1 _ hf.2 (by simp) fun l hm => by
            rcases List.mem_cons.1 hm with rfl | hm
            · obtain ⟨l', hm'⟩ := List.exists_mem_of_ne_nil _ hne
              have h5 := step_pos (hf.1 l' hm') (hl l' hm')
              have h6 := hl l' hm'
              omega
            · exact hl l hm
          omega
      · simp only [fieldSteps, hr, if_false, Bool.false_eq_true, Bool.and_eq_true, List.all_eq_true] at hf
        have h5 := step_of (hf.1 a ha) (by rintro rfl; simp at h0)
        split
        · have h7 := longId_step h5.2
          omega
        · have h6 := h1.2.2 _ a hf.2 (by simp [ha]) h0
          omega
end

/-- Bytes of the field `f`, by whether it has been met: what counts is what will be written if it has, what is retained if not. -/
def cost (env : List Def) (met : Bool) (f : Field) (v : Val) : Nat :=
  if f.required && !met then kept env f.ty v else if shown f v then 1 + content env f.rustTy v else 0

theorem kept_le_cost {env : List Def} (hs : stepsOk true env = true) (met : Bool) (f : Field) (v : Val) : kept env f.rustTy v ≤ cost env met f v := by
  unfold cost
  cases hr : f.required with
  | true =>
    have h1 : f.rustTy = f.ty := by unfold Field.rustTy; rw [if_pos hr]
    have h2 := keptContent env hr (kept_le_size hs v f.ty)
    have h4 : shown f v = true := by unfold shown; rw [hr]; rfl
    cases met with
    | true => simp only [h4, Bool.not_true, Bool.and_false, Bool.false_eq_true, if_false, if_true]; rw [← h1] at h2; omega
    | false => simp [h1]
  | false =>
    have : f.rustTy = .option f.ty := by unfold Field.rustTy; rw [if_neg (by simp [hr])]
    rw [this, kept_option]; exact Nat.zero_le _

/-- The sum over all fields, given which have been met. -/
def total (env : List Def) (met : Nat → Bool) : List Field → List Val → Nat
  | f :: fs, v :: vs => cost env (met 0) f v + total env (fun i => met (i + 1)) fs vs
  | _, _ => 0

theorem total_congr (env : List Def) : ∀ (fs : List Field) (vs : List Val) (m m' : Nat → Bool), (∀ i, m i = m' i) → total env m fs vs = total env m' fs vs := by
  intro fs vs m m' h
  rw [show m = m' from funext h]

theorem total_set (env : List Def) : ∀ (fs : List Field) (vs : List Val) (i : Nat) (f : Field) (o v : Val) (m m' : Nat → Bool), fs[i]? = some f → vs[i]? = some o →
    (∀ j, j ≠ i → m' j = m j) → total env m' fs (vs.set i v) + cost env (m i) f o = total env m fs vs + cost env (m' i) f v
  | [], _, _, _, _, _, _, _, h, _, _ => by simp at h
  | _ :: _, [], _, _, _, _, _, _, _, h, _ => by simp at h
  | g :: fs, w :: vs, 0, f, o, v, m, m', h1, h2, h3 => by
    simp only [List.getElem?_cons_zero, Option.some.injEq] at h1 h2
    subst h1 h2
    rw [List.set_cons_zero, total, total, total_congr env fs vs (fun i => m' (i + 1)) (fun i => m (i + 1)) fun i => h3 _ (by omega)]
    omega
  | g :: fs, w :: vs, i + 1, f, o, v, m, m', h1, h2, h3 => by
    rw [List.getElem?_cons_succ] at h1 h2
    have := total_set env fs vs i f o v (fun i => m (i + 1)) (fun i => m' (i + 1)) h1 h2 fun j hj => h3 _ (by omega)
    rw [List.set_cons_succ, total, total, h3 0 (by omega)]
    omega

theorem total_none (env : List Def) : ∀ (fs : List Field) (vs : List Val), total env (fun _ => false) fs vs = keptFields env fs vs
  | [], vs => by cases vs <;> simp [total, keptFields]
  | f :: fs, [] => by simp [total, keptFields]
  | f :: fs, v :: vs => by
    rw [total, keptFields_cons, total_none env fs vs]
    unfold cost shown
    cases f.required <;> simp

theorem total_all (env : List Def) : ∀ (fs : List Field) (vs : List Val) (m : Nat → Bool), (∀ (i : Nat) (f : Field), fs[i]? = some f → f.required = true → m i = true) →
    total env m fs vs = fieldSizes env fs vs
  | [], vs, m, _ => by cases vs <;> simp [total, fieldSizes]
  | f :: fs, [], m, _ => by simp [total, fieldSizes]
  | f :: fs, v :: vs, m, h => by
    rw [total, fieldSizes_cons, total_all env fs vs _ fun i g hg => h (i + 1) g hg]
    unfold cost
    cases hr : f.required with
    | false => simp
    | true => rw [h 0 f rfl hr]; simp

theorem kept_default {env : List Def} {t : Ty} {d : Val} (h : IsDefault env t d) : kept env t d = 0 := by
  induction h with
  | box t v _ ih => rw [kept.eq_def]; exact ih
  | rc t v _ ih => rw [kept.eq_def]; exact ih
  | struct k name fs vs hk hl hd ih =>
    rw [kept.eq_def]; dsimp only; rw [hk]; dsimp only
    clear hk
    induction fs generalizing vs with
    | nil => cases vs <;> simp [keptFields, firstKept]
    | cons f fs ihf =>
      cases vs with
      | nil => simp at hl
      | cons v vs =>
        have h2 := ihf vs (by simpa using hl) (fun i g w hg hw => hd (i + 1) g w hg hw) (fun i g w hg hw => ih (i + 1) g w hg hw)
        rw [keptFields_cons, firstKept]
        have h0 := ih 0 f v rfl rfl
        have h1 := hd 0 f v rfl rfl
        unfold Field.rustTy at h0 h1
        cases hr : f.required with
        | true =>
          rw [hr, if_pos rfl] at h0
          simp only [if_true, Bool.not_true, Bool.false_and, Bool.false_eq_true, if_false]; omega
        | false =>
          rw [hr, if_neg (by simp)] at h1
          cases h1
          simp only [present, Bool.and_false, Bool.false_eq_true, if_false]; omega
  | _ => rw [kept.eq_def]

/-! ## What is read is at least as long -/

/-- What a decoding gives for an item. -/
def ShortItem (env : List Def) (p : Bytes) : DItem → Prop
  | .value t o v => size env t v ≤ kept env t o + p.length
  | .field t _ o v => content env t v ≤ kept env t o + p.length
  | .elems t vs => sizes env t vs ≤ p.length
  | .fields fs last met old new => ∀ m : Nat → Bool, total env (fun i => m i || met.contains i) fs new + 1 ≤ total env m fs old + p.length ∧
      ∀ h, met ≠ [] → (∀ i ∈ met, ∀ f, fs[i]? = some f → h ≤ longId f.id.toInt) →
        total env (fun i => m i || met.contains i) fs new + 1 + h ≤ total env m fs old + p.length + reached last

/-- Which fields are there after reading. -/
def ShownItem : DItem → Prop
  | .value t _ v => Ty.isOption t = false → present v = true
  | .field _ _ _ v => present v = true
  | .elems _ _ => True
  | .fields fs _ met old new => (met = [] → new = old) ∧
      ∀ (i : Nat) (f : Field), fs[i]? = some f → (i ∈ met ∨ ∃ w, old[i]? = some w ∧ shown f w = true) → ∃ w, new[i]? = some w ∧ shown f w = true

theorem dec_shown {env : List Def} {it : DItem} {p : Bytes} (h : Dec env it p) : ShownItem it := by
  induction h with
  | some t d v p hd hp ih => intro h; simp [Ty.isOption] at h
  | elemsNil t => trivial
  | elemsCons t d v vs p q hd hp hq ih1 ih2 => trivial
  | fieldBool ft o => rfl
  | fieldSome t ft d v p hd hp ih => exact ih
  | fieldValue t o v p h1 h2 hp ih =>
    refine ih ?_
    cases t <;> first | rfl | exact absurd rfl (h2 _)
  | stop fs last vs b h => exact ⟨fun _ => rfl, fun i f _ h => h.elim (fun h => by cases h) id⟩
  | known fs last met vs new h ft i f o v p q hh hf hfst ho hp hq ih1 ih2 =>
    refine ⟨fun h => absurd h (by simp), fun j g hg hj => ?_⟩
    by_cases hij : j = i
    · subst hij
      rw [hf] at hg; cases hg
      refine ih2.2 j f hf (.inr ⟨v, ?_, by unfold shown; rw [show present v = true from ih1]; simp⟩)
      rw [List.getElem?_set_self]
      exact (List.getElem?_eq_some_iff.1 ho).1
    · refine ih2.2 j g hg (hj.imp (fun h => (List.mem_cons.1 h).resolve_left hij) fun ⟨w, h1, h2⟩ => ⟨w, ?_, h2⟩)
      rw [List.getElem?_set_ne (Ne.symm hij)]; exact h1
  | unknown fs last met vs new h ft id p q hh hid hp hq ih => exact ih
  | _ => intro _; rfl

theorem ids_ascend : ∀ (fs : List Field) (lasts : List (BitVec 16)), fieldSteps stepBool lasts fs = true → ∀ l ∈ lasts, 0 ≤ l.toInt →
    ∀ (j : Nat) (g : Field), fs[j]? = some g → l.toInt < g.id.toInt
  | [], _, _, _, _, _, _, _, h => by simp at h
  | f :: fs, lasts, hf, l, hl, h0, j, g, hg => by
    simp only [fieldSteps, Bool.and_eq_true, List.all_eq_true] at hf
    have h1 := (step_pos (hf.1 l hl) h0).1
    cases j with
    | zero => simp only [List.getElem?_cons_zero, Option.some.injEq] at hg; subst hg; exact h1
    | succ j =>
      have := ids_ascend fs _ hf.2 f.id (by split <;> simp) (by omega) j g hg
      omega

/-- The first header is that of the smallest id. -/
theorem firstId_le : ∀ (fs : List Field) (vs : List Val) (lasts : List (BitVec 16)), fieldSteps stepBool lasts fs = true → (∃ l ∈ lasts, 0 ≤ l.toInt) →
    ∀ (j : Nat) (g : Field) (w : Val), fs[j]? = some g → vs[j]? = some w → shown g w = true → firstId fs vs ≤ longId g.id.toInt
  | [], _, _, _, _, _, _, _, h, _, _ => by simp at h
  | _ :: _, [], _, _, _, _, _, _, _, h, _ => by simp at h
  | f :: fs, v :: vs, lasts, hf, ⟨l, hl, h0⟩, j, g, w, hg, hw, hs => by
    have hf' := hf
    simp only [fieldSteps, Bool.and_eq_true, List.all_eq_true] at hf'
    have h1 := (step_pos (hf'.1 l hl) h0).1
    rw [firstId]
    cases j with
    | zero =>
      simp only [List.getElem?_cons_zero, Option.some.injEq] at hg hw
      subst hg hw
      rw [if_pos hs]; exact Nat.le_refl _
    | succ j =>
      split
      · exact longId_mono (Int.le_of_lt (ids_ascend fs _ hf'.2 f.id (by split <;> simp) (by omega) j g hg))
      · exact firstId_le fs vs _ hf'.2 ⟨f.id, by split <;> simp, by omega⟩ j g w hg hw hs

theorem firstId_kept : ∀ (fs : List Field) (vs : List Val), (∀ f ∈ fs, f.required = false) → firstId fs vs = firstKept fs vs
  | [], vs, _ => by cases vs <;> rfl
  | f :: fs, [], _ => rfl
  | f :: fs, v :: vs, h => by
    rw [firstId, firstKept, firstId_kept fs vs fun g hg => h g (by simp [hg])]
    unfold shown
    rw [h f (by simp)]
    rfl

theorem elemCount_eq (ft : Byte) (n : Nat) : (listHeader ft n).length = elemCount n := by
  unfold elemCount listHeader; split <;> rfl

theorem elemCount_mono {m n : Nat} (h : m ≤ n) : elemCount m ≤ elemCount n := by
  unfold elemCount listHeader
  split
  · split <;> simp
  · rw [if_neg (by omega)]
    have := varint_length_mono m n h
    simp only [List.length_cons]; omega

theorem hdr_length (a b : Byte) (id last : BitVec 16) : (fieldHeader a id last).length = (fieldHeader b id last).length := by
  unfold fieldHeader; split <;> rfl

theorem sizes_i32 (env : List Def) : ∀ xs : List (BitVec 32), xs.length ≤ sizes env .i32 (xs.map .i32)
  | [] => by simp
  | x :: xs => by
    have := sizes_i32 env xs
    have := varint_length_pos (zigzag x.toInt)
    rw [List.map_cons, sizes.eq_def, List.length_cons]; dsimp only; rw [size.eq_def]; dsimp only; omega

theorem dec_shortest {env : List Def} (hs : stepsOk true env = true) {it : DItem} {p : Bytes} (h : Dec env it p) : ShortItem env p it := by
  induction h with
  | bool o b => unfold ShortItem; dsimp only; rw [size.eq_def]; simp
  | i8 o b => unfold ShortItem; dsimp only; rw [size.eq_def]; simp
  | i16 o p n x hp hx => unfold ShortItem; dsimp only; rw [size.eq_def]; have := varintVal_length_mod hp hx; dsimp only at this ⊢; omega
  | i32 o p n x hp hx => unfold ShortItem; dsimp only; rw [size.eq_def]; have := varintVal_length_mod hp hx; dsimp only at this ⊢; omega
  | i64 o p n x hp hx => unfold ShortItem; dsimp only; rw [size.eq_def]; have := varintVal_length hp; rw [← hx] at this; dsimp only; omega
  | double o x => unfold ShortItem; dsimp only; rw [size.eq_def]; simp [le64]
  | binary o p bs hp hb => unfold ShortItem; dsimp only; rw [size.eq_def]; have := varintVal_length hp; simp only [List.length_append]; omega
  | string o p bs hp hb hu => unfold ShortItem; dsimp only; rw [size.eq_def]; have := varintVal_length hp; simp only [List.length_append]; omega
  | encodingSet o h p mask xs hh hp hm ih =>
    unfold ShortItem at ih ⊢
    dsimp only at ih ⊢
    have h1 := members_length hm
    have h2 := sizes_i32 env xs
    have h3 := elemCount_mono h1
    have h4 := listHeader_shortest hh 0#8
    rw [elemCount_eq] at h4
    rw [size.eq_def]; simp only [List.length_append]; omega
  | list t o h et vs p hh he hp ih =>
    unfold ShortItem at ih ⊢
    dsimp only at ih ⊢
    have h4 := listHeader_shortest hh 0#8
    rw [elemCount_eq] at h4
    rw [size.eq_def]; simp only [List.length_append]; omega
  | some t d v p hd hp ih =>
    unfold ShortItem at ih ⊢
    dsimp only at ih ⊢
    rw [kept_default hd] at ih; rw [size_option]; omega
  | box t o v p hp ih => unfold ShortItem at ih ⊢; dsimp only at ih ⊢; rw [size.eq_def, kept.eq_def]; exact ih
  | rc t o v p hp ih => unfold ShortItem at ih ⊢; dsimp only at ih ⊢; rw [size.eq_def, kept.eq_def]; exact ih
  | enum k name o p n x hk hp hx => unfold ShortItem; dsimp only; rw [size.eq_def]; have := varintVal_length_mod hp hx; dsimp only at this ⊢; omega
  | struct k name fs met old new p hk hp hr ih =>
    unfold ShortItem at ih ⊢
    dsimp only at ih ⊢
    have h1 := ih fun _ => false
    rw [total_none, total_all env fs new _ fun i f hf hq => by simp [hr i f hf hq]] at h1
    rw [size.eq_def, kept.eq_def]; dsimp only; rw [hk]; dsimp only
    have h2 := dec_shown hp
    by_cases hm : met = []
    · have h3 := h2.1 hm
      subst h3
      rw [firstId_kept fs new fun f hf => by
        cases hq : f.required with
        | false => rfl
        | true =>
          obtain ⟨i, hi⟩ := List.getElem?_of_mem hf
          have := hr i f hi hq
          rw [hm] at this; cases this]
      omega
    · have hst : fieldSteps stepBool [0#16] fs = true := by
        unfold stepsOk stepsWith at hs; rw [List.all_eq_true] at hs
        exact hs _ (List.mem_of_getElem? hk)
      have h3 := h1.2 (firstId fs new) hm fun i hi f hf => by
        obtain ⟨w, hw, hsh⟩ := h2.2 i f hf (.inl hi)
        exact firstId_le fs new _ hst ⟨0#16, by simp, by decide⟩ i f w hf hw hsh
      have h4 : reached 0#16 = 0 := by unfold reached; rfl
      omega
  | union k name us i u j o d v h ft p hk hu hfst hh hd hp ih =>
    unfold ShortItem at ih ⊢
    dsimp only at ih ⊢
    have h1 := reached_header hh
    have h4 : reached 0#16 = 0 := by unfold reached; rfl
    rw [kept_default hd] at ih
    rw [size.eq_def]; dsimp only; rw [hk]; dsimp only; rw [hu]; simp only [List.length_append, List.length_singleton]; omega
  | elemsNil t => unfold ShortItem; dsimp only; rw [sizes.eq_def]; simp
  | elemsCons t d v vs p q hd hp hq ih1 ih2 =>
    unfold ShortItem at ih1 ih2 ⊢
    dsimp only at ih1 ih2 ⊢
    rw [kept_default hd] at ih1
    rw [sizes.eq_def]; simp only [List.length_append]; omega
  | fieldBool ft o => unfold ShortItem content; dsimp only; simp [inHeader]
  | fieldSome t ft d v p hd hp ih =>
    unfold ShortItem at ih ⊢
    dsimp only at ih ⊢
    rw [kept_default hd] at ih; rw [content_option]; omega
  | fieldValue t o v p h1 h2 hp ih =>
    unfold ShortItem at ih ⊢
    dsimp only at ih ⊢
    exact Nat.le_trans (content_le _ _ _) ih
  | stop fs last vs b h => unfold ShortItem; dsimp only; intro m; simp
  | known fs last met vs new h ft i f o v p q hh hf hfst ho hp hq ih1 ih2 =>
    unfold ShortItem at ih1 ih2 ⊢
    dsimp only at ih1 ih2 ⊢
    intro m
    have h1 := (ih2 fun j => m j || j == i).1
    have h2 := total_set env fs vs i f o v m (fun j => m j || j == i) hf ho fun j hj => by simp [hj]
    rw [show (m i || i == i) = true from by simp] at h2
    have h3 := kept_le_cost hs (m i) f o
    have h4 : cost env true f v ≤ 1 + content env f.rustTy v := by
      unfold cost; simp only [Bool.not_true, Bool.and_false, Bool.false_eq_true, if_false]; split <;> omega
    have h5 := fieldHeader_pos hh
    rw [total_congr env fs new (fun j => m j || (i :: met).contains j) (fun j => (m j || j == i) || met.contains j) fun j => by
      rw [List.contains_cons, Bool.or_assoc]]
    simp only [List.length_append]
    refine ⟨by omega, fun k _ hk => ?_⟩
    have h6 := hk i List.mem_cons_self f hf
    have h7 := reached_header hh
    omega
  | unknown fs last met vs new h ft id p q hh hid hp hq ih =>
    unfold ShortItem at ih ⊢
    dsimp only at ih ⊢
    intro m
    have h1 := ih m
    have h7 := reached_header hh
    have h8 := reached_le id
    simp only [List.length_append]
    refine ⟨by omega, fun k hm hk => ?_⟩
    have h2 := h1.2 k hm hk
    omega

/-! ## What is written is exactly as long -/

/-- What an encoding gives for an item. -/
def WrittenItem (env : List Def) (q : Bytes) : EItem → Prop
  | .value t v => q.length ≤ size env t v
  | .field t v id last => q.length ≤ (if present v then (fieldHeader 0#8 id last).length + content env t v else 0) ∧ (Ty.isOption t = false → present v = true)
  | .elems t vs => q.length ≤ sizes env t vs
  | .fields fs vs last => (∀ f ∈ fs, Ty.isOption f.ty = false) → ∀ lasts, last ∈ lasts → 0 ≤ last.toInt →
      fieldSteps stepBool lasts fs = true → q.length ≤ fieldSizes env fs vs + if last = 0#16 then firstId fs vs else 0

theorem members_bytes (mask : BitVec 32) : ((members mask).flatMap fun (i : Nat) => varint (zigzag i)).length ≤ (members mask).length := by
  have h3 : ∀ l : List Nat, (∀ i ∈ l, i < 32) → (l.flatMap fun (i : Nat) => varint (zigzag i)).length ≤ l.length := by
    intro l
    induction l with
    | nil => simp
    | cons a l ih =>
      intro h
      have h4 := varint_length_le (zigzag (a : Int)) 0 (by
        have := h a (by simp)
        unfold zigzag
        rw [if_pos (by omega)]; omega)
      have h5 := ih fun i hi => h i (by simp [hi])
      simp only [List.flatMap_cons, List.length_append, List.length_cons]; omega
  exact h3 (members mask) fun i hi => by
    unfold members at hi; exact List.mem_range.1 (List.mem_filter.1 hi).1

theorem enc_written {ok : BitVec 16 → BitVec 16 → Prop} {env : List Def} (hs : schemaOk env = true) (hst : stepsOk true env = true) {it : EItem} {q : Bytes}
    (h : Enc env ok it q) : WrittenItem env q it := by
  have hdef : ∀ (k : Nat) (d : Def), env[k]? = some d → defOk d = true := by
    intro k d hk
    unfold schemaOk at hs; rw [Bool.and_eq_true, List.all_eq_true] at hs
    exact hs.1 d (List.mem_of_getElem? hk)
  have hstep : ∀ (k : Nat) (d : Def), env[k]? = some d → defSteps stepBool d = true := by
    intro k d hk
    unfold stepsOk stepsWith at hst; rw [List.all_eq_true] at hst
    exact hst d (List.mem_of_getElem? hk)
  induction h with
  | bool b => unfold WrittenItem; dsimp only; rw [size.eq_def]; simp
  | i8 x => unfold WrittenItem; dsimp only; rw [size.eq_def]; simp
  | i16 x => unfold WrittenItem; dsimp only; rw [size.eq_def]; exact Nat.le_refl _
  | i32 x => unfold WrittenItem; dsimp only; rw [size.eq_def]; exact Nat.le_refl _
  | i64 x => unfold WrittenItem; dsimp only; rw [size.eq_def]; exact Nat.le_refl _
  | double x => unfold WrittenItem; dsimp only; rw [size.eq_def]; simp [le64]
  | binary bs h => unfold WrittenItem; dsimp only; rw [size.eq_def]; simp
  | string bs h => unfold WrittenItem; dsimp only; rw [size.eq_def]; simp
  | encodingSet mask =>
    unfold WrittenItem; dsimp only; rw [size.eq_def]
    have := members_bytes mask
    simp only [List.length_append, elemCount_eq]; omega
  | list t vs p h hp ih =>
    unfold WrittenItem at ih ⊢; dsimp only at ih ⊢; rw [size.eq_def]
    simp only [List.length_append, elemCount_eq]; omega
  | some t v p hp ih => unfold WrittenItem at ih ⊢; dsimp only at ih ⊢; rw [size_option]; exact ih
  | box t v p hp ih => unfold WrittenItem at ih ⊢; dsimp only at ih ⊢; rw [size.eq_def]; exact ih
  | rc t b v p hp ih => unfold WrittenItem at ih ⊢; dsimp only at ih ⊢; rw [size.eq_def]; exact ih
  | enum k name x hk => unfold WrittenItem; dsimp only; rw [size.eq_def]; exact Nat.le_refl _
  | struct k name fs vs p hk hp ih =>
    have hf := hdef k _ hk
    simp only [defOk, structOk, Bool.and_eq_true, decide_eq_true_eq, List.all_eq_true, Bool.not_eq_true'] at hf
    unfold WrittenItem at ih ⊢; dsimp only at ih ⊢; rw [size.eq_def]; dsimp only; rw [hk]
    have := ih hf.2 [0#16] (by simp) (by decide) (hstep k _ hk)
    rw [if_pos rfl] at this
    simp only [List.length_append, List.length_singleton]; omega
  | union k name us i u v p hk hu hp ih =>
    unfold WrittenItem at ih ⊢; dsimp only at ih ⊢; rw [size.eq_def]; dsimp only; rw [hk]; dsimp only; rw [hu]
    have := content_le env u.ty v
    have := ih.1
    rw [unionHeader_length] at this
    simp only [List.length_append, List.length_singleton]
    split at this <;> omega
  | elemsNil t => unfold WrittenItem; simp
  | elemsCons t v vs p q hp hq ih1 ih2 =>
    unfold WrittenItem at ih1 ih2 ⊢; dsimp only at ih1 ih2 ⊢; rw [sizes.eq_def]
    simp only [List.length_append]; omega
  | fieldBool b id last h =>
    unfold WrittenItem; dsimp only
    rw [hdr_length (boolByte b) 0#8]
    exact ⟨by simp [present], fun _ => rfl⟩
  | fieldNone t id last => unfold WrittenItem; exact ⟨by simp, fun h => by simp [Ty.isOption] at h⟩
  | fieldSome t v id last p hp ih =>
    unfold WrittenItem at ih ⊢; dsimp only at ih ⊢
    rw [content_option]
    exact ⟨ih.1, fun h => by simp [Ty.isOption] at h⟩
  | fieldValue t v id last p h1 h2 h hp ih =>
    have hpr := present_of_enc hp h2
    unfold WrittenItem at ih ⊢; dsimp only at ih ⊢
    have hc : content env t v = size env t v := by
      unfold content
      rw [if_neg]
      cases t <;> first | (exact absurd rfl h1) | (exact absurd rfl (h2 _)) | simp [inHeader]
    rw [hpr, if_pos rfl, hc, List.length_append, hdr_length _ 0#8]
    exact ⟨by omega, fun _ => rfl⟩
  | fieldsNil last => unfold WrittenItem; simp
  | fieldsCons f fs v vs last p q hp hq ih1 ih2 =>
    unfold WrittenItem at ih1 ih2 ⊢; dsimp only at ih1 ih2 ⊢
    intro hopt lasts hl h0 hfs
    simp only [fieldSteps, Bool.and_eq_true, List.all_eq_true] at hfs
    have h1 := hfs.1 last hl
    have hpos := step_pos h1 h0
    have h2 : (fieldHeader 0#8 f.id last).length = 1 + if last = 0#16 then longId f.id.toInt else 0 := by
      split
      · rw [‹last = 0#16›]; exact unionHeader_length _ _
      · rename_i hne
        have h5 := step_of h1 hne
        have h6 : (f.id - last).toInt = f.id.toInt - last.toInt := by
          rw [BitVec.toInt_sub, Int.bmod_eq_of_le (by omega) (by omega)]
        unfold fieldHeader
        rw [if_neg (by omega)]; rfl
    have h3 := ih1.1
    rw [h2] at h3
    have hsh : shown f v = present v := by
      unfold shown
      cases hr : f.required with
      | false => rfl
      | true => rw [ih1.2 (by unfold Field.rustTy; rw [hr, if_pos rfl]; exact hopt f (by simp))]; rfl
    have h4 := ih2 (fun g hg => hopt g (by simp [hg])) (if f.required then [f.id] else f.id :: lasts) (by
      cases hr : f.required with
      | true =>
        have : present v = true := ih1.2 (by unfold Field.rustTy; rw [hr, if_pos rfl]; exact hopt f (by simp))
        simp [this]
      | false =>
        simp only [Bool.false_eq_true, if_false]
        split
        · simp
        · simp [hl]) (by split <;> omega) hfs.2
    rw [fieldSizes_cons, firstId, hsh, List.length_append]
    cases hp : present v with
    | true =>
      rw [hp, if_pos rfl] at h3
      rw [hp, if_pos rfl, if_neg hpos.2] at h4
      simp only [if_true]; omega
    | false =>
      simp only [hp, Bool.false_eq_true, if_false] at h3 h4 ⊢; omega

/-- C91: of all messages that mean a value, what is written is the shortest. -/
theorem C91_shortest {env : List Def} (hs : schemaOk env = true) (h1 : stepsOk true env = true) {t : Ty} {v : Val} {p q : Bytes} (hp : Decodes env t v p)
    (hq : Encodes env t v q) : q.length ≤ p.length := by
  obtain ⟨d, hd, hp⟩ := hp
  have h2 := dec_shortest h1 hp
  have h3 := enc_written hs h1 hq
  unfold ShortItem at h2; unfold WrittenItem at h3
  dsimp only at h2 h3
  rw [kept_default hd] at h2
  omega

/-- Success in any build is success in the one without overflow checks and with enough memory. -/
theorem fill_slice_any {cfg : Cfg} {env : List Def} {t : Ty} {o v : Val} {s s' : Bytes} (h : fillThrift cfg (sliceInput cfg) env t o s = .ok (v, s')) :
    fillThrift (unlimited (unchecked cfg)) (sliceInput (unlimited (unchecked cfg))) env t o s = .ok (v, s') := by
  rw [run_fill_ok] at h ⊢
  rcases (C60_overflow_checks cfg (.fill env t o)).1 s with e | e
  · rw [e] at h; cases h
  · rw [e] at h
    rcases (C61_allocation (unchecked cfg) (.fill env t o)).1 s with e | e
    · rw [e] at h; cases h
    · rw [e] at h; exact h

theorem fill_reader_any {cfg : Cfg} {env : List Def} {t : Ty} {o v : Val} {s s' : List REvent} (h : fillThrift cfg (readerInput cfg) env t o s = .ok (v, s')) :
    fillThrift (unlimited (unchecked cfg)) (readerInput (unlimited (unchecked cfg))) env t o s = .ok (v, s') := by
  rw [run_fill_ok] at h ⊢
  rcases (C60_overflow_checks cfg (.fill env t o)).2 s with e | e
  · rw [e] at h; cases h
  · rw [e] at h
    rcases (C61_allocation (unchecked cfg) (.fill env t o)).2 s with e | e
    · rw [e] at h; cases h
    · rw [e] at h; exact h

/-- C91: what was read from a slice is written again in no more bytes than it was read from. In every build without the SSE2 skip. -/
theorem C91_slice {cfg : Cfg} (h2 : cfg.sse2 = false) {env : List Def} (he : schemaReads env = true) (hs : schemaOk env = true) (h1 : stepsOk true env = true)
    {t : Ty} (ht : tyClosed env t = true) {v : Val} {s s' : Bytes} (h : readThrift cfg (sliceInput cfg) env t s = .ok (v, s')) :
    ∃ q, encode env t v = .ok q ∧ q.length + s'.length ≤ s.length := by
  have hw : WasRead cfg env t v := .inl ⟨s, s', h⟩
  obtain ⟨q, hq⟩ := C24_writable he ht hw
  obtain ⟨p, rfl, hp⟩ := (C76_read (cfg := unlimited (unchecked cfg)) rfl h2 (fun _ _ => rfl) he ht v s s').1 (fill_slice_any h)
  have := C91_shortest hs h1 hp (enc_of_encode (C35_typed he ht hw) hq)
  exact ⟨q, hq, by rw [List.length_append]; omega⟩

/-- C91 for readers, in every build: the bytes delivered. -/
theorem C91_reader {cfg : Cfg} {env : List Def} (he : schemaReads env = true) (hs : schemaOk env = true) (h1 : stepsOk true env = true)
    {t : Ty} (ht : tyClosed env t = true) {v : Val} {s s' : Bytes} {evs evs' : List REvent} (hd : Delivers evs s) (hd' : Delivers evs' s')
    (h : readThrift cfg (readerInput cfg) env t evs = .ok (v, evs')) : ∃ q, encode env t v = .ok q ∧ q.length + s'.length ≤ s.length := by
  have hw : WasRead cfg env t v := .inr ⟨evs, evs', h⟩
  obtain ⟨q, hq⟩ := C24_writable he ht hw
  obtain ⟨p, rfl, hp⟩ := (C76_read_reader (cfg := unlimited (unchecked cfg)) rfl (fun _ _ => rfl) he ht v hd s').1 ⟨evs', fill_reader_any h, hd'⟩
  have := C91_shortest hs h1 hp (enc_of_encode (C35_typed he ht hw) hq)
  exact ⟨q, hq, by rw [List.length_append]; omega⟩

/-- C91 for Parquet metadata: a footer is rewritten in no more bytes than it had. -/
theorem C91_parquet {cfg : Cfg} (h2 : cfg.sse2 = false) {t : Ty} (ht : tyClosed Format.parquetEnv t = true) {v : Val} {s s' : Bytes}
    (h : readThrift cfg (sliceInput cfg) Format.parquetEnv t s = .ok (v, s')) : ∃ q, encode Format.parquetEnv t v = .ok q ∧ q.length + s'.length ≤ s.length :=
  C91_slice h2 (by decide) (by decide) (by decide) ht h

/-- The message of the example of C76 (an unknown field, a long header, a stop byte that is not 0) has 11 bytes; its value is written in at most so many. -/
example : schemaReads decEnv = true ∧ schemaOk decEnv = true ∧ stepsOk true decEnv = true ∧
    readThrift ⟨true, false, fun _ => true⟩ (sliceInput ⟨true, false, fun _ => true⟩) decEnv (.named 0) decBytes = .ok (decVal, []) ∧ decBytes.length = 11 ∧
    ∃ q, encode decEnv (.named 0) decVal = .ok q ∧ q.length + 0 ≤ 11 := by
  refine ⟨by decide, by decide, by decide, rfl, rfl, ?_⟩
  exact C91_slice (cfg := ⟨true, false, fun _ => true⟩) rfl (by decide) (by decide) (by decide) (by decide) (s := decBytes) (s' := []) rfl

/-- Fields 40, 1 and 41, declared in this order. -/
def unorderedEnv : List Def := [.struct "S" [⟨40#16, true, "x", .i8⟩, ⟨1#16, true, "y", .i8⟩, ⟨41#16, true, "z", .i8⟩]]

/-- C91, where the headers do not convey the ids: 8 bytes are read as a value that is written in 9. -/
theorem C91_counterexample_order : schemaReads unorderedEnv = true ∧ schemaOk unorderedEnv = true ∧ stepsOk true unorderedEnv = false ∧
    readThrift ⟨false, false, fun _ => true⟩ (sliceInput ⟨false, false, fun _ => true⟩) unorderedEnv (.named 0)
      [0x13#8, 8#8, 0x03#8, 80#8, 7#8, 0x13#8, 9#8, 0#8] = .ok (.struct [.i8 7#8, .i8 8#8, .i8 9#8], []) ∧
    encode unorderedEnv (.named 0) (.struct [.i8 7#8, .i8 8#8, .i8 9#8]) = .ok [0x03#8, 80#8, 7#8, 0x93#8, 8#8, 0x03#8, 80#8, 9#8, 0#8] := by
  refine ⟨by decide, by decide, by decide, rfl, ?_⟩
  have h := encode_of_enc (ok := anyStep) (env := unorderedEnv) (.struct 0 "S" _ _ _ rfl
    (.fieldsCons _ _ _ _ _ _ _ (.fieldValue .i8 _ _ _ _ (by simp) (by simp) trivial (.i8 7#8))
    (.fieldsCons _ _ _ _ _ _ _ (.fieldValue .i8 _ _ _ _ (by simp) (by simp) trivial (.i8 8#8))
    (.fieldsCons _ _ _ _ _ _ _ (.fieldValue .i8 _ _ _ _ (by simp) (by simp) trivial (.i8 9#8)) (.fieldsNil _)))))
  rw [h]
  rw [show fieldHeader (wireType unorderedEnv .i8) 40#16 0#16 = [0x03#8, 80#8] from by
      unfold fieldHeader
      rw [if_pos (by decide), show zigzag (40#16 - 0#16).toInt = 80 from by decide, varint, if_pos (by decide)]; rfl,
    show (if present (.i8 8#8) then (1#16 : BitVec 16) else if present (.i8 7#8) then 40#16 else 0#16) = 1#16 from rfl,
    show fieldHeader (wireType unorderedEnv .i8) 41#16 1#16 = [0x03#8, 80#8] from by
      unfold fieldHeader
      rw [if_pos (by decide), show zigzag (41#16 - 1#16).toInt = 80 from by decide, varint, if_pos (by decide)]; rfl]
  rfl

end CT.Props
