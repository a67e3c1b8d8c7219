import Verif.Proofs.Protocol
/-! # What is written is the encoding of a tree of the protocol -/
namespace CT
open Spec

/-- A step for which the library's field header is that of the protocol. -/
theorem fieldHeader_proto (ft : Byte) {id last : BitVec 16} (h : HeaderOk true last id) : fieldHeader ft id last = protoHeader ft id last := by
  have hl := BitVec.toInt_lt (x := last); have hl' := BitVec.le_toInt (x := last)
  have hi := BitVec.toInt_lt (x := id); have hi' := BitVec.le_toInt (x := id)
  simp only [Nat.add_one_sub_one] at hl hl' hi hi'
  have hsub : (id - last).toInt = (id.toInt - last.toInt).bmod (2 ^ 16) := BitVec.toInt_sub
  rcases h with ⟨h1, h2⟩ | ⟨h, -⟩ | ⟨rfl, h⟩
  · have e : (id - last).toInt = id.toInt - last.toInt := by rw [hsub]; rw [Int.bmod_eq_of_le] <;> omega
    have en : ((id - last).toNat : Int) = id.toInt - last.toInt := by
      rw [← e, BitVec.toInt_eq_toNat_of_msb]
      rw [BitVec.msb_eq_toInt, e]; simp; omega
    unfold fieldHeader protoHeader
    rw [if_neg (by omega), if_pos ⟨h1, h2⟩]
    congr 2
    have : (id.toInt - last.toInt).toNat = (id - last).toNat := by omega
    rw [this, Nat.mod_eq_of_lt (by omega)]
    omega
  · cases h
  · unfold fieldHeader protoHeader
    simp only [BitVec.sub_zero, BitVec.toInt_zero, Int.sub_zero]
    rw [if_pos h, if_neg (by omega)]

theorem rep_wireType {env : List Def} : ∀ {t : Ty} {v : Val} {x : PVal}, Rep env t v x → x.type = wireType env t := by
  intro t
  induction t with
  | option t ih => intro v x h; cases h with | some _ _ _ h => exact ih h
  | box t ih => intro v x h; cases h with | box _ _ _ h => exact ih h
  | rc t ih => intro v x h; cases h with | rc _ _ _ _ h => exact ih h
  | named k =>
    intro v x h
    cases h with
    | enum _ _ _ hk => simp [wireType, hk]; rfl
    | struct _ _ _ _ _ _ hk => simp [wireType, hk]; rfl
    | union _ _ _ _ _ _ _ hk => simp [wireType, hk]; rfl
  | _ => intro v x h; cases h <;> rfl

/-- The bytes are those of a field holding a tree for `v`. -/
def TreeField (env : List Def) (p : Bytes) (t : Ty) (v : Val) (id last : BitVec 16) : Prop :=
  ∃ x : PVal, x.wf = true ∧ Rep env t v x ∧ p = protoHeader x.fieldType id last ++ fieldContent x x.enc

def TreeItem (env : List Def) (p : Bytes) : EItem → Prop
  | .value t v => HasTy env v t → ∃ x : PVal, x.wf = true ∧ Rep env t v x ∧ x.enc = p
  | .elems t vs => (∀ v ∈ vs, HasTy env v t) → ∃ xs : List PVal, wfList xs = true ∧ vs.length = xs.length ∧
      (∀ (i : Nat) (v : Val) (x : PVal), vs[i]? = some v → xs[i]? = some x → Rep env t v x) ∧ (encEach xs).flatten = p
  | .field t v id last => HasTy env v t → boxedBool t = false → (Ty.isOption t = false → present v = true ∧ TreeField env p t v id last) ∧
      ∀ t', t = .option t' → Ty.isOption t' = false → (v = .none ∧ p = []) ∨ ∃ v', v = .some v' ∧ present v' = true ∧ TreeField env p t' v' id last
  | .fields fs vs last => (∀ f ∈ fs, boxedBool f.ty = false ∧ Ty.isOption f.ty = false) → (fs.map (·.id)).Nodup → vs.length = fs.length →
      (∀ (i : Nat) (f : Field) (v : Val), fs[i]? = some f → vs[i]? = some v → HasTy env v f.rustTy) →
      ∃ (ids : List (BitVec 16)) (xs : List PVal), ids.length = xs.length ∧ wfList xs = true ∧ (∀ id ∈ ids, ∃ f ∈ fs, f.id = id) ∧
        (∀ (i : Nat) (f : Field) (v : Val), fs[i]? = some f → vs[i]? = some v → RepField env ids xs f v) ∧ joinFields last ids (encFields xs) = p

theorem repField_cons {env : List Def} {ids : List (BitVec 16)} {xs : List PVal} {g : Field} {v : Val} (id : BitVec 16) (x : PVal) (hne : g.id ≠ id)
    (h : RepField env ids xs g v) : RepField env (id :: ids) (x :: xs) g v := by
  cases h with
  | absent _ _ _ hr hid =>
    refine .absent _ _ _ hr fun i hi => ?_
    rcases List.mem_cons.1 hi with rfl | hi
    · exact fun e => hne e.symm
    · exact hid i hi
  | present _ _ _ j w y hj hu hy h =>
    refine .present _ _ _ (j + 1) w y hj (fun j' hj' => ?_) hy h
    cases j' with
    | zero => exact absurd (Option.some.inj hj').symm hne
    | succ j' => rw [hu j' hj']

theorem tree_of_enc {env : List Def} (hok : schemaOk env = true) (hbb : noBoxedBool env = true) {item : EItem} {p : Bytes}
    (h : Enc env (fun l i => HeaderOk true l i) item p) : TreeItem env p item := by
  have hdef : ∀ {k d}, env[k]? = some d → defOk d = true := fun hk => by
    unfold schemaOk at hok; simp only [Bool.and_eq_true] at hok; exact List.all_eq_true.1 hok.1 _ (List.mem_of_getElem? hk)
  have hdb : ∀ {k d}, env[k]? = some d → defNoBoxedBool d = true := fun hk => List.all_eq_true.1 hbb _ (List.mem_of_getElem? hk)
  induction h with
  | bool b => exact fun _ => ⟨.bool b, rfl, .bool b, by rw [PVal.enc]⟩
  | i8 x => exact fun _ => ⟨.byte x, rfl, .i8 x, by rw [PVal.enc]⟩
  | i16 x => exact fun _ => ⟨.i16 x, rfl, .i16 x, by rw [PVal.enc]⟩
  | i32 x => exact fun _ => ⟨.i32 x, rfl, .i32 x, by rw [PVal.enc]⟩
  | i64 x => exact fun _ => ⟨.i64 x, rfl, .i64 x, by rw [PVal.enc]⟩
  | double x => exact fun _ => ⟨.double x, rfl, .double x, by rw [PVal.enc]⟩
  | binary bs h => exact fun _ => ⟨.binary bs, by simpa [PVal.wf] using h, .binary bs, by rw [PVal.enc]⟩
  | string bs h =>
    intro ht
    cases ht with
    | string _ hu => exact ⟨.binary bs, by simpa [PVal.wf] using h, .string bs ((utf8Valid_iff bs).1 hu), by rw [PVal.enc]⟩
  | encodingSet mask =>
    intro ht
    cases ht with
    | encodingSet _ hm =>
      have hlt : ∀ i ∈ members mask, i < 31 := by
        intro i hi
        rw [mem_members] at hi
        rcases Nat.lt_or_ge i 31 with h | h
        · exact h
        · have : mask.getLsbD i = false := by
            rw [BitVec.getLsbD, Nat.testBit_lt_two_pow (Nat.lt_of_lt_of_le hm (Nat.pow_le_pow_right (by omega) h))]
          rw [this] at hi; cases hi
      have hint : ∀ i : Nat, i < 31 → (BitVec.ofNat 32 i).toInt = (i : Int) := fun i hi => by
        have e : (BitVec.ofNat 32 i).toNat = i := by rw [BitVec.toNat_ofNat]; omega
        rw [BitVec.toInt_eq_toNat_cond, e]; simp; omega
      refine ⟨.list 5#8 (((members mask).map (BitVec.ofNat 32)).map .i32), ?_, .encodingSet _ _ ⟨?_, ?_⟩, ?_⟩
      · have hl := members_length_le mask
        have hall : ∀ l : List (BitVec 32), (l.map PVal.i32).all (fits 5#8) = true ∧ wfList (l.map PVal.i32) = true := by
          intro l
          induction l with
          | nil => exact ⟨rfl, by rw [List.map_nil, wfList]⟩
          | cons a l ih => exact ⟨by rw [List.map_cons, List.all_cons, ih.1]; rfl, by rw [List.map_cons, wfList, ih.2]; rfl⟩
        rw [PVal.wf, (hall _).1, (hall _).2]
        simp [isTypeNumber]; omega
      · intro x hx
        simp only [List.mem_map] at hx
        obtain ⟨i, hi, rfl⟩ := hx
        have := hlt i hi
        rw [hint i this]; omega
      · intro i
        constructor
        · intro hi
          exact ⟨_, List.mem_map.2 ⟨i, hi, rfl⟩, hint i (hlt i hi)⟩
        · rintro ⟨x, hx, hxi⟩
          obtain ⟨j, hj, rfl⟩ := List.mem_map.1 hx
          rw [hint j (hlt j hj)] at hxi
          obtain rfl : j = i := by omega
          exact hj
      · rw [PVal.enc]
        simp only [List.length_map]
        congr 1
        have : ∀ l : List Nat, (∀ i ∈ l, i < 31) → (encEach ((l.map (BitVec.ofNat 32)).map .i32)).flatten = l.flatMap fun (i : Nat) => varint (zigzag i) := by
          intro l
          induction l with
          | nil => intro _; rw [List.map_nil, List.map_nil, encEach]; rfl
          | cons a l ih =>
            intro hl
            rw [List.map_cons, List.map_cons, encEach, List.flatten_cons, ih fun i hi => hl i (by simp [hi]), PVal.enc, hint a (hl a (by simp)), List.flatMap_cons]
        exact this _ hlt
  | list t vs p hl hp ih =>
    intro ht
    cases ht with
    | list _ _ ht =>
      obtain ⟨xs, hw, he, hr, hp⟩ := ih ht
      have hrange := wireType_range env t
      refine ⟨.list (wireType env t) xs, ?_, .list _ _ _ _ (Or.inl rfl) he hr, ?_⟩
      · rw [PVal.wf, hw]
        simp only [isTypeNumber, Bool.and_true, Bool.and_eq_true, decide_eq_true_eq]
        refine ⟨⟨by omega, by omega⟩, List.all_eq_true.2 fun x hx => ?_⟩
        obtain ⟨i, hi⟩ := List.getElem?_of_mem hx
        have hil := (List.getElem?_eq_some_iff.1 hi).1
        have := rep_wireType (hr i _ x (List.getElem?_eq_getElem (by omega)) hi)
        simp [fits, this]
      · rw [PVal.enc, hp, he]
  | some t v p hp ih =>
    intro ht
    cases ht with
    | some _ _ ht =>
      obtain ⟨x, hw, hr, he⟩ := ih ht
      exact ⟨x, hw, .some _ _ _ hr, he⟩
  | box t v p hp ih =>
    intro ht
    cases ht with
    | box _ _ ht =>
      obtain ⟨x, hw, hr, he⟩ := ih ht
      exact ⟨x, hw, .box _ _ _ hr, he⟩
  | rc t b v p hp ih =>
    intro ht
    cases ht with
    | rc _ _ _ ht =>
      obtain ⟨x, hw, hr, he⟩ := ih ht
      exact ⟨x, hw, .rc _ _ _ _ hr, he⟩
  | enum k name x hk => exact fun _ => ⟨.i32 x, rfl, .enum k name x hk, by rw [PVal.enc]⟩
  | struct k name fs vs p hk hp ih =>
    intro ht
    have hso := hdef hk
    simp only [defOk, structOk, Bool.and_eq_true, decide_eq_true_eq, List.all_eq_true, Bool.not_eq_true'] at hso
    have hsb := hdb hk
    simp only [defNoBoxedBool, List.all_eq_true, Bool.not_eq_true'] at hsb
    cases ht with
    | struct _ _ fs' _ hk' hl ht =>
      rw [hk] at hk'; cases hk'
      obtain ⟨ids, xs, hlen, hw, -, hr, he⟩ := ih (fun f hf => ⟨hsb f hf, hso.2 f hf⟩) hso.1 hl ht
      exact ⟨.struct ids xs, by rw [PVal.wf, hw]; simpa using hlen, .struct k name fs vs ids xs hk hl hr, by rw [PVal.enc, he]⟩
  | union k name us i u v p hk hu hp ih =>
    intro ht
    have hso := hdef hk
    simp only [defOk, unionOk, Bool.and_eq_true, decide_eq_true_eq, List.all_eq_true, Bool.not_eq_true', bne_iff_ne] at hso
    have hsb := hdb hk
    simp only [defNoBoxedBool, List.all_eq_true, Bool.not_eq_true'] at hsb
    cases ht with
    | union _ _ us' _ u' _ hk' hu' ht =>
      rw [hk] at hk'; cases hk'
      rw [hu] at hu'; cases hu'
      have hum := List.mem_of_getElem? hu
      obtain ⟨-, x, hw, hr, he⟩ := (ih ht (hsb u hum)).1 (hso.2 u hum).1
      refine ⟨.struct [u.id] [x], by rw [PVal.wf, wfList, wfList, hw]; rfl, .union k name us i u v x hk hu hr, ?_⟩
      rw [PVal.enc, encFields, encFields, he]
      show protoHeader x.fieldType u.id 0#16 ++ fieldContent x x.enc ++ [] ++ [0#8] = _
      rw [List.append_nil]
  | elemsNil t => exact fun _ => ⟨[], by rw [wfList], rfl, fun i v x hv => by simp at hv, by rw [encEach]; rfl⟩
  | elemsCons t v vs p q hp hq ihp ihq =>
    intro ht
    obtain ⟨x, hw, hr, he⟩ := ihp (ht v (by simp))
    obtain ⟨xs, hws, hl, hrs, hes⟩ := ihq fun w hw => ht w (by simp [hw])
    refine ⟨x :: xs, by rw [wfList, hw, hws]; rfl, by simp [hl], fun i w y hi hy => ?_, by rw [encEach, List.flatten_cons, he, hes]⟩
    cases i with
    | zero => cases hi; cases hy; exact hr
    | succ i => exact hrs i w y hi hy
  | fieldBool b id last h =>
    intro _ _
    refine ⟨fun _ => ⟨rfl, .bool b, rfl, .bool b, ?_⟩, fun t' ht => by cases ht⟩
    rw [show fieldContent (.bool b) (PVal.bool b).enc = [] from rfl, List.append_nil]
    exact fieldHeader_proto _ h
  | fieldNone t id last =>
    intro _ _
    exact ⟨fun h => by simp [Ty.isOption] at h, fun _ _ _ => Or.inl ⟨rfl, rfl⟩⟩
  | fieldSome t v id last p hp ih =>
    intro ht hb
    refine ⟨fun h => by simp [Ty.isOption] at h, fun t' he ho => Or.inr ?_⟩
    cases he
    cases ht with
    | some _ _ ht =>
      obtain ⟨h1, h2⟩ := (ih ht hb).1 ho
      exact ⟨v, rfl, h1, h2⟩
  | fieldValue t v id last p h1 h2 h hp ih =>
    intro ht hb
    refine ⟨fun ho => ⟨present_of_enc hp h2, ?_⟩, fun t' he _ => absurd he (h2 t')⟩
    obtain ⟨x, hw, hr, he⟩ := ih ht
    obtain ⟨e1, e2⟩ := rep_type hr (isBoolish_of_not_boxed t hb h1 h2)
    refine ⟨x, hw, hr, ?_⟩
    rw [e2, e1, he, fieldHeader_proto _ h]
  | fieldsNil last =>
    intro _ _ _ _
    exact ⟨[], [], rfl, by rw [wfList], by simp, fun i f v hf => by simp at hf, rfl⟩
  | fieldsCons f fs v vs last p q hp hq ihp ihq =>
    intro hall hn hl ht
    rw [List.map_cons, List.nodup_cons] at hn
    have hnot : ∀ g ∈ fs, g.id ≠ f.id := fun g hg he => hn.1 (List.mem_map.2 ⟨g, hg, he⟩)
    obtain ⟨ids, xs, hlen, hws, hsub, hrs, hes⟩ := ihq (fun g hg => hall g (by simp [hg])) hn.2 (by simpa using hl) fun i g w hg hw => ht (i + 1) g w hg hw
    have hf := hall f (by simp)
    have hp' := ihp (ht 0 f v rfl rfl) (by
      unfold Field.rustTy; split
      · exact hf.1
      · exact hf.1)
    have key : (f.required = false ∧ v = .none ∧ p = []) ∨
        ∃ w, v = (if f.required then w else .some w) ∧ present v = true ∧ TreeField env p f.ty w f.id last := by
      cases hr : f.required with
      | true =>
        rw [show f.rustTy = f.ty by simp [Field.rustTy, hr]] at hp'
        obtain ⟨h1, h2⟩ := hp'.1 hf.2
        exact Or.inr ⟨v, rfl, h1, h2⟩
      | false =>
        rw [show f.rustTy = .option f.ty by simp [Field.rustTy, hr]] at hp'
        rcases hp'.2 f.ty rfl hf.2 with ⟨h1, h2⟩ | ⟨w, rfl, h1, h2⟩
        · exact Or.inl ⟨rfl, h1, h2⟩
        · exact Or.inr ⟨w, rfl, h1, h2⟩
    rcases key with ⟨hr, rfl, rfl⟩ | ⟨w, hv, hpr, x, hxw, hxr, rfl⟩
    · refine ⟨ids, xs, hlen, hws, fun id hid => ?_, fun i g w hg hw => ?_, hes⟩
      · obtain ⟨g, hg, e⟩ := hsub id hid
        exact ⟨g, by simp [hg], e⟩
      · cases i with
        | zero =>
          cases hg; cases hw
          refine .absent _ _ _ hr fun id hid => ?_
          obtain ⟨g, hg, rfl⟩ := hsub id hid
          exact hnot g hg
        | succ i => exact hrs i g w hg hw
    · rw [if_pos hpr] at hes
      refine ⟨f.id :: ids, x :: xs, by simp [hlen], by rw [wfList, hxw, hws]; rfl, fun id hid => ?_, fun i g u hg hu => ?_, ?_⟩
      · rcases List.mem_cons.1 hid with rfl | hid
        · exact ⟨f, by simp, rfl⟩
        · obtain ⟨g, hg, e⟩ := hsub id hid
          exact ⟨g, by simp [hg], e⟩
      · cases i with
        | zero =>
          cases hg; cases hu
          rw [hv]
          refine .present _ _ _ 0 w x rfl (fun j' hj' => ?_) rfl hxr
          cases j' with
          | zero => rfl
          | succ j' =>
            obtain ⟨g, hg, e⟩ := hsub _ (List.mem_of_getElem? hj')
            exact absurd e (hnot g hg)
        | succ i => exact repField_cons _ _ (hnot g (List.mem_of_getElem? hg)) (hrs i g u hg hu)
      · rw [encFields, joinFields, hes]

end CT
