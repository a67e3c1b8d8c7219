import Verif.Proofs.DebugCut
import Verif.Model.Format
import Verif.Props.Strings
/-! # C98: the text of a value -/
namespace CT.Props
open CT CT.Spec CT.Schema CT.Debug CT.Props.Print

theorem visibleAll_eq (vs : List Val) : visibleAll vs = vs.map visible := by
  induction vs with
  | nil => rfl
  | cons v vs ih => rw [visibleAll, ih]; rfl

theorem members_inj {a b : BitVec 32} (h : members a = members b) : a = b := by
  apply BitVec.eq_of_toNat_eq
  apply Nat.eq_of_testBit_eq
  intro i
  by_cases hi : i < 32
  · have key : ∀ c : BitVec 32, i ∈ members c ↔ c.toNat.testBit i = true := fun c => by simp [members, hi]
    have := (key a).symm.trans ((by rw [h] : i ∈ members a ↔ i ∈ members b).trans (key b))
    cases h1 : a.toNat.testBit i <;> cases h2 : b.toNat.testBit i <;> simp_all
  · rw [Nat.testBit_lt_two_pow (Nat.lt_of_lt_of_le a.isLt (Nat.pow_le_pow_right (by omega) (by omega))),
      Nat.testBit_lt_two_pow (Nat.lt_of_lt_of_le b.isLt (Nat.pow_le_pow_right (by omega) (by omega)))]

theorem iter_inj {a b : BitVec 32} (h : (encodingSetIter a).map BitVec.toInt = (encodingSetIter b).map BitVec.toInt) : a = b := by
  apply members_inj
  rw [encodingSetIter_eq, encodingSetIter_eq, List.map_map, List.map_map] at h
  have e : ∀ c : BitVec 32, ((members c).map (BitVec.toInt ∘ BitVec.ofNat 32)).map Int.toNat = members c := fun c => by
    rw [List.map_map]
    refine (List.map_congr_left fun i hi => ?_).trans (List.map_id _)
    have : i < 32 := by simp [members] at hi; exact hi.1
    simp only [Function.comp, BitVec.toInt, BitVec.toNat_ofNat, id]
    rw [Nat.mod_eq_of_lt (by omega), if_pos (by omega)]
    rfl
  rw [← e a, h, e b]

variable {s : DebugStd} {env : List Def}

/-- No value starts like the end of a list. -/
theorem text_head (hs : StdOk s) (hn : ∀ d ∈ env, DefNamesOk d) {v : Val} {t : Ty} (hv : HasTy env v t) (m : Mode) (x y : Bytes) : textAt s env m t v ++ x ≠ 93#8 :: y := by
  have named : ∀ {k : Nat} {d : Def}, env[k]? = some d → DefNamesOk d := fun h => hn _ (List.mem_of_getElem? h)
  have int : ∀ i : Int, ∀ x y, decimalInt i ++ x ≠ 93#8 :: y := fun i x y h => by
    cases e : decimalInt i with
    | nil => exact decimalInt_ne i e
    | cons b bs =>
      have := decimalInt_bytes i b (by simp [e])
      rw [e] at h
      simp only [List.cons_append, List.cons.injEq] at h
      exact digit_no_stop b this (by simp [h.1])
  have ident : ∀ {bs : Bytes}, IdentBytes bs → ∀ x y, bs ++ x ≠ 93#8 :: y := fun {bs} hb x y h => by
    cases bs with
    | nil => exact hb.1 rfl
    | cons b bs =>
      have := hb.2 b (by simp)
      simp only [List.cons_append, List.cons.injEq] at h
      rw [h.1] at this
      revert this
      decide
  induction hv generalizing m x y with
  | bool b => rw [textAt]; cases b <;> simp [debugBool]
  | i8 z => rw [textAt]; exact int _ _ _
  | i16 z => rw [textAt]; exact int _ _ _
  | i32 z => rw [textAt]; exact int _ _ _
  | i64 z => rw [textAt]; exact int _ _ _
  | double z =>
    rw [textAt]
    intro h
    cases e : s.f64 z with
    | nil => exact hs.ne z e
    | cons b bs =>
      have := hs.bytes z b (by simp [e])
      rw [e] at h
      simp only [List.cons_append, List.cons.injEq] at h
      rw [h.1] at this
      revert this
      decide
  | binary bs => rw [textAt, listAt]; split <;> simp
  | string bs h => rw [textAt, debugStr]; simp
  | encodingSet mask h => rw [textAt, listAt]; split <;> simp
  | list t vs h ih => rw [textAt, listAt]; split <;> simp
  | none t => rw [textAt]; simp
  | some t v h ih => rw [textAt, tupleAt]; simp
  | box t v h ih => rw [textAt]; exact ih m x y
  | rc t sh v h ih => rw [textAt]; exact ih m x y
  | enum k name z hk => rw [textAt, hk]; simp only [tupleAt, List.append_assoc]; exact ident (named hk) _ _
  | union k name us i u v hk hu h ih =>
    rw [textAt, hk]; simp only []; rw [hu]; simp only [tupleAt, List.append_assoc]
    exact ident ((named hk).2.1 u (List.mem_of_getElem? hu)) _ _
  | struct k name fs vs hk hl h ih =>
    rw [textAt, hk]; simp only [structAt]
    split
    · exact ident (named hk).1 _ _
    · simp only [List.append_assoc]; exact ident (named hk).1 _ _

theorem fields_cut (m m' : Mode) {fs : List Field} {vs ws : List Val} (hv : vs.length = fs.length) (hw : ws.length = fs.length)
    (he : ∀ (i : Nat) (f : Field) (v w : Val), fs[i]? = some f → vs[i]? = some v → ws[i]? = some w → ∀ {r r' : Bytes}, Stop r → Stop r' →
      textAt s env m f.rustTy v ++ r = textAt s env m f.rustTy w ++ r' → visible v = visible w ∧ r = r') {r r' : Bytes} (hr : Stop r) (hr' : Stop r')
    (h : joinTexts (sep m') ((fieldsAt s env m fs vs).map fun f => f.1 ++ ascii! ": " ++ f.2) ++ r = joinTexts (sep m') ((fieldsAt s env m fs ws).map fun f => f.1 ++ ascii! ": " ++ f.2) ++ r') :
    visibleAll vs = visibleAll ws ∧ r = r' := by
  induction fs generalizing vs ws with
  | nil =>
    obtain rfl : vs = [] := List.eq_nil_of_length_eq_zero hv
    obtain rfl : ws = [] := List.eq_nil_of_length_eq_zero hw
    exact ⟨rfl, h⟩
  | cons f fs ih =>
    cases vs with
    | nil => cases hv
    | cons v vs =>
      cases ws with
      | nil => cases hw
      | cons w ws =>
        have h0 := @he 0 f v w rfl rfl rfl
        simp only [List.length_cons, Nat.add_right_cancel_iff] at hv hw
        cases fs with
        | nil =>
          obtain rfl : vs = [] := List.eq_nil_of_length_eq_zero hv
          obtain rfl : ws = [] := List.eq_nil_of_length_eq_zero hw
          simp only [fieldsAt, List.map_cons, List.map_nil, joinTexts, List.append_assoc, List.append_cancel_left_eq] at h
          obtain ⟨h1, h2⟩ := h0 hr hr' h
          exact ⟨by simp [visibleAll, h1], h2⟩
        | cons g fs =>
          cases vs with
          | nil => cases hv
          | cons v' vs =>
            cases ws with
            | nil => cases hw
            | cons w' ws =>
              have ih' := ih (vs := v' :: vs) (ws := w' :: ws) hv hw fun i f v w h1 h2 h3 => he (i + 1) f v w (by simpa using h1) (by simpa using h2) (by simpa using h3)
              simp only [fieldsAt, List.map_cons, joinTexts_cons, List.append_assoc, List.append_cancel_left_eq] at h ih'
              obtain ⟨h1, h2⟩ := h0 (sep_stop m' _) (sep_stop m' _) h
              obtain ⟨h3, h4⟩ := ih' (List.append_cancel_left h2)
              exact ⟨by rw [visibleAll, h1, h3]; rfl, h4⟩

theorem text_cut (hs : StdOk s) (hn : ∀ d ∈ env, DefNamesOk d) {v : Val} {t : Ty} (hv : HasTy env v t) : ∀ {w : Val}, HasTy env w t → ∀ (m : Mode) {r r' : Bytes}, Stop r → Stop r' →
    textAt s env m t v ++ r = textAt s env m t w ++ r' → visible v = visible w ∧ r = r' := by
  have named : ∀ {k : Nat} {d : Def}, env[k]? = some d → DefNamesOk d := fun h => hn _ (List.mem_of_getElem? h)
  induction hv with
  | bool b =>
    intro w hw m r r' hr hr' h
    cases hw with
    | bool c => rw [textAt, textAt] at h; cases b <;> cases c <;> simp [debugBool] at h <;> simp [visible, h]
  | i8 x =>
    intro w hw m r r' hr hr' h
    cases hw with
    | i8 y =>
      rw [textAt, textAt] at h
      obtain ⟨h1, h2⟩ := int_cut hr hr' h
      exact ⟨by rw [BitVec.toInt_inj.1 h1], h2⟩
  | i16 x =>
    intro w hw m r r' hr hr' h
    cases hw with
    | i16 y =>
      rw [textAt, textAt] at h
      obtain ⟨h1, h2⟩ := int_cut hr hr' h
      exact ⟨by rw [BitVec.toInt_inj.1 h1], h2⟩
  | i32 x =>
    intro w hw m r r' hr hr' h
    cases hw with
    | i32 y =>
      rw [textAt, textAt] at h
      obtain ⟨h1, h2⟩ := int_cut hr hr' h
      exact ⟨by rw [BitVec.toInt_inj.1 h1], h2⟩
  | i64 x =>
    intro w hw m r r' hr hr' h
    cases hw with
    | i64 y =>
      rw [textAt, textAt] at h
      obtain ⟨h1, h2⟩ := int_cut hr hr' h
      exact ⟨by rw [BitVec.toInt_inj.1 h1], h2⟩
  | double x =>
    intro w hw m r r' hr hr' h
    cases hw with
    | double y =>
      rw [textAt, textAt] at h
      obtain ⟨h1, h2⟩ := cut_stop (p := fun b => IdentByte b ∨ b = 46#8 ∨ b = 45#8) (by rintro b hb (rfl | rfl | rfl | rfl) <;> revert hb <;> decide) (hs.bytes x) (hs.bytes y) hr hr' h
      refine ⟨?_, h2⟩
      rcases hs.inj x y h1 with rfl | ⟨h3, h4⟩
      · rfl
      · simp [visible, h3, h4]
  | binary bs =>
    intro w hw m r r' hr hr' h
    cases hw with
    | binary cs =>
      rw [textAt, textAt] at h
      obtain ⟨h1, h2⟩ := list_cut m (text := fun b : Byte => decimal b.toNat) (key := BitVec.toNat) (fun a _ x y h => by
          exact absurd h.symm (decimal_head (by unfold Digit; decide))) (fun a _ b _ r r' hr hr' h => nat_cut hr hr' h) h
      have : bs = cs := List.map_inj_right (fun a b h => BitVec.eq_of_toNat_eq h) |>.1 h1
      exact ⟨by rw [this], h2⟩
  | string bs hb =>
    intro w hw m r r' hr hr' h
    cases hw with
    | string cs hc =>
      rw [textAt, textAt] at h
      obtain ⟨h1, h2⟩ := str_cut s hb hc h
      exact ⟨by rw [h1], h2⟩
  | encodingSet mask _ =>
    intro w hw m r r' hr hr' h
    cases hw with
    | encodingSet mask' _ =>
      rw [textAt, textAt] at h
      obtain ⟨h1, h2⟩ := list_cut m (text := fun x : BitVec 32 => tupleAt m.next (ascii! "Encoding") (decimalInt x.toInt)) (key := BitVec.toInt) (fun a _ x y h => by
          simp [tupleAt] at h) (fun a _ b _ r r' hr hr' h => by
          obtain ⟨h1, h2⟩ := tuple_cut h (fun hq hq' h => (int_cut hq hq' h).2)
          exact ⟨decimalInt_inj h2, h1⟩) h
      exact ⟨by rw [iter_inj h1], h2⟩
  | list t vs _ ih =>
    intro w hw m r r' hr hr' h
    cases hw with
    | list _ ws hws =>
      rename_i hvs
      rw [textAt, textAt, textsAt_eq, textsAt_eq] at h
      obtain ⟨h1, h2⟩ := list_cut m (text := textAt s env m.next t) (key := visible) (fun a ha x y => text_head hs hn (ha.elim (hvs a) (hws a)) _ _ _)
        (fun a ha b hb r r' hr hr' h => ih a ha (hws b hb) _ hr hr' h) h
      exact ⟨by rw [visible, visible, visibleAll_eq, visibleAll_eq, h1], h2⟩
  | none t =>
    intro w hw m r r' hr hr' h
    cases hw with
    | none => rw [textAt] at h; exact ⟨rfl, List.append_cancel_left h⟩
    | some _ v hv => rw [textAt, textAt, tupleAt] at h; simp at h
  | some t v _ ih =>
    intro w hw m r r' hr hr' h
    cases hw with
    | none => rw [textAt, textAt, tupleAt] at h; simp at h
    | some _ w hw =>
      rw [textAt, textAt] at h
      simp only [tupleAt, List.append_assoc, List.append_cancel_left_eq] at h
      obtain ⟨h1, h2⟩ := ih hw _ (tuple_stop m _) (tuple_stop m _) h
      exact ⟨by rw [visible, h1]; rfl, List.append_cancel_left (List.append_cancel_left h2)⟩
  | box t v _ ih =>
    intro w hw m r r' hr hr' h
    cases hw with
    | box _ w hw =>
      rw [textAt, textAt] at h
      obtain ⟨h1, h2⟩ := ih hw m hr hr' h
      exact ⟨by rw [visible, h1]; rfl, h2⟩
  | rc t sh v _ ih =>
    intro w hw m r r' hr hr' h
    cases hw with
    | rc _ sh' w hw =>
      rw [textAt, textAt] at h
      obtain ⟨h1, h2⟩ := ih hw m hr hr' h
      exact ⟨by rw [visible, h1]; rfl, h2⟩
  | enum k name x hk =>
    intro w hw m r r' hr hr' h
    cases hw with
    | enum _ name' y hk' =>
      rw [textAt, textAt, hk] at h
      obtain ⟨h1, h2⟩ := tuple_cut h (fun hq hq' h => (int_cut hq hq' h).2)
      exact ⟨by rw [BitVec.toInt_inj.1 (decimalInt_inj h2)], h1⟩
    | struct _ name' fs ws hk' _ _ => rw [hk] at hk'; cases hk'
    | union _ name' us i u w hk' _ _ => rw [hk] at hk'; cases hk'
  | struct k name fs vs hk hl _ ih =>
    intro w hw m r r' hr hr' h
    cases hw with
    | enum _ name' y hk' => rw [hk] at hk'; cases hk'
    | union _ name' us i u w hk' _ _ => rw [hk] at hk'; cases hk'
    | struct _ name' fs' ws hk' hl' hws =>
      rw [hk] at hk'
      cases hk'
      rw [textAt, textAt, hk] at h
      simp only [structAt] at h
      cases fs with
      | nil =>
        obtain rfl : vs = [] := List.eq_nil_of_length_eq_zero hl
        obtain rfl : ws = [] := List.eq_nil_of_length_eq_zero hl'
        exact ⟨rfl, List.append_cancel_left h⟩
      | cons f fs =>
        have ne : ∀ us : List Val, us.length = (f :: fs).length → (fieldsAt s env m.next (f :: fs) us).isEmpty = false := by
          intro us hu; cases us with
          | nil => cases hu
          | cons u us => rw [fieldsAt]; rfl
        rw [ne vs hl, ne ws hl'] at h
        simp only [Bool.false_eq_true, if_false, List.append_assoc, List.append_cancel_left_eq] at h
        have h' := fields_cut (m := m.next) m hl hl' (fun i f v w h1 h2 h3 r r' hr hr' h => ih i f v h1 h2 (hws i f w h1 h3) _ hr hr' h) (struct_stop m _) (struct_stop m _)
          (by simpa only [List.append_assoc] using h)
        exact ⟨by rw [visible, h'.1]; rfl, List.append_cancel_left (List.append_cancel_left h'.2)⟩
  | union k name us i u v hk hu _ ih =>
    intro w hw m r r' hr hr' h
    cases hw with
    | enum _ name' y hk' => rw [hk] at hk'; cases hk'
    | struct _ name' fs ws hk' _ _ => rw [hk] at hk'; cases hk'
    | union _ name' us' j u' w hk' hu' hw =>
      rw [hk] at hk'
      cases hk'
      rw [textAt, textAt, hk] at h
      simp only [] at h
      rw [hu, hu'] at h
      simp only [] at h
      obtain ⟨_, hI, hN⟩ := named hk
      have hnames := h
      simp only [tupleAt, List.append_assoc, List.cons_append, List.nil_append] at hnames
      have hc := (cut (p := IdentByte) (hI u (List.mem_of_getElem? hu)).2 (hI u' (List.mem_of_getElem? hu')).2 (by decide) (by decide) hnames).1
      have hij : i = j := by
        have h1 : (us.map fun u => identText u.name)[i]? = some (identText u.name) := by rw [List.getElem?_map, hu]; rfl
        have h2 : (us.map fun u => identText u.name)[j]? = some (identText u.name) := by rw [List.getElem?_map, hu', hc]; rfl
        obtain ⟨hi, h1⟩ := List.getElem?_eq_some_iff.1 h1
        obtain ⟨hj, h2⟩ := List.getElem?_eq_some_iff.1 h2
        have hP := List.pairwise_iff_getElem.1 hN
        rcases Nat.lt_trichotomy i j with hlt | heq | hgt
        · exact absurd (h1.trans h2.symm) (hP i j hi hj hlt)
        · exact heq
        · exact absurd (h2.trans h1.symm) (hP j i hj hi hgt)
      subst hij
      rw [hu] at hu'
      cases hu'
      simp only [tupleAt, List.append_assoc, List.append_cancel_left_eq] at h
      obtain ⟨h1, h2⟩ := ih hw _ (tuple_stop m _) (tuple_stop m _) h
      exact ⟨by rw [visible, h1]; rfl, List.append_cancel_left (List.append_cancel_left h2)⟩

/-- **C98** Values of the same type with the same text, from `{:?}` or from `{:#?}`, are the same, but for the sharing of `Rc`s and which NaN a number is. -/
theorem C98_text (hs : StdOk s) (hn : ∀ d ∈ env, DefNamesOk d) {t : Ty} {v w : Val} (hv : HasTy env v t) (hw : HasTy env w t) {alt : Bool}
    (h : debugVal s env alt t v = debugVal s env alt t w) : visible v = visible w := by
  cases alt
  · rw [(deep hs hn hv).flat, (deep hs hn hw).flat] at h
    exact (text_cut hs hn hv hw none .nil .nil (by simpa using h)).1
  · rw [(deep hs hn hv).top, (deep hs hn hw).top] at h
    exact (text_cut hs hn hv hw (some 0) .nil .nil (by simpa using h)).1

/-! ## One line -/

/-- No control character -/
def Quiet1 (b : Byte) : Prop := 32 ≤ b.toNat

instance (b : Byte) : Decidable (Quiet1 b) := by unfold Quiet1; infer_instance

theorem quiet_ident {bs : Bytes} (h : IdentBytes bs) : ∀ b ∈ bs, Quiet1 b := fun b hb => by
  have := h.2 b hb
  unfold IdentByte at this
  unfold Quiet1
  omega

theorem quiet_visible {bs : Bytes} (h : ∀ b ∈ bs, Visible b) : ∀ b ∈ bs, Quiet1 b := fun b hb => (h b hb).1

theorem quiet_join {p : Bytes} (hp : ∀ b ∈ p, Quiet1 b) : ∀ {xs : List Bytes}, (∀ x ∈ xs, ∀ b ∈ x, Quiet1 b) → ∀ b ∈ joinTexts p xs, Quiet1 b
  | [], _ => by simp [joinTexts]
  | [x], h => h x (by simp)
  | x :: y :: xs, h => by
    rw [joinTexts_cons]
    exact forall_append (forall_append (h x (by simp)) hp) (quiet_join hp fun z hz => h z (by simp [hz]))

theorem quiet_list {es : List Bytes} (h : ∀ x ∈ es, ∀ b ∈ x, Quiet1 b) : ∀ b ∈ listAt none es, Quiet1 b := by
  unfold listAt
  split
  · decide
  · exact forall_append (forall_append (forall_append (forall_append (by decide) (by decide)) (quiet_join (by decide) h)) (by decide)) (by decide)

theorem quiet_tuple {name x : Bytes} (hn : ∀ b ∈ name, Quiet1 b) (h : ∀ b ∈ x, Quiet1 b) : ∀ b ∈ tupleAt none name x, Quiet1 b :=
  forall_append (forall_append (forall_append (forall_append (forall_append hn (by decide)) (by decide)) h) (by decide)) (by decide)

theorem quiet_struct {name : Bytes} {fs : List (Bytes × Bytes)} (hn : ∀ b ∈ name, Quiet1 b) (h : ∀ f ∈ fs, (∀ b ∈ f.1, Quiet1 b) ∧ ∀ b ∈ f.2, Quiet1 b) :
    ∀ b ∈ structAt none name fs, Quiet1 b := by
  unfold structAt
  split
  · exact hn
  · refine forall_append (forall_append (forall_append (forall_append (forall_append hn (by decide)) (by decide)) (quiet_join (by decide) ?_)) (by decide)) (by decide)
    intro x hx
    obtain ⟨f, hf, rfl⟩ := List.mem_map.1 hx
    exact forall_append (forall_append (h f hf).1 (by decide)) (h f hf).2

theorem quiet_escape (hp : ∀ n, n < 32 → s.plain n = false) {n : Nat} (h : IsScalar n) : ∀ b ∈ escapeDebug s n (utf8 n), Quiet1 b := by
  unfold escapeDebug
  iterate 6 (split; · decide)
  split
  · rename_i hpl
    rcases utf8_bytes h with ⟨h1, h2⟩ | ⟨h1, h2⟩
    · rw [h2]
      intro b hb
      obtain rfl : b = _ := by simpa using hb
      unfold Quiet1
      rw [BitVec.toNat_ofNat]
      by_cases h32 : n < 32
      · rw [hp n h32] at hpl; cases hpl
      · omega
    · intro b hb
      have := h2 b hb
      unfold Quiet1
      omega
  · refine forall_append (forall_append (by decide) ?_) (by decide)
    intro b hb
    have := hex_bytes n b hb
    unfold Quiet1
    omega

/-- **C98** The text from `{:?}` is one line without control characters, whatever strings the value contains (if control characters are not shown as they are). -/
theorem C98_line (hs : StdOk s) (hp : ∀ n, n < 32 → s.plain n = false) (hn : ∀ d ∈ env, DefNamesOk d) {t : Ty} {v : Val} (hv : HasTy env v t) :
    ∀ b ∈ debugVal s env false t v, 32 ≤ b.toNat := by
  rw [(deep hs hn hv).flat]
  show ∀ b ∈ textAt s env none t v, Quiet1 b
  have named : ∀ {k : Nat} {d : Def}, env[k]? = some d → DefNamesOk d := fun h => hn _ (List.mem_of_getElem? h)
  have int : ∀ i : Int, ∀ b ∈ decimalInt i, Quiet1 b := fun i => quiet_visible (decimalInt_visible i)
  induction hv with
  | bool b => rw [textAt]; cases b <;> decide
  | i8 x => rw [textAt]; exact int _
  | i16 x => rw [textAt]; exact int _
  | i32 x => rw [textAt]; exact int _
  | i64 x => rw [textAt]; exact int _
  | double x =>
    rw [textAt]
    intro b hb
    have := hs.bytes x b hb
    rcases this with h | rfl | rfl
    · unfold IdentByte at h; unfold Quiet1; omega
    · decide
    · decide
  | binary bs =>
    rw [textAt]
    refine quiet_list ?_
    intro x hx
    obtain ⟨b, _, rfl⟩ := List.mem_map.1 hx
    exact quiet_visible (decimal_visible _)
  | string bs h =>
    rw [textAt]
    obtain ⟨ns, hns, rfl, e⟩ := debugStr_eq s h
    rw [e]
    refine forall_append (forall_append (by decide) ?_) (by decide)
    intro b hb
    obtain ⟨n, hn, hb⟩ := List.mem_flatMap.1 hb
    exact quiet_escape hp (hns n hn) b hb
  | encodingSet mask h =>
    rw [textAt]
    refine quiet_list ?_
    intro x hx
    obtain ⟨b, _, rfl⟩ := List.mem_map.1 hx
    exact quiet_tuple (by decide) (int _)
  | list t vs h ih =>
    rw [textAt, textsAt_eq]
    refine quiet_list ?_
    intro x hx
    obtain ⟨v, hv, rfl⟩ := List.mem_map.1 hx
    exact ih v hv
  | none t => rw [textAt]; decide
  | some t v h ih => rw [textAt]; exact quiet_tuple (by decide) ih
  | box t v h ih => rw [textAt]; exact ih
  | rc t sh v h ih => rw [textAt]; exact ih
  | enum k name x hk => rw [textAt, hk]; exact quiet_tuple (quiet_ident (named hk)) (int _)
  | union k name us i u v hk hu h ih =>
    rw [textAt, hk]; simp only []; rw [hu]
    exact quiet_tuple (quiet_ident ((named hk).2.1 u (List.mem_of_getElem? hu))) ih
  | struct k name fs vs hk hl h ih =>
    rw [textAt, hk]
    refine quiet_struct (quiet_ident (named hk).1) ?_
    intro f hf
    obtain ⟨i, g, v, h1, h2, rfl⟩ := mem_fieldsAt hf
    exact ⟨quiet_ident ((named hk).2 g (List.mem_of_getElem? h1)), ih i g v h1 h2⟩

/-- ASCII letters, digits and underscores -/
def nameOk (s : String) : Bool := let cs := s.toList; !cs.isEmpty && cs.all fun c => c.isAlphanum || c == '_'

theorem alphanum_byte {c : Char} (h : (c.isAlphanum || c == '_') = true) : c.toNat < 128 ∧ IdentByte (BitVec.ofNat 8 c.toNat) := by
  have hc : (48 ≤ c.toNat ∧ c.toNat ≤ 57) ∨ (65 ≤ c.toNat ∧ c.toNat ≤ 90) ∨ c.toNat = 95 ∨ (97 ≤ c.toNat ∧ c.toNat ≤ 122) := by
    simp only [Char.isAlphanum, Char.isAlpha, Char.isUpper, Char.isLower, Char.isDigit, Bool.or_eq_true, Bool.and_eq_true, decide_eq_true_iff, beq_iff_eq] at h
    simp only [UInt32.le_iff_toNat_le] at h
    unfold Char.toNat
    rcases h with ((h | h) | h) | rfl
    · have h1 : (65 : UInt32).toNat ≤ c.val.toNat := h.1
      have h2 : c.val.toNat ≤ (90 : UInt32).toNat := h.2
      exact .inr (.inl ⟨h1, h2⟩)
    · have h1 : (97 : UInt32).toNat ≤ c.val.toNat := h.1
      have h2 : c.val.toNat ≤ (122 : UInt32).toNat := h.2
      exact .inr (.inr (.inr ⟨h1, h2⟩))
    · have h1 : (48 : UInt32).toNat ≤ c.val.toNat := h.1
      have h2 : c.val.toNat ≤ (57 : UInt32).toNat := h.2
      exact .inl ⟨h1, h2⟩
    · exact .inr (.inr (.inl (by decide)))
  refine ⟨by omega, ?_⟩
  unfold IdentByte
  rw [BitVec.toNat_ofNat]
  omega

theorem identText_ok {s : String} (h : nameOk s = true) : identText s = s.toList.map fun c => BitVec.ofNat 8 c.toNat := by
  simp only [nameOk, Bool.and_eq_true, List.all_eq_true] at h
  have hr : ¬ (s.toList.take 2 = ['r', '#']) := fun e => by
    have : '#' ∈ s.toList := List.mem_of_mem_take (by rw [e]; decide : '#' ∈ s.toList.take 2)
    exact absurd (h.2 _ this) (by decide)
  simp only [identText, if_neg hr]
  have : ∀ cs : List Char, (∀ c ∈ cs, (c.isAlphanum || c == '_') = true) → (cs.flatMap fun c => (String.utf8EncodeChar c).map UInt8.toBitVec) = cs.map fun c => BitVec.ofNat 8 c.toNat := by
    intro cs
    induction cs with
    | nil => intro _; rfl
    | cons c cs ih =>
      intro hc
      rw [List.flatMap_cons, ih fun d hd => hc d (by simp [hd]), C07_spec_agrees, utf8, if_pos (alphanum_byte (hc c (by simp))).1]
      rfl
  exact this _ h.2

theorem nameOk_ident {s : String} (h : nameOk s = true) : IdentBytes (identText s) := by
  rw [identText_ok h]
  simp only [nameOk, Bool.and_eq_true, List.all_eq_true] at h
  refine ⟨by simpa using h.1, fun b hb => ?_⟩
  obtain ⟨c, hc, rfl⟩ := List.mem_map.1 hb
  exact (alphanum_byte (h.2 c hc)).2

theorem identText_inj {s t : String} (hs : nameOk s = true) (ht : nameOk t = true) (h : identText s = identText t) : s = t := by
  rw [identText_ok hs, identText_ok ht] at h
  simp only [nameOk, Bool.and_eq_true, List.all_eq_true] at hs ht
  have : ∀ cs ds : List Char, (∀ c ∈ cs, (c.isAlphanum || c == '_') = true) → (∀ c ∈ ds, (c.isAlphanum || c == '_') = true) →
      (cs.map fun c => BitVec.ofNat 8 c.toNat) = (ds.map fun c => BitVec.ofNat 8 c.toNat) → cs = ds := by
    intro cs
    induction cs with
    | nil => intro ds _ _ h; cases ds with
      | nil => rfl
      | cons => cases h
    | cons c cs ih =>
      intro ds hc hd h
      cases ds with
      | nil => cases h
      | cons d ds =>
        simp only [List.map_cons, List.cons.injEq] at h
        have h1 := (alphanum_byte (hc c (by simp))).1
        have h2 := (alphanum_byte (hd d (by simp))).1
        have h3 := congrArg BitVec.toNat h.1
        rw [BitVec.toNat_ofNat, BitVec.toNat_ofNat] at h3
        have h4 : c.toNat = d.toNat := by omega
        rw [ih ds (fun e he => hc e (by simp [he])) (fun e he => hd e (by simp [he])) h.2, Char.ext (UInt32.toNat_inj.1 h4)]
  exact String.toList_inj.1 (this _ _ hs.2 ht.2 h)

/-- The names of format.rs are identifiers. -/
theorem format_names : ∀ d ∈ Format.parquetEnv, DefNamesOk d := by
  have : (Format.parquetEnv.all fun d => match d with
    | .struct name fs => nameOk name && fs.all fun f => nameOk f.name
    | .union name us => nameOk name && us.all (fun f => nameOk f.name) && decide (us.map (·.name)).Nodup
    | .enum name => nameOk name) = true := by decide +kernel
  rw [List.all_eq_true] at this
  intro d hd
  have := this d hd
  cases d <;> simp only [Bool.and_eq_true, decide_eq_true_iff, List.all_eq_true] at this
  · exact ⟨nameOk_ident this.1, fun f hf => nameOk_ident (this.2 f hf)⟩
  · obtain ⟨⟨h1, h2⟩, h3⟩ := this
    refine ⟨nameOk_ident h1, fun u hu => nameOk_ident (h2 u hu), ?_⟩
    rw [List.Nodup, List.pairwise_map] at h3 ⊢
    exact h3.imp_of_mem fun {a b} ha hb hne he => hne (identText_inj (h2 a ha) (h2 b hb) he)
  · exact nameOk_ident this

/-- **C98** For the types of format.rs: what `examples/dump.rs` prints determines the metadata. -/
theorem C98_format (hs : StdOk s) {t : Ty} {v w : Val} (hv : HasTy Format.parquetEnv v t) (hw : HasTy Format.parquetEnv w t) {alt : Bool}
    (h : debugVal s Format.parquetEnv alt t v = debugVal s Format.parquetEnv alt t w) : visible v = visible w :=
  C98_text hs format_names hv hw h

/-- A simple choice of what is left open -/
def plainStd : DebugStd := ⟨fun n => decide (32 ≤ n ∧ n < 127), fun x => if f64Num x = none then ascii! "NaN" else decimal x.toNat⟩

/-- It meets the conditions. -/
theorem plainStd_ok : StdOk plainStd where
  ne x := by
    simp only [plainStd]
    split
    · decide
    · exact decimal_ne_nil _
  bytes x := by
    simp only [plainStd]
    split
    · decide
    · exact fun b hb => .inl (.inl (decimal_digits _ b hb))
  inj x y := by
    have ne : ∀ n, ascii! "NaN" ≠ decimal n := fun n h => by
      have := decimal_digits n 78#8 (by rw [← h]; decide)
      revert this; unfold Digit; decide
    simp only [plainStd]
    intro h
    split at h <;> split at h
    · exact .inr ⟨by assumption, by assumption⟩
    · exact absurd h (ne _)
    · exact absurd h.symm (ne _)
    · exact .inl (BitVec.eq_of_toNat_eq (decimal_inj h))

set_option maxRecDepth 8000 in
/-- A struct in both forms -/
example : debugVal plainStd [.struct "A" [⟨1, true, "x", .i32⟩, ⟨2, false, "y", .list (.named 1)⟩, ⟨3, true, "s", .string⟩], .enum "E"] false (.named 0)
      (.struct [.i32 5, .some (.list [.enum 1, .enum 2]), .string [10#8, 34#8, 97#8]]) =
    ascii! "A { x: 5, y: Some([E(1), E(2)]), s: \"\\n\\\"a\" }" ∧
  debugVal plainStd [.struct "A" [⟨1, true, "x", .i32⟩, ⟨2, false, "y", .list (.named 1)⟩, ⟨3, true, "s", .string⟩], .enum "E"] true (.named 0)
      (.struct [.i32 5, .some (.list [.enum 1, .enum 2]), .string [10#8, 34#8, 97#8]]) =
    ascii! "A {\n    x: 5,\n    y: Some(\n        [\n            E(\n                1,\n            ),\n            E(\n                2,\n            ),\n        ],\n    ),\n    s: \"\\n\\\"a\",\n}" := by
  constructor <;> decide +kernel

end CT.Props
