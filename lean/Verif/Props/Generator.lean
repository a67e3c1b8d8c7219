import Verif.Spec.Generator
/-! # C54-C56, C67-C69: the code generator -/
namespace CT.Props
open CT.Gen CT.Gen.Spec

/-! ## C67: integers -/

theorem digitOf_digitChar : ∀ {radix d : Nat}, d < radix → radix ≤ 16 → digitOf radix (digitChar d) = some d := by
  have h : ∀ d : Fin 16, (if '0' ≤ digitChar d ∧ digitChar d ≤ '9' then some ((digitChar d).toNat - 48)
    else if 'a' ≤ digitChar d ∧ digitChar d ≤ 'z' then some ((digitChar d).toNat - 87)
    else if 'A' ≤ digitChar d ∧ digitChar d ≤ 'Z' then some ((digitChar d).toNat - 55)
    else none) = some d.val := by decide
  intro radix d hd hr
  unfold digitOf
  dsimp only
  rw [h ⟨d, by omega⟩, Option.bind_some, if_pos hd]

theorem digitsValue_digits {radix : Nat} (hr : radix ≤ 16) : ∀ (ds : List Nat) (acc : Nat), (∀ d ∈ ds, d < radix) →
    digitsValue radix acc (ds.map digitChar) = some (ds.foldl (fun acc d => acc * radix + d) acc)
  | [], acc, _ => rfl
  | d :: ds, acc, h => by
    rw [List.map_cons, digitsValue, digitOf_digitChar (h d (by simp)) hr]
    exact digitsValue_digits hr ds _ fun d hd => h d (by simp [hd])

theorem magnitude_digits {radix : Nat} (hr : radix ≤ 16) {ds : List Nat} (hne : ds ≠ []) (h : ∀ d ∈ ds, d < radix) :
    magnitude radix (ds.map digitChar) = some (ofDigits radix ds) := by
  unfold magnitude
  rw [if_neg (by simpa using hne)]
  exact digitsValue_digits hr ds 0 h

theorem digitChar_sign : ∀ d : Nat, d < 16 → digitChar d ≠ '-' ∧ digitChar d ≠ '+' := by
  have h : ∀ d : Fin 16, digitChar d ≠ '-' ∧ digitChar d ≠ '+' := by decide
  exact fun d hd => h ⟨d, hd⟩

theorem toInt_absent {radix : Nat} {cs : List Char} (h1 : cs.head? ≠ some '-') (h2 : cs.head? ≠ some '+') :
    toInt radix cs = (magnitude radix cs).bind fun n => if n ≤ 2147483647 then some (BitVec.ofNat 32 n) else none := by
  unfold toInt
  split
  · simp at h1
  · simp at h2
  · rfl

theorem toInt_digits {radix : Nat} (hr : radix ≤ 16) (s : Sign) {ds : List Nat} (hne : ds ≠ []) (h : ∀ d ∈ ds, d < radix) :
    toInt radix (s.text ++ ds.map digitChar) =
      if -2147483648 ≤ s.apply (ofDigits radix ds) ∧ s.apply (ofDigits radix ds) ≤ 2147483647 then some (BitVec.ofInt 32 (s.apply (ofDigits radix ds))) else none := by
  cases s with
  | absent =>
    obtain ⟨d, ds', rfl⟩ := List.exists_cons_of_ne_nil hne
    have hd := digitChar_sign d (by have := h d (by simp); omega)
    show toInt radix ((d :: ds').map digitChar) = _
    rw [toInt_absent (by simpa using hd.1) (by simpa using hd.2), magnitude_digits hr hne h, Option.bind_some]
    have hs : Sign.absent.apply (ofDigits radix (d :: ds')) = ((ofDigits radix (d :: ds') : Nat) : Int) := rfl
    rw [hs]
    split <;> rename_i h1
    · rw [if_pos (by omega)]; rfl
    · rw [if_neg (by omega)]
  | plus =>
    show ((magnitude radix (ds.map digitChar)).bind fun n => if n ≤ 2147483647 then some (BitVec.ofNat 32 n) else none) = _
    rw [magnitude_digits hr hne h, Option.bind_some]
    have hs : Sign.plus.apply (ofDigits radix ds) = ((ofDigits radix ds : Nat) : Int) := rfl
    rw [hs]
    split <;> rename_i h1
    · rw [if_pos (by omega)]; rfl
    · rw [if_neg (by omega)]
  | minus =>
    show ((magnitude radix (ds.map digitChar)).bind fun n => if n ≤ 2147483648 then some (BitVec.ofInt 32 (-n)) else none) = _
    rw [magnitude_digits hr hne h, Option.bind_some]
    have hs : Sign.minus.apply (ofDigits radix ds) = (-(ofDigits radix ds : Nat) : Int) := rfl
    rw [hs]
    split <;> rename_i h1
    · rw [if_pos (by omega)]
    · rw [if_neg (by omega)]

/-- C67: a decimal literal denotes its value if that is an i32, otherwise the generator fails. -/
theorem C67_decimal (s : Sign) {ds : List Nat} (hne : ds ≠ []) (h : ∀ d ∈ ds, d < 10) :
    mapInteger (.dec (s.text ++ ds.map digitChar)) =
      if -2147483648 ≤ s.apply (ofDigits 10 ds) ∧ s.apply (ofDigits 10 ds) ≤ 2147483647 then some (BitVec.ofInt 32 (s.apply (ofDigits 10 ds))) else none :=
  toInt_digits (by omega) s hne h

/-- C67: a hexadecimal literal denotes its value if its magnitude is below 2^31 (so not for -0x80000000), otherwise the generator fails. -/
theorem C67_hex (neg : Bool) {ds : List Nat} (hne : ds ≠ []) (h : ∀ d ∈ ds, d < 16) :
    mapInteger (.hex ((if neg then ['-'] else []) ++ ['0', 'x'] ++ ds.map digitChar)) =
      if ofDigits 16 ds ≤ 2147483647 then some (BitVec.ofInt 32 (if neg then -(ofDigits 16 ds : Int) else ofDigits 16 ds)) else none := by
  have this : toInt 16 (ds.map digitChar) = if ofDigits 16 ds ≤ 2147483647 then some (BitVec.ofInt 32 (ofDigits 16 ds)) else none := by
    have := toInt_digits (radix := 16) (by omega) .absent hne h
    have hs : Sign.absent.apply (ofDigits 16 ds) = ((ofDigits 16 ds : Nat) : Int) := rfl
    rw [hs] at this
    refine Eq.trans this ?_
    split <;> rename_i h1
    · rw [if_pos (by omega)]
    · rw [if_neg (by omega)]
  cases neg with
  | false =>
    show (toInt 16 (ds.map digitChar)).map (fun value => if False then -value else value) = _
    rw [this]
    by_cases h1 : ofDigits 16 ds ≤ 2147483647
    · rw [if_pos h1, if_pos h1]; rfl
    · rw [if_neg h1, if_neg h1]; rfl
  | true =>
    show (toInt 16 (ds.map digitChar)).map (fun value => -value) = _
    rw [this]
    by_cases h1 : ofDigits 16 ds ≤ 2147483647
    · rw [if_pos h1, if_pos h1, Option.map_some, if_pos rfl, BitVec.ofInt_neg]
    · rw [if_neg h1, if_neg h1]; rfl

/-- `-0x1F` and `+12`. -/
example : mapInteger (.hex "-0x1F".toList) = some (-31) ∧ mapInteger (.dec "+12".toList) = some 12 ∧ mapInteger (.dec "2147483648".toList) = none := by decide

/-! ## C54: field ids -/

/-- The ids fields get: `v + k` for the `k`-th field without an id after one with the id `v`; counting starts with 0. -/
theorem C54_ids : ∀ (cs : List FieldCtx) (cur : BitVec 32) (fs : List Field), mapFields cur cs = some fs →
    fs.length = cs.length ∧ ∀ (i : Nat) (f : Field), fs[i]? = some f →
      (∃ (j : Nat) (c : FieldCtx) (ic : IntegerCtx) (v : BitVec 32), j ≤ i ∧ cs[j]? = some c ∧ c.fieldId = some ic ∧ mapInteger ic = some v ∧
        (∀ (k : Nat) (c' : FieldCtx), j < k → k ≤ i → cs[k]? = some c' → c'.fieldId = none) ∧ f.id = v + BitVec.ofNat 32 (i - j)) ∨
      ((∀ (k : Nat) (c' : FieldCtx), k ≤ i → cs[k]? = some c' → c'.fieldId = none) ∧ f.id = cur + BitVec.ofNat 32 (i + 1))
  | [], cur, fs, h => by cases h; simp
  | c :: cs, cur, fs, h => by
    rw [mapFields] at h
    cases hm : mapField cur c with
    | none => rw [hm] at h; cases h
    | some f0 =>
      rw [hm] at h
      cases hs : mapFields f0.id cs with
      | none => rw [Option.bind_some, hs] at h; cases h
      | some fs' =>
        rw [Option.bind_some, hs] at h
        cases h
        obtain ⟨hl, ih⟩ := C54_ids cs f0.id fs' hs
        refine ⟨by simp [hl], fun i f hf => ?_⟩
        unfold mapField at hm
        match i with
        | 0 =>
          simp at hf; subst hf
          cases hc : c.fieldId with
          | none =>
            rw [hc] at hm; cases hm
            refine .inr ⟨fun k c' hk hc' => ?_, rfl⟩
            obtain rfl : k = 0 := by omega
            simp at hc'; subst hc'; exact hc
          | some ic =>
            rw [hc] at hm
            cases hv : mapInteger ic with
            | none => simp [hv] at hm
            | some v =>
              simp [hv] at hm; subst hm
              exact .inl ⟨0, c, ic, v, by omega, rfl, hc, hv, fun k c' h1 h2 => by omega, by simp⟩
        | i + 1 =>
          rw [List.getElem?_cons_succ] at hf
          rcases ih i f hf with ⟨j, c', ic, v, h1, h2, h3, h4, h5, h6⟩ | ⟨h1, h2⟩
          · refine .inl ⟨j + 1, c', ic, v, by omega, h2, h3, h4, fun k c'' hk1 hk2 hk3 => ?_, by rw [h6]; congr 2; omega⟩
            match k with
            | 0 => omega
            | k + 1 => exact h5 k c'' (by omega) (by omega) hk3
          · cases hc : c.fieldId with
            | none =>
              rw [hc] at hm; cases hm
              refine .inr ⟨fun k c' hk hc' => ?_, ?_⟩
              · match k with
                | 0 => simp at hc'; subst hc'; exact hc
                | k + 1 => exact h1 k c' (by omega) hc'
              · rw [h2]
                show cur + 1 + BitVec.ofNat 32 (i + 1) = cur + BitVec.ofNat 32 (i + 1 + 1)
                rw [BitVec.add_assoc]; congr 1
                apply BitVec.eq_of_toNat_eq; simp; omega
            | some ic =>
              rw [hc] at hm
              cases hv : mapInteger ic with
              | none => simp [hv] at hm
              | some v =>
                simp [hv] at hm; subst hm
                refine .inl ⟨0, c, ic, v, by omega, rfl, hc, hv, fun k c' hk1 hk2 hk3 => ?_, by rw [h2]; rfl⟩
                match k with
                | 0 => omega
                | k + 1 => exact h1 k c' (by omega) hk3

/-- C54: as called: the first field without an id gets 0. -/
theorem C54_start {cs : List FieldCtx} (h : mapStructOrUnionFields cs ≠ none) : ∃ fs, mapStructOrUnionFields cs = some (associateBy Field.identifier fs) ∧ fs.length = cs.length ∧
    ∀ (i : Nat) (f : Field), fs[i]? = some f →
      (∃ (j : Nat) (c : FieldCtx) (ic : IntegerCtx) (v : BitVec 32), j ≤ i ∧ cs[j]? = some c ∧ c.fieldId = some ic ∧ mapInteger ic = some v ∧
        (∀ (k : Nat) (c' : FieldCtx), j < k → k ≤ i → cs[k]? = some c' → c'.fieldId = none) ∧ f.id = v + BitVec.ofNat 32 (i - j)) ∨
      ((∀ (k : Nat) (c' : FieldCtx), k ≤ i → cs[k]? = some c' → c'.fieldId = none) ∧ f.id = BitVec.ofNat 32 i) := by
  unfold mapStructOrUnionFields at h ⊢
  cases hm : mapFields (-1) cs with
  | none => rw [hm] at h; exact absurd rfl h
  | some fs =>
    obtain ⟨h1, h2⟩ := C54_ids cs (-1) fs hm
    refine ⟨fs, rfl, h1, fun i f hf => (h2 i f hf).imp id fun h => ⟨h.1, ?_⟩⟩
    rw [h.2]
    apply BitVec.eq_of_toNat_eq
    simp
    omega

/-- C54: everything else is copied. -/
theorem C54_copied : ∀ (cs : List FieldCtx) (cur : BitVec 32) (fs : List Field), mapFields cur cs = some fs →
    fs.map (fun f => (f.identifier, f.type, f.req)) = cs.map fun c => (c.identifier, c.type, c.requirement.getD .DEFAULT)
  | [], cur, fs, h => by cases h; rfl
  | c :: cs, cur, fs, h => by
    rw [mapFields] at h
    cases hm : mapField cur c with
    | none => rw [hm] at h; cases h
    | some f0 =>
      rw [hm] at h
      cases hs : mapFields f0.id cs with
      | none => rw [Option.bind_some, hs] at h; cases h
      | some fs' =>
        rw [Option.bind_some, hs] at h
        cases h
        rw [List.map_cons, List.map_cons, C54_copied cs f0.id fs' hs]
        congr 1
        unfold mapField at hm
        cases hc : c.fieldId with
        | none => rw [hc] at hm; cases hm; rfl
        | some ic =>
          rw [hc] at hm
          cases hv : mapInteger ic with
          | none => simp [hv] at hm
          | some v => simp [hv] at hm; subst hm; rfl

/-- C54: the mapping fails only because of an integer. -/
theorem C54_total : ∀ (cs : List FieldCtx) (cur : BitVec 32), (∃ fs, mapFields cur cs = some fs) ↔ ∀ c ∈ cs, ∀ ic, c.fieldId = some ic → ∃ v, mapInteger ic = some v
  | [], cur => by simp [mapFields]
  | c :: cs, cur => by
    rw [mapFields]
    cases hc : c.fieldId with
    | none =>
      have hm : mapField cur c = some ⟨cur + 1, c.requirement.getD .DEFAULT, c.identifier, c.type⟩ := by unfold mapField; rw [hc]
      rw [hm, Option.bind_some]
      have ih := C54_total cs (cur + 1)
      constructor
      · rintro ⟨fs, h⟩ c' hc' ic hic
        rcases List.mem_cons.1 hc' with rfl | hc'
        · rw [hc] at hic; cases hic
        · obtain ⟨fs', h', _⟩ := Option.map_eq_some_iff.1 h
          exact ih.1 ⟨fs', h'⟩ c' hc' ic hic
      · intro h
        obtain ⟨fs', h'⟩ := ih.2 fun c' hc' => h c' (by simp [hc'])
        exact ⟨_, by rw [h']; rfl⟩
    | some ic =>
      cases hv : mapInteger ic with
      | none =>
        have hm : mapField cur c = none := by unfold mapField; rw [hc]; simp [hv]
        rw [hm]
        constructor
        · rintro ⟨fs, h⟩; cases h
        · intro h; obtain ⟨v, h⟩ := h c (by simp) ic hc; rw [hv] at h; cases h
      | some v =>
        have hm : mapField cur c = some ⟨v, c.requirement.getD .DEFAULT, c.identifier, c.type⟩ := by unfold mapField; rw [hc]; simp [hv]
        rw [hm, Option.bind_some]
        have ih := C54_total cs v
        constructor
        · rintro ⟨fs, h⟩ c' hc' ic' hic
          rcases List.mem_cons.1 hc' with rfl | hc'
          · rw [hc] at hic; cases hic; exact ⟨v, hv⟩
          · obtain ⟨fs', h', _⟩ := Option.map_eq_some_iff.1 h
            exact ih.1 ⟨fs', h'⟩ c' hc' ic' hic
        · intro h
          obtain ⟨fs', h'⟩ := ih.2 fun c' hc' => h c' (by simp [hc'])
          exact ⟨_, by rw [h']; rfl⟩

/-- Ids `a`, `7: b`, `c`, `d`: 0, 7, 8, 9. -/
example : (mapStructOrUnionFields [⟨none, none, "a", .base .I32⟩, ⟨some (.dec ['7']), some .REQUIRED, "b", .base .I32⟩, ⟨none, none, "c", .base .I32⟩,
    ⟨none, some .OPTIONAL, "d", .base .STRING⟩]).map (·.map fun f => f.2.id) = some [0, 7, 8, 9] := by decide

/-! ## C68: duplicate names -/

theorem get?_put {α : Type} (k k' : String) (v : α) : ∀ m : List (String × α), get? k (put k' v m) = if k' = k then some v else get? k m
  | [] => by simp [put, get?]
  | (a, b) :: m => by
    rw [put]
    by_cases h : a = k'
    · subst h
      rw [if_pos rfl, get?, get?]
      split <;> rfl
    · rw [if_neg h, get?, get?_put k k' v m, get?]
      by_cases h2 : a = k
      · subst h2; rw [if_pos rfl, if_neg (Ne.symm h), if_pos rfl]
      · rw [if_neg h2, if_neg h2]

theorem keys_put {α : Type} (k : String) (v : α) : ∀ m : List (String × α), (put k v m).map (·.1) = if k ∈ m.map (·.1) then m.map (·.1) else m.map (·.1) ++ [k]
  | [] => by simp [put]
  | (a, b) :: m => by
    rw [put]
    by_cases h : a = k
    · subst h; simp
    · rw [if_neg h, List.map_cons, keys_put k v m, List.map_cons]
      by_cases hm : k ∈ m.map (·.1)
      · rw [if_pos hm, if_pos (List.mem_cons_of_mem _ hm)]
      · rw [if_neg hm, if_neg (fun h' => (List.mem_cons.1 h').elim (fun h' => h h'.symm) hm)]; rfl

theorem foldl_put_get {α : Type} (key : α → String) (k : String) : ∀ (xs : List α) (m : List (String × α)),
    get? k (xs.foldl (fun m x => put (key x) x m) m) = ((xs.reverse.find? fun x => key x = k).or (get? k m))
  | [], m => by simp
  | x :: xs, m => by
    rw [List.foldl_cons, foldl_put_get key k xs, get?_put, List.reverse_cons, List.find?_append]
    cases hf : xs.reverse.find? (fun x => key x = k) with
    | some y => rfl
    | none =>
      by_cases h : key x = k
      · simp [h]
      · simp [h]

/-- C68: a repeated name silently replaces the earlier definition: what is kept under a name is the last entry with it. -/
theorem C68_last {α : Type} (key : α → String) (xs : List α) (k : String) : get? k (associateBy key xs) = xs.reverse.find? fun x => key x = k := by
  unfold associateBy
  rw [foldl_put_get]
  cases xs.reverse.find? fun x => key x = k <;> rfl

theorem foldl_put_keys {α : Type} (key : α → String) : ∀ (xs : List α) (m : List (String × α)), (m.map (·.1)).Nodup →
    ((xs.foldl (fun m x => put (key x) x m) m).map (·.1)).Nodup ∧
    ∀ k, k ∈ (xs.foldl (fun m x => put (key x) x m) m).map (·.1) ↔ k ∈ m.map (·.1) ∨ k ∈ xs.map key
  | [], m, h => by simp [h]
  | x :: xs, m, h => by
    rw [List.foldl_cons]
    have hn : ((put (key x) x m).map (·.1)).Nodup := by
      rw [keys_put]
      split
      · exact h
      · rename_i hx
        refine List.nodup_append.2 ⟨h, by simp, ?_⟩
        intro a ha b hb
        obtain rfl := List.mem_singleton.1 hb
        rintro rfl
        exact hx ha
    obtain ⟨h1, h2⟩ := foldl_put_keys key xs (put (key x) x m) hn
    refine ⟨h1, fun k => ?_⟩
    rw [h2 k, keys_put]
    split
    · rename_i hx
      constructor
      · rintro (h | h)
        · exact .inl h
        · exact .inr (by simp at h ⊢; exact .inr h)
      · rintro (h | h)
        · exact .inl h
        · rw [List.map_cons] at h
          rcases List.mem_cons.1 h with rfl | h
          · exact .inl hx
          · exact .inr h
    · rw [List.map_cons]
      simp only [List.mem_append, List.mem_cons, List.not_mem_nil, or_false]
      constructor
      · rintro ((h | h) | h)
        · exact .inl h
        · exact .inr (.inl h)
        · exact .inr (.inr h)
      · rintro (h | h | h)
        · exact .inl (.inl h)
        · exact .inl (.inr h)
        · exact .inr h

/-- C68: every name occurs once. -/
theorem C68_keys {α : Type} (key : α → String) (xs : List α) :
    ((associateBy key xs).map (·.1)).Nodup ∧ ∀ k, k ∈ (associateBy key xs).map (·.1) ↔ k ∈ xs.map key := by
  have := foldl_put_keys key xs [] (by simp)
  refine ⟨this.1, fun k => ?_⟩
  have h := this.2 k
  rw [List.map_nil] at h
  exact h.trans ⟨fun h => h.elim (fun h => by cases h) id, .inr⟩

theorem put_append {α : Type} (k : String) (v : α) : ∀ m : List (String × α), k ∉ m.map (·.1) → put k v m = m ++ [(k, v)]
  | [], _ => rfl
  | (a, b) :: m, h => by
    rw [put, if_neg (fun h' => h (by simp [h'])), put_append k v m (fun h' => h (by simp at h' ⊢; exact .inr h'))]; rfl

theorem foldl_put_distinct {α : Type} (key : α → String) : ∀ (xs : List α) (m : List (String × α)), (m.map (·.1) ++ xs.map key).Nodup →
    xs.foldl (fun m x => put (key x) x m) m = m ++ xs.map fun x => (key x, x)
  | [], m, _ => by simp
  | x :: xs, m, h => by
    have hx : key x ∉ m.map (·.1) := fun hx => (List.nodup_append.1 h).2.2 _ hx _ (by simp) rfl
    rw [List.foldl_cons, put_append _ _ _ hx, foldl_put_distinct key xs _ (by simpa using h)]
    simp

/-- C68: with distinct names nothing is lost and the order is kept. -/
theorem C68_distinct {α : Type} (key : α → String) (xs : List α) (h : (xs.map key).Nodup) : (associateBy key xs).map (·.2) = xs := by
  unfold associateBy
  rw [foldl_put_distinct key xs [] (by simpa using h), List.nil_append, List.map_map]
  exact List.map_id _

theorem foldl_put_order {α : Type} (key : α → String) : ∀ (xs : List α) (m : List (String × α)) (ks : List String), m.map (·.1) = ks.eraseDups →
    (xs.foldl (fun m x => put (key x) x m) m).map (·.1) = (ks ++ xs.map key).eraseDups
  | [], m, ks, h => by simpa using h
  | x :: xs, m, ks, h => by
    rw [List.foldl_cons, foldl_put_order key xs _ (ks ++ [key x]), List.append_assoc]; rfl
    rw [keys_put, h, List.eraseDups_append]
    by_cases hx : key x ∈ ks
    · rw [if_pos (List.mem_eraseDups.2 hx)]
      simp [List.removeAll, hx]
    · rw [if_neg (fun h => hx (List.mem_eraseDups.1 h))]
      simp [List.removeAll, hx, List.eraseDups_cons]

/-- C68: the names are in the order of their first occurrences. -/
theorem C68_order {α : Type} (key : α → String) (xs : List α) : (associateBy key xs).map (·.1) = (xs.map key).eraseDups := by
  have := foldl_put_order key xs [] [] rfl
  exact this

/-- Of two fields with one name the first is lost. -/
example : (mapStructOrUnionFields [⟨none, none, "a", .base .I32⟩, ⟨none, none, "b", .base .I32⟩, ⟨none, none, "a", .base .STRING⟩]).map (·.map fun f => (f.1, f.2.id)) =
    some [("a", 2), ("b", 1)] := by decide

/-! ## C55: lifetimes -/

theorem anyField_true {p : FieldType → Option Bool} : ∀ {fs : List Field}, anyField p fs = some true → ∃ f ∈ fs, p f.type = some true
  | [], h => by cases h
  | f :: fs, h => by
    rw [anyField] at h
    split at h
    · cases h
    · rename_i hp; exact ⟨f, by simp, hp⟩
    · obtain ⟨g, hg, h⟩ := anyField_true h
      exact ⟨g, by simp [hg], h⟩

theorem anyField_false {p : FieldType → Option Bool} : ∀ {fs : List Field}, anyField p fs = some false ↔ ∀ f ∈ fs, p f.type = some false
  | [] => by simp [anyField]
  | f :: fs => by
    rw [anyField]
    constructor
    · intro h
      split at h
      · cases h
      · cases h
      · rename_i hp
        intro g hg
        rcases List.mem_cons.1 hg with rfl | hg
        · exact hp
        · exact anyField_false.1 h g hg
    · intro h
      rw [h f (by simp)]
      exact anyField_false.2 fun g hg => h g (by simp [hg])

theorem anyField_some {p : FieldType → Option Bool} : ∀ {fs : List Field}, (∀ f ∈ fs, ∃ b, p f.type = some b) → ∃ b, anyField p fs = some b
  | [], _ => ⟨false, rfl⟩
  | f :: fs, h => by
    obtain ⟨b, hb⟩ := h f (by simp)
    rw [anyField, hb]
    cases b with
    | true => exact ⟨true, rfl⟩
    | false => exact anyField_some fun g hg => h g (by simp [hg])

theorem fieldsOf_mem {document : Document} {name : String} {f : Field} : f ∈ fieldsOf document name ↔
    (∃ k fs g, get? name document = some (.struct k fs) ∧ g ∈ fs ∧ f = g.2) ∨ (∃ k fs g, get? name document = some (.union k fs) ∧ g ∈ fs ∧ f = g.2) := by
  unfold fieldsOf
  cases h : get? name document with
  | none => simp
  | some d =>
    cases d with
    | typedef i t => simp [Definition.typedFields]
    | enum i fs => simp [Definition.typedFields]
    | struct i fs =>
      simp only [Definition.typedFields, List.mem_map]
      constructor
      · rintro ⟨g, hg, rfl⟩; exact .inl ⟨i, fs, g, rfl, hg, rfl⟩
      · rintro (⟨k, fs', g, h, hg, rfl⟩ | ⟨k, fs', g, h, hg, rfl⟩)
        · cases h; exact ⟨g, hg, rfl⟩
        · cases h
    | union i fs =>
      simp only [Definition.typedFields, List.mem_map]
      constructor
      · rintro ⟨g, hg, rfl⟩; exact .inr ⟨i, fs, g, rfl, hg, rfl⟩
      · rintro (⟨k, fs', g, h, hg, rfl⟩ | ⟨k, fs', g, h, hg, rfl⟩)
        · cases h
        · cases h; exact ⟨g, hg, rfl⟩

theorem borrows_named {document : Document} {name : String} : Borrows document (.named name) ↔ ∃ f ∈ fieldsOf document name, Borrows document f.type := by
  constructor
  · intro h
    cases h with
    | struct _ fs k f hd hf h => exact ⟨f.2, fieldsOf_mem.2 (.inl ⟨k, fs, f, hd, hf, rfl⟩), h⟩
    | union _ fs k f hd hf h => exact ⟨f.2, fieldsOf_mem.2 (.inr ⟨k, fs, f, hd, hf, rfl⟩), h⟩
  · rintro ⟨f, hf, h⟩
    rcases fieldsOf_mem.1 hf with ⟨k, fs, g, hd, hg, rfl⟩ | ⟨k, fs, g, hd, hg, rfl⟩
    · exact .struct _ fs k g hd hg h
    · exact .union _ fs k g hd hg h

/-- C55: whenever the analysis of a type returns, its answer is right. -/
theorem C55_field (document : Document) : ∀ (n : Nat) (t : FieldType) (b : Bool), fieldNeedsLifeTime document n t = some b → (b = true ↔ Borrows document t)
  | n, .base bt, b, h => by
    rw [fieldNeedsLifeTime] at h
    cases h
    cases bt <;> simp <;> first | exact .string | exact .binary | (intro h; cases h)
  | 0, .named name, b, h => by rw [fieldNeedsLifeTime] at h; cases h
  | n + 1, .named name, b, h => by
    rw [fieldNeedsLifeTime] at h
    rw [borrows_named]
    cases b with
    | true =>
      obtain ⟨f, hf, h⟩ := anyField_true h
      simp only [true_iff]
      exact ⟨f, hf, (C55_field document n f.type true h).1 rfl⟩
    | false =>
      simp only [Bool.false_eq_true, false_iff]
      rintro ⟨f, hf, hb⟩
      have := (C55_field document n f.type false (anyField_false.1 h f hf)).2 hb
      cases this
  | n, .list t, b, h => by
    rw [fieldNeedsLifeTime] at h
    rw [C55_field document n t b h]
    exact ⟨.list _, fun h => by cases h; assumption⟩
  | n, .set t, b, h => by
    rw [fieldNeedsLifeTime] at h
    rw [C55_field document n t b h]
    exact ⟨.set _, fun h => by cases h; assumption⟩
  | n, .map k v, b, h => by
    rw [fieldNeedsLifeTime] at h
    split at h
    · cases h
    · rename_i hk
      cases h
      simp only [true_iff]
      exact .key _ _ ((C55_field document n k true hk).1 rfl)
    · rename_i hk
      have h1 := C55_field document n k false hk
      have h2 := C55_field document n v b h
      rw [h2]
      constructor
      · exact .value _ _
      · intro hb
        cases hb with
        | key _ _ h => have := h1.2 h; cases this
        | value _ _ h => exact h
termination_by n t => (n, t)

/-- C55: the same for a definition of the document. -/
theorem C55_definition {document : Document} {n : Nat} {name : String} {d : Definition} (hd : get? name document = some d) {b : Bool}
    (h : definitionNeedsLifeTime document n d = some b) : b = true ↔ Borrows document (.named name) := by
  refine C55_field document (n + 1) (.named name) b ?_
  rw [fieldNeedsLifeTime]
  unfold fieldsOf
  rw [hd]
  exact h

/-- The definitions can be ordered so that structs and unions refer only to smaller ones. -/
def Acyclic (document : Document) : Prop := ∃ rank : String → Nat, ∀ a b, Refers document a b → rank b < rank a

theorem terminates_type {document : Document} (rank : String → Nat) {n : Nat} (ih : ∀ name, rank name < n → ∃ b, fieldNeedsLifeTime document n (.named name) = some b) :
    ∀ t : FieldType, (∀ name, Names t name → rank name < n) → ∃ b, fieldNeedsLifeTime document n t = some b
  | .base bt, _ => ⟨_, by rw [fieldNeedsLifeTime]⟩
  | .named name, h => ih name (h name (.named _))
  | .list t, h => by rw [fieldNeedsLifeTime]; exact terminates_type rank ih t fun a ha => h a (.list _ _ ha)
  | .set t, h => by rw [fieldNeedsLifeTime]; exact terminates_type rank ih t fun a ha => h a (.set _ _ ha)
  | .map k v, h => by
    obtain ⟨b1, h1⟩ := terminates_type rank ih k fun a ha => h a (.key _ _ _ ha)
    obtain ⟨b2, h2⟩ := terminates_type rank ih v fun a ha => h a (.value _ _ _ ha)
    rw [fieldNeedsLifeTime, h1]
    cases b1 with
    | true => exact ⟨true, rfl⟩
    | false => exact ⟨b2, h2⟩

theorem terminates_named {document : Document} {rank : String → Nat} (hr : ∀ a b, Refers document a b → rank b < rank a) : ∀ (n : Nat) (name : String), rank name < n →
    ∃ b, fieldNeedsLifeTime document n (.named name) = some b
  | 0, _, h => by omega
  | n + 1, name, h => by
    rw [fieldNeedsLifeTime]
    refine anyField_some fun f hf => ?_
    refine terminates_type rank (terminates_named hr n) f.type fun a ha => ?_
    have := hr name a ⟨f, hf, ha⟩
    omega

/-- C55: without reference cycles the analysis of every type returns. -/
theorem C55_terminates {document : Document} (hac : Acyclic document) (t : FieldType) : ∃ n b, fieldNeedsLifeTime document n t = some b := by
  obtain ⟨rank, hr⟩ := hac
  have hb : ∀ t : FieldType, ∃ n, ∀ name, Names t name → rank name < n := by
    intro t
    induction t with
    | base b => exact ⟨0, fun _ h => by cases h⟩
    | named a => exact ⟨rank a + 1, fun _ h => by cases h; omega⟩
    | set t ih => obtain ⟨n, h⟩ := ih; exact ⟨n, fun a ha => by cases ha; exact h a (by assumption)⟩
    | list t ih => obtain ⟨n, h⟩ := ih; exact ⟨n, fun a ha => by cases ha; exact h a (by assumption)⟩
    | map k v ih1 ih2 =>
      obtain ⟨n, h1⟩ := ih1
      obtain ⟨m, h2⟩ := ih2
      refine ⟨max n m, fun a ha => ?_⟩
      cases ha with
      | key _ _ _ h => have := h1 a h; omega
      | value _ _ _ h => have := h2 a h; omega
  obtain ⟨n, hn⟩ := hb t
  exact ⟨n, terminates_type rank (terminates_named hr n) t hn⟩

/-- C55: so there, the analysis is exact. -/
theorem C55_acyclic {document : Document} (hac : Acyclic document) (t : FieldType) :
    (Borrows document t ∧ ∃ n, fieldNeedsLifeTime document n t = some true) ∨ (¬ Borrows document t ∧ ∃ n, fieldNeedsLifeTime document n t = some false) := by
  obtain ⟨n, b, h⟩ := C55_terminates hac t
  cases b with
  | true => exact .inl ⟨(C55_field document n t true h).1 rfl, n, h⟩
  | false => exact .inr ⟨fun hb => Bool.noConfusion ((C55_field document n t false h).2 hb), n, h⟩

/-! More depth changes nothing. -/

theorem anyField_mono {p q : FieldType → Option Bool} : ∀ {fs : List Field} {b : Bool}, (∀ f ∈ fs, ∀ b, p f.type = some b → q f.type = some b) →
    anyField p fs = some b → anyField q fs = some b
  | [], b, _, h => h
  | f :: fs, b, hpq, h => by
    rw [anyField] at h ⊢
    split at h
    · cases h
    · rename_i hp; cases h; rw [hpq f (by simp) _ hp]
    · rename_i hp; rw [hpq f (by simp) _ hp]; exact anyField_mono (fun g hg => hpq g (by simp [hg])) h

/-- C55: the depth is only a device: a result stays the same with more depth. -/
theorem C55_depth (document : Document) : ∀ (n : Nat) (t : FieldType) (b : Bool), fieldNeedsLifeTime document n t = some b →
    ∀ m, n ≤ m → fieldNeedsLifeTime document m t = some b
  | n, .base bt, b, h, m, _ => by rw [fieldNeedsLifeTime] at h ⊢; exact h
  | 0, .named name, b, h, m, _ => by rw [fieldNeedsLifeTime] at h; cases h
  | n + 1, .named name, b, h, m, hm => by
    obtain ⟨m, rfl⟩ : ∃ k, m = k + 1 := ⟨m - 1, by omega⟩
    rw [fieldNeedsLifeTime] at h ⊢
    exact anyField_mono (fun f hf b h => C55_depth document n f.type b h m (by omega)) h
  | n, .list t, b, h, m, hm => by
    rw [fieldNeedsLifeTime] at h ⊢
    exact C55_depth document n t b h m hm
  | n, .set t, b, h, m, hm => by
    rw [fieldNeedsLifeTime] at h ⊢
    exact C55_depth document n t b h m hm
  | n, .map k v, b, h, m, hm => by
    rw [fieldNeedsLifeTime] at h ⊢
    split at h
    · cases h
    · rename_i hk; rw [C55_depth document n k true hk m hm]; exact h
    · rename_i hk; rw [C55_depth document n k false hk m hm]; exact C55_depth document n v b h m hm
termination_by n t => (n, t)

/-! ## C55: cycles -/

/-- A negative answer has looked at everything. -/
theorem false_names {document : Document} {n : Nat} : ∀ {t : FieldType} {a : String}, fieldNeedsLifeTime document n t = some false → Names t a →
    fieldNeedsLifeTime document n (.named a) = some false
  | _, _, h, .named _ => h
  | _, _, h, .list _ _ hn => by rw [fieldNeedsLifeTime] at h; exact false_names h hn
  | _, _, h, .set _ _ hn => by rw [fieldNeedsLifeTime] at h; exact false_names h hn
  | _, _, h, .key _ _ _ hn => by
    rw [fieldNeedsLifeTime] at h
    split at h
    · cases h
    · cases h
    · rename_i hk; exact false_names hk hn
  | _, _, h, .value _ _ _ hn => by
    rw [fieldNeedsLifeTime] at h
    split at h
    · cases h
    · cases h
    · exact false_names h hn

theorem false_refers {document : Document} {n : Nat} {a b : String} (h : fieldNeedsLifeTime document n (.named a) = some false) (hr : Refers document a b) :
    ∃ m, m < n ∧ fieldNeedsLifeTime document m (.named b) = some false := by
  cases n with
  | zero => rw [fieldNeedsLifeTime] at h; cases h
  | succ n =>
    rw [fieldNeedsLifeTime] at h
    obtain ⟨f, hf, hn⟩ := hr
    exact ⟨n, by omega, false_names (anyField_false.1 h f hf) hn⟩

theorem false_path {document : Document} {a b : String} (hp : Path document a b) : ∀ {n : Nat}, fieldNeedsLifeTime document n (.named a) = some false →
    ∃ m, m < n ∧ fieldNeedsLifeTime document m (.named b) = some false := by
  induction hp with
  | one a b h => exact fun hn => false_refers hn h
  | step a b c h _ ih =>
    intro n hn
    obtain ⟨m, hm, hb⟩ := false_refers hn h
    obtain ⟨k, hk, hc⟩ := ih hb
    exact ⟨k, by omega, hc⟩

theorem no_false_on_cycle {document : Document} {a : String} (hc : Path document a a) : ∀ n, fieldNeedsLifeTime document n (.named a) ≠ some false := by
  intro n
  induction n using Nat.strongRecOn with
  | _ n ih =>
    intro h
    obtain ⟨m, hm, h⟩ := false_path hc h
    exact ih m hm h

/-- C55: if a definition that borrows nothing leads to a reference cycle, the analysis never returns. -/
theorem C55_cycle {document : Document} {t : FieldType} (hb : ¬ Borrows document t) {a c : String} (hn : Names t a) (hp : a = c ∨ Path document a c) (hc : Path document c c) :
    ∀ n, fieldNeedsLifeTime document n t = none := by
  intro n
  cases h : fieldNeedsLifeTime document n t with
  | none => rfl
  | some b =>
    exfalso
    cases b with
    | true => exact hb ((C55_field document n t true h).1 rfl)
    | false =>
      have h1 := false_names h hn
      rcases hp with rfl | hp
      · exact no_false_on_cycle hc n h1
      · obtain ⟨m, _, h2⟩ := false_path hp h1
        exact no_false_on_cycle hc m h2

/-- `struct Node { 1: i32 value; 2: list<Node> children }` -/
def nodeDoc : Document := [("Node", .struct "Node" [("value", ⟨1, .DEFAULT, "value", .base .I32⟩), ("children", ⟨2, .DEFAULT, "children", .list (.named "Node")⟩)])]

/-- C55: the generator never finishes with this valid schema. -/
theorem C55_counterexample : ∀ n, definitionNeedsLifeTime nodeDoc n (.struct "Node" [("value", ⟨1, .DEFAULT, "value", .base .I32⟩), ("children", ⟨2, .DEFAULT, "children", .list (.named "Node")⟩)]) = none := by
  have hmem : (⟨2, .DEFAULT, "children", .list (.named "Node")⟩ : Field) ∈ fieldsOf nodeDoc "Node" := by decide
  have hb : ∀ t, Borrows nodeDoc t → t = .base .STRING ∨ t = .base .BINARY ∨ (∃ u, t = .list u ∧ Borrows nodeDoc u) ∨ (∃ u, t = .set u) ∨ (∃ k v, t = .map k v) ∨ t = .named "Node" → t ≠ .named "Node" ∧ t ≠ .list (.named "Node") := by
    intro t ht
    induction ht with
    | struct name fs k f hd hf h ih =>
      intro _
      exfalso
      unfold nodeDoc at hd
      rw [get?] at hd
      split at hd
      · cases hd
        rcases List.mem_cons.1 hf with rfl | hf
        · cases h
        · obtain rfl := List.mem_singleton.1 hf
          cases h with
          | list _ h => exact (ih (.inr (.inr (.inl ⟨_, rfl, h⟩)))).2 rfl
      · cases hd
    | union name fs k f hd hf h ih =>
      exfalso
      unfold nodeDoc at hd
      rw [get?] at hd
      split at hd
      · cases hd
      · cases hd
    | list t h ih =>
      intro _
      refine ⟨by simp, fun he => ?_⟩
      cases he
      exact (ih (by simp)).1 rfl
    | _ => simp
  intro n
  have hcyc : Path nodeDoc "Node" "Node" := .one _ _ ⟨_, hmem, .list _ _ (.named _)⟩
  have := C55_cycle (document := nodeDoc) (t := .named "Node") (fun h => (hb _ h (by simp)).1 rfl) (.named _) (.inl rfl) hcyc (n + 1)
  rw [fieldNeedsLifeTime] at this
  exact this

/-- A document with nested structs, enums and typedefs without cycles. -/
def sampleDoc : Document :=
  [("Kind", .enum "Kind" [("A", ⟨"A", 0⟩)]), ("Name", .typedef "Name" (.base .STRING)),
   ("Point", .struct "Point" [("x", ⟨1, .REQUIRED, "x", .base .DOUBLE⟩), ("kind", ⟨2, .DEFAULT, "kind", .named "Kind"⟩), ("name", ⟨3, .DEFAULT, "name", .named "Name"⟩)]),
   ("Label", .union "Label" [("text", ⟨1, .DEFAULT, "text", .list (.base .STRING)⟩), ("point", ⟨2, .DEFAULT, "point", .named "Point"⟩)]),
   ("Chart", .struct "Chart" [("points", ⟨1, .REQUIRED, "points", .list (.named "Point")⟩), ("labels", ⟨2, .OPTIONAL, "labels", .map (.base .I32) (.named "Label")⟩)])]

/-- Its answers. -/
example : fieldNeedsLifeTime sampleDoc 3 (.named "Chart") = some true ∧ fieldNeedsLifeTime sampleDoc 3 (.named "Point") = some false ∧
    fieldNeedsLifeTime sampleDoc 3 (.named "Name") = some false := by
  refine ⟨?_, ?_, ?_⟩ <;> simp [fieldNeedsLifeTime, fieldsOf, get?, sampleDoc, anyField, Definition.typedFields] <;> rfl

/-! ## C69: lifetimes are declared where they are used -/

theorem rustFieldType_lifetime (document : Document) (n : Nat) : ∀ (t : FieldType) (ts : List String), rustFieldType document n t = some ts →
    (∀ a, Names t a → a ≠ "'i") → ("'i" ∈ ts ↔ Borrows document t)
  | .named name, ts, h, hn => by
    rw [rustFieldType] at h
    obtain ⟨ann, ha, rfl⟩ := Option.map_eq_some_iff.1 h
    have hne := hn name (.named _)
    rw [List.mem_cons, or_iff_right (Ne.symm hne)]
    unfold lifetimeAnnotation at ha
    cases hd : get? name document with
    | none =>
      rw [hd] at ha; cases ha
      rw [borrows_named]
      simp [fieldsOf, hd]
    | some d =>
      rw [hd] at ha
      obtain ⟨b, hb, rfl⟩ := Option.map_eq_some_iff.1 ha
      rw [← C55_definition hd hb]
      cases b <;> simp
  | .base b, ts, h, _ => by
    cases b <;> (rw [rustFieldType] at h; cases h; simp) <;> first | exact .string | exact .binary | (intro h; cases h)
  | .map k v, ts, h, hn => by
    rw [rustFieldType] at h
    obtain ⟨ks, hk, h⟩ := Option.bind_eq_some_iff.1 h
    obtain ⟨vs, hv, rfl⟩ := Option.map_eq_some_iff.1 h
    have h1 := rustFieldType_lifetime document n k ks hk fun a ha => hn a (.key _ _ _ ha)
    have h2 := rustFieldType_lifetime document n v vs hv fun a ha => hn a (.value _ _ _ ha)
    have : "'i" ∈ ["HashMap", "<"] ++ ks ++ [","] ++ vs ++ [">"] ↔ "'i" ∈ ks ∨ "'i" ∈ vs := by simp
    rw [this, h1, h2]
    constructor
    · rintro (h | h)
      · exact .key _ _ h
      · exact .value _ _ h
    · intro h
      cases h with
      | key _ _ h => exact .inl h
      | value _ _ h => exact .inr h
  | .set t, ts, h, hn => by
    rw [rustFieldType] at h
    obtain ⟨us, hu, rfl⟩ := Option.map_eq_some_iff.1 h
    have : "'i" ∈ ["HashSet", "<"] ++ us ++ [">"] ↔ "'i" ∈ us := by simp
    rw [this, rustFieldType_lifetime document n t us hu fun a ha => hn a (.set _ _ ha)]
    exact ⟨.set _, fun h => by cases h; assumption⟩
  | .list t, ts, h, hn => by
    rw [rustFieldType] at h
    obtain ⟨us, hu, rfl⟩ := Option.map_eq_some_iff.1 h
    have : "'i" ∈ ["Vec", "<"] ++ us ++ [">"] ↔ "'i" ∈ us := by simp
    rw [this, rustFieldType_lifetime document n t us hu fun a ha => hn a (.list _ _ ha)]
    exact ⟨.list _, fun h => by cases h; assumption⟩

theorem rustType_lifetime {document : Document} {n : Nat} {t : FieldType} {req : FieldReq} {ts : List String} (h : rustType document n t req = some ts)
    (hn : ∀ a, Names t a → a ≠ "'i") : "'i" ∈ ts ↔ Borrows document t := by
  unfold rustType at h
  obtain ⟨us, hu, rfl⟩ := Option.map_eq_some_iff.1 h
  rw [← rustFieldType_lifetime document n t us hu hn]
  split
  · rfl
  · simp

/-- C69: a generated struct or enum (for a union) declares the lifetime exactly if the type of one of its fields uses it. -/
theorem C69_declared {document : Document} {n : Nat} {name : String} {d : Definition} (hd : get? name document = some d)
    (hn : ∀ f ∈ d.typedFields, ∀ a, Names f.type a → a ≠ "'i") {ann : List String} (ha : lifetimeAnnotation document n (some d) = some ann)
    (req : Field → FieldReq) (types : Field → List String) (ht : ∀ f ∈ d.typedFields, rustType document n f.type (req f) = some (types f)) :
    (ann = ["<", "'i", ">"] ∨ ann = []) ∧ (ann = ["<", "'i", ">"] ↔ ∃ f ∈ d.typedFields, "'i" ∈ types f) := by
  unfold lifetimeAnnotation at ha
  obtain ⟨b, hb, rfl⟩ := Option.map_eq_some_iff.1 ha
  refine ⟨by cases b <;> simp, ?_⟩
  have h1 := C55_definition hd hb
  have h2 : Borrows document (.named name) ↔ ∃ f ∈ d.typedFields, "'i" ∈ types f := by
    rw [borrows_named]
    unfold fieldsOf
    rw [hd]
    constructor
    · rintro ⟨f, hf, h⟩; exact ⟨f, hf, (rustType_lifetime (ht f hf) (hn f hf)).2 h⟩
    · rintro ⟨f, hf, h⟩; exact ⟨f, hf, (rustType_lifetime (ht f hf) (hn f hf)).1 h⟩
  rw [← h2, ← h1]
  cases b <;> simp

/-- C69: but an alias uses it without declaring it exactly if it stands for a borrowing type; fields of the aliased type then miss the lifetime. -/
theorem C69_typedef {document : Document} {n : Nat} {t : FieldType} {ts : List String} (h : typeDefType document n t = some ts) (hn : ∀ a, Names t a → a ≠ "'i") :
    "'i" ∈ ts ↔ Borrows document t := rustType_lifetime h hn

/-- C69: `typedef string Name; struct Point { Name name }`: the alias is `Cow<'i, str>` without a declared lifetime, the struct has no parameter. -/
theorem C69_counterexample : typeDefType sampleDoc 3 (.base .STRING) = some ["Cow", "<", "'i", ",", "str", ">"] ∧
    rustType sampleDoc 3 (.named "Name") .DEFAULT = some ["Option", "<", "Name", ">"] ∧
    lifetimeAnnotation sampleDoc 3 (get? "Point" sampleDoc) = some [] := by
  refine ⟨rfl, ?_, ?_⟩ <;>
    simp [rustType, rustFieldType, lifetimeAnnotation, definitionNeedsLifeTime, fieldNeedsLifeTime, fieldsOf, get?, sampleDoc, anyField, Definition.typedFields] <;> rfl

/-! ## C56: enum names -/

/-- Where the loop ends: an index in range; nothing equal is left of it unless at it; and everything behind it is greater. -/
theorem searchLoop_spec (cmp : Nat → Ordering) (len : Nat) (mono : ∀ i j, i ≤ j → j < len → (cmp i = .gt → cmp j = .gt) ∧ (cmp j = .lt → cmp i = .lt)) :
    ∀ (base size : Nat), 0 < size → base + size ≤ len → (∀ i, base + size ≤ i → i < len → cmp i = .gt) → (∀ i, i < base → cmp i ≠ .gt) → (0 < base → cmp base ≠ .gt) →
    let b := searchLoop cmp base size
    b < len ∧ (∀ i, b + 1 ≤ i → i < len → cmp i = .gt) ∧ (∀ i, i < b → cmp i ≠ .gt) ∧ (0 < b → cmp b ≠ .gt)
  | base, size, hs, hl, hgt, hle, hb => by
    intro b
    by_cases h : 1 < size
    · have hstep : b = searchLoop cmp (if cmp (base + size / 2) = .gt then base else base + size / 2) (size - size / 2) := by
        show searchLoop cmp base size = _
        rw [searchLoop, dif_pos h]
      rw [hstep]
      by_cases hc : cmp (base + size / 2) = .gt
      · rw [if_pos hc]
        refine searchLoop_spec cmp len mono base (size - size / 2) (by omega) (by omega) ?_ hle hb
        intro i hi hil
        by_cases hi2 : base + size / 2 ≤ i
        · exact (mono _ i hi2 hil).1 hc
        · exfalso; omega
      · rw [if_neg hc]
        refine searchLoop_spec cmp len mono (base + size / 2) (size - size / 2) (by omega) (by omega) ?_ ?_ (fun _ => hc)
        · intro i hi hil; exact hgt i (by omega) hil
        · intro i hi hcg
          exact hc ((mono i (base + size / 2) (by omega) (by omega)).1 hcg)
    · have : b = base := by show searchLoop cmp base size = _; rw [searchLoop, dif_neg h]
      rw [this]
      exact ⟨by omega, fun i hi hil => hgt i (by omega) hil, hle, hb⟩
termination_by _ size => size

theorem cmpI32_gt {a b : BitVec 32} : cmpI32 a b = .gt ↔ b.toInt < a.toInt := by
  unfold cmpI32
  rw [BitVec.slt_eq_decide]
  by_cases h1 : a.toInt < b.toInt
  · rw [if_pos (by simpa using h1)]; simp; omega
  · rw [if_neg (by simpa using h1)]
    by_cases h2 : a = b
    · subst h2; simp
    · rw [if_neg h2]
      simp only [true_iff]
      have : a.toInt ≠ b.toInt := fun h => h2 (BitVec.eq_of_toInt_eq h)
      omega

theorem cmpI32_lt {a b : BitVec 32} : cmpI32 a b = .lt ↔ a.toInt < b.toInt := by
  unfold cmpI32
  rw [BitVec.slt_eq_decide]
  by_cases h1 : a.toInt < b.toInt
  · rw [if_pos (by simpa using h1)]; simp; omega
  · rw [if_neg (by simpa using h1)]
    by_cases h2 : a = b
    · subst h2; simp
    · rw [if_neg h2]; simp; omega

theorem cmpI32_eq {a b : BitVec 32} : cmpI32 a b = .eq ↔ a = b := by
  unfold cmpI32
  rw [BitVec.slt_eq_decide]
  by_cases h1 : a.toInt < b.toInt
  · rw [if_pos (by simpa using h1)]
    simp only [reduceCtorEq, false_iff]
    rintro rfl; omega
  · rw [if_neg (by simpa using h1)]
    by_cases h2 : a = b
    · simp [h2]
    · simp [h2]

/-- Binary search in a sorted slice: a hit is an index in range with an equal element; no hit means no equal element. -/
theorem binarySearch_spec (xs : List (BitVec 32)) (hs : xs.Pairwise fun a b => a.toInt ≤ b.toInt) (v : BitVec 32) :
    (∀ i, binarySearch xs.length (fun i => cmpI32 (xs[i]?.getD 0) v) = some i → xs[i]? = some v) ∧
    (binarySearch xs.length (fun i => cmpI32 (xs[i]?.getD 0) v) = none → v ∉ xs) := by
  have hord : ∀ i j, i ≤ j → j < xs.length → (xs[i]?.getD 0).toInt ≤ (xs[j]?.getD 0).toInt := by
    intro i j hij hj
    rw [List.getElem?_eq_getElem hj, List.getElem?_eq_getElem (by omega)]
    rcases Nat.lt_or_ge i j with h | h
    · exact List.pairwise_iff_getElem.1 hs i j (by omega) hj h
    · obtain rfl : i = j := by omega
      exact Int.le_refl _
  unfold binarySearch
  by_cases h0 : xs.length = 0
  · rw [if_pos h0]
    exact ⟨fun i h => (by cases h), fun _ h => (by rw [List.length_eq_zero_iff.1 h0] at h; cases h)⟩
  · rw [if_neg h0]
    have hm : ∀ i j, i ≤ j → j < xs.length → (cmpI32 (xs[i]?.getD 0) v = .gt → cmpI32 (xs[j]?.getD 0) v = .gt) ∧ (cmpI32 (xs[j]?.getD 0) v = .lt → cmpI32 (xs[i]?.getD 0) v = .lt) := by
      intro i j hij hj
      have := hord i j hij hj
      rw [cmpI32_gt, cmpI32_gt, cmpI32_lt, cmpI32_lt]
      exact ⟨fun h => by omega, fun h => by omega⟩
    have := searchLoop_spec (fun i => cmpI32 (xs[i]?.getD 0) v) xs.length hm 0 xs.length (by omega) (by omega) (fun i h1 h2 => by omega) (fun i h => by omega) (fun h => by omega)
    dsimp only at this ⊢
    obtain ⟨h1, h2, h3, h4⟩ := this
    generalize searchLoop (fun i => cmpI32 (xs[i]?.getD 0) v) 0 xs.length = b at h1 h2 h3 h4 ⊢
    by_cases he : cmpI32 (xs[b]?.getD 0) v = .eq
    · rw [if_pos he]
      refine ⟨fun i h => ?_, fun h => by cases h⟩
      cases h
      rw [cmpI32_eq, List.getElem?_eq_getElem h1] at he
      rw [List.getElem?_eq_getElem h1]
      exact congrArg some he
    · rw [if_neg he]
      refine ⟨fun i h => (by cases h), fun _ hv => ?_⟩
      obtain ⟨i, hi, hiv⟩ := List.mem_iff_getElem.1 hv
      have hev : cmpI32 (xs[i]?.getD 0) v = .eq := by rw [cmpI32_eq, List.getElem?_eq_getElem hi]; exact hiv
      rcases Nat.lt_trichotomy i b with h | rfl | h
      · have h5 := h4 (by omega)
        have h6 := hord i b (by omega) h1
        rw [Ne, cmpI32_gt] at h5
        rw [cmpI32_eq] at hev he
        rw [hev] at h6
        have : (xs[b]?.getD 0).toInt ≠ v.toInt := fun h => he (BitVec.eq_of_toInt_eq h)
        omega
      · exact he hev
      · rw [h2 i (by omega) hi] at hev; cases hev

theorem names_sorted (fields : List (String × EnumField)) : ((names fields).map (·.1)).Pairwise fun a b => a.toInt ≤ b.toInt := by
  unfold names
  rw [List.map_map]
  refine List.pairwise_map.2 ?_
  have := List.pairwise_mergeSort (le := fun (a b : EnumField) => BitVec.sle a.value b.value) (by
    intro a b c; simp only [BitVec.sle_eq_decide, decide_eq_true_eq]; exact Int.le_trans) (by
    intro a b; simp only [BitVec.sle_eq_decide, Bool.or_eq_true, decide_eq_true_eq]; exact Int.le_total _ _) (fields.map (·.2))
  refine this.imp ?_
  intro a b h
  simpa [BitVec.sle_eq_decide] using h

theorem names_mem {fields : List (String × EnumField)} {v : BitVec 32} {s : String} : (v, s) ∈ names fields ↔ ∃ f ∈ fields, f.2.value = v ∧ f.2.identifier = s := by
  unfold names
  simp only [List.mem_map, (List.mergeSort_perm _ _).mem_iff, Prod.mk.injEq]
  constructor
  · rintro ⟨f, ⟨g, hg, rfl⟩, h⟩; exact ⟨g, hg, h⟩
  · rintro ⟨g, hg, h⟩; exact ⟨g.2, ⟨g, hg, rfl⟩, h⟩

theorem debugName_eq (fields : List (String × EnumField)) (v : BitVec 32) : debugName fields v =
    match binarySearch ((names fields).map (·.1)).length fun (i : Nat) => cmpI32 (((names fields).map (·.1))[i]?.getD 0) v with
    | some i => ((names fields)[i]?.getD (0, "")).2
    | none => "__UNKNOWN" := by
  unfold debugName
  have h1 : (fun (i : Nat) => cmpI32 ((names fields)[i]?.getD (0, "")).1 v) = fun i => cmpI32 (((names fields).map (·.1))[i]?.getD 0) v := by
    funext i
    rw [List.getElem?_map]
    cases (names fields)[i]? <;> rfl
  dsimp only
  rw [h1, List.length_map]
  cases binarySearch (names fields).length fun (i : Nat) => cmpI32 (((names fields).map (·.1))[i]?.getD 0) v <;> rfl

/-- C56: `Debug` of an enum value prints a name declared with the value, if there is one, and otherwise `__UNKNOWN`; the index into the names is in range. -/
theorem C56_debug (fields : List (String × EnumField)) (v : BitVec 32) :
    (∃ f ∈ fields, f.2.value = v ∧ debugName fields v = f.2.identifier) ∨ ((∀ f ∈ fields, f.2.value ≠ v) ∧ debugName fields v = "__UNKNOWN") := by
  rw [debugName_eq]
  obtain ⟨h1, h2⟩ := binarySearch_spec ((names fields).map (·.1)) (names_sorted fields) v
  generalize binarySearch ((names fields).map (·.1)).length (fun i => cmpI32 (((names fields).map (·.1))[i]?.getD 0) v) = r at h1 h2 ⊢
  cases r with
  | none =>
    refine .inr ⟨fun f hf hv => h2 rfl ?_, rfl⟩
    exact List.mem_map.2 ⟨(f.2.value, f.2.identifier), names_mem.2 ⟨f, hf, rfl, rfl⟩, hv⟩
  | some i =>
    have h := h1 i rfl
    rw [List.getElem?_map] at h
    obtain ⟨p, hp, hpv⟩ := Option.map_eq_some_iff.1 h
    obtain ⟨f, hf, hfv, hfi⟩ := names_mem.1 (List.mem_of_getElem? hp : (p.1, p.2) ∈ names fields)
    refine .inl ⟨f, hf, hfv.trans hpv, ?_⟩
    show ((names fields)[i]?.getD (0, "")).2 = _
    rw [hp]; exact hfi.symm

/-- C56: with distinct values, every declared name is printed for its value. -/
theorem C56_distinct (fields : List (String × EnumField)) (hd : ∀ f ∈ fields, ∀ g ∈ fields, f.2.value = g.2.value → f = g) : ∀ f ∈ fields, debugName fields f.2.value = f.2.identifier := by
  intro f hf
  rcases C56_debug fields f.2.value with ⟨g, hg, hv, hn⟩ | ⟨h, _⟩
  · rw [hn, hd g hg f hf hv]
  · exact absurd rfl (h f hf)

/-- An enum not declared in the order of its values. -/
def sampleEnum : List (String × EnumField) := [("C", ⟨"C", 7⟩), ("A", ⟨"A", -1⟩), ("B", ⟨"B", 3⟩)]

/-- `sampleEnum` has distinct values: 3 prints `B`, and 4 `__UNKNOWN`. -/
example : debugName sampleEnum 3 = "B" ∧ debugName sampleEnum 4 = "__UNKNOWN" := by
  refine ⟨C56_distinct sampleEnum (by decide) ("B", ⟨"B", 3⟩) (by decide), ?_⟩
  rcases C56_debug sampleEnum 4 with ⟨f, hf, hv, _⟩ | ⟨_, h⟩
  · exact absurd hv ((by decide : ∀ f ∈ sampleEnum, f.2.value ≠ 4) f hf)
  · exact h

end CT.Props
