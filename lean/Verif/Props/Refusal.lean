import Verif.Props.Inputs
/-!
# C89: answers are final, and nothing is read after them

Every answer but `UnexpectedEof` is determined by a prefix of the data; the reader is never asked for anything after that prefix.
-/
namespace CT.Props
open CT Spec

theorem readExact_begins : ∀ {evs : List REvent} {s : Bytes} {rest : List REvent}, Begins evs s rest → ∀ n, n ≤ s.length →
    ∃ evs', readExact n evs = .ok (s.take n, evs') ∧ Begins evs' (s.drop n) rest := by
  intro evs s rest h
  induction h with
  | done r =>
    intro n hn
    obtain rfl : n = 0 := by simpa using hn
    exact ⟨r, readExact_zero r, .done r⟩
  | chunk bs x r h hx =>
    intro n hn
    cases n with
    | zero => exact ⟨_, rfl, .chunk bs x r h hx⟩
    | succ n =>
      have hx' : 0 < x.length := List.length_pos_iff.2 hx
      refine ⟨.data (bs.drop (n + 1) ++ x) :: r, ?_, ?_⟩
      · simp only [readExact]
        rw [if_neg (by simp [h]), if_neg (by simp only [List.length_append]; omega), List.take_append_of_le_length hn,
          List.drop_append_of_le_length hn]
      · by_cases h0 : bs.drop (n + 1) = []
        · rw [h0]; exact .done _
        · exact .chunk _ _ _ h0 hx
  | data bs r s rest h0 hr ih =>
    intro n hn
    cases n with
    | zero => exact ⟨_, rfl, .data bs r s rest h0 hr⟩
    | succ n =>
      simp only [readExact, h0, if_false]
      simp only [List.length_append] at hn
      by_cases h1 : bs.length ≤ n + 1
      · simp only [h1, if_true]
        obtain ⟨evs', h2, h3⟩ := ih (n + 1 - bs.length) (by omega)
        refine ⟨evs', ?_, ?_⟩
        · rw [h2, List.take_append, List.take_of_length_le h1]
        · rw [List.drop_append, List.drop_of_length_le h1, List.nil_append]; exact h3
      · simp only [h1, if_false]
        refine ⟨.data (bs.drop (n + 1)) :: r, ?_, ?_⟩
        · rw [List.take_append_of_le_length (by omega)]
        · rw [List.drop_append_of_le_length (by omega)]
          exact .data _ _ _ _ (by intro hd; rw [List.drop_eq_nil_iff] at hd; omega) hr
  | interrupted r s rest h hr ih =>
    intro n hn
    cases n with
    | zero => exact ⟨_, rfl, .interrupted r s rest h hr⟩
    | succ n => simp only [readExact, if_true]; exact ih (n + 1) hn

theorem begins_size {evs : List REvent} {s : Bytes} {rest : List REvent} (h : Begins evs s rest) : s.length ≤ readerSize evs := by
  induction h with
  | done r => simp
  | chunk bs x r h hx => simp [readerSize, h]; omega
  | data bs r s rest h0 hr ih => simp [readerSize, h0, ih]
  | interrupted r s rest h hr ih => simp [readerSize, ih]

theorem begins_done {evs : List REvent} {s : Bytes} {rest : List REvent} (h : Begins evs s rest) (hs : s = []) : evs = rest := by
  cases h with
  | done => rfl
  | chunk bs x r h hx => exact absurd hs ‹_›
  | data bs r s rest h0 hr => exact absurd (List.append_eq_nil_iff.1 hs).1 h0
  | interrupted r s rest h hr => exact absurd hs ‹_›

/-- Diverging or out of data. -/
abbrev Ended (f : Fail) : Prop := f = .diverge ∨ f = .err (.io .unexpectedEof)

theorem slice_begins_sim (cfg : Cfg) (rest : List REvent) :
    InputSim (SimP.std Ended fun s evs => Begins evs s rest) cfg (sliceInput cfg.noSse2) (readerInput cfg) := by
  refine inputSim_of_take (c₁ := cfg.noSse2) (c₂ := cfg) (Or.inl rfl) (cfgSim_noSse2 _ cfg) (Closed.trivial _ _) sliceTake readExact ?_ ?_
    slice_readByte_eq reader_readByte_eq slice_readDouble_eq reader_readDouble_eq (slice_readBinary_eq _) rfl (slice_skipBinary_eq _) rfl ?_
  · intro s t h; exact begins_size h
  · refine fun n => ⟨fun s evs hR => ?_, fun _ _ _ _ _ => trivial⟩
    unfold sliceTake
    by_cases h : s.length < n
    · simp only [h, if_true, eof]; exact .inl (.inr rfl)
    · simp only [h, if_false]; exact readExact_begins hR n (by omega)
  · intro h; rw [slice_skipInteger_noSse2 rfl]; exact h

/-- C89, slices: an error other than `UnexpectedEof` is not changed by further data, whatever it is. -/
theorem C89_final (cfg : Cfg) (op : Op) (s suf : Bytes) (e : ThriftError) (he : e ≠ .io .unexpectedEof)
    (h : op.run cfg (sliceInput cfg) s = .error (.err e)) : op.run cfg (sliceInput cfg) (s ++ suf) = .error (.err e) := by
  have x := (generic_op op (P := extendP OnlyDiverge _ suf) (CfgSim.refl _ _) (slice_extend cfg suf)).run s _ rfl
  simp only [h] at x
  rcases x with x | ⟨x, _⟩ | x
  · cases x
  · rcases x with x | ⟨_, x | x⟩ <;> cases x
    exact absurd rfl he
  · exact x

example : (Op.read exEnv (.named 0)).run exCfg (sliceInput exCfg) [0x15#8, 0x02#8, 0x00#8, 0x05#8] =
      .ok (some (.struct [.i32 1#32, .none]), [0x05#8]) ∧
    (Op.read exEnv (.named 0)).run exCfg (sliceInput exCfg) [0x16#8] = .error (.err .invalidType) ∧
    (Op.read exEnv (.named 0)).run exCfg (sliceInput exCfg) [0x00#8] = .error (.err (.missingField "P::a")) := ⟨rfl, rfl, rfl⟩

/-- Some prefix of the data decides: from it on the outcome is the same, before it the data end too early. -/
theorem decided (cfg : Cfg) (op : Op) (s : Bytes)
    (h : op.run cfg (sliceInput cfg) s ≠ .error (.err (.io .unexpectedEof))) :
    ∃ p s', s = p ++ s' ∧ op.run cfg (sliceInput cfg) p ≠ .error (.err (.io .unexpectedEof)) ∧
      ∀ q, q <+: p → q ≠ p → op.run cfg (sliceInput cfg) q = .error (.err (.io .unexpectedEof)) := by
  have key : ∀ n (s : Bytes), s.length = n → op.run cfg (sliceInput cfg) s ≠ .error (.err (.io .unexpectedEof)) →
      ∃ p s', s = p ++ s' ∧ op.run cfg (sliceInput cfg) p ≠ .error (.err (.io .unexpectedEof)) ∧
        ∀ q, q <+: p → q ≠ p → op.run cfg (sliceInput cfg) q = .error (.err (.io .unexpectedEof)) := by
    intro n
    induction n using Nat.strongRecOn with
    | ind n ih =>
      intro s hn hs
      by_cases hq : ∃ q, q <+: s ∧ q ≠ s ∧ op.run cfg (sliceInput cfg) q ≠ .error (.err (.io .unexpectedEof))
      · obtain ⟨q, ⟨r, rfl⟩, hne, hq⟩ := hq
        have hr : r ≠ [] := by rintro rfl; exact hne (by simp)
        have hl : 0 < r.length := List.length_pos_iff.2 hr
        obtain ⟨p, s', rfl, h1, h3⟩ := ih q.length (by simp only [List.length_append] at hn; omega) q rfl hq
        exact ⟨p, s' ++ r, by simp, h1, h3⟩
      · refine ⟨s, [], by simp, hs, fun q h1 h3 => ?_⟩
        exact Classical.byContradiction fun h4 => hq ⟨q, h1, h3, h4⟩
  exact key _ s rfl h

/-- The outcome of a request on one reader, in terms of another that begins with the deciding bytes and goes on with `rest`. -/
def Settled (rest : List REvent) : Except Fail (Option Val × List REvent) → Except Fail (Option Val × List REvent) → Prop
  | .ok (v, _), o => o = .ok (v, rest)
  | .error f, o => o = .error f

/-- C89, readers: unless the data end too early, some prefix `p` of them decides the outcome - success or failure. Every reader that
begins with `p` gives the same outcome, however it goes on, and is left exactly where `p` ends: nothing after `p` is asked for. And all of
`p` is needed: a reader breaking before its end gives its own error. -/
theorem C89_no_further (cfg : Cfg) (op : Op) (s : Bytes) (evs : List REvent) (he : Delivers evs s)
    (h : op.run cfg (readerInput cfg) evs ≠ .error (.err (.io .unexpectedEof))) :
    ∃ p s', s = p ++ s' ∧
      (∀ e rest, Begins e p rest → Settled rest (op.run cfg (readerInput cfg) evs) (op.run cfg (readerInput cfg) e)) ∧
      (∀ q, q <+: p → q ≠ p → ∀ k e, Breaks k e q → op.run cfg (readerInput cfg) e = .error (.err (.io k))) := by
  have a := slice_reader_same cfg op he
  have hs : op.run cfg.noSse2 (sliceInput cfg.noSse2) s ≠ .error (.err (.io .unexpectedEof)) := by
    intro hx
    rw [hx] at a
    cases hr : op.run cfg (readerInput cfg) evs with
    | ok x => rw [hr] at a; exact a.elim
    | error f =>
      rw [hr] at a h
      have : Fail.err (.io .unexpectedEof) = f := a
      exact h (by rw [this])
  obtain ⟨p, s', rfl, hp, hq⟩ := decided cfg.noSse2 op s hs
  refine ⟨p, s', rfl, fun e rest hb => ?_, fun q h1 h2 k e hb => ?_⟩
  · have b := (generic_op op (P := SimP.std Ended _) (cfgSim_noSse2 _ cfg) (slice_begins_sim cfg rest)).run p e hb
    have x := (generic_op op (P := extendP OnlyDiverge _ s') (CfgSim.refl _ _) (slice_extend cfg.noSse2 s')).run p _ rfl
    cases e1 : op.run cfg.noSse2 (sliceInput cfg.noSse2) p with
    | error f =>
      simp only [e1] at b x
      have hx : op.run cfg.noSse2 (sliceInput cfg.noSse2) (p ++ s') = .error f := by
        rcases x with x | ⟨x, _⟩ | x
        · exact absurd (x ▸ e1) (op_slice_notDiverge _ op p)
        · rcases x with rfl | ⟨x, _⟩
          · exact absurd e1 hp
          · cases x
        · exact x
      rw [hx] at a
      cases hr : op.run cfg (readerInput cfg) evs with
      | ok y => rw [hr] at a; exact a.elim
      | error g =>
        rw [hr] at a
        have a : f = g := a
        subst a
        rcases b with (b | b) | b | b
        · exact absurd (b ▸ e1) (op_slice_notDiverge _ op p)
        · exact absurd (b ▸ e1) hp
        · exact b.1.elim
        · exact b
    | ok y =>
      obtain ⟨v, t⟩ := y
      -- the deciding prefix is exactly what is consumed
      have ht : t = [] := by
        obtain ⟨p', e2, e3⟩ := C14_slice cfg.noSse2 op p t v e1
        refine Classical.byContradiction fun hne => ?_
        have h4 := hq p' ⟨t, e2.symm⟩ (fun h5 => hne (List.append_cancel_left (as := p') (by rw [List.append_nil, ← e2, h5])))
        have h6 := e3 []
        rw [List.append_nil, h4] at h6
        cases h6
      subst ht
      simp only [e1] at b x
      obtain ⟨t1, b1, b2⟩ := b
      obtain ⟨t2, x1, x2⟩ := x
      rw [x1] at a
      cases hr : op.run cfg (readerInput cfg) evs with
      | error g => rw [hr] at a; exact a.elim
      | ok z =>
        obtain ⟨w, e2⟩ := z
        rw [hr] at a
        obtain ⟨rfl, _⟩ := a
        show op.run cfg (readerInput cfg) e = .ok (v, rest)
        rw [b1, begins_done b2 rfl]
  · have b := slice_breaks cfg op hb
    rw [hq q h1 h2] at b
    exact b

/-- The third byte (wire type i64 where a string is expected) decides; a reader that then breaks is never found out. -/
example : (Op.read exEnv (.named 0)).run exCfg (readerInput exCfg) [.data [0x15#8, 0x02#8, 0x26#8, 0x00#8]] = .error (.err .invalidType) ∧
    Begins [.data [0x15#8], .error .interrupted, .data [0x02#8, 0x26#8], .error (.other 7)] [0x15#8, 0x02#8, 0x26#8] [.error (.other 7)] ∧
    (Op.read exEnv (.named 0)).run exCfg (readerInput exCfg)
      [.data [0x15#8], .error .interrupted, .data [0x02#8, 0x26#8], .error (.other 7)] = .error (.err .invalidType) :=
  ⟨rfl, .data _ _ [0x02#8, 0x26#8] _ (by decide) (.interrupted _ _ _ (by decide) (.data _ _ [] _ (by decide) (.done _))), rfl⟩

end CT.Props
