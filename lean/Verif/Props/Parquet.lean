import Verif.Spec.Parquet
import Verif.Props.RoundTrip
/-! # C41-C45: Parquet file footers and page indexes -/
namespace CT.Parquet
open Spec

/-! ## Lemmas -/

theorem Fd.bind_ok {α β : Type} {x : Fd α} {g : α → Fd β} {f f' : File} {a : α} (h : x f = .ok (a, f')) : (x >>= g) f = g a f' := by
  show Fd.bind x g f = _
  unfold Fd.bind; rw [h]

theorem Fd.bind_error {α β : Type} {x : Fd α} {g : α → Fd β} {f : File} {e : PFail} (h : x f = .error e) : (x >>= g) f = .error e := by
  show Fd.bind x g f = _
  unfold Fd.bind; rw [h]

/-- The three ways `read_exact` can go. -/
theorem readExactLoop_cases (evs : List FEvent) : ∀ (n : Nat) (avail : Bytes),
    (n ≤ avail.length ∧ ∃ evs', evs' <:+ evs ∧ readExactLoop evs n avail = .ok (avail.take n, evs')) ∨
    (avail.length < n ∧ readExactLoop evs n avail = .error (.err (.io .unexpectedEof))) ∨
    ∃ k, k ≠ .interrupted ∧ FEvent.error k ∈ evs ∧ readExactLoop evs n avail = .error (.err (.io k)) := by
  induction evs with
  | nil =>
    intro n avail
    cases n with
    | zero => exact .inl ⟨by omega, [], List.suffix_refl _, by simp [readExactLoop]⟩
    | succ n =>
      by_cases h : avail.length < n + 1
      · exact .inr (.inl ⟨h, by simp only [readExactLoop, if_pos h]⟩)
      · exact .inl ⟨by omega, [], List.suffix_refl _, by simp only [readExactLoop, if_neg h]⟩
  | cons e evs ih =>
    intro n avail
    cases n with
    | zero => exact .inl ⟨by omega, _, List.suffix_refl _, by simp [readExactLoop]⟩
    | succ n =>
      cases e with
      | limit m =>
        by_cases h : avail = []
        · exact .inr (.inl ⟨by simp [h], by simp only [readExactLoop, if_pos h]⟩)
        · have hl : (avail.take (min (m + 1) (n + 1))).length = min (min (m + 1) (n + 1)) avail.length := by simp
          have hpos : 0 < avail.length := by cases avail <;> simp_all
          rcases ih (n + 1 - (avail.take (min (m + 1) (n + 1))).length) (avail.drop (min (m + 1) (n + 1))) with
            ⟨h1, evs', h2, h3⟩ | ⟨h1, h3⟩ | ⟨k, hk, hm, h3⟩
          · rw [List.length_drop] at h1
            refine .inl ⟨by omega, evs', h2.trans (List.suffix_cons _ _), ?_⟩
            simp only [readExactLoop, if_neg h, h3]
            congr 2
            have hle : min (m + 1) (n + 1) ≤ n + 1 := by omega
            have := List.take_append_drop (min (m + 1) (n + 1)) avail
            conv => rhs; rw [← this]
            rw [List.take_append, List.take_take, hl, Nat.min_eq_right hle]
          · rw [List.length_drop] at h1
            refine .inr (.inl ⟨by omega, by simp only [readExactLoop, if_neg h, h3]⟩)
          · exact .inr (.inr ⟨k, hk, List.mem_cons_of_mem _ hm, by simp only [readExactLoop, if_neg h, h3]⟩)
      | error k =>
        by_cases hk : k = .interrupted
        · rcases ih (n + 1) avail with ⟨h1, evs', h2, h3⟩ | ⟨h1, h3⟩ | ⟨k', hk', hm, h3⟩
          · exact .inl ⟨h1, evs', h2.trans (List.suffix_cons _ _), by simp only [readExactLoop, if_pos hk, h3]⟩
          · exact .inr (.inl ⟨h1, by simp only [readExactLoop, if_pos hk, h3]⟩)
          · exact .inr (.inr ⟨k', hk', List.mem_cons_of_mem _ hm, by simp only [readExactLoop, if_pos hk, h3]⟩)
        · exact .inr (.inr ⟨k, hk, by simp, by simp only [readExactLoop, if_neg hk]⟩)

/-- Another file that agrees in contents and whose scripts are what may be left of the first's. -/
def Later (f f' : File) : Prop := f'.data = f.data ∧ (∀ e ∈ f'.reads, e ∈ f.reads) ∧ ∀ s ∈ f'.seeks, s ∈ f.seeks

theorem Later.refl (f : File) : Later f f := ⟨rfl, fun _ h => h, fun _ h => h⟩
theorem Later.trans {f g h : File} (h₁ : Later f g) (h₂ : Later g h) : Later f h :=
  ⟨h₂.1.trans h₁.1, fun e he => h₁.2.1 e (h₂.2.1 e he), fun e he => h₁.2.2 e (h₂.2.2 e he)⟩

/-- The script of `f` can make a call fail with `k`. -/
def Faulty (f : File) (k : ErrorKind) : Prop := (k ≠ .interrupted ∧ FEvent.error k ∈ f.reads) ∨ some k ∈ f.seeks

theorem Later.faulty {f g : File} {k : ErrorKind} (h : Later f g) (hf : Faulty g k) : Faulty f k := by
  rcases hf with ⟨h1, h2⟩ | h1
  · exact .inl ⟨h1, h.2.1 _ h2⟩
  · exact .inr (h.2.2 _ h1)

theorem Quiet.not_faulty {f : File} (h : Quiet f) (k : ErrorKind) : ¬ Faulty f k := by
  rintro (⟨h1, h2⟩ | h1)
  · exact h1 (h.1 k h2)
  · exact h.2 k h1

/-- `x` on `f` yields `r`, up to faults of the file. -/
def Goes {α : Type} (x : Fd α) (f : File) (Q : Except PFail (α × Nat) → Prop) : Prop :=
  (∃ k, Faulty f k ∧ x f = .error (.err (.io k))) ∨ (∃ a f', Later f f' ∧ Q (.ok (a, f'.pos)) ∧ x f = .ok (a, f')) ∨ ∃ e, Q (.error e) ∧ x f = .error e

theorem Goes.bind {α β : Type} {x : Fd α} {g : α → Fd β} {f : File} {Q : Except PFail (α × Nat) → Prop} {R : Except PFail (β × Nat) → Prop}
    (h : Goes x f Q) (hok : ∀ a f', Later f f' → Q (.ok (a, f'.pos)) → Goes (g a) f' R) (herr : ∀ e, Q (.error e) → R (.error e)) :
    Goes (x >>= g) f R := by
  rcases h with ⟨k, hk, h⟩ | ⟨a, f', hl, hq, h⟩ | ⟨e, hq, h⟩
  · exact .inl ⟨k, hk, Fd.bind_error h⟩
  · rcases hok a f' hl hq with ⟨k, hk, h'⟩ | ⟨b, f'', hl', hr, h'⟩ | ⟨e, hr, h'⟩
    · exact .inl ⟨k, hl.faulty hk, (Fd.bind_ok h).trans h'⟩
    · exact .inr (.inl ⟨b, f'', hl.trans hl', hr, (Fd.bind_ok h).trans h'⟩)
    · exact .inr (.inr ⟨e, hr, (Fd.bind_ok h).trans h'⟩)
  · exact .inr (.inr ⟨e, herr e hq, Fd.bind_error h⟩)

theorem goes_seekTo (t : Option Nat) (f : File) : Goes (seekTo t) f fun r =>
    (∃ p, t = some p ∧ r = .ok ((), p)) ∨ (t = none ∧ r = .error (.err (.io .invalidInput))) := by
  unfold Goes
  cases hs : f.seeks with
  | nil =>
    cases t with
    | none => exact .inr (.inr ⟨_, .inr ⟨rfl, rfl⟩, by simp only [seekTo, hs]⟩)
    | some p => exact .inr (.inl ⟨(), { f with pos := p, seeks := [] }, ⟨rfl, fun _ h => h, by simp⟩, .inl ⟨p, rfl, rfl⟩, by simp only [seekTo, hs]; rfl⟩)
  | cons s ss =>
    cases s with
    | some k => exact .inl ⟨k, .inr (by simp [hs]), by simp only [seekTo, hs]⟩
    | none =>
      cases t with
      | none => exact .inr (.inr ⟨_, .inr ⟨rfl, rfl⟩, by simp only [seekTo, hs]⟩)
      | some p =>
        exact .inr (.inl ⟨(), { f with pos := p, seeks := ss }, ⟨rfl, fun _ h => h, by simp [hs]; intro s hs'; exact .inr hs'⟩, .inl ⟨p, rfl, rfl⟩,
          by simp only [seekTo, hs]; rfl⟩)

theorem goes_seekBack (n : Nat) (f : File) : Goes (seekBack n) f fun r =>
    (n ≤ f.data.length ∧ r = .ok ((), f.data.length - n)) ∨ (f.data.length < n ∧ r = .error (.err (.io .invalidInput))) := by
  have h := goes_seekTo (if f.data.length < n then none else some (f.data.length - n)) f
  unfold Goes at h ⊢
  by_cases hn : f.data.length < n
  · simp only [hn, if_true] at h
    rcases h with h | ⟨a, f', hl, hq, h⟩ | ⟨e, hq, h⟩
    · exact .inl (by simpa only [seekBack, if_pos hn] using h)
    · simp at hq
    · refine .inr (.inr ⟨e, .inr ⟨hn, by simpa using hq⟩, by simpa only [seekBack, if_pos hn] using h⟩)
  · simp only [hn, if_false] at h
    rcases h with h | ⟨a, f', hl, hq, h⟩ | ⟨e, hq, h⟩
    · exact .inl (by simpa only [seekBack, if_neg hn] using h)
    · refine .inr (.inl ⟨a, f', hl, .inl ⟨by omega, by simpa using hq⟩, by simpa only [seekBack, if_neg hn] using h⟩)
    · simp at hq

theorem goes_readExact (n : Nat) (f : File) : Goes (readExactF n) f fun r =>
    (n ≤ f.data.length - f.pos ∧ r = .ok (part f.data f.pos n, f.pos + n)) ∨ (f.data.length - f.pos < n ∧ r = .error (.err (.io .unexpectedEof))) := by
  unfold Goes readExactF
  rcases readExactLoop_cases f.reads n (f.data.drop f.pos) with ⟨h1, evs', h2, h3⟩ | ⟨h1, h3⟩ | ⟨k, hk, hm, h3⟩
  · rw [List.length_drop] at h1
    exact .inr (.inl ⟨_, { f with pos := f.pos + n, reads := evs' }, ⟨rfl, fun e he => h2.subset he, fun _ h => h⟩, .inl ⟨h1, rfl⟩, by simp only [h3, part]⟩)
  · rw [List.length_drop] at h1
    exact .inr (.inr ⟨_, .inr ⟨h1, rfl⟩, by simp only [h3]⟩)
  · exact .inl ⟨k, .inl ⟨hk, hm⟩, by simp only [h3]⟩

theorem goes_lift {α : Type} (x : Except PFail α) (f : File) : Goes (Fd.lift x) f fun r =>
    (∃ a, x = .ok a ∧ r = .ok (a, f.pos)) ∨ ∃ e, x = .error e ∧ r = .error e := by
  cases x with
  | ok a => exact .inr (.inl ⟨a, f, .refl f, .inl ⟨a, rfl, rfl⟩, rfl⟩)
  | error e => exact .inr (.inr ⟨e, .inr ⟨e, rfl, rfl⟩, rfl⟩)

/-- The length the last eight bytes declare. -/
def declared (file : Bytes) : Nat := leNat (part file (file.length - 8) 4)

/-- The outcome without faults. -/
def chunkOutcome (cfg : Cfg) (file : Bytes) : Except PFail Bytes :=
  if file.length < 8 then .error (.err (.io .invalidInput))
  else if part file (file.length - 4) 4 ≠ PARQUET_MAGIC then .error (.err .invalidMagic)
  else if file.length < declared file + 8 then .error (.err (.io .invalidInput))
  else if cfg.alloc (declared file) then .ok (part file (file.length - 8 - declared file) (declared file))
  else .error .abort

theorem leNat_lt : ∀ bs : Bytes, leNat bs < 256 ^ bs.length
  | [] => by simp [leNat]
  | b :: bs => by
    have := leNat_lt bs
    have hb : b.toNat < 256 := b.isLt
    simp only [leNat, List.length_cons, Nat.pow_succ]
    omega

theorem declared_lt (file : Bytes) : declared file < 2 ^ 32 := by
  have h := leNat_lt (part file (file.length - 8) 4)
  have hl : (part file (file.length - 8) 4).length ≤ 4 := by simp [part]; omega
  have : 256 ^ (part file (file.length - 8) 4).length ≤ 256 ^ 4 := Nat.pow_le_pow_right (by omega) hl
  unfold declared
  omega

theorem goes_getMetadataChunk (cfg : Cfg) (f : File) : Goes (getMetadataChunk cfg) f fun r =>
    match chunkOutcome cfg f.data with
    | .ok m => ∃ p, r = .ok (m, p)
    | .error e => r = .error e := by
  unfold getMetadataChunk chunkOutcome
  refine (goes_seekBack 8 f).bind ?_ ?_
  · intro _ f₁ hl₁ hq
    obtain ⟨h8, hp⟩ : 8 ≤ f.data.length ∧ f₁.pos = f.data.length - 8 := by
      rcases hq with ⟨h, hr⟩ | ⟨_, hr⟩
      · exact ⟨h, (Prod.mk.inj (Except.ok.inj hr)).2⟩
      · cases hr
    rw [if_neg (by omega)]
    refine (goes_readExact 8 f₁).bind ?_ ?_
    · intro footer f₂ hl₂ hq
      obtain rfl : footer = part f.data (f.data.length - 8) 8 := by
        rcases hq with ⟨_, hr⟩ | ⟨_, hr⟩
        · rw [(Prod.mk.inj (Except.ok.inj hr)).1, hp, hl₁.1]
        · cases hr
      have hdrop : (part f.data (f.data.length - 8) 8).drop 4 = part f.data (f.data.length - 4) 4 := by
        unfold part
        rw [List.drop_take, List.drop_drop]
        congr 2; omega
      have htake : (part f.data (f.data.length - 8) 8).take 4 = part f.data (f.data.length - 8) 4 := by
        unfold part
        rw [List.take_take]; rfl
      rw [hdrop]
      by_cases hm : part f.data (f.data.length - 4) 4 = PARQUET_MAGIC
      · rw [if_neg (by simpa using hm), if_neg (by simpa using hm), htake]
        show Goes (seekBack (declared f.data + 8) >>= fun _ => Fd.lift (withCapacity cfg (declared f.data)) >>= fun _ => readExactF (declared f.data)) f₂ _
        have hd2 : f₂.data = f.data := hl₂.1.trans hl₁.1
        refine (goes_seekBack (declared f.data + 8) f₂).bind ?_ ?_
        · intro _ f₃ hl₃ hq
          obtain ⟨hlen, hp3⟩ : declared f.data + 8 ≤ f.data.length ∧ f₃.pos = f.data.length - (declared f.data + 8) := by
            rcases hq with ⟨h, hr⟩ | ⟨_, hr⟩
            · rw [hd2] at h; exact ⟨h, by rw [(Prod.mk.inj (Except.ok.inj hr)).2, hd2]⟩
            · cases hr
          rw [if_neg (by omega)]
          refine (goes_lift _ f₃).bind ?_ ?_
          · intro _ f₄ hl₄ hq
            obtain ⟨halloc, hp4⟩ : cfg.alloc (declared f.data) = true ∧ f₄.pos = f₃.pos := by
              rcases hq with ⟨a, ha, hr⟩ | ⟨_, _, hr⟩
              · refine ⟨?_, (Prod.mk.inj (Except.ok.inj hr)).2⟩
                unfold withCapacity at ha
                split at ha
                · cases ha
                · split at ha
                  · assumption
                  · cases ha
              · cases hr
            rw [if_pos halloc]
            have hd4 : f₄.data = f.data := hl₄.1.trans (hl₃.1.trans hd2)
            have := goes_readExact (declared f.data) f₄
            rcases this with h | ⟨a, f', hl, hq, h⟩ | ⟨e, hq, h⟩
            · exact .inl h
            · refine .inr (.inl ⟨a, f', hl, ?_, h⟩)
              rcases hq with ⟨_, hr⟩ | ⟨_, hr⟩
              · exact ⟨f'.pos, by rw [hr, ← (Prod.mk.inj (Except.ok.inj hr)).2, hd4, hp4, hp3, show f.data.length - (declared f.data + 8) = f.data.length - 8 - declared f.data by omega]⟩
              · cases hr
            · rcases hq with ⟨_, hr⟩ | ⟨hlt, hr⟩
              · cases hr
              · rw [hd4, hp4, hp3] at hlt; omega
          · intro e hq
            rcases hq with ⟨_, _, hr⟩ | ⟨_, he, hr⟩
            · cases hr
            · cases hr
              unfold withCapacity at he
              have := declared_lt f.data
              rw [if_neg (by unfold ISIZE_MAX; omega)] at he
              split at he
              · cases he
              · rename_i h
                rw [if_neg h]; cases he; rfl
        · intro e hq
          rcases hq with ⟨_, hr⟩ | ⟨h, hr⟩
          · cases hr
          · rw [hd2] at h; simp only [if_pos h, Except.error.inj hr]
      · rw [if_pos (by simpa using hm), if_pos (by simpa using hm)]
        exact .inr (.inr ⟨_, rfl, rfl⟩)
    · intro e hq
      rcases hq with ⟨_, hr⟩ | ⟨h, hr⟩
      · cases hr
      · rw [hl₁.1, hp] at h; omega
  · intro e hq
    rcases hq with ⟨_, hr⟩ | ⟨h, hr⟩
    · cases hr
    · simp only [if_pos h, Except.error.inj hr]

theorem leNat_le32 (n : Nat) (h : n < 2 ^ 32) : leNat (le32 n) = n := by
  simp only [le32, leNat, BitVec.toNat_ofNat]
  omega

theorem le32_leNat (bs : Bytes) (h : bs.length = 4) : le32 (leNat bs) = bs := by
  match bs, h with
  | [a, b, c, d], _ =>
    have ha := a.isLt; have hb := b.isLt; have hc := c.isLt; have hd := d.isLt
    simp only [le32, leNat, List.cons.injEq, and_true]
    refine ⟨?_, ?_, ?_, ?_⟩ <;> apply BitVec.eq_of_toNat_eq <;> simp only [BitVec.toNat_ofNat] <;> omega

theorem part_append (a b c : Bytes) : part (a ++ (b ++ c)) a.length b.length = b := by
  unfold part; rw [List.drop_left, List.take_left]

theorem hasFooter_iff (file mb : Bytes) : HasFooter file mb ↔
    8 ≤ file.length ∧ part file (file.length - 4) 4 = PARQUET_MAGIC ∧ declared file + 8 ≤ file.length ∧
    mb = part file (file.length - 8 - declared file) (declared file) := by
  constructor
  · rintro ⟨hlt, pre, rfl⟩
    have hl4 : (le32 mb.length).length = 4 := rfl
    have hlen : (pre ++ footer mb).length = pre.length + mb.length + 8 := by simp [footer, hl4]; omega
    have h1 : part (pre ++ footer mb) ((pre ++ footer mb).length - 4) 4 = PARQUET_MAGIC := by
      have := part_append (pre ++ (mb ++ le32 mb.length)) PARQUET_MAGIC []
      rw [List.append_nil] at this
      rw [hlen, show pre.length + mb.length + 8 - 4 = (pre ++ (mb ++ le32 mb.length)).length by simp [hl4]; omega,
        show pre ++ footer mb = pre ++ (mb ++ le32 mb.length) ++ PARQUET_MAGIC by simp [footer, PARQUET_MAGIC]]
      exact this
    have h2 : part (pre ++ footer mb) ((pre ++ footer mb).length - 8) 4 = le32 mb.length := by
      have := part_append (pre ++ mb) (le32 mb.length) PARQUET_MAGIC
      rw [hlen, show pre.length + mb.length + 8 - 8 = (pre ++ mb).length by simp,
        show pre ++ footer mb = pre ++ mb ++ (le32 mb.length ++ PARQUET_MAGIC) by simp [footer, PARQUET_MAGIC]]
      exact this
    have h3 : declared (pre ++ footer mb) = mb.length := by
      unfold declared; rw [h2, leNat_le32 _ hlt]
    refine ⟨by omega, h1, by omega, ?_⟩
    rw [h3, hlen]
    have := part_append pre mb (le32 mb.length ++ PARQUET_MAGIC)
    rw [show pre.length + mb.length + 8 - 8 - mb.length = pre.length by omega]
    rw [show pre ++ footer mb = pre ++ (mb ++ (le32 mb.length ++ PARQUET_MAGIC)) by simp [footer, PARQUET_MAGIC]]
    exact this.symm
  · rintro ⟨h8, hm, hd, rfl⟩
    have hlen : (part file (file.length - 8 - declared file) (declared file)).length = declared file := by
      simp [part]; omega
    refine ⟨by rw [hlen]; exact declared_lt file, file.take (file.length - 8 - declared file), ?_⟩
    have h4 : le32 (declared file) = part file (file.length - 8) 4 := le32_leNat _ (by simp [part]; omega)
    unfold footer
    rw [hlen, h4, show ([0x50#8, 0x41#8, 0x52#8, 0x31#8] : Bytes) = PARQUET_MAGIC from rfl, ← hm]
    unfold part
    generalize hn : declared file = n at *
    have e1 : file = file.take (file.length - 8 - n) ++ file.drop (file.length - 8 - n) := (List.take_append_drop _ _).symm
    have e2 : file.drop (file.length - 8 - n) = (file.drop (file.length - 8 - n)).take n ++ file.drop (file.length - 8) := by
      conv => lhs; rw [← List.take_append_drop n (file.drop (file.length - 8 - n))]
      rw [List.drop_drop]; congr 2; omega
    have e3 : file.drop (file.length - 8) = (file.drop (file.length - 8)).take 4 ++ (file.drop (file.length - 4)).take 4 := by
      conv => lhs; rw [← List.take_append_drop 4 (file.drop (file.length - 8))]
      rw [List.drop_drop, show file.length - 8 + 4 = file.length - 4 by omega]
      congr 1
      rw [List.take_of_length_le]
      simp; omega
    conv => lhs; rw [e1, e2, e3]
    simp

end CT.Parquet

namespace CT.Props
open CT Spec Parquet

/-- C41: whatever the file does, `get_metadata_chunk` returns what it should, or an I/O error of the file itself: the metadata at the end of the file, or the
error that the contents call for. `mb` is determined by the contents. -/
theorem C41_outcome (cfg : Cfg) (f : File) :
    (∃ k, Faulty f k ∧ getMetadataChunk cfg f = .error (.err (.io k))) ∨
    (∃ mb, HasFooter f.data mb ∧
      ((cfg.alloc mb.length = true ∧ ∃ f', getMetadataChunk cfg f = .ok (mb, f')) ∨
       (cfg.alloc mb.length = false ∧ getMetadataChunk cfg f = .error .abort))) ∨
    (¬ (∃ mb, HasFooter f.data mb) ∧
      ((getMetadataChunk cfg f = .error (.err .invalidMagic) ∧ 8 ≤ f.data.length ∧ ¬ [0x50#8, 0x41#8, 0x52#8, 0x31#8] <:+ f.data) ∨
       (getMetadataChunk cfg f = .error (.err (.io .invalidInput)) ∧ (8 ≤ f.data.length → [0x50#8, 0x41#8, 0x52#8, 0x31#8] <:+ f.data)))) := by
  rcases goes_getMetadataChunk cfg f with h | h
  · exact .inl h
  have hmag : 8 ≤ f.data.length → (part f.data (f.data.length - 4) 4 = PARQUET_MAGIC ↔ [0x50#8, 0x41#8, 0x52#8, 0x31#8] <:+ f.data) := by
    intro h8
    constructor
    · intro h
      refine ⟨f.data.take (f.data.length - 4), ?_⟩
      rw [show ([0x50#8, 0x41#8, 0x52#8, 0x31#8] : Bytes) = PARQUET_MAGIC from rfl, ← h]
      unfold part
      rw [List.take_of_length_le (l := f.data.drop _) (by rw [List.length_drop]; omega), List.take_append_drop]
    · rintro ⟨t, ht⟩
      have := part_append t PARQUET_MAGIC []
      rw [List.append_nil] at this
      rw [← ht, show (t ++ [0x50#8, 0x41#8, 0x52#8, 0x31#8]).length - 4 = t.length by simp]
      exact this
  by_cases h8 : f.data.length < 8
  · have hc : chunkOutcome cfg f.data = .error (.err (.io .invalidInput)) := by unfold chunkOutcome; rw [if_pos h8]
    simp only [hc] at h
    refine .inr (.inr ⟨fun ⟨m, hm⟩ => ?_, .inr ⟨?_, fun h => by omega⟩⟩)
    · have := ((hasFooter_iff _ _).1 hm).1; omega
    · rcases h with ⟨_, _, _, hq, _⟩ | ⟨e, hq, h⟩
      · cases hq
      · cases hq; exact h
  by_cases hm : part f.data (f.data.length - 4) 4 = PARQUET_MAGIC
  · by_cases hd : f.data.length < declared f.data + 8
    · have hc : chunkOutcome cfg f.data = .error (.err (.io .invalidInput)) := by
        unfold chunkOutcome; rw [if_neg h8, if_neg (by simpa using hm), if_pos hd]
      simp only [hc] at h
      refine .inr (.inr ⟨fun ⟨m, hm⟩ => ?_, .inr ⟨?_, fun h => (hmag h).1 hm⟩⟩)
      · have := ((hasFooter_iff _ _).1 hm).2.2.1; omega
      · rcases h with ⟨_, _, _, hq, _⟩ | ⟨e, hq, h⟩
        · cases hq
        · cases hq; exact h
    · have hf := (hasFooter_iff f.data (part f.data (f.data.length - 8 - declared f.data) (declared f.data))).2
        ⟨by omega, hm, by omega, rfl⟩
      have hlen : (part f.data (f.data.length - 8 - declared f.data) (declared f.data)).length = declared f.data := by
        simp [part]; omega
      refine .inr (.inl ⟨_, hf, ?_⟩)
      rw [hlen]
      cases ha : cfg.alloc (declared f.data) with
      | true =>
        have hc : chunkOutcome cfg f.data = .ok (part f.data (f.data.length - 8 - declared f.data) (declared f.data)) := by
          unfold chunkOutcome; rw [if_neg h8, if_neg (by simpa using hm), if_neg hd, if_pos ha]
        simp only [hc] at h
        rcases h with ⟨a, f', _, ⟨p, hq⟩, h⟩ | ⟨e, ⟨_, hq⟩, _⟩
        · cases hq; exact .inl ⟨rfl, f', h⟩
        · cases hq
      | false =>
        have hc : chunkOutcome cfg f.data = .error .abort := by
          unfold chunkOutcome; rw [if_neg h8, if_neg (by simpa using hm), if_neg hd, if_neg (by simp [ha])]
        simp only [hc] at h
        rcases h with ⟨_, _, _, hq, _⟩ | ⟨e, hq, h⟩
        · cases hq
        · cases hq; exact .inr ⟨rfl, h⟩
  · have hc : chunkOutcome cfg f.data = .error (.err .invalidMagic) := by
      unfold chunkOutcome; rw [if_neg h8, if_pos (by simpa using hm)]
    simp only [hc] at h
    refine .inr (.inr ⟨fun ⟨m, hm'⟩ => ?_, .inl ⟨?_, by omega, fun h => hm ((hmag (by omega)).2 h)⟩⟩)
    · exact hm ((hasFooter_iff _ _).1 hm').2.1
    · rcases h with ⟨_, _, _, hq, _⟩ | ⟨e, hq, h⟩
      · cases hq
      · cases hq; exact h

/-- The metadata at the end of a file are unique. -/
theorem hasFooter_unique {file m m' : Bytes} (h : HasFooter file m) (h' : HasFooter file m') : m = m' := by
  rw [((hasFooter_iff _ _).1 h).2.2.2, ((hasFooter_iff _ _).1 h').2.2.2]

/-- C41: from a file that makes no trouble, however it chunks its data, exactly the metadata are returned. -/
theorem C41_ok_iff {cfg : Cfg} {f : File} (hq : Quiet f) {mb : Bytes} (ha : cfg.alloc mb.length = true) :
    (∃ f', getMetadataChunk cfg f = .ok (mb, f')) ↔ HasFooter f.data mb := by
  constructor
  · rintro ⟨f', h⟩
    rcases C41_outcome cfg f with ⟨k, _, h'⟩ | ⟨m, hm, ⟨_, f'', h'⟩ | ⟨_, h'⟩⟩ | ⟨_, ⟨h', _⟩ | ⟨h', _⟩⟩
    · rw [h] at h'; cases h'
    · rw [h] at h'; cases h'; exact hm
    · rw [h] at h'; cases h'
    · rw [h] at h'; cases h'
    · rw [h] at h'; cases h'
  · intro hm
    rcases C41_outcome cfg f with ⟨k, hk, _⟩ | ⟨m, hm', ⟨_, f', h⟩ | ⟨ha', _⟩⟩ | ⟨hn, _⟩
    · exact absurd hk (Quiet.not_faulty hq k)
    · obtain rfl := hasFooter_unique hm hm'; exact ⟨f', h⟩
    · obtain rfl := hasFooter_unique hm hm'; rw [ha] at ha'; cases ha'
    · exact absurd ⟨mb, hm⟩ hn

/-- C41: it never panics, whatever file and allocator do, and never asks for more memory than the file is long. -/
theorem C41_no_panic (cfg : Cfg) (f : File) :
    (∃ m f', getMetadataChunk cfg f = .ok (m, f')) ∨ (∃ e, getMetadataChunk cfg f = .error (.err e)) ∨
    (getMetadataChunk cfg f = .error .abort ∧ ∃ n, n + 8 ≤ f.data.length ∧ cfg.alloc n = false) := by
  rcases C41_outcome cfg f with ⟨k, _, h⟩ | ⟨m, hm, ⟨_, f', h⟩ | ⟨ha, h⟩⟩ | ⟨_, ⟨h, _⟩ | ⟨h, _⟩⟩
  · exact .inr (.inl ⟨_, h⟩)
  · exact .inl ⟨_, _, h⟩
  · obtain ⟨_, pre, hp⟩ := hm
    refine .inr (.inr ⟨h, m.length, ?_, ha⟩)
    rw [hp]; simp [footer, le32]
  · exact .inr (.inl ⟨_, h⟩)
  · exact .inr (.inl ⟨_, h⟩)

/-- A file delivering its bytes in pieces with an interruption. -/
example : ∃ f', getMetadataChunk ⟨true, true, fun _ => true⟩
    ⟨[0x50#8, 0x15#8, 0x00#8, 0x02#8, 0#8, 0#8, 0#8, 0x50#8, 0x41#8, 0x52#8, 0x31#8], 3, [.limit 2, .error .interrupted, .limit 9, .limit 0], [none]⟩ =
      .ok ([0x15#8, 0x00#8], f') :=
  (C41_ok_iff ⟨by simp, by simp⟩ rfl).2 ⟨by decide, [0x50#8], rfl⟩

/-- C42: metadata written at the end of a file are found and read back. -/
theorem C42_file {cfg : Cfg} (ha : ∀ n, cfg.alloc n = true) {v : Val} (hv : HasTy Format.parquetEnv v Format.tFileMetaData) {bytes : Bytes}
    (he : encode Format.parquetEnv Format.tFileMetaData v = .ok bytes) (hl : bytes.length < 2 ^ 32) (pre : Bytes) {f : File} (hq : Quiet f)
    (hf : f.data = pre ++ footer bytes) :
    ∃ chunk f', getMetadataChunk cfg f = .ok (chunk, f') ∧
      readThrift cfg (sliceInput cfg) Format.parquetEnv Format.tFileMetaData chunk = .ok (v.unshare, []) := by
  obtain ⟨f', h⟩ := (C41_ok_iff hq (ha _)).2 (show HasFooter f.data bytes from ⟨hl, pre, hf⟩)
  refine ⟨bytes, f', h, ?_⟩
  have := (C23_parquet_round_trip (cfg := cfg) (fun n _ => ha n) hv he []).1
  rw [List.append_nil] at this
  exact this

end CT.Props
