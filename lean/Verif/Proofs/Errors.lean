import Verif.Proofs.Inputs
import Verif.Spec.Errors
/-! # The errors of reads -/
namespace CT
open Spec

variable {σ α β : Type}

/-- Failures that are no `Err`, or errors in `E`. -/
def Only (E : ThriftError → Prop) (f : Fail) : Prop := ∀ e, f = .err e → E e

theorem only_err {E : ThriftError → Prop} {e : ThriftError} (h : E e) : Only E (.err e) := by rintro _ ⟨⟩; exact h
theorem only_panic {E : ThriftError → Prop} : Only E .panic := by rintro _ ⟨⟩
theorem only_ub {E : ThriftError → Prop} : Only E .ub := by rintro _ ⟨⟩
theorem only_stuck {E : ThriftError → Prop} : Only E .stuck := by rintro _ ⟨⟩
theorem only_diverge {E : ThriftError → Prop} : Only E .diverge := by rintro _ ⟨⟩
theorem Only.mono {E E' : ThriftError → Prop} (h : ∀ e, E e → E' e) {f : Fail} (hf : Only E f) : Only E' f := fun e he => h e (hf e he)

/-- As long as `P` holds, it stays so; results satisfy `Q` and errors `E`. -/
def Ev (P : σ → Prop) (x : Rd σ α) (Q : α → Prop) (E : ThriftError → Prop) : Prop := Tri P x (fun a s => P s ∧ Q a) (Only E)

section
variable {P : σ → Prop} {E E' : ThriftError → Prop}

theorem Ev.pure {a : α} {Q : α → Prop} (h : Q a) : Ev P (pure a) Q E := Tri.pure fun _ hs => ⟨hs, h⟩
theorem Ev.throw {e : ThriftError} {Q : α → Prop} (h : E e) : Ev P (Rd.throw e) Q E := Tri.throw (only_err h)
theorem Ev.fail {f : Fail} {Q : α → Prop} (h : Only E f) : Ev P (Rd.fail f) Q E := Tri.fail h
theorem Ev.bind {x : Rd σ α} {f : α → Rd σ β} {Q : α → Prop} {Q' : β → Prop} (h : Ev P x Q E) (hf : ∀ a, Q a → Ev P (f a) Q' E) :
    Ev P (x >>= f) Q' E := Tri.bind h fun a s hs => hf a hs.2 s hs.1
theorem Ev.ite {c : Prop} [Decidable c] {x y : Rd σ α} {Q : α → Prop} (h : c → Ev P x Q E) (h' : ¬ c → Ev P y Q E) :
    Ev P (if c then x else y) Q E := Tri.ite h h'
theorem Ev.mono {x : Rd σ α} {Q Q' : α → Prop} (h : Ev P x Q E) (hQ : ∀ a, Q a → Q' a) (hE : ∀ e, E e → E' e) : Ev P x Q' E' :=
  h.weaken (fun _ h => h) (fun _ _ h => ⟨h.1, hQ _ h.2⟩) fun _ hf => hf.mono hE
theorem Ev.errs {x : Rd σ α} {Q : α → Prop} (h : Ev P x Q E) (hE : ∀ e, E e → E' e) : Ev P x Q E' := h.mono (fun _ h => h) hE
theorem Ev.intro {x : Rd σ α} {Q : α → Prop} (h : ∀ s, P s → (∀ a s', x s = .ok (a, s') → P s' ∧ Q a) ∧ ∀ f, x s = .error f → Only E f) : Ev P x Q E := by
  intro s hs
  cases e : x s with
  | ok p => exact (h s hs).1 p.1 p.2 e
  | error f => exact (h s hs).2 f e
theorem Ev.run {x : Rd σ α} {Q : α → Prop} (h : Ev P x Q E) {s : σ} (hs : P s) : (∀ a s', x s = .ok (a, s') → P s' ∧ Q a) ∧ ∀ f, x s = .error f → Only E f :=
  ⟨fun _ _ e => Tri.ok h hs e, fun _ e => Tri.error h hs e⟩
theorem Ev.of {F : σ → Rd σ α} {Q : α → Prop} (h : ∀ s, Ev P (F s) Q E) : Ev P (fun s => F s s) Q E := fun s hs => h s s hs

end

/-- The errors of the input itself are in `In`. -/
structure InputErrs (P : σ → Prop) (In : ThriftError → Prop) (I : Input σ) : Prop where
  readByte : Ev P I.readByte (fun _ => True) In
  readDouble : Ev P I.readDouble (fun _ => True) In
  readBinary : Ev P I.readBinary (fun _ => True) fun e => In e ∨ ∃ n, 16777216 < n ∧ n < 2 ^ 64 ∧ e = .invalidBinaryLen n
  skipInteger : Ev P I.skipInteger (fun _ => True) In
  skipBinary : Ev P I.skipBinary (fun _ => True) fun e => In e ∨ ∃ n, 16777216 < n ∧ n < 2 ^ 64 ∧ e = .invalidBinaryLen n

theorem Ev.decodeUleb {P : σ → Prop} {E : ThriftError → Prop} {cfg : Cfg} {sz : σ → Nat} {x : Rd σ Byte} (h : Ev P x (fun _ => True) E) :
    Ev P (CT.decodeUleb cfg sz x) (fun _ => True) E := by
  have loop : ∀ n shift acc, Ev P (ulebLoop cfg x n shift acc) (fun _ => True) E := by
    intro n
    induction n with
    | zero => intro _ _; exact Ev.fail only_diverge
    | succ n ih =>
      intro shift acc
      unfold ulebLoop
      exact Ev.bind h fun b _ => Ev.ite (fun _ => Ev.fail only_panic) fun _ => Ev.ite (fun _ => Ev.pure trivial) fun _ => ih _ _
  intro s hs
  exact loop _ _ _ s hs

/-! ## The two inputs -/

abbrev IsEof (e : ThriftError) : Prop := e = .io .unexpectedEof

theorem slice_readByte_ev : Ev (fun _ => True) Slice.readByte (fun _ => True) IsEof := by
  intro s _
  cases s with
  | nil => exact only_err rfl
  | cons b s => exact ⟨trivial, trivial⟩

theorem slice_readLen_ev (cfg : Cfg) : Ev (fun _ => True) (Slice.readLen cfg) (fun n => n < 2 ^ 64) IsEof :=
  Ev.bind (Ev.decodeUleb slice_readByte_ev) fun len _ => Ev.pure len.isLt

theorem slice_errs (cfg : Cfg) : InputErrs (fun _ => True) IsEof (sliceInput cfg) where
  readByte := slice_readByte_ev
  readDouble := by
    refine Ev.intro fun s _ => ⟨fun _ _ _ => ⟨trivial, trivial⟩, fun f h => ?_⟩
    by_cases hl : s.length < 8
    · rw [show (sliceInput cfg).readDouble s = eof from if_pos hl] at h; cases h; exact only_err rfl
    · rw [show (sliceInput cfg).readDouble s = _ from if_neg hl] at h; cases h
  readBinary := by
    refine Ev.bind ((slice_readLen_ev cfg).errs fun _ h => .inl h) fun len hl => Ev.ite (fun h => Ev.throw (.inr ⟨len, h, hl, rfl⟩)) fun _ => ?_
    refine Ev.intro fun s _ => ⟨fun _ _ _ => ⟨trivial, trivial⟩, fun f h => ?_⟩
    change (if s.length < len then eof else .ok (s.take len, s.drop len) : Except Fail (Bytes × Bytes)) = _ at h
    by_cases hl : s.length < len
    · rw [if_pos hl] at h; cases h; exact only_err (.inl rfl)
    · rw [if_neg hl] at h; cases h
  skipInteger := by
    show Ev _ (Slice.skipInteger cfg) _ _
    unfold Slice.skipInteger
    refine Ev.ite (fun _ => ?_) fun _ => Ev.bind (Ev.decodeUleb slice_readByte_ev) fun _ _ => Ev.pure trivial
    refine Ev.intro fun s _ => ⟨fun _ _ _ => ⟨trivial, trivial⟩, fun f h => ?_⟩
    change (if 16 ≤ s.length then match skipUlebSse2 s with | .ok s' => .ok ((), s') | .error e => .error e
      else match skipUlebFallback s with | .ok s' => .ok ((), s') | .error e => .error e : Except Fail (Unit × Bytes)) = _ at h
    unfold skipUlebSse2 skipUlebFallback at h
    dsimp only at h
    split at h
    · split at h
      · cases h
      · rename_i e
        split at e
        · cases e
        · cases e; cases h; exact only_ub
    · split at h
      · cases h
      · rename_i e
        split at e
        · cases e
        · cases e; cases h; exact only_panic
  skipBinary := by
    refine Ev.bind ((slice_readLen_ev cfg).errs fun _ h => .inl h) fun len hl => Ev.ite (fun h => Ev.throw (.inr ⟨len, h, hl, rfl⟩)) fun _ => ?_
    refine Ev.intro fun s _ => ⟨fun _ _ _ => ⟨trivial, trivial⟩, fun f h => ?_⟩
    change (if s.length < len then eof else .ok ((), s.drop len) : Except Fail (Unit × Bytes)) = _ at h
    by_cases hl : s.length < len
    · rw [if_pos hl] at h; cases h; exact only_err (.inl rfl)
    · rw [if_neg hl] at h; cases h

/-- The kinds of errors a script contains. -/
abbrev Kinds (K : ErrorKind → Prop) (evs : List REvent) : Prop := ∀ k, .error k ∈ evs → K k

/-- End of input, or an error of the script that is not retried. -/
abbrev IoOf (K : ErrorKind → Prop) (e : ThriftError) : Prop := e = .io .unexpectedEof ∨ ∃ k, K k ∧ k ≠ .interrupted ∧ e = .io k

theorem readExact_ev {K : ErrorKind → Prop} : ∀ (evs : List REvent) (n : Nat), Kinds K evs →
    match readExact n evs with
    | .ok (_, s) => Kinds K s ∧ True
    | .error f => Only (IoOf K) f := by
  intro evs
  induction evs with
  | nil => intro n h; cases n with | zero => exact ⟨h, trivial⟩ | succ n => exact only_err (.inl rfl)
  | cons ev evs ih =>
    intro n h
    have h' : Kinds K evs := fun k hk => h k (List.mem_cons_of_mem _ hk)
    cases n with
    | zero => exact ⟨h, trivial⟩
    | succ n =>
      cases ev with
      | data bs =>
        rw [readExact]
        by_cases h0 : bs = []
        · rw [if_pos h0]; exact only_err (.inl rfl)
        · rw [if_neg h0]
          by_cases h1 : bs.length ≤ n + 1
          · rw [if_pos h1]
            have := ih (n + 1 - bs.length) h'
            cases e : readExact (n + 1 - bs.length) evs with
            | error f => rw [e] at this; exact this
            | ok p => rw [e] at this; exact this
          · rw [if_neg h1]
            refine ⟨fun k hk => ?_, trivial⟩
            rcases List.mem_cons.1 hk with hk | hk
            · cases hk
            · exact h' k hk
      | error k =>
        rw [readExact]
        by_cases hk : k = .interrupted
        · rw [if_pos hk]; exact ih (n + 1) h'
        · rw [if_neg hk]; exact only_err (.inr ⟨k, h k List.mem_cons_self, hk, rfl⟩)

theorem reader_readByte_ev {K : ErrorKind → Prop} : Ev (Kinds K) Reader.readByte (fun _ => True) (IoOf K) := by
  intro evs h
  have := readExact_ev evs 1 h
  unfold Reader.readByte
  cases e : readExact 1 evs with
  | error f => rw [e] at this; exact this
  | ok p =>
    rw [e] at this
    obtain ⟨x, s'⟩ := p
    match x with
    | [] => exact only_stuck
    | [b] => exact this
    | _ :: _ :: _ => exact only_stuck

theorem reader_readBinary_ev {K : ErrorKind → Prop} (cfg : Cfg) :
    Ev (Kinds K) (Reader.readBinary cfg) (fun _ => True) fun e => IoOf K e ∨ ∃ n, 16777216 < n ∧ n < 2 ^ 64 ∧ e = .invalidBinaryLen n := by
  refine Ev.bind ((Ev.decodeUleb reader_readByte_ev).errs fun _ h => .inl h) fun len _ => Ev.ite (fun h => Ev.throw (.inr ⟨_, h, len.isLt, rfl⟩)) fun _ => ?_
  intro evs h
  have := readExact_ev evs len.toNat h
  cases e : readExact len.toNat evs with
  | error f => rw [e] at this; exact this.mono fun _ h => .inl h
  | ok p => rw [e] at this; exact this

theorem reader_errs {K : ErrorKind → Prop} (cfg : Cfg) : InputErrs (Kinds K) (IoOf K) (readerInput cfg) where
  readByte := reader_readByte_ev
  readDouble := by
    show Ev _ Reader.readDouble _ _
    intro evs h
    have := readExact_ev evs 8 h
    unfold Reader.readDouble
    cases e : readExact 8 evs with
    | error f => rw [e] at this; exact this
    | ok p => rw [e] at this; exact this
  readBinary := reader_readBinary_ev cfg
  skipInteger := Ev.bind (Ev.decodeUleb reader_readByte_ev) fun _ _ => Ev.pure trivial
  skipBinary := Ev.bind (reader_readBinary_ev cfg) fun _ _ => Ev.pure trivial

/-! ## Headers and skipping -/

section
variable {P : σ → Prop} {In : ThriftError → Prop} {I : Input σ} (hI : InputErrs P In I) (cfg : Cfg)
include hI

theorem Ev.readFieldHeader (last : BitVec 16) : Ev P (I.readFieldHeader cfg last) (fun _ => True) In := by
  refine Ev.bind hI.readByte fun b _ => Ev.ite (fun _ => Ev.pure trivial) fun _ => Ev.ite (fun _ => Ev.ite (fun _ => Ev.fail only_panic) fun _ => Ev.pure trivial) fun _ => ?_
  exact Ev.bind (Q := fun _ => True) (Ev.bind (Ev.decodeUleb hI.readByte) fun _ _ => Ev.pure trivial) fun _ _ => Ev.pure trivial

theorem Ev.readCollection : Ev P (I.readCollectionLenAndType cfg) (fun p => p.1 ≤ 10000000) fun e => In e ∨ e = .invalidCollectionLen := by
  refine Ev.bind (hI.readByte.errs fun _ h => .inl h) fun b _ => Ev.bind (Q := fun _ => True) (Ev.ite (fun _ => Ev.pure trivial) fun _ => ?_) fun len _ =>
    Ev.ite (fun _ => Ev.throw (.inr rfl)) fun h => Ev.pure (Nat.le_of_not_lt h)
  exact Ev.bind ((Ev.decodeUleb hI.readByte).errs fun _ h => .inl h) fun _ _ => Ev.pure trivial

theorem Ev.readMap : Ev P (I.readMapLenAndTypes cfg) (fun _ => True) fun e => In e ∨ e = .invalidCollectionLen := by
  refine Ev.bind (Q := fun _ => True) (Ev.bind ((Ev.decodeUleb hI.readByte).errs fun _ h => .inl h) fun _ _ => Ev.pure trivial) fun len _ =>
    Ev.ite (fun _ => Ev.pure trivial) fun _ => Ev.bind (hI.readByte.errs fun _ h => .inl h) fun _ _ => Ev.ite (fun _ => Ev.throw (.inr rfl)) fun _ => Ev.pure trivial

omit hI in
theorem Ev.repeat {x : Rd σ Unit} {E : ThriftError → Prop} (h : Ev P x (fun _ => True) E) : ∀ n, Ev P (repeatRd x n) (fun _ => True) E
  | 0 => Ev.pure trivial
  | n + 1 => Ev.bind h fun _ _ => Ev.repeat h n

theorem ev_skip : ∀ n, (Ev P (skipCollection cfg I n) (fun _ => True) fun e => In e ∨ SkipError e) ∧ (Ev P (skipMap cfg I n) (fun _ => True) fun e => In e ∨ SkipError e) ∧
    ∀ ft ins, Ev P (skipFieldF cfg I n ft ins) (fun _ => True) fun e => In e ∨ SkipError e := by
  have inl : ∀ e, In e → In e ∨ SkipError e := fun _ h => .inl h
  have hbyte : Ev P (do let _ ← I.readByte; pure () : Rd σ Unit) (fun _ => True) fun e => In e ∨ SkipError e := Ev.bind (hI.readByte.errs inl) fun _ _ => Ev.pure trivial
  have hdouble : Ev P (do let _ ← I.readDouble; pure () : Rd σ Unit) (fun _ => True) fun e => In e ∨ SkipError e := Ev.bind (hI.readDouble.errs inl) fun _ _ => Ev.pure trivial
  have hbin : Ev P I.skipBinary (fun _ => True) fun e => In e ∨ SkipError e := hI.skipBinary.errs fun e h => h.imp id fun ⟨n, h1, h2, h3⟩ => by rw [h3]; exact .binary n h1 h2
  have hint : Ev P I.skipInteger (fun _ => True) fun e => In e ∨ SkipError e := hI.skipInteger.errs inl
  have coll : ∀ e, In e ∨ e = .invalidCollectionLen → In e ∨ SkipError e := fun e h => h.imp id fun h => by rw [h]; exact .collection
  intro n
  induction n with
  | zero =>
    refine ⟨?_, ?_, fun ft ins => ?_⟩
    · rw [skipCollection]; exact Ev.fail only_diverge
    · rw [skipMap]; exact Ev.fail only_diverge
    · rw [skipFieldF]; exact Ev.fail only_diverge
  | succ n ih =>
    obtain ⟨h1, h2, h3⟩ := ih
    refine ⟨?_, ?_, fun ft ins => ?_⟩
    · rw [skipCollection]
      refine Ev.bind ((Ev.readCollection hI cfg).errs coll) fun p _ => ?_
      obtain ⟨len, et⟩ := p
      dsimp only
      split <;> first
        | exact Ev.repeat hbyte _
        | exact Ev.repeat hint _
        | exact Ev.repeat hdouble _
        | exact Ev.repeat hbin _
        | exact Ev.repeat h1 _
        | exact Ev.repeat h2 _
        | exact Ev.repeat (h3 _ _) _
        | exact Ev.throw (.inr .type)
    · rw [skipMap]
      refine Ev.bind ((Ev.readMap hI cfg).errs coll) fun p _ => ?_
      obtain ⟨len, kt, vt⟩ := p
      exact Ev.repeat (Ev.bind (h3 _ _) fun _ _ => h3 _ _) _
    · rw [skipFieldF]
      split
      any_goals exact hint
      any_goals exact hbyte
      any_goals exact h1
      any_goals exact Ev.ite (fun _ => hbyte) fun _ => Ev.pure trivial
      · exact hdouble
      · exact hbin
      · exact h2
      · refine Ev.of (F := fun s => skipStructLoop cfg I (fun ft => skipFieldF cfg I n ft false) (I.size s + 1) 0#16) fun s => ?_
        have loop : ∀ m last, Ev P (skipStructLoop cfg I (fun ft => skipFieldF cfg I n ft false) m last) (fun _ => True) fun e => In e ∨ SkipError e := by
          intro m
          induction m with
          | zero => intro _; exact Ev.fail only_diverge
          | succ m ih =>
            intro last
            unfold skipStructLoop
            exact Ev.bind ((Ev.readFieldHeader hI cfg last).errs inl) fun p _ => Ev.ite (fun _ => Ev.pure trivial) fun _ => Ev.bind (h3 _ _) fun _ _ => ih _
        exact loop _ _
      · exact Ev.throw (.inr .type)

end

/-! ## Values -/

theorem unsharedAll_iff : ∀ {vs : List Val}, UnsharedAll vs ↔ ∀ v ∈ vs, Unshared v
  | [] => by simp [UnsharedAll]
  | v :: vs => by simp [UnsharedAll, unsharedAll_iff (vs := vs)]

/-- Not what `Once` forbids to read into. -/
def Free : Val → Prop
  | .some _ => False
  | .box v => Free v
  | .rc _ v => Free v
  | _ => True

theorem dfltTy_free {ds : List Val} (h : ∀ v ∈ ds, Unshared v ∧ Free v) (t : Ty) : Unshared (dfltTy ds t) ∧ Free (dfltTy ds t) := by
  induction t with
  | named k =>
    rw [dfltTy]
    cases e : ds[k]? with
    | none => exact ⟨trivial, trivial⟩
    | some v => exact h v (List.mem_of_getElem? e)
  | box t ih => exact ih
  | rc t ih => exact ⟨⟨rfl, ih.1⟩, ih.2⟩
  | _ => exact ⟨trivial, trivial⟩

theorem defaultsFrom_free : ∀ (env : List Def) (ds : List Val), (∀ v ∈ ds, Unshared v ∧ Free v) → ∀ v ∈ defaultsFrom ds env, Unshared v ∧ Free v
  | [], _, h => h
  | d :: env, ds, h => by
    rw [defaultsFrom]
    refine defaultsFrom_free env _ fun v hv => ?_
    rcases List.mem_append.1 hv with hv | hv
    · exact h v hv
    · obtain rfl : v = _ := by simpa using hv
      cases d with
      | enum name => exact ⟨trivial, trivial⟩
      | union name us =>
        cases us with
        | nil => exact ⟨trivial, trivial⟩
        | cons u us => exact ⟨(dfltTy_free h _).1, trivial⟩
      | struct name fs =>
        refine ⟨unsharedAll_iff.2 fun w hw => ?_, trivial⟩
        obtain ⟨f, _, rfl⟩ := List.mem_map.1 hw
        exact (dfltTy_free h _).1

theorem dflt_free (env : List Def) (t : Ty) : Unshared (dflt env t) ∧ Free (dflt env t) := dfltTy_free (defaultsFrom_free env [] (by simp)) t

section
variable {P : σ → Prop} {In : ThriftError → Prop} {I : Input σ} (hI : InputErrs P In I) (cfg : Cfg) (env : List Def)

theorem Ev.elems {x : Rd σ Val} {E : ThriftError → Prop} (h : Ev P x Unshared E) : ∀ n, Ev P (fillElems x n) UnsharedAll E
  | 0 => Ev.pure trivial
  | n + 1 => Ev.bind h fun _ hv => Ev.bind (Ev.elems h n) fun _ hvs => Ev.pure ⟨hv, hvs⟩

/-- The errors of a read of a type into a value: as of the type, or that the value must not be read into. -/
abbrev Errs (In : ThriftError → Prop) (cfg : Cfg) (env : List Def) (t : Ty) (v : Val) (e : ThriftError) : Prop :=
  In e ∨ CanFail cfg.alloc env t e ∨ (e = .duplicateField ∧ Once t ∧ ¬ Free v)

include hI in
theorem Ev.encodingSetLoop : ∀ n mask, Ev P (CT.encodingSetLoop cfg I n mask) (fun _ => True) fun e => In e ∨ e = .invalidNumber
  | 0, _ => Ev.pure trivial
  | n + 1, mask => by
    unfold CT.encodingSetLoop
    exact Ev.bind (Q := fun _ => True) (Ev.bind ((Ev.decodeUleb hI.readByte).errs fun _ h => .inl h) fun _ _ => Ev.pure trivial) fun _ _ =>
      Ev.ite (fun _ => Ev.throw (.inr rfl)) fun _ => Ev.encodingSetLoop n _

include hI in
theorem ev_fillTy {fn : Nat → Val → Rd σ Val} (hfn : ∀ k v, Unshared v → Ev P (fn k v) Unshared fun e => In e ∨ CanFail cfg.alloc env (.named k) e) :
    ∀ t v, Unshared v → Ev P (fillTy cfg I env fn t v) Unshared (Errs In cfg env t v) := by
  intro t
  induction t with
  | bool => intro v _; rw [fillTy]; exact Ev.bind (hI.readByte.errs fun _ h => .inl h) fun _ _ => Ev.pure trivial
  | i8 => intro v _; rw [fillTy]; exact Ev.bind (hI.readByte.errs fun _ h => .inl h) fun _ _ => Ev.pure trivial
  | i16 => intro v _; rw [fillTy]; exact Ev.bind (Q := fun _ => True) (Ev.bind ((Ev.decodeUleb hI.readByte).errs fun _ h => .inl h) fun _ _ => Ev.pure trivial) fun _ _ => Ev.pure trivial
  | i32 => intro v _; rw [fillTy]; exact Ev.bind (Q := fun _ => True) (Ev.bind ((Ev.decodeUleb hI.readByte).errs fun _ h => .inl h) fun _ _ => Ev.pure trivial) fun _ _ => Ev.pure trivial
  | i64 => intro v _; rw [fillTy]; exact Ev.bind (Q := fun _ => True) (Ev.bind ((Ev.decodeUleb hI.readByte).errs fun _ h => .inl h) fun _ _ => Ev.pure trivial) fun _ _ => Ev.pure trivial
  | double => intro v _; rw [fillTy]; exact Ev.bind (hI.readDouble.errs fun _ h => .inl h) fun _ _ => Ev.pure trivial
  | binary =>
    intro v _; rw [fillTy]
    exact Ev.bind (hI.readBinary.errs fun e h => h.imp id fun ⟨n, h1, h2, h3⟩ => .inl (by rw [h3]; exact .binaryLen n h1 h2)) fun _ _ => Ev.pure trivial
  | string =>
    intro v _; rw [fillTy]
    refine Ev.bind (Q := fun _ => True) (Ev.bind (hI.readBinary.errs fun e h => h.imp id fun ⟨n, h1, h2, h3⟩ => .inl (by rw [h3]; exact .stringLen n h1 h2)) fun bs _ => ?_) fun _ _ => Ev.pure trivial
    exact Ev.ite (fun _ => Ev.pure trivial) fun _ => Ev.throw (.inr (.inl .utf8))
  | encodingSet =>
    intro v _; rw [fillTy]
    refine Ev.bind ((Ev.readCollection hI cfg).errs fun e h => h.imp id fun h => .inl (by rw [h]; exact .setLen)) fun p _ => ?_
    exact Ev.ite (fun _ => Ev.throw (.inr (.inl .setType))) fun _ =>
      Ev.bind ((Ev.encodingSetLoop hI cfg _ _).errs fun e h => h.imp id fun h => .inl (by rw [h]; exact .setNumber)) fun _ _ => Ev.pure trivial
  | list t ih =>
    intro v _; rw [fillTy]
    refine Ev.bind ((Ev.readCollection hI cfg).errs fun e h => h.imp id fun h => .inl (by rw [h]; exact .listLen t)) fun p hp => ?_
    refine Ev.ite (fun _ => Ev.throw (.inr (.inl (.listType t)))) fun _ => Ev.ite (fun ha => Ev.throw (.inr (.inl (.listAlloc t _ hp (by simpa using ha))))) fun _ => ?_
    refine Ev.bind (Ev.elems ((ih _ (dflt_free env t).1).errs fun e h => ?_) _) fun vs hvs => Ev.pure hvs
    rcases h with h | h | h
    · exact .inl h
    · exact .inr (.inl (.elem t e h))
    · exact absurd (dflt_free env t).2 h.2.2
  | option t ih =>
    intro v hv
    cases v with
    | some w => rw [fillTy]; exact Ev.throw (.inr (.inr ⟨rfl, trivial, fun h => h⟩))
    | none =>
      rw [fillTy]
      refine Ev.bind ((ih _ (dflt_free env t).1).errs fun e h => ?_) fun vs hvs => Ev.pure hvs
      rcases h with h | h | h
      · exact .inl h
      · exact .inr (.inl (.option t e h))
      · exact absurd (dflt_free env t).2 h.2.2
    | _ => exact Ev.fail only_stuck
  | box t ih =>
    intro v hv
    cases v with
    | box w =>
      rw [fillTy]
      refine Ev.bind ((ih w hv).errs fun e h => ?_) fun vs hvs => Ev.pure hvs
      exact h.imp id fun h => h.imp (.box t e) fun h => h
    | _ => exact Ev.fail only_stuck
  | rc t ih =>
    intro v hv
    cases v with
    | rc b w =>
      rw [fillTy]
      refine Ev.ite (fun hb => ?_) fun _ => Ev.bind ((ih w hv.2).errs fun e h => ?_) fun vs hvs => Ev.pure ⟨rfl, hvs⟩
      · rw [hv.1] at hb; cases hb
      · exact h.imp id fun h => h.imp (.rc t e) fun h => h
    | _ => exact Ev.fail only_stuck
  | named k =>
    intro v hv; rw [fillTy]
    exact (hfn k v hv).errs fun e h => h.imp id .inl

include hI in
theorem ev_fillField {fn : Nat → Val → Rd σ Val} (hfn : ∀ k v, Unshared v → Ev P (fn k v) Unshared fun e => In e ∨ CanFail cfg.alloc env (.named k) e) :
    ∀ t v ft, Unshared v → Ev P (fillField cfg I env fn t v ft) Unshared fun e => e = .invalidType ∨ Errs In cfg env t v e := by
  intro t
  have plain : ∀ t v ft, Unshared v → Ev P (if ft ≠ fieldType env t then Rd.throw .invalidType else fillTy cfg I env fn t v) Unshared fun e => e = .invalidType ∨ Errs In cfg env t v e :=
    fun t v ft hv => Ev.ite (fun _ => Ev.throw (.inl rfl)) fun _ => (ev_fillTy hI cfg env hfn t v hv).errs fun _ h => .inr h
  induction t with
  | bool => intro v ft _; rw [fillField]; exact Ev.pure trivial
  | option t ih =>
    intro v ft hv
    cases v with
    | some w => rw [fillField]; exact Ev.throw (.inr (.inr (.inr ⟨rfl, trivial, fun h => h⟩)))
    | none =>
      rw [fillField]
      refine Ev.bind ((ih _ ft (dflt_free env t).1).errs fun e h => h.imp id fun h => ?_) fun vs hvs => Ev.pure hvs
      rcases h with h | h | h
      · exact .inl h
      · exact .inr (.inl (.option t e h))
      · exact absurd (dflt_free env t).2 h.2.2
    | _ => exact Ev.fail only_stuck
  | i8 => intro v ft hv; exact plain _ v ft hv
  | i16 => intro v ft hv; exact plain _ v ft hv
  | i32 => intro v ft hv; exact plain _ v ft hv
  | i64 => intro v ft hv; exact plain _ v ft hv
  | double => intro v ft hv; exact plain _ v ft hv
  | binary => intro v ft hv; exact plain _ v ft hv
  | string => intro v ft hv; exact plain _ v ft hv
  | encodingSet => intro v ft hv; exact plain _ v ft hv
  | list t _ => intro v ft hv; exact plain _ v ft hv
  | box t _ => intro v ft hv; exact plain _ v ft hv
  | rc t _ => intro v ft hv; exact plain _ v ft hv
  | named k => intro v ft hv; exact plain _ v ft hv

theorem firstMissing_mem : ∀ {fs : List Field} {flags : List Bool} {f : Field}, firstMissing fs flags = some f → f ∈ fs ∧ f.required = true
  | [], _, _, h => by simp [firstMissing] at h
  | _ :: _, [], _, h => by simp [firstMissing] at h
  | g :: fs, b :: flags, f, h => by
    rw [firstMissing] at h
    split at h
    · cases h
      rename_i hc
      exact ⟨List.mem_cons_self, by revert hc; cases g.required <;> simp⟩
    · exact ⟨List.mem_cons_of_mem _ (firstMissing_mem h).1, (firstMissing_mem h).2⟩

include hI in
theorem ev_fillNamed : ∀ n k v, Unshared v → Ev P (fillNamed cfg I env n k v) Unshared fun e => In e ∨ CanFail cfg.alloc env (.named k) e := by
  intro n
  induction n with
  | zero => intro k v _; rw [fillNamed]; exact Ev.fail only_diverge
  | succ n ih =>
    intro k v hv
    cases hk : env[k]? with
    | none => unfold fillNamed; rw [hk]; exact Ev.fail only_stuck
    | some d =>
      cases d with
      | enum name =>
        unfold fillNamed; rw [hk]
        cases v with
        | enum x => exact Ev.bind (Q := fun _ => True) (Ev.bind ((Ev.decodeUleb hI.readByte).errs fun _ h => .inl h) fun _ _ => Ev.pure trivial) fun _ _ => Ev.pure trivial
        | _ => exact Ev.fail only_stuck
      | union name us =>
        unfold fillNamed; rw [hk]
        cases v with
        | union i w =>
          dsimp only
          unfold fillUnion
          refine Ev.bind ((Ev.readFieldHeader hI cfg _).errs fun _ h => .inl h) fun p _ => Ev.ite (fun _ => Ev.throw (.inr (.noVariant k name us hk))) fun _ => ?_
          split
          · split
            · rename_i u hu
              have hm := List.mem_of_getElem? hu
              refine Ev.bind ((ev_fillTy hI cfg env ih u.ty _ (dflt_free env u.ty).1).errs fun e h => ?_) fun w hw =>
                Ev.bind (hI.readByte.errs fun _ h => .inl h) fun _ _ => Ev.ite (fun _ => Ev.throw (.inr (.noStop k name us u hk hm))) fun _ => Ev.pure hw
              rcases h with h | h | h
              · exact .inl h
              · exact .inr (.variant k name us u e hk hm h)
              · exact absurd (dflt_free env u.ty).2 h.2.2
            · exact Ev.fail only_stuck
          · exact Ev.throw (.inr (.otherVariant k name us hk))
        | _ => exact Ev.fail only_stuck
      | struct name fs =>
        unfold fillNamed; rw [hk]
        cases v with
        | struct vs =>
          dsimp only
          refine Ev.of (F := fun s => structLoop cfg I env (fillNamed cfg I env n) name fs (I.size s + 1) 0#16 (fs.map fun _ => false) vs) fun s => ?_
          have loop : ∀ m last flags vs, UnsharedAll vs → Ev P (structLoop cfg I env (fillNamed cfg I env n) name fs m last flags vs) Unshared
              fun e => In e ∨ CanFail cfg.alloc env (.named k) e := by
            intro m
            induction m with
            | zero => intro _ _ _ _; exact Ev.fail only_diverge
            | succ m ihm =>
              intro last flags vs hvs
              unfold structLoop
              refine Ev.bind ((Ev.readFieldHeader hI cfg _).errs fun _ h => .inl h) fun p _ => Ev.ite (fun _ => ?_) fun _ => ?_
              · split
                · rename_i f hf
                  exact Ev.throw (.inr (.missing k name fs f hk (firstMissing_mem hf).1 (firstMissing_mem hf).2))
                · exact Ev.pure hvs
              · split
                · split
                  · rename_i f v hf hv
                    have hm := List.mem_of_getElem? hf
                    refine Ev.bind ((ev_fillField hI cfg env ih f.rustTy v p.1 (unsharedAll_iff.1 hvs v (List.mem_of_getElem? hv))).errs fun e h => ?_) fun w hw => ihm _ _ _ ?_
                    · rcases h with rfl | h | h | ⟨rfl, h, _⟩
                      · exact .inr (.skip k name fs _ hk .type)
                      · exact .inl h
                      · exact .inr (.field k name fs f e hk hm h)
                      · exact .inr (.repeated k name fs f hk hm h)
                    · refine unsharedAll_iff.2 fun x hx => ?_
                      rcases List.mem_or_eq_of_mem_set hx with hx | rfl
                      · exact unsharedAll_iff.1 hvs x hx
                      · exact hw
                  · exact Ev.fail only_stuck
                · refine Ev.bind (Ev.of (F := fun s => skipFieldF cfg I (2 * I.size s + 2) p.1 false) fun s => ((ev_skip hI cfg _).2.2 _ _).errs fun e h => h.imp id (.skip k name fs e hk)) fun _ _ => ihm _ _ _ hvs
          exact loop _ _ _ _ hv
        | _ => exact Ev.fail only_stuck

include hI in
theorem ev_fillThrift (t : Ty) {v : Val} (hv : Unshared v) : Ev P (fillThrift cfg I env t v) Unshared (Errs In cfg env t v) :=
  Ev.of (F := fun s => fillTy cfg I env (fillNamed cfg I env (I.size s + 1)) t v) fun _ => ev_fillTy hI cfg env (ev_fillNamed hI cfg env _) t v hv

end
end CT
