import Verif.Model.Benches
import Verif.Props.Writing
import Verif.Props.PageIndex
import Verif.Props.Reading
import Verif.Props.ParquetFile
/-! # C109: what the benchmarks assume -/
namespace CT.Props
open CT.Spec CT.Parquet CT.Benches

theorem eqNumbers_self (ns : List (BitVec 64)) : eqNumbers (numbersVal ns) ns = true := by
  unfold numbersVal
  induction ns with
  | nil => rfl
  | cons x ns ih => simpa [eqNumbers] using ih

theorem eqNumbers_iff (v : Val) (ns : List (BitVec 64)) : eqNumbers v ns = true ↔ v = numbersVal ns := by
  constructor
  · intro h
    unfold numbersVal
    revert h
    fun_induction eqNumbers v ns <;> simp_all
    rename_i ih
    exact fun _ => ih
  · rintro rfl; exact eqNumbers_self ns

theorem numbersVal_typed (ns : List (BitVec 64)) : HasTy [] (numbersVal ns) (.list .i64) := by
  refine .list _ _ fun v hv => ?_
  obtain ⟨x, _, rfl⟩ := List.mem_map.1 hv
  exact .i64 x

theorem numbersVal_unshare (ns : List (BitVec 64)) : (numbersVal ns).unshare = numbersVal ns := by
  unfold numbersVal
  rw [Val.unshare]
  congr 1
  induction ns with
  | nil => rfl
  | cons x ns ih => simpa [Val.unshareList, Val.unshare] using ih

theorem numbers_encode (ns : List (BitVec 64)) :
    (ns.length ≤ 10000000 ∧ ∃ bytes, encode [] (.list .i64) (numbersVal ns) = .ok bytes) ∨
    (10000000 < ns.length ∧ encode [] (.list .i64) (numbersVal ns) = .error (.err .invalidCollectionLen)) := by
  have key : ∀ e, Refused [] (.list .i64) (numbersVal ns) e → 10000000 < ns.length ∧ e = .invalidCollectionLen := by
    intro e h
    unfold numbersVal at h
    cases h with
    | length _ _ h => exact ⟨by simpa using h, rfl⟩
    | elem _ _ v _ hv h =>
      obtain ⟨x, _, rfl⟩ := List.mem_map.1 hv
      cases h
  rcases C38_outcome (numbersVal_typed ns) with ⟨b, h1, _, h3⟩ | ⟨e, h1, h2⟩
  · refine .inl ⟨Nat.le_of_not_lt fun hl => h3 _ (.length _ _ (by simpa using hl)), b, h1⟩
  · obtain ⟨hl, rfl⟩ := key e h2
    exact .inr ⟨hl, h1⟩

/-- C109: the benchmark of the runtime runs through, with its `assert_eq!`, for all numbers up to the limit of the protocol, and beyond it stops at the first `unwrap`. -/
theorem C109_numbers {cfg : Cfg} (ha : AllocOk cfg) {deliver : Bytes → List REvent} (hd : ∀ s, Delivers (deliver s) s) (numbers : List (BitVec 64)) :
    (numbers.length ≤ 10000000 → numbersBench cfg deliver numbers = .ok ()) ∧
    (10000000 < numbers.length → numbersBench cfg deliver numbers = .error (.err .invalidCollectionLen)) := by
  rcases numbers_encode numbers with ⟨hl, bytes, he⟩ | ⟨hl, he⟩
  · refine ⟨fun _ => ?_, fun h => by omega⟩
    have hr := C22_identity ha (env := []) (by decide) (by cases cfg.overflowChecks <;> decide) (numbersVal_typed numbers) (numbersVal_unshare numbers) he []
    have hk := C19_skip_written cfg (env := []) (by decide) (by decide) (by decide) (numbersVal_typed numbers) he false (.inr rfl) []
    rw [Reads, List.append_nil] at hr hk
    obtain ⟨r1, r2⟩ := hr
    obtain ⟨k1, k2⟩ := hk
    obtain ⟨_, r2, _⟩ := r2 _ (hd bytes)
    obtain ⟨_, k2, _⟩ := k2 _ (hd bytes)
    unfold numbersBench
    simp only [Input.skipField, he, r1, r2, eqNumbers_self, show fieldType [] (.list .i64) = wireType [] (.list .i64) from rfl, k1, k2]
    simp
  · refine ⟨fun h => by omega, fun _ => ?_⟩
    unfold numbersBench
    simp only [he]

theorem Later.quiet {f g : File} (h : Later f g) (hq : Quiet f) : Quiet g :=
  ⟨fun k hk => hq.1 k (h.2.1 _ hk), fun k hk => hq.2 k (h.2.2 _ hk)⟩

theorem goes_later {α : Type} {x : Fd α} {f f' : File} {Q : Except PFail (α × Nat) → Prop} {a : α} (h : Goes x f Q) (hx : x f = .ok (a, f')) : Later f f' := by
  rcases h with ⟨_, _, h⟩ | ⟨_, _, hl, _, h⟩ | ⟨_, _, h⟩
  · rw [hx] at h; cases h
  · rw [hx] at h; cases h; exact hl
  · rw [hx] at h; cases h

theorem pageIndexChunk_later {cfg : Cfg} {md : Val} {f f' : File} {r : Option (Bytes × (Nat × Nat))} (h : getPageIndexChunk cfg md f = .ok (r, f')) : Later f f' := by
  refine goes_later (Q := fun _ => True) ?_ h
  refine (goes_lift _ f).bind (fun o f₁ _ _ => ?_) (fun _ _ => trivial)
  cases o with
  | none => exact .inr (.inl ⟨none, f₁, .refl _, trivial, rfl⟩)
  | some ab =>
    obtain ⟨a, b⟩ := ab
    refine (goes_seekTo (some a) f₁).bind (fun _ f₂ _ _ => ?_) (fun _ _ => trivial)
    refine (goes_lift _ f₂).bind (fun _ f₃ _ _ => ?_) (fun _ _ => trivial)
    refine (goes_readExact _ f₃).bind (fun buf f₄ _ _ => ?_) (fun _ _ => trivial)
    exact .inr (.inl ⟨some (buf, (a, b)), f₄, .refl _, trivial, rfl⟩)

/-- C109: the two `assert!`s of the benchmark cannot fail: a page index that was fetched is not empty, and lies in a range that is not empty. -/
theorem C109_asserts {cfg : Cfg} {f f' : File} {md : Val} (hm : HasTy Format.parquetEnv md Format.tFileMetaData) {chunk : Bytes} {a b : Nat}
    (h : getPageIndexChunk cfg md f = .ok (some (chunk, (a, b)), f')) : a < b ∧ chunk ≠ [] ∧ chunk.length = b - a := by
  obtain ⟨hr, hb, rfl⟩ := C44_ok h
  obtain ⟨_, hlt, _⟩ := (C43_some_iff cfg hm a b).1 hr
  have hl : (part f.data a (b - a)).length = b - a := by
    unfold part; rw [List.length_take, List.length_drop]; omega
  refine ⟨hlt, fun e => ?_, hl⟩
  rw [e] at hl; simp at hl; omega

/-- C109: the `unwrap` of the `Option` cannot fail: `get_page_index_chunk` finds a range if `get_page_index_range` did. -/
theorem C109_unwrap {cfg : Cfg} {f f' : File} {md : Val} {r : Nat × Nat} (hr : getPageIndexRange cfg md = .ok (some r)) :
    getPageIndexChunk cfg md f ≠ .ok (none, f') := by
  intro h
  rcases C44_outcome cfg f md with ⟨_, _, h'⟩ | ⟨hr', _⟩ | ⟨a', b', hr', ⟨_, _, h'⟩ | ⟨_, h'⟩ | ⟨_, _, h'⟩ | ⟨_, _, hb, _, h'⟩ | ⟨_, _, _, h'⟩⟩
  · rw [h] at h'; cases h'
  · rw [hr] at hr'; cases hr'
  all_goals rw [h] at h'; cases h'

/-- C109: what remains to panic in the benchmark of the page index is a range that no `Vec` can hold, and `read_page_index`. -/
theorem C109_panic {cfg : Cfg} {f : File} {md : Val} (hm : HasTy Format.parquetEnv md Format.tFileMetaData) {a b : Nat}
    (hr : getPageIndexRange cfg md = .ok (some (a, b))) (h : pageIndexBench cfg md f = .error .panic) :
    2 ^ 63 ≤ b - a ∨ (b ≤ f.data.length ∧ readPageIndex cfg (part f.data a (b - a)) a md = .error .panic) := by
  unfold pageIndexBench at h
  rcases C44_outcome cfg f md with ⟨_, hr', _⟩ | ⟨hr', _⟩ | ⟨a', b', hr', h'⟩
  · rw [hr] at hr'; cases hr'
  · rw [hr] at hr'; cases hr'
  rw [hr] at hr'; cases hr'
  rcases h' with ⟨k, _, h'⟩ | ⟨hl, _⟩ | ⟨_, _, h'⟩ | ⟨_, _, hb, f', h'⟩ | ⟨_, _, _, h'⟩
  · rw [Fd.bind_error h'] at h; cases h
  · exact .inl hl
  · rw [Fd.bind_error h'] at h; cases h
  · obtain ⟨h1, h2, _⟩ := C109_asserts hm h'
    rw [Fd.bind_ok h'] at h
    dsimp only at h
    rw [if_neg (by omega), if_neg h2] at h
    refine .inr ⟨hb, ?_⟩
    cases hp : readPageIndex cfg (part f.data a (b - a)) a md with
    | ok r => rw [hp, Fd.bind_ok (a := r) (f' := f') rfl] at h; cases h
    | error e => rw [hp, Fd.bind_error (e := e) rfl] at h; rw [Except.error.inj h]
  · rw [Fd.bind_error h'] at h; cases h

/-- One call of the closure on a file whose page index can be read leaves a file for which this holds too. -/
theorem pageIndexBench_ok {cfg : Cfg} (hal : ∀ n, cfg.alloc n = true) {md : Val} (hm : HasTy Format.parquetEnv md Format.tFileMetaData) {a b : Nat}
    (hr : getPageIndexRange cfg md = .ok (some (a, b))) {data : Bytes} (hb : b ≤ data.length) (hl : b - a < 2 ^ 63)
    {r : List (List (Option (Val × Val)))} (hp : readPageIndex cfg (part data a (b - a)) a md = .ok r) {f : File} (hq : Quiet f) (hf : f.data = data) :
    ∃ f', pageIndexBench cfg md f = .ok ((), f') ∧ Quiet f' ∧ f'.data = data := by
  subst hf
  obtain ⟨f', h⟩ := C44_fetches hq hr hb (hal _) hl
  obtain ⟨h1, h2, _⟩ := C109_asserts hm h
  refine ⟨f', ?_, Later.quiet (pageIndexChunk_later h) hq, (pageIndexChunk_later h).1⟩
  unfold pageIndexBench
  rw [Fd.bind_ok h]
  dsimp only
  rw [if_neg (by omega), if_neg h2, hp, Fd.bind_ok (a := r) (f' := f') rfl]
  rfl

theorem repeated_ok {cfg : Cfg} (hal : ∀ n, cfg.alloc n = true) {md : Val} (hm : HasTy Format.parquetEnv md Format.tFileMetaData) {a b : Nat}
    (hr : getPageIndexRange cfg md = .ok (some (a, b))) {data : Bytes} (hb : b ≤ data.length) (hl : b - a < 2 ^ 63)
    {r : List (List (Option (Val × Val)))} (hp : readPageIndex cfg (part data a (b - a)) a md = .ok r) (n : Nat) {f : File} (hq : Quiet f) (hf : f.data = data) :
    ∃ f', repeated (pageIndexBench cfg md) n f = .ok ((), f') := by
  induction n generalizing f with
  | zero => exact ⟨f, rfl⟩
  | succ n ih =>
    obtain ⟨f', h, hq', hf'⟩ := pageIndexBench_ok hal hm hr hb hl hp hq hf
    obtain ⟨f'', h'⟩ := ih hq' hf'
    exact ⟨f'', by rw [repeated, Fd.bind_ok h, h']⟩

/-- The page index of a file can be read: if the metadata point to one, it lies in the file, and the offset index and the column index of each column
that has both are there. -/
def IndexStored (data : Bytes) (md : Val) : Prop :=
  ¬ NegativeIndex md ∧
  (∀ a b, IndexRange md a b → b ≤ data.length) ∧
  (∀ a : Nat, (∃ b, IndexRange md a b) → (∀ a' b', IndexRange md a' b' → (a : Int) ≤ a') → WellPlaced a md) ∧
  ∀ oo ol co cl, Indexed md oo ol co cl →
    (∃ v bs suf, HasTy Format.parquetEnv v Format.tOffsetIndex ∧ encode Format.parquetEnv Format.tOffsetIndex v = .ok bs ∧ part data oo.toNat ol.toNat = bs ++ suf) ∧
    ∃ v bs suf, HasTy Format.parquetEnv v Format.tColumnIndex ∧ encode Format.parquetEnv Format.tColumnIndex v = .ok bs ∧ part data co.toNat cl.toNat = bs ++ suf

/-- C109: the benchmark of the Parquet reader runs through, however often its closures are called, on every file that ends in written metadata and stores the
page index they point to, in every build. -/
theorem C109_file {cfg : Cfg} (hal : ∀ n, cfg.alloc n = true) {v : Val} (hv : HasTy Format.parquetEnv v Format.tFileMetaData) {bytes : Bytes}
    (he : encode Format.parquetEnv Format.tFileMetaData v = .ok bytes) (hl : bytes.length < 2 ^ 32) (pre : Bytes) {f : File} (hq : Quiet f)
    (hf : f.data = pre ++ footer bytes) (hsz : f.data.length < 2 ^ 63) (hi : IndexStored f.data v.unshare) (calls : Nat) :
    filemetadataBench cfg calls (.ok f) = .ok () := by
  classical
  obtain ⟨f', hc⟩ := (C41_ok_iff hq (hal _)).2 (show HasFooter f.data bytes from ⟨hl, pre, hf⟩)
  have hlat : Later f f' := goes_later (goes_getMetadataChunk cfg f) hc
  have hrd := (C23_parquet_round_trip (cfg := cfg) (fun n _ => hal n) hv he []).1
  have hsk := (C19_parquet cfg hv he false (.inr rfl) []).1
  rw [List.append_nil] at hrd hsk
  have hm : HasTy Format.parquetEnv v.unshare Format.tFileMetaData :=
    C35_typed (cfg := cfg) (by decide) (by decide) (.inl ⟨_, _, hrd⟩)
  obtain ⟨hn, hin, hw, hst⟩ := hi
  have hfill : fillThrift cfg (sliceInput cfg) Format.parquetEnv Format.tFileMetaData (dflt Format.parquetEnv Format.tFileMetaData) bytes = .ok (v.unshare, []) := hrd
  unfold filemetadataBench
  simp only [hc, hrd, hfill, Input.skipField, show fieldType Format.parquetEnv Format.tFileMetaData = wireType Format.parquetEnv Format.tFileMetaData from rfl, hsk]
  rcases C43_outcome cfg hm with ⟨h, _⟩ | ⟨_, a, b, hlt, h, h1, ⟨b', h2⟩, a', h3⟩ | ⟨_, h, _⟩
  · exact absurd h hn
  · have hb : b ≤ f.data.length := by have := hin _ _ h3; omega
    obtain ⟨f'', hch⟩ := C44_fetches hq h hb (hal _) (by omega)
    have ⟨ox, hox⟩ : ∃ ox : IndexFields → Val, ∀ oo ol co cl, Indexed v.unshare oo ol co cl → ∃ bs suf,
        HasTy Format.parquetEnv (ox ⟨some oo, some ol, some co, some cl⟩) Format.tOffsetIndex ∧
        encode Format.parquetEnv Format.tOffsetIndex (ox ⟨some oo, some ol, some co, some cl⟩) = .ok bs ∧ part f.data oo.toNat ol.toNat = bs ++ suf := by
      refine ⟨fun c => match c with
        | ⟨some oo, some ol, some co, some cl⟩ => if h : Indexed v.unshare oo ol co cl then (hst oo ol co cl h).1.choose else .none
        | _ => .none, fun oo ol co cl h => ?_⟩
      simp only [h, dif_pos]
      exact (hst oo ol co cl h).1.choose_spec
    have ⟨cx, hcx⟩ : ∃ cx : IndexFields → Val, ∀ oo ol co cl, Indexed v.unshare oo ol co cl → ∃ bs suf,
        HasTy Format.parquetEnv (cx ⟨some oo, some ol, some co, some cl⟩) Format.tColumnIndex ∧
        encode Format.parquetEnv Format.tColumnIndex (cx ⟨some oo, some ol, some co, some cl⟩) = .ok bs ∧ part f.data co.toNat cl.toNat = bs ++ suf := by
      refine ⟨fun c => match c with
        | ⟨some oo, some ol, some co, some cl⟩ => if h : Indexed v.unshare oo ol co cl then (hst oo ol co cl h).2.choose else .none
        | _ => .none, fun oo ol co cl h => ?_⟩
      simp only [h, dif_pos]
      exact (hst oo ol co cl h).2.choose_spec
    obtain ⟨rgs, _, hp⟩ := C45_values hal hm hch (hw a ⟨b', h2⟩ fun a' b' h => (h1 a' b' h).1) ox cx fun oo ol co cl h => by
      obtain ⟨b1, s1, t1, e1, p1⟩ := hox _ _ _ _ h
      obtain ⟨b2, s2, t2, e2, p2⟩ := hcx _ _ _ _ h
      exact ⟨t1, t2, ⟨b1, s1, e1, p1⟩, b2, s2, e2, p2⟩
    obtain ⟨g, hg⟩ := repeated_ok hal hm h hb (by omega) hp calls (Later.quiet hlat hq) hlat.1
    simp only [h, hg]
  · simp only [h]

/-- Metadata with one column whose indexes are at 8 and 11. -/
def benchMd : Val := mdVal [⟨some 8#64, some 3#32, some 11#64, some 9#32⟩]

/-- An empty `OffsetIndex` at position 8, an empty `ColumnIndex` at position 11, and this footer. -/
def benchFile (bytes : Bytes) : File := ⟨[0#8, 0#8, 0#8, 0#8, 0#8, 0#8, 0#8, 0#8, 0x19#8, 0x0C#8, 0#8,
  0x19#8, 0x02#8, 0x19#8, 0x08#8, 0x19#8, 0x08#8, 0x15#8, 0#8, 0#8] ++ footer bytes, 0, [], []⟩

theorem sample_offset : encode Format.parquetEnv Format.tOffsetIndex (.struct [.list [], .none]) = .ok [0x19#8, 0x0C#8, 0#8] := by
  rw [encode_of_enc (ok := anyStep) (.struct _ _ _ _ _ rfl
    (.fieldsCons _ _ _ _ _ _ _ (.fieldValue (.list _) _ _ _ _ (by simp) (by simp) trivial (.list _ _ _ (by simp) (.elemsNil _)))
    (.fieldsCons _ _ _ _ _ _ _ (.fieldNone _ _ _) (.fieldsNil _))))]
  exact congrArg Except.ok (by decide)

theorem sample_column : encode Format.parquetEnv Format.tColumnIndex (.struct [.list [], .list [], .list [], .enum 0#32, .none, .none, .none]) =
    .ok [0x19#8, 0x02#8, 0x19#8, 0x08#8, 0x19#8, 0x08#8, 0x15#8, 0#8, 0#8] := by
  have hv : ∀ n, n < 128 → varint n = [BitVec.ofNat 8 n] := fun n h => by rw [varint]; simp [h]
  rw [encode_of_enc (ok := anyStep) (.struct _ _ _ _ _ rfl
    (.fieldsCons _ _ _ _ _ _ _ (.fieldValue (.list _) _ _ _ _ (by simp) (by simp) trivial (.list _ _ _ (by simp) (.elemsNil _)))
    (.fieldsCons _ _ _ _ _ _ _ (.fieldValue (.list _) _ _ _ _ (by simp) (by simp) trivial (.list _ _ _ (by simp) (.elemsNil _)))
    (.fieldsCons _ _ _ _ _ _ _ (.fieldValue (.list _) _ _ _ _ (by simp) (by simp) trivial (.list _ _ _ (by simp) (.elemsNil _)))
    (.fieldsCons _ _ _ _ _ _ _ (.fieldValue (.named _) _ _ _ _ (by simp) (by simp) trivial (.enum _ _ _ rfl))
    (.fieldsCons _ _ _ _ _ _ _ (.fieldNone _ _ _) (.fieldsCons _ _ _ _ _ _ _ (.fieldNone _ _ _) (.fieldsCons _ _ _ _ _ _ _ (.fieldNone _ _ _) (.fieldsNil _)))))))))]
  rw [show zigzag (0#32).toInt = 0 from rfl, hv 0 (by decide)]
  exact congrArg Except.ok (by decide)

theorem sample_column_read : readThrift ⟨true, false, fun _ => true⟩ (sliceInput ⟨true, false, fun _ => true⟩) Format.parquetEnv Format.tColumnIndex
    [0x19#8, 0x02#8, 0x19#8, 0x08#8, 0x19#8, 0x08#8, 0x15#8, 0#8, 0#8] = .ok (.struct [.list [], .list [], .list [], .enum 0#32, .none, .none, .none], []) := rfl

theorem benchMd_encodes : ∃ bytes, encode Format.parquetEnv Format.tFileMetaData benchMd = .ok bytes ∧ bytes.length < 2 ^ 32 := by
  have hc : ValueEnc Format.tColumnChunk (chunkVal ⟨some 8#64, some 3#32, some 11#64, some 9#32⟩) := by
    refine .struct rfl ?_
    refine (.cons (.none _)
      (.cons (.value (by simp [Field.rustTy]) (by simp [Field.rustTy]) ⟨_, .i64 _⟩)
      (.cons (.none _)
      (.cons (.some (.value (by simp) (by simp) ⟨_, .i64 _⟩))
      (.cons (.some (.value (by simp) (by simp) ⟨_, .i32 _⟩))
      (.cons (.some (.value (by simp) (by simp) ⟨_, .i64 _⟩))
      (.cons (.some (.value (by simp) (by simp) ⟨_, .i32 _⟩))
      (.cons (.none _) (.cons (.none _) .nil)))))))))
  obtain ⟨p, hp⟩ := hc
  have hg : ValueEnc Format.tRowGroup (.struct [.list [chunkVal ⟨some 8#64, some 3#32, some 11#64, some 9#32⟩], .i64 0#64, .i64 0#64, .none, .none, .none, .none]) := by
    refine .struct rfl ?_
    refine (.cons (.value (by simp [Field.rustTy]) (by simp [Field.rustTy]) ⟨_, .list _ _ _ (by simp) (.elemsCons _ _ _ _ _ hp (.elemsNil _))⟩)
      (.cons (.value (by simp [Field.rustTy]) (by simp [Field.rustTy]) ⟨_, .i64 _⟩)
      (.cons (.value (by simp [Field.rustTy]) (by simp [Field.rustTy]) ⟨_, .i64 _⟩)
      (.cons (.none _) (.cons (.none _) (.cons (.none _) (.cons (.none _) .nil)))))))
  obtain ⟨q, hq⟩ := hg
  have h : ValueEnc Format.tFileMetaData benchMd := by
    refine .struct rfl ?_
    refine (.cons (.value (by simp [Field.rustTy]) (by simp [Field.rustTy]) ⟨_, .i32 _⟩)
      (.cons (.value (by simp [Field.rustTy]) (by simp [Field.rustTy]) ⟨_, .list _ _ _ (by simp) (.elemsNil _)⟩)
      (.cons (.value (by simp [Field.rustTy]) (by simp [Field.rustTy]) ⟨_, .i64 _⟩)
      (.cons (.value (by simp [Field.rustTy]) (by simp [Field.rustTy]) ⟨_, .list _ _ _ (by simp) (.elemsCons _ _ _ _ _ hq (.elemsNil _))⟩)
      (.cons (.none _) (.cons (.none _) (.cons (.none _) (.cons (.none _) (.cons (.none _) .nil)))))))))
  obtain ⟨bytes, hb⟩ := h
  exact ⟨bytes, encode_of_enc hb, Nat.lt_of_le_of_lt (C66_size (mdVal_typed _) (encode_of_enc hb)) (by decide)⟩

/-- The conditions of C109 are met by a file with a page index. -/
example : ∃ bytes, HasTy Format.parquetEnv benchMd Format.tFileMetaData ∧ encode Format.parquetEnv Format.tFileMetaData benchMd = .ok bytes ∧
    bytes.length < 2 ^ 32 ∧ Quiet (benchFile bytes) ∧ (benchFile bytes).data.length < 2 ^ 63 ∧ IndexStored (benchFile bytes).data benchMd.unshare ∧
    (∃ r, getPageIndexRange ⟨true, true, fun _ => true⟩ benchMd.unshare = .ok (some r)) := by
  obtain ⟨bytes, he, hl⟩ := benchMd_encodes
  have hcol : ∀ c, IsColumn benchMd.unshare c ↔ c = ⟨some 8#64, some 3#32, some 11#64, some 9#32⟩ := fun c => by
    rw [isColumn_iff (rgs := [[⟨some 8#64, some 3#32, some 11#64, some 9#32⟩]]) rfl]; simp
  have hix : ∀ {oo ol co cl}, Indexed benchMd.unshare oo ol co cl → oo = 8#64 ∧ ol = 3#32 ∧ co = 11#64 ∧ cl = 9#32 := fun h => by
    cases (hcol _).1 h; exact ⟨rfl, rfl, rfl, rfl⟩
  have hlen : (benchFile bytes).data.length = 28 + bytes.length := by simp [benchFile, footer, le32]; omega
  refine ⟨bytes, mdVal_typed _, he, hl, ⟨fun k h => (nomatch h), fun k h => (nomatch h)⟩, by omega, ⟨?_, ?_, ?_, ?_⟩, (8, 20), rfl⟩
  · rintro ⟨oo, ol, co, cl, h, h'⟩
    obtain ⟨rfl, rfl, rfl, rfl⟩ := hix h
    revert h'; decide
  · rintro a b ⟨oo, ol, co, cl, h, h'⟩
    obtain ⟨rfl, rfl, rfl, rfl⟩ := hix h
    rw [hlen]
    rcases h' with ⟨rfl, rfl⟩ | ⟨rfl, rfl⟩
    · rw [show (8#64).toInt + (3#32).toInt = 11 by decide]; omega
    · rw [show (11#64).toInt + (9#32).toInt = 20 by decide]; omega
  · intro a _ _ c hc oo ol h1 h2
    cases (hcol c).1 hc
    cases h1; cases h2; exact ⟨by decide, .inl ⟨_, _, rfl, rfl, by decide⟩⟩
  · intro oo ol co cl h
    obtain ⟨rfl, rfl, rfl, rfl⟩ := hix h
    exact ⟨⟨.struct [.list [], .none], _, [], C35_typed (cfg := ⟨true, true, fun _ => true⟩) (by decide) (by decide) (.inl ⟨[0x19#8, 0x0C#8, 0#8], [], rfl⟩), sample_offset, rfl⟩,
      .struct [.list [], .list [], .list [], .enum 0#32, .none, .none, .none], _, [],
      C35_typed (by decide) (by decide) (.inl ⟨_, [], sample_column_read⟩), sample_column, rfl⟩

/-- Three numbers, and a reader that delivers bytes one at a time. -/
example : AllocOk ⟨true, true, fun _ => true⟩ ∧ (∀ s : Bytes, Delivers (s.map fun b => .data [b]) s) ∧
    numbersBench ⟨true, true, fun _ => true⟩ (fun s => s.map fun b => .data [b]) [1#64, BitVec.intMin 64, 300#64] = .ok () := by
  have h : ∀ s : Bytes, Delivers (s.map fun b => .data [b]) s := fun s => by
    induction s with
    | nil => exact .nil
    | cons b s ih => exact .data [b] _ s (by simp) ih
  exact ⟨fun _ _ => rfl, h, (C109_numbers (fun _ _ => rfl) h _).1 (by decide)⟩

end CT.Props
