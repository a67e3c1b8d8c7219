import Verif.Proofs.PqIndex
import Verif.Proofs.PqParse
import Verif.Props.PageIndex
/-!
# C112: the code of parquet/src/lib.rs does what the model says

The text of lib.rs is parsed as Rust and its four functions are run, on any file and with any metadata.
-/
namespace CT.Props
open CT CT.Parquet CT.Pq CT.Spec

/-- C112: the file parses, and `libItems` is what it parses to. -/
theorem C112_text : parseText libText = some libItems := parse_lib

theorem runText_lib {f : Rs.Name} {fn : Pq.Fn} (h : assoc libProg.fns f = some fn) (cfg : Cfg) (n : Nat) (vs : List V) (w : World) :
    runText cfg (withCapacity cfg) libText f n vs w = runFn (eval cfg (withCapacity cfg) libProg n) fn vs w :=
  runText_eq parse_lib h cfg _ n vs w

/-- C112: `get_metadata_chunk`, lib.rs:38-57, on every file: the bytes and the file afterwards, or the error. -/
theorem C112_metadata (cfg : Cfg) (w : World) (n : Nat) (hn : 50 ≤ n) :
    asFd (runText cfg (withCapacity cfg) libText (n! "get_metadata_chunk") n [.file] w) =
      (getMetadataChunk cfg w.file).map fun (bs, f) => (.base (.bytes bs), f) := by
  obtain ⟨k, rfl⟩ := Nat.exists_eq_add_of_le hn
  rw [runText_lib (fn := pq_get_metadata_chunk) rfl, show 50 + k = (k + 30) + 20 by omega]
  exact run_metadata cfg _ w

example : asFd (runText ⟨true, true, fun _ => true⟩ (withCapacity ⟨true, true, fun _ => true⟩) libText (n! "get_metadata_chunk") 50 [.file]
    ⟨⟨[7, 1, 2, 3, 3, 0, 0, 0, 0x50, 0x41, 0x52, 0x31], 5, [.limit 2], []⟩, [], [], none⟩) = .ok (.base (.bytes [1, 2, 3]), ⟨[7, 1, 2, 3, 3, 0, 0, 0, 0x50, 0x41, 0x52, 0x31], 4, [], []⟩) := by
  rw [C112_metadata _ _ _ (Nat.le_refl _)]; rfl

/-- C112: `get_page_index_range`, lib.rs:59-84, for every metadata. -/
theorem C112_range (cfg : Cfg) {md : Val} (hm : HasTy Format.parquetEnv md Format.tFileMetaData) (w : World) (n : Nat) (hn : 50 ≤ n) :
    asFd (runText cfg (withCapacity cfg) libText (n! "get_page_index_range") n [.obj Format.tFileMetaData md] w) =
      (getPageIndexRange cfg md).map fun r => (rangeV r, w.file) := by
  obtain ⟨k, rfl⟩ := Nat.exists_eq_add_of_le hn
  obtain ⟨rgs, h⟩ := metadataFields_typed hm
  rw [runText_lib (fn := pq_get_page_index_range) rfl, show 50 + k = (k + 30) + 20 by omega]
  rcases run_range cfg (k + 30) w h with ⟨r, h1, _, h2⟩ | ⟨h1, h2⟩ | ⟨h1, h2⟩ <;> rw [h1, h2] <;> rfl

example : asFd (runText ⟨true, true, fun _ => true⟩ (withCapacity ⟨true, true, fun _ => true⟩) libText (n! "get_page_index_range") 50
    [.obj Format.tFileMetaData (mdVal [⟨some 20#64, some 10#32, some 40#64, some 7#32⟩, ⟨none, some 1#32, none, none⟩])] ⟨⟨[], 0, [], []⟩, [], [], none⟩) =
      .ok (rangeV (some (20, 47)), ⟨[], 0, [], []⟩) := by
  rw [C112_range _ (mdVal_typed _) _ _ (Nat.le_refl _)]; rfl

/-- C112: `get_page_index_chunk`, lib.rs:88-104, for every file and metadata. -/
theorem C112_chunk (cfg : Cfg) {md : Val} (hm : HasTy Format.parquetEnv md Format.tFileMetaData) (w : World) (n : Nat) (hn : 50 ≤ n) :
    asFd (runText cfg (withCapacity cfg) libText (n! "get_page_index_chunk") n [.file, .obj Format.tFileMetaData md] w) =
      (getPageIndexChunk cfg md w.file).map fun (r, f) => (chunkV r, f) := by
  obtain ⟨k, rfl⟩ := Nat.exists_eq_add_of_le hn
  obtain ⟨rgs, h⟩ := metadataFields_typed hm
  rw [runText_lib (fn := pq_get_page_index_chunk) rfl, show 50 + k = (k + 20) + 30 by omega]
  exact run_chunk cfg _ w h

example : asFd (runText ⟨true, true, fun _ => true⟩ (withCapacity ⟨true, true, fun _ => true⟩) libText (n! "get_page_index_chunk") 50
    [.file, .obj Format.tFileMetaData (mdVal [⟨some 2#64, some 1#32, some 3#64, some 2#32⟩])] ⟨⟨[1, 2, 3, 4, 5, 6], 0, [], []⟩, [], [], none⟩) =
      .ok (chunkV (some ([3, 4, 5], 2, 5)), ⟨[1, 2, 3, 4, 5, 6], 5, [], []⟩) := by
  rw [C112_chunk _ (mdVal_typed _) _ _ (Nat.le_refl _)]; rfl

/-- C112: `read_page_index`, lib.rs:106-144, for every chunk, offset and metadata; it does not touch a file. -/
theorem C112_index (cfg : Cfg) (chunk : Bytes) (off : BitVec 64) {md : Val} (hm : HasTy Format.parquetEnv md Format.tFileMetaData) (w : World) (n : Nat) (hn : 50 ≤ n) :
    asFd (runText cfg (withCapacity cfg) libText (n! "read_page_index") n [.base (.bytes chunk), .base (.usize off), .obj Format.tFileMetaData md] w) =
      (readPageIndex cfg chunk off.toNat md).map fun r => (.vec (r.map groupV), w.file) := by
  obtain ⟨k, rfl⟩ := Nat.exists_eq_add_of_le hn
  obtain ⟨rgs, h⟩ := metadataFields_typed hm
  rw [runText_lib (fn := pq_read_page_index) rfl, Nat.add_comm]
  exact run_index cfg _ w chunk off h

example : asFd (runText ⟨true, true, fun _ => true⟩ (withCapacity ⟨true, true, fun _ => true⟩) libText (n! "read_page_index") 50
    [.base (.bytes [1, 2]), .base (.usize 5#64), .obj Format.tFileMetaData (mdVal [⟨some 4#64, some 1#32, some 3#64, some 2#32⟩])] ⟨⟨[], 0, [], []⟩, [], [], none⟩) = .error .panic := by
  rw [C112_index _ _ _ (mdVal_typed _) _ _ (Nat.le_refl _)]; rfl

/-- C112: so the text itself returns the metadata of a file that has a footer, and nothing else: from every reader without errors, however it chunks its data. -/
theorem C112_footer {cfg : Cfg} {w : World} (hq : Quiet w.file) {mb : Bytes} (ha : cfg.alloc mb.length = true) (n : Nat) (hn : 50 ≤ n) :
    (∃ f', asFd (runText cfg (withCapacity cfg) libText (n! "get_metadata_chunk") n [.file] w) = .ok (.base (.bytes mb), f')) ↔ HasFooter w.file.data mb := by
  rw [C112_metadata cfg w n hn, ← C41_ok_iff hq ha]
  constructor
  · rintro ⟨f', h⟩
    cases hg : getMetadataChunk cfg w.file with
    | error e => rw [hg] at h; cases h
    | ok r => rw [hg] at h; cases h; exact ⟨_, rfl⟩
  · rintro ⟨f', h⟩
    exact ⟨f', by rw [h]; rfl⟩

example : ∃ f', asFd (runText ⟨true, true, fun _ => true⟩ (withCapacity ⟨true, true, fun _ => true⟩) libText (n! "get_metadata_chunk") 60 [.file]
    ⟨⟨footer [1, 2, 3], 0, [], []⟩, [], [], none⟩) = .ok (.base (.bytes [1, 2, 3]), f') :=
  (C112_footer (cfg := ⟨true, true, fun _ => true⟩) (w := ⟨⟨footer [1, 2, 3], 0, [], []⟩, [], [], none⟩) ⟨by simp, by simp⟩ rfl 60 (by decide)).2 ⟨by decide, [], rfl⟩

/-- C112: the text of `get_page_index_range` refuses negative offsets and lengths, and else returns the smallest range around the indexes. -/
theorem C112_range_iff (cfg : Cfg) {md : Val} (hm : HasTy Format.parquetEnv md Format.tFileMetaData) (w : World) (n : Nat) (hn : 50 ≤ n) (lo hi : BitVec 64) :
    asFd (runText cfg (withCapacity cfg) libText (n! "get_page_index_range") n [.obj Format.tFileMetaData md] w) =
        .ok (.some (.range (some (.base (.usize lo))) (some (.base (.usize hi)))), w.file) ↔
      ¬ NegativeIndex md ∧ lo.toNat < hi.toNat ∧
      (∀ a b, IndexRange md a b → (lo.toNat : Int) ≤ a ∧ b ≤ hi.toNat) ∧ (∃ b, IndexRange md lo.toNat b) ∧ ∃ a, IndexRange md a hi.toNat := by
  rw [← C43_some_iff cfg hm]
  obtain ⟨k, hk⟩ := Nat.exists_eq_add_of_le hn
  obtain ⟨rgs, h⟩ := metadataFields_typed hm
  rw [C112_range cfg hm w n hn]
  rcases run_range cfg 0 w h with ⟨r, h1, hb, _⟩ | ⟨h1, _⟩ | ⟨h1, _⟩ <;> rw [h1]
  · rcases r with _ | ⟨a, b⟩
    · constructor <;> intro h' <;> cases h'
    · obtain ⟨ha, hb⟩ := hb a b rfl
      have ea : (BitVec.ofNat 64 a).toNat = a := by rw [BitVec.toNat_ofNat]; omega
      have eb : (BitVec.ofNat 64 b).toNat = b := by rw [BitVec.toNat_ofNat]; omega
      constructor
      · intro h'
        simp only [Except.map, rangeV, V.some, Except.ok.injEq, Prod.mk.injEq, V.con.injEq, List.cons.injEq, V.range.injEq, Option.some.injEq, V.base.injEq, Rs.V.usize.injEq,
          true_and, and_true] at h'
        rw [← h'.1, ← h'.2, ea, eb]
      · intro h'
        cases h'
        simp only [Except.map, rangeV, V.some, BitVec.ofNat_toNat, BitVec.setWidth_eq]
  · constructor <;> intro h' <;> cases h'
  · constructor <;> intro h' <;> cases h'

example (lo hi : BitVec 64) (h : asFd (runText ⟨true, true, fun _ => true⟩ (withCapacity ⟨true, true, fun _ => true⟩) libText (n! "get_page_index_range") 50
    [.obj Format.tFileMetaData (mdVal [⟨some 20#64, some 10#32, some 40#64, some 7#32⟩])] ⟨⟨[], 0, [], []⟩, [], [], none⟩) =
      .ok (.some (.range (some (.base (.usize lo))) (some (.base (.usize hi)))), ⟨[], 0, [], []⟩)) : lo.toNat < hi.toNat :=
  ((C112_range_iff _ (mdVal_typed _) _ _ (Nat.le_refl _) lo hi).1 h).2.1

end CT.Props
