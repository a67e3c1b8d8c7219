import Verif.Proofs.PqRun
import Verif.Spec.LibCode
import Verif.Props.Parquet
/-!
# The code of parquet/src/lib.rs, run
-/
namespace CT.Pq
open CT CT.Parquet
open CT.Rs (Name ITy BinOp)

section
@[pq] theorem lib_Ok : assoc libProg.fns (n! "Ok") = none := (rfl)
@[pq] theorem lib_Err : assoc libProg.fns (n! "Err") = none := (rfl)
@[pq] theorem lib_Some : assoc libProg.fns (n! "Some") = none := (rfl)
@[pq] theorem lib_unreachable : assoc libProg.fns (n! "unreachable_unchecked") = none := (rfl)
@[pq] theorem lib_range : assoc libProg.fns (n! "get_page_index_range") = some pq_get_page_index_range := (rfl)
@[pq] theorem lib_columns : assoc libProg.fns (n! "read_page_index_for_column_chunk") = some pq_read_page_index_for_column_chunk := (rfl)
@[pq] theorem lib_impl (x f s : Name) (h : x ≠ n! "ParquetError") : implFn x f s libProg.impls = none := by
  show implFn x f s [_, _] = none
  simp only [implFn]
  rw [if_neg (fun h' => h h'.1.symm), if_neg (fun h' => h h'.1.symm)]
@[pq] theorem lib_implError (f s : Name) (h : f ≠ n! "from") : implFn (n! "ParquetError") f s libProg.impls = none := by
  show implFn _ f s [⟨_, _, _, [(n! "from", _)]⟩, ⟨_, _, _, [(n! "from", _)]⟩] = none
  simp only [implFn, assoc, if_neg h]
  split <;> split <;> rfl
@[pq] theorem lib_fromIo : fromFn (some (n! "ParquetError")) (n! "IOError") libProg.impls = some pq_ParquetError_from_IOError := (rfl)
@[pq] theorem lib_fromThrift : fromFn (some (n! "ParquetError")) (n! "ThriftError") libProg.impls = some pq_ParquetError_from_ThriftError := (rfl)
@[pq] theorem lib_magic : assoc libProg.consts (n! "PARQUET_MAGIC") =
    some (.array [.lit 80 (some .u8), .lit 65 (some .u8), .lit 82 (some .u8), .lit 49 (some .u8)]) := (rfl)
@[pq] theorem lib_None : assoc libProg.consts (n! "None") = none := (rfl)
@[pq] theorem lib_enumError : assoc libProg.enums (n! "ParquetError") = none := (rfl)
@[pq] theorem lib_enumUsize : assoc libProg.enums (n! "usize") = none := (rfl)
end

theorem seekTo_error {t : Option Nat} {f : File} {e : PFail} (h : seekTo t f = .error e) : ∃ k, e = .err (.io k) := by
  unfold seekTo at h
  split at h
  · cases h; exact ⟨_, rfl⟩
  · split at h
    · cases h; exact ⟨_, rfl⟩
    · cases h

theorem readExactF_error {n : Nat} {f : File} {e : PFail} (h : readExactF n f = .error e) : ∃ k, e = .err (.io k) := by
  unfold readExactF at h
  rcases readExactLoop_cases f.reads n (f.data.drop f.pos) with ⟨_, _, _, h3⟩ | ⟨_, h3⟩ | ⟨k, _, _, h3⟩ <;> rw [h3] at h
  · cases h
  · cases h; exact ⟨_, rfl⟩
  · cases h; exact ⟨_, rfl⟩

theorem readExactF_length {n : Nat} {f f' : File} {bs : Bytes} (h : readExactF n f = .ok (bs, f')) : bs.length = n := by
  unfold readExactF at h
  rcases readExactLoop_cases f.reads n (f.data.drop f.pos) with ⟨h1, _, _, h3⟩ | ⟨_, h3⟩ | ⟨k, _, _, h3⟩ <;> rw [h3] at h
  · cases h; rw [List.length_take]; omega
  · cases h
  · cases h

theorem leNat_lt : ∀ bs : Bytes, leNat bs < 2 ^ (8 * bs.length)
  | [] => by simp [leNat]
  | b :: bs => by
    have := leNat_lt bs
    have h := b.isLt
    rw [leNat, List.length_cons, show 8 * (bs.length + 1) = 8 + 8 * bs.length by omega, Nat.pow_add]
    omega

/-- `-(k as i64) - 8` does not overflow. -/
theorem back_facts (k : Nat) (h : k < 2 ^ 32) :
    decide (BitVec.ofNat 64 k = BitVec.intMin 64) = false ∧ Rs.fits 64 ((-BitVec.ofNat 64 k).toInt - (BitVec.ofNat 64 8).toInt) = true ∧
      ((-BitVec.ofNat 64 k - BitVec.ofNat 64 8).toInt ≤ 0) = True ∧ (-(-BitVec.ofNat 64 k - BitVec.ofNat 64 8).toInt).toNat = k + 8 := by
  have h1 : (BitVec.ofNat 64 k).toNat = k := by rw [BitVec.toNat_ofNat]; omega
  have h2 : (-BitVec.ofNat 64 k).toInt = -(k : Int) := by
    rw [BitVec.toInt_neg, BitVec.toInt_eq_toNat_bmod, h1]
    simp only [Int.bmod_def]
    omega
  have h3 : (-BitVec.ofNat 64 k - BitVec.ofNat 64 8).toInt = -(k : Int) - 8 := by
    rw [BitVec.toInt_sub, h2, show (BitVec.ofNat 64 8).toInt = 8 from rfl]
    simp only [Int.bmod_def]
    omega
  refine ⟨?_, ?_, ?_, ?_⟩
  · apply decide_eq_false
    intro h'
    have := congrArg BitVec.toNat h'
    rw [h1, show (BitVec.intMin 64).toNat = 2 ^ 63 from rfl] at this
    omega
  · rw [h2, show (BitVec.ofNat 64 8).toInt = 8 from rfl, Rs.fits]
    simp only [decide_eq_true_eq]
    omega
  · rw [h3]; apply eq_true; omega
  · rw [h3]; omega

theorem run_metadata (cfg : Cfg) (n : Nat) (w : World) :
    asFd (runFn (eval cfg (withCapacity cfg) libProg (n + 20)) pq_get_metadata_chunk [.file] w) =
      (getMetadataChunk cfg w.file).map fun (bs, f) => (.base (.bytes bs), f) := by
  simp only [runFn, pq_get_metadata_chunk, getMetadataChunk, bind, Fd.bind]
  rcases h1 : seekBack 8 w.file with e | ⟨_, f1⟩
  · obtain ⟨k, rfl⟩ := seekTo_error h1
    pq_simp [h1, pq_ParquetError_from_IOError]
    rfl
  · dsimp only
    rcases h2 : readExactF 8 f1 with e | ⟨footer, f2⟩
    · obtain ⟨k, rfl⟩ := readExactF_error h2
      pq_simp [h1, h2, List.length_replicate, pq_ParquetError_from_IOError]
      rfl
    · have hl : footer.length = 8 := readExactF_length h2
      dsimp only
      by_cases hm : footer.drop 4 = PARQUET_MAGIC
      · rw [if_neg (fun h => h hm)]
        have hm' : (List.drop 4 footer != [80#8, 65#8, 82#8, 49#8]) = false := by rw [hm]; rfl
        generalize hk : leNat (footer.take 4) = k
        have ht : (footer.take 4).length = 4 := by rw [List.length_take, hl]; rfl
        have hk' : k < 2 ^ 32 := by have := leNat_lt (footer.take 4); rw [ht, hk] at this; exact this
        have hx : BitVec.setWidth 64 (BitVec.ofNat 32 k) = BitVec.ofNat 64 k := by
          apply BitVec.eq_of_toNat_eq; rw [BitVec.toNat_setWidth, BitVec.toNat_ofNat, BitVec.toNat_ofNat, Nat.mod_eq_of_lt hk']
        obtain ⟨hn, hs, hb, hb'⟩ := back_facts k hk'
        have hkn : (BitVec.ofNat 64 k).toNat = k := by rw [BitVec.toNat_ofNat]; omega
        rcases h3 : seekBack (k + 8) f2 with e | ⟨_, f3⟩
        · obtain ⟨k, rfl⟩ := seekTo_error h3
          pq_simp [h1, h2, h3, List.length_replicate, hl, hm', Nat.reduceLeDiff, sliced, Nat.sub_zero, List.drop_zero, ht, hk, hx, BitVec.setWidth_eq, hn, hs, hb, hb',
            Bool.and_false, Bool.not_true, Fd.bind, Fd.lift, pq_ParquetError_from_IOError]
          rfl
        · rcases h4 : withCapacity cfg k with e | _
          · pq_simp [h1, h2, h3, h4, List.length_replicate, hl, hm', Nat.reduceLeDiff, sliced, Nat.sub_zero, List.drop_zero, ht, hk, hx, BitVec.setWidth_eq, hn, hs, hb, hb',
              Bool.and_false, Bool.not_true, Fd.bind, Fd.lift, hkn]
            rfl
          · rcases h5 : readExactF k f3 with e | ⟨buf, f4⟩
            · obtain ⟨k, rfl⟩ := readExactF_error h5
              pq_simp [h1, h2, h3, h4, h5, List.length_replicate, hl, hm', Nat.reduceLeDiff, sliced, Nat.sub_zero, List.drop_zero, ht, hk, hx, BitVec.setWidth_eq, hn, hs, hb, hb',
                Bool.and_false, Bool.not_true, Fd.bind, Fd.lift, hkn, pq_ParquetError_from_IOError]
              rfl
            · pq_simp [h1, h2, h3, h4, h5, List.length_replicate, hl, hm', Nat.reduceLeDiff, sliced, Nat.sub_zero, List.drop_zero, ht, hk, hx, BitVec.setWidth_eq, hn, hs, hb, hb',
                Bool.and_false, Bool.not_true, Fd.bind, Fd.lift, hkn]
              rfl
      · rw [if_pos hm]
        have hm' : (List.drop 4 footer != [80#8, 65#8, 82#8, 49#8]) = true := by simpa using (show ¬ List.drop 4 footer = [80#8, 65#8, 82#8, 49#8] from hm)
        pq_simp [h1, h2, List.length_replicate, hl, hm', Nat.reduceLeDiff]
        rfl

end CT.Pq
