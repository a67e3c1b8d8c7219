import Verif.Proofs.RustSim
/-!
# The functions that work on any device
-/
namespace CT.Rs
open CT CT.Spec

/-- The program has the functions of uleb.rs and protocol.rs. -/
structure Runtime (P : Prog) : Prop where
  decode_uleb : assoc P.fns (n! "decode_uleb") = some fn_decode_uleb
  read_full_field_id : assoc P.fns (n! "read_full_field_id") = some fn_read_full_field_id
  zigzag_decode16 : assoc P.fns (n! "zigzag_decode16") = some fn_zigzag_decode16
  zigzag_decode32 : assoc P.fns (n! "zigzag_decode32") = some fn_zigzag_decode32
  zigzag_decode64 : assoc P.fns (n! "zigzag_decode64") = some fn_zigzag_decode64
  read_collection : assoc P.fns (n! "read_collection_len_and_type") = some fn_read_collection_len_and_type
  read_map : assoc P.fns (n! "read_map_len_and_types") = some fn_read_map_len_and_types
  skip_collection : assoc P.fns (n! "skip_collection") = some fn_skip_collection
  skip_map : assoc P.fns (n! "skip_map") = some fn_skip_map
  skip_field : assoc P.fns (n! "skip_field") = some fn_skip_field
  ok : assoc P.fns (n! "Ok") = none
  err : assoc P.fns (n! "Err") = none
  from_utf8 : assoc P.fns (n! "from_utf8") = none
  unchecked : assoc P.fns (n! "from_utf8_unchecked") = none
  max_collection : assoc P.consts (n! "MAX_COLLECTION_LEN") = some (.int .usize, .lit 10000000 none)

/-- The device has the methods the trait provides. -/
structure Provided (P : Prog) : Prop where
  read_len : assoc P.methods (n! "read_len") = some fn_Input_read_len
  read_i16 : assoc P.methods (n! "read_i16") = some fn_Input_read_i16
  read_i32 : assoc P.methods (n! "read_i32") = some fn_Input_read_i32
  read_i64 : assoc P.methods (n! "read_i64") = some fn_Input_read_i64
  read_string : assoc P.methods (n! "read_string") = some fn_Input_read_string
  skip_field : assoc P.methods (n! "skip_field") = some fn_Input_skip_field
  read_field_header : assoc P.methods (n! "read_field_header") = some fn_Input_read_field_header

/-- A method of the device does what the model says. -/
structure Method {σ α : Type} (cfg : Cfg) (debug : Bool) (P : Prog) (H : Host σ) (Inv : σ → Prop) (name : Name) (m : Rd σ α) (ok : α → V) where
  fn : Fn
  has : assoc P.methods name = some fn
  gives : ∀ s, Inv s → Gives Inv (fun n => runFn (eval cfg debug P H n) fn [.self] s) (m s) (fun a => (ok a, [.self]))

attribute [local irreducible] eval

section
variable {σ : Type} {cfg : Cfg} {debug : Bool} {P : Prog} {H : Host σ} {I : Input σ} {Inv : σ → Prop}

/-- The body of the loop of `decode_uleb`. -/
def ulebBody : Expr :=
  .block [.bind (.name n! "byte") (.try (.method (.path [n! "input"]) n! "read_byte" [])), .semi (.assignOp .bor (.path [n! "value"]) (.method (.cast (.bin .band (.path [n! "byte"]) (.lit 127 none)) (some .u64)) n! "wrapping_shl" [.path [n! "shift"]])), .semi (.assignOp .add (.path [n! "shift"]) (.lit 7 none)), .ite (.bin .eq (.bin .band (.path [n! "byte"]) (.lit 128 none)) (.lit 0 none)) (.block [.semi (.ret (some (.call [n! "Ok"] [.path [n! "value"]])))]) none]

theorem goes_uleb (R : Runtime P) (rb : Method cfg debug P H Inv (n! "read_byte") I.readByte .u8) (fuel : Nat) :
    ∀ (sh : BitVec 32) (v : BitVec 64) (s : σ), Inv s →
    Goes Inv (fun n => eval cfg debug P H n (.loop ulebBody) [[(n! "value", .u64 v), (n! "shift", .u32 sh)], [(n! "input", .self)]] s)
      (ulebLoop cfg I.readByte fuel sh v s)
      (fun a s' o => ∃ x y, o = .ret (.ok (.u64 a)) [[(n! "value", x), (n! "shift", y)], [(n! "input", .self)]] s') := by
  induction fuel with
  | zero => intro sh v s hs; exact trivial
  | succ fuel ih =>
    intro sh v s hs
    simp only [ulebBody] at ih ⊢
    rs_call (rb.gives s hs) [eval_loop, rb.has]
    intro b s' N _ hi h
    by_cases ho : (cfg.overflowChecks && decide (2 ^ 32 ≤ sh.toNat + 7)) = true
    · have hb : binU cfg V.u32 .add sh 7#32 = .error .panic := by simp [binU]; simpa using ho
      rs_simp [eval_loop, rb.has, h, hb]
      simp only [ho, if_true]
      exact .panic
    · have hb : binU cfg V.u32 .add sh 7#32 = .ok (.u32 (sh + 7#32)) := by simp [binU]; simpa using ho
      simp only [if_neg ho]
      by_cases hc : b &&& 128#8 = 0#8
      · rs_simp [eval_loop, rb.has, h, hb, hc, R.ok, BEq.rfl]
        exact .val hi ⟨_, _, rfl⟩
      · have hc' : (b &&& 128#8 == 0#8) = false := beq_eq_false_iff_ne.2 hc
        rs_simp [eval_loop, rb.has, h, hb, hc']
        simp only [if_neg hc]
        simp only [loopAt]
        exact (ih _ _ _ hi).later2 N 39

/-- uleb.rs:5-19 -/
theorem gives_uleb (R : Runtime P) (rb : Method cfg debug P H Inv (n! "read_byte") I.readByte .u8) (s : σ) (hs : Inv s) :
    Gives Inv (fun n => runFn (eval cfg debug P H n) fn_decode_uleb [.self] s) (I.uleb cfg s) (fun a => (.u64 a, [.self])) := by
  refine Goes.fn rfl ?_
  unfold Input.uleb decodeUleb
  refine .shift 10 ?_
  simp only [fn_decode_uleb]
  rs_simp []
  have hl := goes_uleb R rb (I.size s + 1) 0#32 0#64 s hs
  simp only [ulebBody] at hl
  refine (hl.later 9).leave ?_
  rintro a s' o _ ⟨x, y, h⟩
  subst h
  simp only [rs, Done]
  exact ⟨trivial, trivial, trivial⟩

theorem rd_bind_pure {α : Type} (m : Rd σ α) : (m >>= fun a => pure a) = m := by
  funext s
  show Rd.bind m (fun a => Rd.pure a) s = m s
  unfold Rd.bind Rd.pure
  cases m s <;> rfl

theorem readLen_bind {α : Type} (f : Nat → Rd σ α) : (I.readLen cfg >>= f) = (I.uleb cfg >>= fun len => f len.toNat) := by
  funext s
  show Rd.bind (Rd.bind (I.uleb cfg) fun len => Rd.pure len.toNat) f s = Rd.bind (I.uleb cfg) (fun len => f len.toNat) s
  unfold Rd.bind Rd.pure
  cases I.uleb cfg s <;> rfl

/-- protocol.rs:54-57 -/
theorem gives_read_len (R : Runtime P) (rb : Method cfg debug P H Inv (n! "read_byte") I.readByte .u8) (s : σ) (hs : Inv s) :
    Gives Inv (fun n => runFn (eval cfg debug P H n) fn_Input_read_len [.self] s) (I.uleb cfg s) (fun a => (.usize a, [.self])) := by
  refine Goes.fn rfl ?_
  simp only [fn_Input_read_len]
  rw [show I.uleb cfg = I.uleb cfg >>= fun a => pure a from (rd_bind_pure _).symm]
  rs_call (gives_uleb R rb s hs) [R.decode_uleb]
  intro a s' N _ hi h
  rs_simp [R.decode_uleb, h, R.ok]
  rs_done

/-- protocol.rs:58-61 -/
theorem gives_read_i16 (R : Runtime P) (rb : Method cfg debug P H Inv (n! "read_byte") I.readByte .u8) (s : σ) (hs : Inv s) :
    Gives Inv (fun n => runFn (eval cfg debug P H n) fn_Input_read_i16 [.self] s) (I.readI16 cfg s) (fun a => (.i16 a, [.self])) := by
  refine Goes.fn rfl ?_
  simp only [fn_Input_read_i16]
  rs_call (gives_uleb R rb s hs) [R.decode_uleb]
  intro a s' N _ hi h
  rs_simp [R.decode_uleb, h, R.ok, R.zigzag_decode16, BitVec.setWidth_eq]
  rs_done

/-- protocol.rs:62-65 -/
theorem gives_read_i32 (R : Runtime P) (rb : Method cfg debug P H Inv (n! "read_byte") I.readByte .u8) (s : σ) (hs : Inv s) :
    Gives Inv (fun n => runFn (eval cfg debug P H n) fn_Input_read_i32 [.self] s) (I.readI32 cfg s) (fun a => (.i32 a, [.self])) := by
  refine Goes.fn rfl ?_
  simp only [fn_Input_read_i32]
  rs_call (gives_uleb R rb s hs) [R.decode_uleb]
  intro a s' N _ hi h
  rs_simp [R.decode_uleb, h, R.ok, R.zigzag_decode32, BitVec.setWidth_eq]
  rs_done

/-- protocol.rs:66-69 -/
theorem gives_read_i64 (R : Runtime P) (rb : Method cfg debug P H Inv (n! "read_byte") I.readByte .u8) (s : σ) (hs : Inv s) :
    Gives Inv (fun n => runFn (eval cfg debug P H n) fn_Input_read_i64 [.self] s) (I.readI64 cfg s) (fun a => (.i64 a, [.self])) := by
  refine Goes.fn rfl ?_
  simp only [fn_Input_read_i64]
  rs_call (gives_uleb R rb s hs) [R.decode_uleb]
  intro a s' N _ hi h
  rs_simp [R.decode_uleb, h, R.ok, R.zigzag_decode64, BitVec.setWidth_eq]
  rs_done

/-- protocol.rs:16-20 -/
theorem gives_full_field_id (R : Runtime P) (rb : Method cfg debug P H Inv (n! "read_byte") I.readByte .u8) (s : σ) (hs : Inv s) :
    Gives Inv (fun n => runFn (eval cfg debug P H n) fn_read_full_field_id [.self] s) (I.readFullFieldId cfg s) (fun a => (.i16 a, [.self])) := by
  refine Goes.fn rfl ?_
  simp only [fn_read_full_field_id]
  rs_call (gives_uleb R rb s hs) [R.decode_uleb]
  intro a s' N _ hi h
  rs_simp [R.decode_uleb, h, R.ok, R.zigzag_decode16, run_zigzag_decode16]
  rs_done

theorem not_fits_delta (last : BitVec 16) (b : BitVec 8) :
    (!fits 16 (last.toInt + (BitVec.setWidth 16 (b >>> 4)).toInt)) = decide ((32767 : Int) < last.toInt + (b >>> 4).toNat) := by
  have hn : (b >>> 4).toNat < 16 := by
    simp only [BitVec.toNat_ushiftRight, Nat.shiftRight_eq_div_pow]
    have := b.isLt
    omega
  have ht : (BitVec.setWidth 16 (b >>> 4)).toInt = ((b >>> 4).toNat : Int) := by
    rw [BitVec.toInt_eq_toNat_cond, BitVec.toNat_setWidth, Nat.mod_eq_of_lt (by omega), if_pos (by omega)]
  have := @BitVec.le_toInt 16 last
  have := @BitVec.toInt_lt 16 last
  rw [ht, Bool.eq_iff_iff]
  simp only [fits, Bool.not_eq_true', decide_eq_false_iff_not, decide_eq_true_eq]
  generalize (b >>> 4).toNat = m at *
  generalize last.toInt = l at *
  simp only [Nat.add_one_sub_one, Int.reducePow, Int.reduceNeg] at *
  omega

/-- protocol.rs:94-110 -/
theorem gives_field_header (R : Runtime P) (rb : Method cfg debug P H Inv (n! "read_byte") I.readByte .u8) (last : BitVec 16) (s : σ) (hs : Inv s) :
    Gives Inv (fun n => runFn (eval cfg debug P H n) fn_Input_read_field_header [.self, .ref (.i16 last)] s) (I.readFieldHeader cfg last s)
      (fun a => (.u8 a.1, [.self, .ref (.i16 a.2)])) := by
  refine Goes.fn rfl ?_
  simp only [fn_Input_read_field_header]
  rs_call (rb.gives s hs) [rb.has]
  intro b s' N _ hi h
  by_cases h0 : b = 0#8
  · subst h0
    rs_simp [rb.has, h, R.ok, BEq.rfl]
    rs_done
  · have h0' : (b == 0#8) = false := beq_eq_false_iff_ne.2 h0
    simp only [if_neg h0]
    by_cases hd : b >>> 4 = 0#8
    · have hd' : (b >>> 4 != 0#8) = false := by simp [hd]
      simp only [hd, ne_eq, not_true_eq_false, if_false]
      rs_call (gives_full_field_id R rb s' hi) [rb.has, h, R.ok, h0', hd', R.read_full_field_id]
      intro a s2 N2 _ hi2 h2
      rs_simp [rb.has, h, R.ok, h0', hd', R.read_full_field_id, h2]
      rs_done
    · have hd' : (b >>> 4 != 0#8) = true := by simp [hd]
      simp only [hd, ne_eq, not_false_eq_true, if_true]
      by_cases ho : (cfg.overflowChecks && decide ((32767 : Int) < last.toInt + (b >>> 4).toNat)) = true
      · have ha : binS cfg V.i16 .add last (BitVec.setWidth 16 (b >>> 4)) = .error .panic := by
          simp only [binS, not_fits_delta, ho, if_true]
        rs_simp [rb.has, h, R.ok, h0', hd', ha]
        rw [if_pos ho]
        exact .panic
      · have ha : binS cfg V.i16 .add last (BitVec.setWidth 16 (b >>> 4)) = .ok (.i16 (last + BitVec.setWidth 16 (b >>> 4))) := by
          simp only [binS, not_fits_delta, if_neg ho]
        rs_simp [rb.has, h, R.ok, h0', hd', ha]
        rw [if_neg ho]
        rs_done

/-- protocol.rs:113-129 -/
theorem gives_collection (R : Runtime P) (W : Provided P) (rb : Method cfg debug P H Inv (n! "read_byte") I.readByte .u8) (s : σ) (hs : Inv s) :
    Gives Inv (fun n => runFn (eval cfg debug P H n) fn_read_collection_len_and_type [.self] s) (I.readCollectionLenAndType cfg s)
      (fun a => (.tuple [.u32 (BitVec.ofNat 32 a.1), .u8 a.2], [.self])) := by
  refine Goes.fn rfl ?_
  simp only [fn_read_collection_len_and_type]
  rs_call (rb.gives s hs) [rb.has]
  intro b s' N _ hi h
  by_cases hl : (b &&& 240#8) >>> 4 = 15#8
  · have hl' : ((b &&& 240#8) >>> 4 != 15#8) = false := by simp [hl]
    simp only [hl, ne_eq, not_true_eq_false, if_false]
    rw [readLen_bind]
    rs_call (gives_read_len R rb s' hi) [rb.has, h, R.ok, hl', W.read_len]
    intro a s2 N2 _ hi2 h2
    by_cases hm : MAX_COLLECTION_LEN < a.toNat
    · have hm' : decide ((10000000#64).toNat < a.toNat) = true := by simpa [MAX_COLLECTION_LEN] using hm
      rs_simp [rb.has, h, R.ok, R.err, hl', W.read_len, h2, R.max_collection, hm']
      rw [if_pos hm]
      exact .err
    · have hm' : decide ((10000000#64).toNat < a.toNat) = false := by simpa [MAX_COLLECTION_LEN] using hm
      rs_simp [rb.has, h, R.ok, R.err, hl', W.read_len, h2, R.max_collection, hm']
      rw [if_neg hm]
      rs_done
  · have hl' : ((b &&& 240#8) >>> 4 != 15#8) = true := by simp [hl]
    simp only [hl, ne_eq, not_false_eq_true, if_true]
    have hn : ((b &&& 240#8) >>> 4).toNat < 16 := by
      simp only [BitVec.toNat_ushiftRight, Nat.shiftRight_eq_div_pow]
      have := (b &&& 240#8).isLt
      omega
    have hm : ¬ MAX_COLLECTION_LEN < ((b &&& 240#8) >>> 4).toNat := by unfold MAX_COLLECTION_LEN; omega
    have hm' : decide ((10000000#64).toNat < (BitVec.setWidth 64 ((b &&& 240#8) >>> 4)).toNat) = false := by
      rw [BitVec.toNat_setWidth, Nat.mod_eq_of_lt (by omega)]
      simpa [MAX_COLLECTION_LEN] using hm
    rs_simp [rb.has, h, R.ok, R.err, hl', R.max_collection, hm']
    rw [show ∀ (f : Nat → Rd σ (Nat × Byte)) k, (pure k >>= f) s' = f k s' from fun _ _ => rfl, if_neg hm]
    have hw : BitVec.setWidth 32 (BitVec.setWidth 64 ((b &&& 240#8) >>> 4)) = BitVec.ofNat 32 ((b &&& 240#8) >>> 4).toNat := by
      apply BitVec.eq_of_toNat_eq
      simp only [BitVec.toNat_setWidth, BitVec.toNat_ofNat]
      omega
    rw [hw]
    rs_done

theorem collection_bound {s s' : σ} {len : Nat} {ft : Byte} (h : I.readCollectionLenAndType cfg s = .ok ((len, ft), s')) : len ≤ 10000000 := by
  unfold Input.readCollectionLenAndType at h
  change Rd.bind I.readByte _ s = _ at h
  unfold Rd.bind at h
  split at h
  · cases h
  · change Rd.bind _ _ _ = _ at h
    unfold Rd.bind at h
    split at h
    · cases h
    · dsimp only at h
      split at h
      · cases h
      · rename_i hm
        cases h
        unfold MAX_COLLECTION_LEN at hm
        omega

/-- protocol.rs:131-146 -/
theorem gives_map (R : Runtime P) (W : Provided P) (rb : Method cfg debug P H Inv (n! "read_byte") I.readByte .u8) (s : σ) (hs : Inv s) :
    Gives Inv (fun n => runFn (eval cfg debug P H n) fn_read_map_len_and_types [.self] s) (I.readMapLenAndTypes cfg s)
      (fun a => (.tuple [.u32 (BitVec.ofNat 32 a.1), .u8 a.2.1, .u8 a.2.2], [.self])) := by
  refine Goes.fn rfl ?_
  simp only [fn_read_map_len_and_types]
  unfold Input.readMapLenAndTypes
  rw [readLen_bind]
  rs_call (gives_read_len R rb s hs) [W.read_len]
  intro a s' N _ hi h
  by_cases h0 : a.toNat = 0
  · have h0' : (a == 0#64) = true := by
      rw [beq_iff_eq]; exact BitVec.eq_of_toNat_eq h0
    rs_simp [W.read_len, h, R.ok, h0']
    rw [if_pos h0]
    rs_done
  · have h0' : (a == 0#64) = false := by
      rw [beq_eq_false_iff_ne]; exact fun e => h0 (congrArg BitVec.toNat e)
    rw [if_neg h0]
    rs_call (rb.gives s' hi) [W.read_len, h, R.ok, h0', rb.has]
    intro b s2 N2 _ hi2 h2
    by_cases hm : MAX_COLLECTION_LEN < a.toNat
    · have hm' : decide ((10000000#64).toNat < a.toNat) = true := by simpa [MAX_COLLECTION_LEN] using hm
      rs_simp [rb.has, h, R.ok, R.err, h0', W.read_len, h2, R.max_collection, hm']
      rw [if_pos hm]
      exact .err
    · have hm' : decide ((10000000#64).toNat < a.toNat) = false := by simpa [MAX_COLLECTION_LEN] using hm
      rs_simp [rb.has, h, R.ok, R.err, h0', W.read_len, h2, R.max_collection, hm']
      rw [if_neg hm]
      rs_done

theorem map_bound {s s' : σ} {len : Nat} {kt vt : Byte} (h : I.readMapLenAndTypes cfg s = .ok ((len, kt, vt), s')) : len ≤ 10000000 := by
  unfold Input.readMapLenAndTypes at h
  change Rd.bind (I.readLen cfg) _ s = _ at h
  unfold Rd.bind at h
  split at h
  · cases h
  · dsimp only at h
    split at h
    · cases h; omega
    · change Rd.bind _ _ _ = _ at h
      unfold Rd.bind at h
      split at h
      · cases h
      · dsimp only at h
        split at h
        · cases h
        · rename_i hm
          cases h
          unfold MAX_COLLECTION_LEN at hm
          omega

/-- protocol.rs:72-82 -/
theorem gives_read_string (owned : Bool) (R : Runtime P) (rbin : Method cfg debug P H Inv (n! "read_binary") I.readBinary (.cow owned)) (s : σ) (hs : Inv s) :
    Gives Inv (fun n => runFn (eval cfg debug P H n) fn_Input_read_string [.self] s) (I.readString s) (fun a => (.cow owned a, [.self])) := by
  refine Goes.fn rfl ?_
  simp only [fn_Input_read_string]
  rs_call (rbin.gives s hs) [rbin.has]
  intro a s' N _ hi h
  cases hu : utf8Valid a
  · rs_simp [↓eval_select, rbin.has, h, R.ok, R.from_utf8, R.unchecked, hu, Bool.false_eq_true]
    exact .err
  · cases owned
    · rs_simp [↓eval_select, rbin.has, h, R.ok, R.from_utf8, R.unchecked, hu, Bool.false_eq_true]
      rs_done
    · rs_simp [↓eval_select, rbin.has, h, R.ok, R.from_utf8, R.unchecked, hu]
      rs_done
end
end CT.Rs
