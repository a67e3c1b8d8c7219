import Verif.Proofs.SkipSim
import Verif.Proofs.Inputs
/-!
# The devices
-/
namespace CT.Rs
open CT CT.Spec

section
variable {σ : Type} (cfg : Cfg) (debug : Bool) (P : Prog) (H : Host σ)

@[rs] theorem evIfLet_some (ev : Expr → Frame → σ → Out σ) (l : Scope) (t : Expr) (e : Option Expr) (fr : Frame) (s : σ) :
    evIfLet ev (some l) t e fr s = (ev t (l :: fr) s).leave := (rfl)
@[rs] theorem evIfLet_else (ev : Expr → Frame → σ → Out σ) (t e : Expr) (fr : Frame) (s : σ) : evIfLet ev none t (some e) fr s = ev e fr s := (rfl)
@[rs] theorem match_head_cons (x y : Name) (b : Byte) (bs : Bytes) : matchPat (.headRest x y) (.bytes (b :: bs)) = some [(x, .u8 b), (y, .bytes bs)] := (rfl)
@[rs] theorem match_head_nil (x y : Name) : matchPat (.headRest x y) (.bytes []) = none := (rfl)
@[rs] theorem evField_slice (fr : Frame) (s : Bytes) : evField sliceHost .self 0 fr s = .val (.bytes s) fr s := (rfl)
@[rs] theorem evAssign_slice (x : Name) (bs : Bytes) (fr : Frame) (s : Bytes) : evAssign sliceHost (.field (.path [x]) 0) (.bytes bs) fr s = .val .unit fr bs := (rfl)
@[rs ↓] theorem eval_take (n : Nat) (es : List Expr) (fr : Frame) (s : Bytes) :
    eval cfg debug P sliceHost (n + 1) (.call [n! "std", n! "mem", n! "take"] es) fr s = .val (.bytes s) fr [] := (rfl)
@[rs] theorem bytes_split_at (e : Expr) (bs : Bytes) (k : BitVec 64) (fr : Frame) (s : σ) :
    evBytes e (n! "split_at") bs [.usize k] fr s =
      .of (if k.toNat ≤ bs.length then .ok (.tuple [.bytes (bs.take k.toNat), .bytes (bs.drop k.toNat)]) else .error .panic) fr s := (rfl)
@[rs] theorem bytes_get_unchecked (e : Expr) (bs : Bytes) (k : BitVec 64) (fr : Frame) (s : σ) :
    evBytes e (n! "get_unchecked") bs [.range (some (.usize k)) none] fr s =
      .of (if k.toNat ≤ bs.length then .ok (.bytes (bs.drop k.toNat)) else .error .ub) fr s := (rfl)
@[rs] theorem index_from (bs : Bytes) (k : BitVec 64) : indexedV (.bytes bs) (.range (some (.usize k)) none) =
    if k.toNat ≤ bs.length then .ok (.bytes (bs.drop k.toNat)) else .error .panic := (rfl)
@[rs] theorem index_from_lit (bs : Bytes) (k : Nat) : indexedV (.bytes bs) (.range (some (.lit k)) none) =
    if k ≤ bs.length then .ok (.bytes (bs.drop k)) else .error .panic := (rfl)
@[rs] theorem index_to_lit (bs : Bytes) (k : Nat) : indexedV (.bytes bs) (.range none (some (.lit k))) =
    if k ≤ bs.length then .ok (.bytes (bs.take k)) else .error .panic := (rfl)
@[rs] theorem index_first (b : Byte) (bs : Bytes) : indexedV (.bytes (b :: bs)) (.lit 0) = .ok (.u8 b) := (rfl)
@[rs] theorem filled_u8 (n : Nat) (x : Byte) : filled n (.u8 x) = .ok (.bytes (List.replicate n x)) := (rfl)
@[rs] theorem stdFn_capacity (v : V) : stdFn [n! "Vec", n! "with_capacity"] [v] = .ok (.bytes []) := (rfl)
@[rs] theorem stdFn_le (bs : Bytes) (h : bs.length = 8) : stdFn [n! "f64", n! "from_le_bytes"] [.bytes bs] = .ok (.f64 (fromLeBytes bs)) := by
  show (if (_ && decide (bs.length = 8)) = true then _ else _) = _
  rw [h]
  rfl
@[rs] theorem stdFn_load (bs : Bytes) : stdFn [n! "_mm_loadu_si128"] [.bytes bs] = if 16 ≤ bs.length then .ok (.bytes (bs.take 16)) else .error .ub := (rfl)
@[rs] theorem stdFn_movemask (bs : Bytes) : stdFn [n! "_mm_movemask_epi8"] [.bytes bs] = .ok (.i32 (movemask bs)) := (rfl)
@[rs] theorem inverted_i32 (x : BitVec 32) : inverted (.i32 x) = .ok (.i32 (~~~x)) := (rfl)

/-- The end of `read_exact` -/
def readDone (es : List Expr) (fr : Frame) (s : σ) : Except Fail (Bytes × σ) → Out σ
  | .ok (bs', s') => .val (.ok .unit) (putBacks es [.ref (.bytes bs')] fr) s'
  | .error (.err (.io k)) => .val (.err (.io k)) fr s
  | .error f => .fail f s

@[rs] theorem readDone_ok (es : List Expr) (fr : Frame) (s s' : σ) (bs : Bytes) :
    readDone es fr s (.ok (bs, s')) = .val (.ok .unit) (putBacks es [.ref (.bytes bs)] fr) s' := (rfl)
@[rs] theorem readDone_io (es : List Expr) (fr : Frame) (s : σ) (k : ErrorKind) : readDone es fr s (.error (.err (.io k))) = .val (.err (.io k)) fr s := (rfl)

/-- The end of `write_all` -/
def writeDone (fr : Frame) : Except Fail Unit × σ → Out σ
  | (.ok _, s') => .val (.ok .unit) fr s'
  | (.error (.err (.io k)), s') => .val (.err (.io k)) fr s'
  | (.error f, s') => .fail f s'

@[rs] theorem methodOf_read (ev : Expr → Frame → σ → Out σ) (e : Expr) (es : List Expr) (bs : Bytes) (fr : Frame) (s : σ) :
    methodOf H ev none e (n! "read_exact") es [.ref (.bytes bs)] fr s = readDone es fr s (H.readExact bs.length s) := (rfl)
@[rs] theorem methodOf_write (ev : Expr → Frame → σ → Out σ) (e : Expr) (es : List Expr) (bs : Bytes) (fr : Frame) (s : σ) :
    methodOf H ev none e (n! "write_all") es [.bytes bs] fr s = writeDone fr (H.writeAll bs s) := (rfl)

/-- `[v]` -/
def arrayDone (vs : List V) (fr : Frame) (s : σ) : Out σ :=
  match vs with
  | [.u8 x] => .val (.bytes [x]) fr s
  | _ => .fail .stuck s

@[rs ↓] theorem eval_array (n : Nat) (es : List Expr) (fr : Frame) (s : σ) :
    eval cfg debug P H (n + 1) (.array es) fr s = evArgs (eval cfg debug P H n) es arrayDone fr s := (rfl)
@[rs] theorem arrayDone_one (x : Byte) (fr : Frame) (s : σ) : arrayDone [.u8 x] fr s = .val (.bytes [x]) fr s := (rfl)

/-- The rest of `&&` -/
def andThen (ev : Expr → Frame → σ → Out σ) (b : Expr) (x : V) (fr : Frame) (s : σ) : Out σ :=
  match x with
  | .bool true => ev b fr s
  | .bool false => .val (.bool false) fr s
  | _ => .fail .stuck s

@[rs ↓] theorem eval_and (n : Nat) (a b : Expr) (fr : Frame) (s : σ) :
    eval cfg debug P H (n + 1) (.and a b) fr s = (eval cfg debug P H n a fr s).bind fun v fr s => andThen (eval cfg debug P H n) b v fr s := (rfl)
@[rs] theorem andThen_true (ev : Expr → Frame → σ → Out σ) (b : Expr) (fr : Frame) (s : σ) : andThen ev b (.bool true) fr s = ev b fr s := (rfl)
@[rs] theorem andThen_false (ev : Expr → Frame → σ → Out σ) (b : Expr) (fr : Frame) (s : σ) : andThen ev b (.bool false) fr s = .val (.bool false) fr s := (rfl)

/-- The rest of `debug_assert!` -/
def asserted (vs : List V) (fr : Frame) (s : σ) : Out σ :=
  match vs with
  | [.bool true] => .val .unit fr s
  | [.bool false] => .fail .panic s
  | _ => .fail .stuck s

@[rs ↓] theorem eval_assert (n : Nat) (es : List Expr) (fr : Frame) (s : σ) :
    eval cfg debug P H (n + 1) (.mac (n! "debug_assert") es) fr s = if debug then evArgs (eval cfg debug P H n) es asserted fr s else .val .unit fr s := (rfl)
@[rs] theorem asserted_true (fr : Frame) (s : σ) : asserted [.bool true] fr s = .val .unit fr s := (rfl)
end

attribute [local irreducible] eval

section
variable {σ α : Type} {Inv : σ → Prop} {run : Nat → FnOut σ} {ok : α → V × List V}

theorem Gives.ofOk {a : α} {s' : σ} (hi : Inv s') (h : ∀ n, run (n + 40) = .ret (.ok (ok a).1) (ok a).2 s') : Gives Inv run (.ok (a, s')) ok :=
  ⟨hi, .shift 40 ⟨0, fun n _ => h n⟩⟩
theorem Gives.ofErr {e : ThriftError} (h : ∃ args s', ∀ n, run (n + 40) = .ret (.err (.thrift e)) args s') : Gives Inv run (.error (.err e)) ok :=
  let ⟨args, s', h⟩ := h
  ⟨args, s', .shift 40 ⟨0, fun n _ => h n⟩⟩
theorem Gives.ofPanic {s' : σ} (h : ∀ n, run (n + 40) = .fail .panic s') : Gives Inv run (.error .panic) ok := ⟨s', .shift 40 ⟨0, fun n _ => h n⟩⟩
theorem Gives.ofUb {s' : σ} (h : ∀ n, run (n + 40) = .fail .ub s') : Gives Inv run (.error .ub) ok := ⟨s', .shift 40 ⟨0, fun n _ => h n⟩⟩
end

/-- The programs of the two devices. -/
def inputProg (sse2 : Bool) (ty : Name) : Prog := progOf sse2 (ulebItems ++ protocolItems) (n! "CompactThriftInput") ty

theorem runtime_slice (b : Bool) : Runtime (inputProg b (n! "CompactThriftInputSlice")) := by
  cases b <;> constructor <;> rfl
theorem runtime_reader (b : Bool) : Runtime (inputProg b (n! "R")) := by
  cases b <;> constructor <;> rfl
theorem provided_slice (b : Bool) : Provided (inputProg b (n! "CompactThriftInputSlice")) := by
  cases b <;> constructor <;> rfl
theorem provided_reader (b : Bool) : Provided (inputProg b (n! "R")) := by
  cases b <;> constructor <;> rfl

theorem max_binary (b : Bool) (ty : Name) :
    assoc (inputProg b ty).consts (n! "MAX_BINARY_LEN") = some (.int .usize, .bin .mul (.bin .mul (.lit 16 none) (.lit 1024 none)) (.lit 1024 none)) := rfl

/-! ## The slice -/

section
variable {cfg : Cfg} {debug : Bool}

/-- A slice has at most `isize::MAX` bytes. -/
def Short (s : Bytes) : Prop := s.length < 2 ^ 63

theorem gives_slice_byte (P : Prog) (hok : assoc P.fns (n! "Ok") = none) (herr : assoc P.fns (n! "Err") = none) (s : Bytes) (hs : Short s) :
    Gives Short (fun n => runFn (eval cfg debug P sliceHost n) fn_Input_Slice_read_byte [.self] s) (Slice.readByte s) (fun a => (.u8 a, [.self])) := by
  unfold runFn
  simp only [fn_Input_Slice_read_byte]
  cases s with
  | nil =>
    apply Gives.ofErr
    apply Exists.intro; apply Exists.intro; intro n
    rs_simp [herr]
    rfl
  | cons b bs =>
    refine Gives.ofOk (by unfold Short at *; simp at hs; omega) fun n => ?_
    rs_simp [hok]

theorem gives_slice_double (P : Prog) (hok : assoc P.fns (n! "Ok") = none) (herr : assoc P.fns (n! "Err") = none) (s : Bytes) (hs : Short s) :
    Gives Short (fun n => runFn (eval cfg debug P sliceHost n) fn_Input_Slice_read_double [.self] s) (Slice.readDouble s) (fun a => (.f64 a, [.self])) := by
  unfold runFn Slice.readDouble Short at *
  simp only [fn_Input_Slice_read_double]
  have hl : (BitVec.ofNat 64 s.length).toNat = s.length := by simp; omega
  by_cases h : s.length < 8
  · rw [if_pos h]
    apply Gives.ofErr
    apply Exists.intro; apply Exists.intro; intro n
    have hd : decide ((BitVec.ofNat 64 s.length).toNat < (BitVec.ofNat 64 8).toNat) = true := by rw [hl]; simpa using h
    rs_simp [herr, hd]
    rfl
  · rw [if_neg h]
    have hd : decide ((BitVec.ofNat 64 s.length).toNat < (BitVec.ofNat 64 8).toNat) = false := by rw [hl]; simpa using h
    have ht : (s.take 8).length = 8 := by simp; omega
    refine Gives.ofOk (by simp; omega) fun n => ?_
    rs_simp [hok, hd, stdFn_le _ ht, if_pos (show 8 ≤ s.length from by omega), Bool.false_eq_true]

/-- The program of the slice. -/
abbrev sliceProg (cfg : Cfg) : Prog := inputProg cfg.sse2 (n! "CompactThriftInputSlice")

def sliceByte : Method cfg debug (sliceProg cfg) sliceHost Short (n! "read_byte") (sliceInput cfg).readByte .u8 where
  fn := fn_Input_Slice_read_byte
  has := by cases h : cfg.sse2 <;> simp only [sliceProg, h] <;> rfl
  gives := gives_slice_byte _ (runtime_slice _).ok (runtime_slice _).err

def sliceDouble : Method cfg debug (sliceProg cfg) sliceHost Short (n! "read_double") (sliceInput cfg).readDouble .f64 where
  fn := fn_Input_Slice_read_double
  has := by cases h : cfg.sse2 <;> simp only [sliceProg, h] <;> rfl
  gives := gives_slice_double _ (runtime_slice _).ok (runtime_slice _).err

theorem short_uleb {s s' : Bytes} {a : BitVec 64} (hs : Short s) (h : (sliceInput cfg).uleb cfg s = .ok (a, s')) : Short s' := by
  have g := gives_uleb (debug := false) (runtime_slice cfg.sse2) (sliceByte (cfg := cfg)) s hs
  rw [h] at g
  exact g.1

theorem slice_len_bind {α : Type} (f : Nat → Rd Bytes α) : (Slice.readLen cfg >>= f) = ((sliceInput cfg).uleb cfg >>= fun len => f len.toNat) :=
  readLen_bind (I := sliceInput cfg) f

theorem gives_slice_binary (s : Bytes) (hs : Short s) :
    Gives Short (fun n => runFn (eval cfg debug (sliceProg cfg) sliceHost n) fn_Input_Slice_read_binary [.self] s) (Slice.readBinary cfg s)
      (fun a => (.cow false a, [.self])) := by
  have R := runtime_slice cfg.sse2
  have W := provided_slice cfg.sse2
  refine Goes.fn rfl ?_
  simp only [fn_Input_Slice_read_binary]
  unfold Slice.readBinary
  rw [slice_len_bind]
  rs_call (gives_read_len (debug := debug) R sliceByte s hs) [W.read_len]
  intro a s' N _ hi h
  have hl : (BitVec.ofNat 64 s'.length).toNat = s'.length := by unfold Short at hi; simp; omega
  have hk : (BitVec.ofNat 64 (16 * 1024 * 1024)).toNat = MAX_BINARY_LEN := rfl
  by_cases h1 : MAX_BINARY_LEN < a.toNat
  · rw [if_pos h1]
    have hd : decide ((BitVec.ofNat 64 (16 * 1024 * 1024)).toNat < a.toNat) = true := by rw [hk]; simpa using h1
    rs_simp [W.read_len, h, max_binary, hd, R.err]
    exact .err
  · rw [if_neg h1]
    have hd : decide ((BitVec.ofNat 64 (16 * 1024 * 1024)).toNat < a.toNat) = false := by rw [hk]; simpa using h1
    simp only [Rd.of]
    by_cases h2 : s'.length < a.toNat
    · rw [if_pos h2]
      have hd2 : decide ((BitVec.ofNat 64 s'.length).toNat < a.toNat) = true := by rw [hl]; simpa using h2
      rs_simp [W.read_len, h, max_binary, hd, R.err, hd2]
      exact .err
    · rw [if_neg h2]
      have hd2 : decide ((BitVec.ofNat 64 s'.length).toNat < a.toNat) = false := by rw [hl]; simpa using h2
      have hs2 : Short (s'.drop a.toNat) := by unfold Short at *; simp; omega
      rs_simp [W.read_len, h, max_binary, hd, R.ok, hd2, if_pos (show a.toNat ≤ s'.length from by omega)]
      rs_done

theorem gives_slice_skip_binary (s : Bytes) (hs : Short s) :
    Gives Short (fun n => runFn (eval cfg debug (sliceProg cfg) sliceHost n) fn_Input_Slice_skip_binary [.self] s) (Slice.skipBinary cfg s)
      (fun _ => (.unit, [.self])) := by
  have R := runtime_slice cfg.sse2
  have W := provided_slice cfg.sse2
  refine Goes.fn rfl ?_
  simp only [fn_Input_Slice_skip_binary]
  unfold Slice.skipBinary
  rw [slice_len_bind]
  rs_call (gives_read_len (debug := debug) R sliceByte s hs) [W.read_len]
  intro a s' N _ hi h
  have hl : (BitVec.ofNat 64 s'.length).toNat = s'.length := by unfold Short at hi; simp; omega
  have hk : (BitVec.ofNat 64 (16 * 1024 * 1024)).toNat = MAX_BINARY_LEN := rfl
  by_cases h1 : MAX_BINARY_LEN < a.toNat
  · rw [if_pos h1]
    have hd : decide ((BitVec.ofNat 64 (16 * 1024 * 1024)).toNat < a.toNat) = true := by rw [hk]; simpa using h1
    rs_simp [W.read_len, h, max_binary, hd, R.err]
    exact .err
  · rw [if_neg h1]
    have hd : decide ((BitVec.ofNat 64 (16 * 1024 * 1024)).toNat < a.toNat) = false := by rw [hk]; simpa using h1
    simp only [Rd.of]
    by_cases h2 : s'.length < a.toNat
    · rw [if_pos h2]
      have hd2 : decide ((BitVec.ofNat 64 s'.length).toNat < a.toNat) = true := by rw [hl]; simpa using h2
      rs_simp [W.read_len, h, max_binary, hd, R.err, hd2]
      exact .err
    · rw [if_neg h2]
      have hd2 : decide ((BitVec.ofNat 64 s'.length).toNat < a.toNat) = false := by rw [hl]; simpa using h2
      have hs2 : Short (s'.drop a.toNat) := by unfold Short at *; simp; omega
      rs_simp [W.read_len, h, max_binary, hd, R.ok, hd2, if_pos (show a.toNat ≤ s'.length from by omega), Bool.false_eq_true]
      exact .val hs2 (by simp [rs, Done, V.unit])

/-- The condition of the loop of `skip_uleb_fallback`. -/
def scanCond : Expr :=
  .and (.bin .lt (.path [n! "i"]) (.method (.path [n! "input"]) n! "len" [])) (.bin .ne (.bin .band (.index (.path [n! "input"]) (.path [n! "i"])) (.lit
  128 none)) (.lit 0 none))

/-- Its body. -/
def scanStep : Expr :=
  .block [.semi (.assignOp .add (.path [n! "i"]) (.lit 1 none))]

theorem whileAt_true {σ : Type} (cfg : Cfg) (debug : Bool) (P : Prog) (H : Host σ) (n : Nat) (c b : Expr) (fr : Frame) (s : σ) :
    whileAt cfg debug P H n c b (.bool true) fr s = (eval cfg debug P H n b fr s).again fun fr s => eval cfg debug P H n (.while c b) fr s := (rfl)
theorem whileAt_false {σ : Type} (cfg : Cfg) (debug : Bool) (P : Prog) (H : Host σ) (n : Nat) (c b : Expr) (fr : Frame) (s : σ) :
    whileAt cfg debug P H n c b (.bool false) fr s = .val .unit fr s := (rfl)

theorem index_at {bs : Bytes} {i : BitVec 64} {b : Byte} (h : bs[i.toNat]? = some b) : indexedV (.bytes bs) (.usize i) = .ok (.u8 b) := by
  show (match bs[i.toNat]? with | some b => _ | none => _) = _
  rw [h]

theorem tends_scan {P : Prog} {st s : Bytes} (hs : Short s) (rest : Bytes) :
    ∀ i, s.drop i = rest → i ≤ s.length →
      Tends (fun n => eval cfg debug P sliceHost n (.while scanCond scanStep) [[(n! "i", .usize (BitVec.ofNat 64 i))], [(n! "input", .bytes s)]] st)
        (.val .unit [[(n! "i", .usize (BitVec.ofNat 64 (i + scanContinuation rest)))], [(n! "input", .bytes s)]] st) := by
  have hl : (BitVec.ofNat 64 s.length).toNat = s.length := by unfold Short at hs; simp; omega
  simp only [scanCond, scanStep]
  induction rest with
  | nil =>
    intro i hd hi
    have : i = s.length := by
      have := congrArg List.length hd
      simp at this
      omega
    subst this
    refine .shift 40 ⟨0, fun n _ => ?_⟩
    rs_simp [eval_while, hl, Nat.lt_irrefl, decide_false, whileAt_false]
    rfl
  | cons b rest ih =>
    intro i hd hi
    have hlt : i < s.length := by
      have := congrArg List.length hd
      simp at this
      omega
    have hii : (BitVec.ofNat 64 i).toNat = i := by unfold Short at hs; simp; omega
    have hb : s[(BitVec.ofNat 64 i).toNat]? = some b := by
      rw [hii]
      have := congrArg List.head? hd
      simpa using this
    have hc : decide ((BitVec.ofNat 64 i).toNat < (BitVec.ofNat 64 s.length).toNat) = true := by rw [hl, hii]; simpa using hlt
    by_cases hz : b &&& 128#8 = 0#8
    · have hz' : (b &&& 128#8 != 0#8) = false := by simp [hz]
      refine .shift 40 ⟨0, fun n _ => ?_⟩
      rs_simp [eval_while, hc, index_at hb, hz', whileAt_false, scanContinuation, if_pos hz]
      rfl
    · have hz' : (b &&& 128#8 != 0#8) = true := by simp [hz]
      have hd' : s.drop (i + 1) = rest := by rw [← List.drop_drop, hd]; rfl
      obtain ⟨N, t⟩ := ih (i + 1) hd' (by omega)
      have ha : binU cfg V.usize .add (BitVec.ofNat 64 i) 1#64 = .ok (.usize (BitVec.ofNat 64 (i + 1))) := by
        unfold Short at hs
        simp [binU, hii, BitVec.ofNat_add]
        intro _
        omega
      refine .shift (N + 40) ⟨0, fun n _ => ?_⟩
      simp only [← Nat.add_assoc]
      dsimp only at t
      rw [show n + N + 40 = n + N + 39 + 1 from rfl, eval_while]
      rs_simp [hc, index_at hb, hz', whileAt_true, ha]
      rw [t _ (by omega)]
      simp only [scanContinuation, if_neg hz]
      rw [show i + 1 + scanContinuation rest = i + (scanContinuation rest + 1) from by omega]

theorem scan_le (s : Bytes) : scanContinuation s ≤ s.length := by
  induction s with
  | nil => exact Nat.le_refl 0
  | cons b bs ih => unfold scanContinuation; split <;> simp; omega

/-- uleb.rs:33-40 -/
theorem tends_fallback {P : Prog} {st s : Bytes} (hs : Short s) :
    Tends (fun n => runFn (eval cfg debug P sliceHost n) fn_skip_uleb_fallback [.bytes s] st)
      (match skipUlebFallback s with
        | .ok s' => .ret (.bytes s') [.bytes s] st
        | .error e => .fail e st) := by
  obtain ⟨N, t⟩ := tends_scan (cfg := cfg) (debug := debug) (P := P) (st := st) hs s 0 rfl (Nat.zero_le _)
  have hsc := scan_le s
  have hi : (BitVec.ofNat 64 (0 + scanContinuation s)).toNat = scanContinuation s := by unfold Short at hs; simp; omega
  have ha : binU cfg V.usize .add (BitVec.ofNat 64 (0 + scanContinuation s)) 1#64 = .ok (.usize (BitVec.ofNat 64 (scanContinuation s + 1))) := by
    unfold Short at hs
    simp [binU, BitVec.ofNat_add]
    intro _
    omega
  have hk : (BitVec.ofNat 64 (scanContinuation s + 1)).toNat = scanContinuation s + 1 := by unfold Short at hs; simp; omega
  simp only [scanCond, scanStep] at t
  refine .shift (N + 40) ⟨0, fun n _ => ?_⟩
  simp only [← Nat.add_assoc]
  unfold runFn skipUlebFallback
  simp only [fn_skip_uleb_fallback]
  by_cases h : scanContinuation s + 1 ≤ s.length
  · rs_simp [t, ha, hk, if_pos h, Bool.false_eq_true]
  · rs_simp [t, ha, hk, if_neg h]

theorem tz_le (x : BitVec 32) : trailingZeros x ≤ 32 := by
  have : ∀ f i, trailingZerosFrom x f i ≤ i + f := by
    intro f
    induction f with
    | zero => intro i; exact Nat.le_refl _
    | succ f ih => intro i; unfold trailingZerosFrom; split; omega; have := ih (i + 1); omega
  exact this 32 0

/-- uleb.rs:21-31 -/
theorem tends_sse2 {P : Prog} (hl : assoc P.fns (n! "_mm_loadu_si128") = none) (hm : assoc P.fns (n! "_mm_movemask_epi8") = none) {st s : Bytes} (hs : Short s)
    (h16 : 16 ≤ s.length) :
    Tends (fun n => runFn (eval cfg debug P sliceHost n) fn_skip_uleb_sse2 [.bytes s] st)
      (match skipUlebSse2 s with
        | .ok s' => .ret (.bytes s') [.bytes s] st
        | .error e => .fail e st) := by
  refine .shift 40 ⟨0, fun n _ => ?_⟩
  have hd : decide ((BitVec.ofNat 64 16).toNat ≤ (BitVec.ofNat 64 s.length).toNat) = true := by
    unfold Short at hs
    simp
    omega
  have hz := tz_le (~~~(movemask (s.take 16)) <<< 1)
  have hk : ((BitVec.ofNat 32 (trailingZeros (~~~(movemask (s.take 16)) <<< 1))).setWidth 64).toNat = trailingZeros (~~~(movemask (s.take 16)) <<< 1) := by
    simp; omega
  unfold runFn skipUlebSse2
  simp only [fn_skip_uleb_sse2]
  by_cases h : trailingZeros (~~~(movemask (s.take 16)) <<< 1) ≤ s.length
  · cases debug
    · rs_simp [hl, hm, if_pos h16, hk, if_pos h, Bool.false_eq_true]
    · rs_simp [hl, hm, if_pos h16, hk, if_pos h, hd]
  · cases debug
    · rs_simp [hl, hm, if_pos h16, hk, if_neg h, Bool.false_eq_true]
    · rs_simp [hl, hm, if_pos h16, hk, if_neg h, hd]

/-- The result of a function as the outcome of a call. -/
theorem Gives.ofTends {σ : Type} {Inv : σ → Prop} {run : Nat → FnOut σ} {o : FnOut σ} (t : Tends run o) {α : Type} {ok : α → V × List V} {r : Except Fail (α × σ)}
    (h : Gives Inv (fun _ => o) r ok) : Gives Inv run r ok := by
  have ht : ∀ o', Tends (fun _ => o) o' → Tends run o' := by
    rintro o' ⟨N, q⟩
    have : o = o' := q N (Nat.le_refl N)
    exact this ▸ t
  unfold Gives at h ⊢
  split
  · exact ⟨h.1, ht _ h.2⟩
  · exact let ⟨a, s', q⟩ := h; ⟨a, s', ht _ q⟩
  · trivial
  · rename_i e _ hd
    cases e <;> simp_all <;> exact let ⟨s', q⟩ := h; ⟨s', ht _ q⟩

/-- protocol.rs:83-86 -/
theorem gives_default_skip_integer {σ : Type} {P : Prog} {H : Host σ} {Inv : σ → Prop} {I : Input σ} (R : Runtime P) (W : Provided P)
    (rb : Method cfg debug P H Inv (n! "read_byte") I.readByte .u8) (s : σ) (hs : Inv s) :
    Gives Inv (fun n => runFn (eval cfg debug P H n) fn_Input_skip_integer [.self] s) ((I.uleb cfg >>= fun _ => pure ()) s) (fun _ => (.unit, [.self])) := by
  have he : (I.uleb cfg >>= fun _ => pure () : Rd σ Unit) = (I.readI64 cfg >>= fun _ => pure ()) := by
    funext s
    show Rd.bind (I.uleb cfg) (fun _ => Rd.pure ()) s = Rd.bind (Rd.bind (I.uleb cfg) fun x => Rd.pure _) (fun _ => Rd.pure ()) s
    unfold Rd.bind Rd.pure
    cases I.uleb cfg s <;> rfl
  rw [he]
  refine Goes.fn rfl ?_
  simp only [fn_Input_skip_integer]
  rs_call (gives_read_i64 (debug := debug) R rb s hs) [W.read_i64]
  intro a s' N _ hi h
  rs_simp [W.read_i64, h, R.ok]
  exact .val hi (by simp [rs, Done, V.unit])

/-- protocol.rs:87-90 -/
theorem gives_default_skip_binary {σ : Type} {P : Prog} {H : Host σ} {Inv : σ → Prop} {I : Input σ} {owned : Bool} (R : Runtime P)
    (rbin : Method cfg debug P H Inv (n! "read_binary") I.readBinary (.cow owned)) (s : σ) (hs : Inv s) :
    Gives Inv (fun n => runFn (eval cfg debug P H n) fn_Input_skip_binary [.self] s) ((I.readBinary >>= fun _ => pure ()) s) (fun _ => (.unit, [.self])) := by
  refine Goes.fn rfl ?_
  simp only [fn_Input_skip_binary]
  rs_call (rbin.gives s hs) [rbin.has]
  intro a s' N _ hi h
  rs_simp [rbin.has, h, R.ok]
  exact .val hi (by simp [rs, Done, V.unit])

/-- protocol.rs:360-370 -/
theorem gives_slice_skip_integer (hsse : cfg.sse2 = true) (s : Bytes) (hs : Short s) :
    Gives Short (fun n => runFn (eval cfg debug (sliceProg cfg) sliceHost n) fn_Input_Slice_skip_integer [.self] s) (Slice.skipInteger cfg s)
      (fun _ => (.unit, [.self])) := by
  have R := runtime_slice cfg.sse2
  have hf : assoc (sliceProg cfg).fns (n! "skip_uleb_fallback") = some fn_skip_uleb_fallback := by simp only [sliceProg, hsse]; rfl
  have hg : assoc (sliceProg cfg).fns (n! "skip_uleb_sse2") = some fn_skip_uleb_sse2 := by simp only [sliceProg, hsse]; rfl
  have hl : assoc (sliceProg cfg).fns (n! "_mm_loadu_si128") = none := by simp only [sliceProg, hsse]; rfl
  have hm : assoc (sliceProg cfg).fns (n! "_mm_movemask_epi8") = none := by simp only [sliceProg, hsse]; rfl
  have hdrop : ∀ k, Short (s.drop k) := by intro k; unfold Short at *; simp; omega
  unfold Slice.skipInteger
  rw [if_pos hsse]
  simp only [Rd.of]
  by_cases h : 16 ≤ s.length
  · have hd : decide ((BitVec.ofNat 64 16).toNat ≤ (BitVec.ofNat 64 s.length).toNat) = true := by
      unfold Short at hs
      simp
      omega
    rw [if_pos h]
    obtain ⟨N, t⟩ := tends_sse2 (cfg := cfg) (debug := debug) hl hm (st := s) hs h
    cases hr : skipUlebSse2 s with
    | ok s' =>
      rw [hr] at t
      have hs' : Short s' := by
        unfold skipUlebSse2 at hr
        dsimp only at hr
        split at hr <;> cases hr
        exact hdrop _
      refine ⟨hs', .shift (N + 40) ⟨0, fun n _ => ?_⟩⟩
      simp only [← Nat.add_assoc]
      unfold runFn
      simp only [fn_Input_Slice_skip_integer]
      dsimp only at t
      rs_simp [hd, t, R.ok, hg, Bool.false_eq_true]
      rfl
    | error e =>
      rw [hr] at t
      have he : e = .ub := by
        unfold skipUlebSse2 at hr
        dsimp only at hr
        split at hr <;> cases hr
        rfl
      subst he
      refine ⟨s, .shift (N + 40) ⟨0, fun n _ => ?_⟩⟩
      simp only [← Nat.add_assoc]
      unfold runFn
      simp only [fn_Input_Slice_skip_integer]
      dsimp only at t
      rs_simp [hd, t, R.ok, hg, Bool.false_eq_true]
  · have hd : decide ((BitVec.ofNat 64 16).toNat ≤ (BitVec.ofNat 64 s.length).toNat) = false := by
      unfold Short at hs
      simp
      omega
    rw [if_neg h]
    obtain ⟨N, t⟩ := tends_fallback (cfg := cfg) (debug := debug) (P := sliceProg cfg) (st := s) hs
    cases hr : skipUlebFallback s with
    | ok s' =>
      rw [hr] at t
      have hs' : Short s' := by
        unfold skipUlebFallback at hr
        dsimp only at hr
        split at hr <;> cases hr
        exact hdrop _
      refine ⟨hs', .shift (N + 40) ⟨0, fun n _ => ?_⟩⟩
      simp only [← Nat.add_assoc]
      unfold runFn
      simp only [fn_Input_Slice_skip_integer]
      dsimp only at t
      rs_simp [hd, t, R.ok, hf, Bool.false_eq_true]
      rfl
    | error e =>
      rw [hr] at t
      have he : e = .panic := by
        unfold skipUlebFallback at hr
        dsimp only at hr
        split at hr <;> cases hr
        rfl
      subst he
      refine ⟨s, .shift (N + 40) ⟨0, fun n _ => ?_⟩⟩
      simp only [← Nat.add_assoc]
      unfold runFn
      simp only [fn_Input_Slice_skip_integer]
      dsimp only at t
      rs_simp [hd, t, R.ok, hf, Bool.false_eq_true]

def sliceBinary : Method cfg debug (sliceProg cfg) sliceHost Short (n! "read_binary") (sliceInput cfg).readBinary (.cow false) where
  fn := fn_Input_Slice_read_binary
  has := by cases h : cfg.sse2 <;> simp only [sliceProg, h] <;> rfl
  gives := gives_slice_binary

def sliceSkipBinary : Method cfg debug (sliceProg cfg) sliceHost Short (n! "skip_binary") (sliceInput cfg).skipBinary (fun _ => .unit) where
  fn := fn_Input_Slice_skip_binary
  has := by cases h : cfg.sse2 <;> simp only [sliceProg, h] <;> rfl
  gives := gives_slice_skip_binary

def sliceSkipInteger : Method cfg debug (sliceProg cfg) sliceHost Short (n! "skip_integer") (sliceInput cfg).skipInteger (fun _ => .unit) where
  fn := if cfg.sse2 then fn_Input_Slice_skip_integer else fn_Input_skip_integer
  has := by cases h : cfg.sse2 <;> simp only [sliceProg, h] <;> rfl
  gives := by
    intro s hs
    cases h : cfg.sse2 with
    | true => exact gives_slice_skip_integer h s hs
    | false =>
      have g := gives_default_skip_integer (debug := debug) (runtime_slice cfg.sse2) (provided_slice cfg.sse2) (sliceByte (cfg := cfg)) s hs
      have he : (sliceInput cfg).skipInteger = ((sliceInput cfg).uleb cfg >>= fun _ => pure ()) := by
        show Slice.skipInteger cfg = _
        unfold Slice.skipInteger
        rw [h]
        rfl
      rw [he]
      exact g

/-- The slice is a device. -/
def sliceDevice : Device cfg debug (sliceProg cfg) sliceHost Short (sliceInput cfg) false where
  runtime := runtime_slice _
  provided := provided_slice _
  readByte := sliceByte
  readDouble := sliceDouble
  readBinary := sliceBinary
  skipInteger := sliceSkipInteger
  skipBinary := sliceSkipBinary

/-! ## The reader -/

/-- The program of the reader. -/
abbrev readerProg (cfg : Cfg) : Prog := inputProg cfg.sse2 (n! "R")

/-- Nothing is required of a reader. -/
def AnyEvents (_ : List REvent) : Prop := True

theorem no_read_exact (b : Bool) : assoc (inputProg b (n! "R")).methods (n! "read_exact") = none := by
  cases b <;> rfl

/-- `read_exact` succeeds or returns an error of the reader. -/
theorem readExact_cases (k : Nat) (s : List REvent) :
    (∃ bs s', readExact k s = .ok (bs, s') ∧ bs.length = k) ∨ ∃ e, readExact k s = .error (.err (.io e)) := by
  cases h : readExact k s with
  | ok p => exact .inl ⟨p.1, p.2, rfl, (readExact_ok _ _ _ _ h).1⟩
  | error f =>
    obtain ⟨e, rfl⟩ := readExact_error _ _ _ h
    exact .inr ⟨e, rfl⟩

theorem gives_reader_byte (s : List REvent) (_ : AnyEvents s) :
    Gives AnyEvents (fun n => runFn (eval cfg debug (readerProg cfg) readerHost n) fn_Input_R_read_byte [.self] s) (Reader.readByte s) (fun a => (.u8 a, [.self])) := by
  have R := runtime_reader cfg.sse2
  have hh : ∀ k s, readerHost.readExact k s = readExact k s := fun _ _ => rfl
  unfold runFn Reader.readByte
  simp only [fn_Input_R_read_byte]
  rcases readExact_cases 1 s with ⟨bs, s', h, hlen⟩ | ⟨e, h⟩
  · obtain ⟨b, rfl⟩ : ∃ b, bs = [b] := by
      match bs, hlen with
      | [b], _ => exact ⟨b, rfl⟩
    rw [h]
    refine Gives.ofOk trivial fun n => ?_
    rs_simp [no_read_exact, hh, List.length_replicate, h, R.ok]
  · rw [h]
    apply Gives.ofErr
    apply Exists.intro; apply Exists.intro; intro n
    rs_simp [no_read_exact, hh, List.length_replicate, h]
    rfl

theorem gives_reader_double (s : List REvent) (_ : AnyEvents s) :
    Gives AnyEvents (fun n => runFn (eval cfg debug (readerProg cfg) readerHost n) fn_Input_R_read_double [.self] s) (Reader.readDouble s) (fun a => (.f64 a, [.self])) := by
  have R := runtime_reader cfg.sse2
  have hh : ∀ k s, readerHost.readExact k s = readExact k s := fun _ _ => rfl
  unfold runFn Reader.readDouble
  simp only [fn_Input_R_read_double]
  rcases readExact_cases 8 s with ⟨bs, s', h, hlen⟩ | ⟨e, h⟩
  · rw [h]
    refine Gives.ofOk trivial fun n => ?_
    rs_simp [no_read_exact, hh, List.length_replicate, h, R.ok, stdFn_le _ hlen]
  · rw [h]
    apply Gives.ofErr
    apply Exists.intro; apply Exists.intro; intro n
    rs_simp [no_read_exact, hh, List.length_replicate, h]
    rfl

def readerByte : Method cfg debug (readerProg cfg) readerHost AnyEvents (n! "read_byte") (readerInput cfg).readByte .u8 where
  fn := fn_Input_R_read_byte
  has := by cases h : cfg.sse2 <;> simp only [readerProg, h] <;> rfl
  gives := gives_reader_byte

def readerDouble : Method cfg debug (readerProg cfg) readerHost AnyEvents (n! "read_double") (readerInput cfg).readDouble .f64 where
  fn := fn_Input_R_read_double
  has := by cases h : cfg.sse2 <;> simp only [readerProg, h] <;> rfl
  gives := gives_reader_double

theorem gives_reader_binary (s : List REvent) (hs : AnyEvents s) :
    Gives AnyEvents (fun n => runFn (eval cfg debug (readerProg cfg) readerHost n) fn_Input_R_read_binary [.self] s) (Reader.readBinary cfg s)
      (fun a => (.cow true a, [.self])) := by
  have R := runtime_reader cfg.sse2
  have W := provided_reader cfg.sse2
  have hh : ∀ k s, readerHost.readExact k s = readExact k s := fun _ _ => rfl
  have hm : Reader.readBinary cfg = ((readerInput cfg).uleb cfg >>= fun len => if MAX_BINARY_LEN < len.toNat then Rd.throw (.invalidBinaryLen len.toNat)
    else readExact len.toNat) := rfl
  rw [hm]
  refine Goes.fn rfl ?_
  simp only [fn_Input_R_read_binary]
  rs_call (gives_read_len (debug := debug) R readerByte s hs) [W.read_len]
  intro a s' N _ hi h
  have hk : (BitVec.ofNat 64 (16 * 1024 * 1024)).toNat = MAX_BINARY_LEN := rfl
  by_cases h1 : MAX_BINARY_LEN < a.toNat
  · rw [if_pos h1]
    have hd : decide ((BitVec.ofNat 64 (16 * 1024 * 1024)).toNat < a.toNat) = true := by rw [hk]; simpa using h1
    rs_simp [W.read_len, h, max_binary, hd, R.err]
    exact .err
  · rw [if_neg h1]
    have hd : decide ((BitVec.ofNat 64 (16 * 1024 * 1024)).toNat < a.toNat) = false := by rw [hk]; simpa using h1
    rcases readExact_cases a.toNat s' with ⟨bs, s'', h', hlen⟩ | ⟨e, h'⟩
    · rs_simp [W.read_len, h, max_binary, hd, R.ok, no_read_exact, hh, List.length_replicate, h']
      exact .val trivial (by simp [rs, Done])
    · rs_simp [W.read_len, h, max_binary, hd, R.ok, no_read_exact, hh, List.length_replicate, h']
      exact .err

def readerBinary : Method cfg debug (readerProg cfg) readerHost AnyEvents (n! "read_binary") (readerInput cfg).readBinary (.cow true) where
  fn := fn_Input_R_read_binary
  has := by cases h : cfg.sse2 <;> simp only [readerProg, h] <;> rfl
  gives := gives_reader_binary

/-- The reader is a device. -/
def readerDevice : Device cfg debug (readerProg cfg) readerHost AnyEvents (readerInput cfg) true where
  runtime := runtime_reader _
  provided := provided_reader _
  readByte := readerByte
  readDouble := readerDouble
  readBinary := readerBinary
  skipInteger := {
    fn := fn_Input_skip_integer
    has := by cases h : cfg.sse2 <;> simp only [readerProg, h] <;> rfl
    gives := gives_default_skip_integer (runtime_reader _) (provided_reader _) readerByte }
  skipBinary := {
    fn := fn_Input_skip_binary
    has := by cases h : cfg.sse2 <;> simp only [readerProg, h] <;> rfl
    gives := gives_default_skip_binary (runtime_reader _) readerBinary }

end
end CT.Rs
