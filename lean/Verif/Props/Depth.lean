import Verif.Props.Wire
/-! # C21: the nesting of calls while reading a recursive type -/
namespace CT.Props
open CT Spec

/-- `struct S { 1: optional Box<S> next }` -/
def chainEnv : List Def := [.struct "S" [⟨1#16, false, "next", .box (.named 0)⟩]]

/-- `d + 1` structs, one in the other. -/
def chainBytes : Nat → Bytes
  | 0 => [0#8]
  | d + 1 => 0x1C#8 :: (chainBytes d ++ [0#8])

def chainVal : Nat → Val
  | 0 => .struct [.none]
  | d + 1 => .struct [.some (.box (chainVal d))]

theorem chainBytes_length (d : Nat) : (chainBytes d).length = 2 * d + 1 := by
  induction d with
  | zero => rfl
  | succ d ih => simp only [chainBytes, List.length_cons, List.length_append, List.length_nil]; omega

theorem chain_header (cfg : Cfg) (s : Bytes) : (sliceInput cfg).readFieldHeader cfg 0#16 (0x1C#8 :: s) = .ok ((12#8, 1#16), s) := by
  rw [readHeader_short cfg 0#16 0x1C#8 s (by decide)]
  cases cfg.overflowChecks <;> rfl

theorem chain_stop (cfg : Cfg) (last : BitVec 16) (s : Bytes) : (sliceInput cfg).readFieldHeader cfg last (0#8 :: s) = .ok ((0#8, last), s) := rfl

theorem chain_loop (cfg : Cfg) (g : Nat → Val → Rd Bytes Val) (fuel : Nat) (s : Bytes) :
    structLoop cfg (sliceInput cfg) chainEnv g "S" [⟨1#16, false, "next", .box (.named 0)⟩] (fuel + 1) 0#16 [false] [.none] (0x1C#8 :: s) =
      (g 0 (.struct [.none]) >>= fun v => structLoop cfg (sliceInput cfg) chainEnv g "S" [⟨1#16, false, "next", .box (.named 0)⟩] fuel 1#16 [false] [.some (.box v)]) s := by
  rw [structLoop, Rd.bind_ok (chain_header cfg s)]
  have key : fillField cfg (sliceInput cfg) chainEnv g (.option (.box (.named 0))) .none 12#8 s = (g 0 (.struct [.none]) >>= fun v => pure (.some (.box v))) s := by
    cases h : g 0 (.struct [.none]) s with
    | error e =>
      rw [Rd.bind_err h]
      show ((g 0 (.struct [.none]) >>= fun v => pure (Val.box v)) >>= fun v => pure (Val.some v)) s = _
      exact Rd.bind_err (Rd.bind_err h)
    | ok r =>
      obtain ⟨v, s'⟩ := r
      rw [Rd.bind_ok h]
      show ((g 0 (.struct [.none]) >>= fun v => pure (Val.box v)) >>= fun v => pure (Val.some v)) s = _
      rw [Rd.bind_ok (show (g 0 (.struct [.none]) >>= fun v => pure (Val.box v)) s = .ok (.box v, s') from by rw [Rd.bind_ok h]; rfl)]
  show (fillField cfg (sliceInput cfg) chainEnv g (.option (.box (.named 0))) .none 12#8 >>= fun v =>
    structLoop cfg (sliceInput cfg) chainEnv g "S" [⟨1#16, false, "next", .box (.named 0)⟩] fuel 1#16 [false] [v]) s = _
  cases h : g 0 (.struct [.none]) s with
  | error e =>
    rw [Rd.bind_err h] at key
    rw [Rd.bind_err key, Rd.bind_err h]
  | ok r =>
    obtain ⟨v, s'⟩ := r
    rw [Rd.bind_ok h] at key
    rw [Rd.bind_ok key, Rd.bind_ok h]

theorem chain_named (cfg : Cfg) (n : Nat) (s : Bytes) : fillNamed cfg (sliceInput cfg) chainEnv (n + 1) 0 (.struct [.none]) s =
    structLoop cfg (sliceInput cfg) chainEnv (fillNamed cfg (sliceInput cfg) chainEnv n) "S" [⟨1#16, false, "next", .box (.named 0)⟩] (s.length + 1) 0#16 [false]
      [.none] s := by
  rw [fillNamed]
  all_goals rfl

theorem chain_diverge (cfg : Cfg) : ∀ (d n : Nat) (suf : Bytes), n ≤ d →
    fillNamed cfg (sliceInput cfg) chainEnv n 0 (.struct [.none]) (chainBytes d ++ suf) = .error .diverge
  | d, 0, suf, _ => by rw [fillNamed]; rfl
  | 0, n + 1, suf, h => by omega
  | d + 1, n + 1, suf, h => by
    rw [chain_named, show chainBytes (d + 1) ++ suf = 0x1C#8 :: (chainBytes d ++ (0#8 :: suf)) from by simp [chainBytes], chain_loop]
    exact Rd.bind_err (chain_diverge cfg d n _ (by omega))

theorem chain_reads (cfg : Cfg) : ∀ (d n : Nat) (suf : Bytes), d < n →
    fillNamed cfg (sliceInput cfg) chainEnv n 0 (.struct [.none]) (chainBytes d ++ suf) = .ok (chainVal d, suf)
  | _, 0, _, h => by omega
  | 0, n + 1, suf, _ => by rw [chain_named]; rfl
  | d + 1, n + 1, suf, h => by
    rw [chain_named, show chainBytes (d + 1) ++ suf = 0x1C#8 :: (chainBytes d ++ (0#8 :: suf)) from by simp [chainBytes], chain_loop,
      Rd.bind_ok (chain_reads cfg d n _ (by omega))]
    rfl

/-- C21 for reading: the definitions nested while reading a value are at most as many as the bytes of the input and one, whatever the schema and the input; and for a
recursive type no limit independent of the input exists: for every depth `d` there is a message of `2 * d + 1` bytes, accepted in every build, whose reading nests more
than `d` calls. (`fillNamed n` is `fill_thrift` of a definition, cut off with the outcome `diverge` where more than `n` calls would be nested.) -/
theorem C21_reading (cfg : Cfg) :
    (∀ (env : List Def) (t : Ty) (v : Val) (s : Bytes) n, s.length + 1 ≤ n →
      fillTy cfg (sliceInput cfg) env (fillNamed cfg (sliceInput cfg) env n) t v s ≠ .error .diverge) ∧
    ∀ d : Nat, ∃ (p : Bytes) (v : Val), p.length = 2 * d + 1 ∧ readThrift cfg (sliceInput cfg) chainEnv (.named 0) p = .ok (v, []) ∧
      ∀ n, n ≤ d → fillTy cfg (sliceInput cfg) chainEnv (fillNamed cfg (sliceInput cfg) chainEnv n) (.named 0) (dflt chainEnv (.named 0)) p = .error .diverge := by
  refine ⟨fun env t v s n hn h => ?_, fun d => ⟨chainBytes d, chainVal d, chainBytes_length d, ?_, fun n hn => ?_⟩⟩
  · rw [(C17_bound_irrelevant_slice cfg s n).2 hn] at h
    refine op_slice_notDiverge cfg (.fill env t v) s ?_
    unfold Op.run
    exact Rd.bind_err h
  · have := chain_reads cfg d ((chainBytes d).length + 1) [] (by rw [chainBytes_length]; omega)
    rw [List.append_nil] at this
    exact this
  · have := chain_diverge cfg d n [] hn
    rw [List.append_nil] at this
    exact this

/-- The message of C21 for `d = 2`. -/
example : chainBytes 2 = [0x1C#8, 0x1C#8, 0#8, 0#8, 0#8] ∧
    readThrift ⟨true, true, fun _ => true⟩ (sliceInput ⟨true, true, fun _ => true⟩) chainEnv (.named 0) (chainBytes 2) =
      .ok (.struct [.some (.box (.struct [.some (.box (.struct [.none]))]))], []) := ⟨rfl, rfl⟩

end CT.Props
