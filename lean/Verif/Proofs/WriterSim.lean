import Verif.Proofs.DeviceSim
/-!
# The functions that write
-/
namespace CT.Rs
open CT CT.Spec

section
variable {τ α β : Type}

/-- What an expression tends to, given what the model does to the output. -/
def WGoes (run : Nat → Out τ) (r : Except Fail α × τ) (good : α → τ → Out τ → Prop) : Prop :=
  match r with
  | (.ok a, t') => ∃ o, good a t' o ∧ Tends run o
  | (.error (.err e), t') => ∃ fr, Tends run (.ret (.err (.thrift e)) fr t')
  | (.error f, t') => Tends run (.fail f t')

theorem WGoes.shift {run : Nat → Out τ} {r : Except Fail α × τ} {good : α → τ → Out τ → Prop} (k : Nat)
    (h : WGoes (fun n => run (n + k)) r good) : WGoes run r good := by
  unfold WGoes at h ⊢
  split
  · exact let ⟨o, g, t⟩ := h; ⟨o, g, t.shift k⟩
  · exact let ⟨fr, t⟩ := h; ⟨fr, t.shift k⟩
  · rename_i f _ _ hd
    cases f <;> simp_all <;> exact h.shift k

theorem WGoes.later {run : Nat → Out τ} {r : Except Fail α × τ} {good : α → τ → Out τ → Prop} (k : Nat)
    (h : WGoes run r good) : WGoes (fun n => run (n + k)) r good := by
  unfold WGoes at h ⊢
  split
  · exact let ⟨o, g, t⟩ := h; ⟨o, g, t.later k⟩
  · exact let ⟨fr, t⟩ := h; ⟨fr, t.later k⟩
  · rename_i f _ _ hd
    cases f <;> simp_all <;> exact h.later k

theorem WGoes.later2 {run : Nat → Out τ} {r : Except Fail α × τ} {good : α → τ → Out τ → Prop} (j k : Nat)
    (h : WGoes run r good) : WGoes (fun n => run (n + j + k)) r good := by
  simpa only [Nat.add_assoc] using h.later (j + k)

theorem WGoes.val {good : α → τ → Out τ → Prop} {a : α} {t' : τ} {o : Out τ} (h : good a t' o) : WGoes (fun _ => o) (.ok a, t') good := ⟨o, h, .const o⟩

theorem WGoes.err {good : α → τ → Out τ → Prop} {e : ThriftError} {fr : Frame} {t' : τ} :
    WGoes (fun _ => .ret (.err (.thrift e)) fr t') (.error (.err e), t') good := ⟨fr, .const _⟩

/-- One expression after the other. -/
theorem WGoes.bind {run : Nat → Out τ} {m : Wr τ α} {f : α → Wr τ β} {s : τ} {good : α → τ → Out τ → Prop} {good' : β → τ → Out τ → Prop}
    (k : Nat → V → Frame → τ → Out τ) (h : WGoes run (m s) good)
    (h' : ∀ a s' o, good a s' o → WGoes (fun n => o.bind (k n)) (f a s') good') :
    WGoes (fun n => (run n).bind (k n)) ((m >>= f) s) good' := by
  show WGoes _ (Wr.bind m f s) good'
  unfold Wr.bind
  rcases hm : m s with ⟨(e | a), s'⟩
  · rw [hm] at h
    simp only
    cases e with
    | err e => exact let ⟨fr, t⟩ := h; ⟨fr, t.then (fun n o => o.bind (k n)) (.const _)⟩
    | diverge => exact Tends.then (fun n o => o.bind (k n)) h (.const _)
    | panic => exact Tends.then (fun n o => o.bind (k n)) h (.const _)
    | ub => exact Tends.then (fun n o => o.bind (k n)) h (.const _)
    | stuck => exact Tends.then (fun n o => o.bind (k n)) h (.const _)
  · rw [hm] at h
    obtain ⟨o, g, t⟩ := h
    have := h' a s' o g
    simp only
    unfold WGoes at this ⊢
    split <;> rename_i heq <;> rw [heq] at this
    · exact let ⟨q, g, t'⟩ := this; ⟨q, g, t.then (fun n o => o.bind (k n)) t'⟩
    · exact let ⟨fr, t'⟩ := this; ⟨fr, t.then (fun n o => o.bind (k n)) t'⟩
    · rename_i f' _ _ hd
      cases f' <;> simp_all <;> exact t.then (fun n o => o.bind (k n)) this

/-- An expression that makes a call first. -/
theorem WUse {run : Nat → FnOut τ} {m : Wr τ α} {f : α → Wr τ β} {s : τ} {ok : α → V × List V} {good : β → τ → Out τ → Prop} (h : WritesAs ok run (m s))
    (out : Nat → Out τ)
    (h1 : ∀ a s' N, (∀ n, N ≤ n → run n = .ret (.ok (ok a).1) (ok a).2 s') → WGoes (fun n => out (n + N + 40)) (f a s') good)
    (h2 : ∀ e args s' N, (∀ n, N ≤ n → run n = .ret (.err (.thrift e)) args s') → ∃ fr, ∀ n, out (n + N + 40) = .ret (.err (.thrift e)) fr s')
    (h3 : ∀ e s' N, (∀ n, N ≤ n → run n = .fail e s') → ∀ n, out (n + N + 40) = .fail e s') : WGoes out ((m >>= f) s) good := by
  show WGoes _ (Wr.bind m f s) good
  unfold Wr.bind
  have hfail : ∀ e s', Tends run (.fail e s') → Tends out (.fail e s') := by
    intro e s' ⟨N, t⟩
    exact .shift (N + 40) ⟨0, fun n _ => h3 e s' N t n⟩
  rcases hm : m s with ⟨(e | a), s'⟩
  · rw [hm] at h
    simp only
    cases e with
    | err e =>
      obtain ⟨args, N, t⟩ := h
      obtain ⟨fr, q⟩ := h2 e args s' N t
      exact ⟨fr, .shift (N + 40) ⟨0, fun n _ => q n⟩⟩
    | diverge => exact hfail _ _ h
    | panic => exact hfail _ _ h
    | ub => exact hfail _ _ h
    | stuck => exact hfail _ _ h
  · rw [hm] at h
    obtain ⟨N, t⟩ := h
    exact .shift (N + 40) (h1 a s' N t)

/-- A function that ends with a call. -/
theorem WTail {run : Nat → FnOut τ} {r : Except Fail α × τ} {ok ok' : α → V × List V} (h : WritesAs ok run r) (out : Nat → FnOut τ)
    (h1 : ∀ a s' N, (∀ n, N ≤ n → run n = .ret (.ok (ok a).1) (ok a).2 s') → ∀ n, out (n + N + 40) = .ret (.ok (ok' a).1) (ok' a).2 s')
    (h2 : ∀ e args s' N, (∀ n, N ≤ n → run n = .ret (.err (.thrift e)) args s') → ∃ args, ∀ n, out (n + N + 40) = .ret (.err (.thrift e)) args s')
    (h3 : ∀ e s' N, (∀ n, N ≤ n → run n = .fail e s') → ∀ n, out (n + N + 40) = .fail e s') : WritesAs ok' out r := by
  have hfail : ∀ e s', Tends run (.fail e s') → Tends out (.fail e s') := by
    intro e s' ⟨N, t⟩
    exact .shift (N + 40) ⟨0, fun n _ => h3 e s' N t n⟩
  rcases hm : r with ⟨(e | a), s'⟩
  · rw [hm] at h
    cases e with
    | err e =>
      obtain ⟨args, N, t⟩ := h
      obtain ⟨args', q⟩ := h2 e args s' N t
      exact ⟨args', .shift (N + 40) ⟨0, fun n _ => q n⟩⟩
    | diverge => exact hfail _ _ h
    | panic => exact hfail _ _ h
    | ub => exact hfail _ _ h
    | stuck => exact hfail _ _ h
  · rw [hm] at h
    obtain ⟨N, t⟩ := h
    exact .shift (N + 40) ⟨0, fun n _ => h1 a s' N t n⟩

/-- A function that begins with an expression and ends with a call. -/
theorem WThen {run : Nat → Out τ} {m : Wr τ α} {f : α → Wr τ β} {s : τ} {good : α → τ → Out τ → Prop} {ok : β → V × List V} (h : WGoes run (m s) good)
    (out : Nat → FnOut τ)
    (h1 : ∀ a s' o N, good a s' o → (∀ n, N ≤ n → run n = o) → WritesAs ok (fun n => out (n + (N + 40))) (f a s'))
    (h2 : ∀ e fr s' N, (∀ n, N ≤ n → run n = .ret (.err (.thrift e)) fr s') → ∃ args, ∀ n, out (n + N + 40) = .ret (.err (.thrift e)) args s')
    (h3 : ∀ e s' N, (∀ n, N ≤ n → run n = .fail e s') → ∀ n, out (n + N + 40) = .fail e s') : WritesAs ok out ((m >>= f) s) := by
  show WritesAs _ _ (Wr.bind m f s)
  unfold Wr.bind
  have hfail : ∀ e s', Tends run (.fail e s') → Tends out (.fail e s') := by
    intro e s' ⟨N, t⟩
    exact .shift (N + 40) ⟨0, fun n _ => h3 e s' N t n⟩
  rcases hm : m s with ⟨(e | a), s'⟩
  · rw [hm] at h
    simp only
    cases e with
    | err e =>
      obtain ⟨fr, N, t⟩ := h
      obtain ⟨args', q⟩ := h2 e fr s' N t
      exact ⟨args', .shift (N + 40) ⟨0, fun n _ => q n⟩⟩
    | diverge => exact hfail _ _ h
    | panic => exact hfail _ _ h
    | ub => exact hfail _ _ h
    | stuck => exact hfail _ _ h
  · rw [hm] at h
    obtain ⟨o, g, N, t⟩ := h
    have := h1 a s' o N g t
    simp only
    unfold WritesAs at this ⊢
    split <;> rename_i heq <;> rw [heq] at this
    · exact this.shift _
    · exact let ⟨args, q⟩ := this; ⟨args, q.shift _⟩
    · rename_i f' _ _ hd
      cases f' <;> simp_all <;> exact this.shift _

/-- A function, by its body. -/
theorem WGoes.fn {ev : Nat → Expr → Frame → τ → Out τ} {r : Except Fail α × τ} {ok : α → V × List V} {f : Fn} {vs : List V} {s : τ} (hf : f.result = true)
    (h : WGoes (fun n => ev n f.body [bound f.params vs] s) r (fun a s' o => Done f.result f.ret (ok a).1 (ok a).2 s' o)) :
    WritesAs ok (fun n => runFn (ev n) f vs s) r := by
  have hd : ∀ v args (s' : τ) (o : Out τ), Done f.result f.ret v args s' o → finished f o = .ret (.ok v) args s' := by
    intro v args s' o h
    cases o with
    | val w fr s'' => obtain ⟨h1, h2, h3⟩ := h; subst h3; rw [finished_val, h1, h2]
    | ret w fr s'' => obtain ⟨h1, h2, h3⟩ := h; subst h3; rw [finished_ret, h1, h2]
    | brk _ _ => exact h.elim
    | fail _ _ => exact h.elim
  unfold runFn
  rcases r with ⟨(e | a), s'⟩
  · have hfail : Tends (fun n => ev n f.body [bound f.params vs] s) (.fail e s') → Tends (fun n => finished f (ev n f.body [bound f.params vs] s)) (.fail e s') :=
      fun t => t.map (finished f)
    cases e with
    | err e =>
      obtain ⟨fr, t⟩ := h
      refine ⟨(fr.headD []).map Prod.snd, ?_⟩
      have := t.map (finished f)
      rwa [finished_ret, hf, asReturn_err] at this
    | diverge => exact hfail h
    | panic => exact hfail h
    | ub => exact hfail h
    | stuck => exact hfail h
  · obtain ⟨o, g, t⟩ := h
    have := t.map (finished f)
    rw [hd _ _ _ _ g] at this
    exact this
end

/-- A call that writes comes first. -/
macro "ws_call" t:term:max "[" ls:Lean.Parser.Tactic.simpLemma,* "]" : tactic => `(tactic| (
  refine WUse $t _ ?_ ?_ ?_
  rotate_left
  · intro e args s' N h
    apply Exists.intro; intro n
    simp (disch := omega) only [rs, reduceIte, Nat.reduceEqDiff, h, $ls,*]
    rfl
  · intro e s' N h n
    simp (disch := omega) only [rs, reduceIte, Nat.reduceEqDiff, h, $ls,*]))

/-- The function ends with a call that writes. -/
macro "ws_tail" t:term:max "[" ls:Lean.Parser.Tactic.simpLemma,* "]" : tactic => `(tactic| (
  unfold runFn
  refine WTail $t _ ?_ ?_ ?_
  · intro a s' N h n
    simp (disch := omega) only [rs, reduceIte, Nat.reduceEqDiff, h, $ls,*]
    try rfl
  · intro e args s' N h
    apply Exists.intro; intro n
    simp (disch := omega) only [rs, reduceIte, Nat.reduceEqDiff, h, $ls,*]
    rfl
  · intro e s' N h n
    simp (disch := omega) only [rs, reduceIte, Nat.reduceEqDiff, h, $ls,*]))

@[rs ↓] theorem eval_method_deref {σ : Type} (cfg : Cfg) (debug : Bool) (P : Prog) (H : Host σ) (n : Nat) (e : Expr) (f : Name) (a : Expr) (fr : Frame) (s : σ) :
    eval cfg debug P H (n + 1) (.method e f [.deref a]) fr s = (eval cfg debug P H n e fr s).bind fun v fr s =>
      evArgs (eval cfg debug P H n) [.deref a] (fun vs fr s => evMethod P H (eval cfg debug P H n) e f [.deref a] v vs fr s) fr s := (rfl)

attribute [local irreducible] eval

section
variable {τ : Type} (cfg : Cfg) (debug : Bool) (S : Sink τ)

@[rs] theorem writeDone_ok (fr : Frame) (s : τ) : writeDone fr (.ok (), s) = .val (.ok .unit) fr s := (rfl)
@[rs] theorem writeDone_io (fr : Frame) (k : ErrorKind) (s : τ) : writeDone fr (.error (.err (.io k)), s) = .val (.err (.io k)) fr s := (rfl)
theorem writeDone_fail (fr : Frame) (f : Fail) (s : τ) (h : ∀ e, f ≠ .err e) : writeDone fr (.error f, s) = .fail f s := by
  cases f with
  | err e => exact (h e rfl).elim
  | _ => rfl

/-- The program of the writers. -/
abbrev writerProg (cfg : Cfg) : Prog := progOf cfg.sse2 (ulebItems ++ protocolItems) (n! "CompactThriftOutput") (n! "W")

theorem wp_encode : assoc (writerProg cfg).fns (n! "encode_uleb") = some fn_encode_uleb := by cases h : cfg.sse2 <;> simp only [writerProg, h] <;> rfl
theorem wp_zig16 : assoc (writerProg cfg).fns (n! "zigzag_encode16") = some fn_zigzag_encode16 := by cases h : cfg.sse2 <;> simp only [writerProg, h] <;> rfl
theorem wp_zig32 : assoc (writerProg cfg).fns (n! "zigzag_encode32") = some fn_zigzag_encode32 := by cases h : cfg.sse2 <;> simp only [writerProg, h] <;> rfl
theorem wp_zig64 : assoc (writerProg cfg).fns (n! "zigzag_encode64") = some fn_zigzag_encode64 := by cases h : cfg.sse2 <;> simp only [writerProg, h] <;> rfl
theorem wp_ok : assoc (writerProg cfg).fns (n! "Ok") = none := by cases h : cfg.sse2 <;> simp only [writerProg, h] <;> rfl
theorem wp_err : assoc (writerProg cfg).fns (n! "Err") = none := by cases h : cfg.sse2 <;> simp only [writerProg, h] <;> rfl
theorem wp_write_all : assoc (writerProg cfg).methods (n! "write_all") = none := by cases h : cfg.sse2 <;> simp only [writerProg, h] <;> rfl
theorem wp_byte : assoc (writerProg cfg).methods (n! "write_byte") = some fn_Output_W_write_byte := by cases h : cfg.sse2 <;> simp only [writerProg, h] <;> rfl
theorem wp_len : assoc (writerProg cfg).methods (n! "write_len") = some fn_Output_W_write_len := by cases h : cfg.sse2 <;> simp only [writerProg, h] <;> rfl
theorem wp_i16 : assoc (writerProg cfg).methods (n! "write_i16") = some fn_Output_W_write_i16 := by cases h : cfg.sse2 <;> simp only [writerProg, h] <;> rfl
theorem wp_binary : assoc (writerProg cfg).methods (n! "write_binary") = some fn_Output_W_write_binary := by cases h : cfg.sse2 <;> simp only [writerProg, h] <;> rfl
theorem wp_max : assoc (writerProg cfg).consts (n! "MAX_BINARY_LEN") = some (.int .usize, .bin .mul (.bin .mul (.lit 16 none) (.lit 1024 none)) (.lit 1024 none)) := rfl

variable {cfg debug S}

theorem sink_all (bs : Bytes) (t : τ) : (sinkHost S).writeAll bs t = S.writeAll bs t := rfl

/-- The outcome of `write_all`. -/
theorem write_cases (hS : IoSink S) (bs : Bytes) (t : τ) :
    (∃ t', S.writeAll bs t = (.ok (), t')) ∨ (∃ k t', S.writeAll bs t = (.error (.err (.io k)), t')) ∨
      ∃ f t', S.writeAll bs t = (.error f, t') ∧ ∀ e, f ≠ .err e := by
  rcases h : S.writeAll bs t with ⟨(f | u), t'⟩
  · by_cases he : ∃ e, f = .err e
    · obtain ⟨e, rfl⟩ := he
      obtain ⟨k, rfl⟩ := hS bs t e (by rw [h])
      exact .inr (.inl ⟨k, t', rfl⟩)
    · exact .inr (.inr ⟨f, t', rfl, fun e h => he ⟨e, h⟩⟩)
  · exact .inl ⟨t', rfl⟩

theorem writesOk {α : Type} {ok : α → V × List V} {run : Nat → FnOut τ} {a : α} {t' : τ} (h : ∀ n, run (n + 40) = .ret (.ok (ok a).1) (ok a).2 t') :
    WritesAs ok run (.ok a, t') := .shift 40 ⟨0, fun n _ => h n⟩
theorem writesErr {α : Type} {ok : α → V × List V} {run : Nat → FnOut τ} {e : ThriftError} {t' : τ} (h : ∃ args, ∀ n, run (n + 40) = .ret (.err (.thrift e)) args t') :
    WritesAs ok run (.error (.err e), t') := let ⟨args, h⟩ := h; ⟨args, .shift 40 ⟨0, fun n _ => h n⟩⟩
theorem writesFail {α : Type} {ok : α → V × List V} {run : Nat → FnOut τ} {f : Fail} {t' : τ} (hf : ∀ e, f ≠ .err e) (h : ∀ n, run (n + 40) = .fail f t') :
    WritesAs ok run (.error f, t') := by
  cases f with
  | err e => exact (hf e rfl).elim
  | panic => exact .shift 40 ⟨0, fun n _ => h n⟩
  | ub => exact .shift 40 ⟨0, fun n _ => h n⟩
  | diverge => exact .shift 40 ⟨0, fun n _ => h n⟩
  | stuck => exact .shift 40 ⟨0, fun n _ => h n⟩

/-- protocol.rs:399-402 -/
theorem gives_write_byte (hS : IoSink S) (b : Byte) (t : τ) :
    WritesAs (fun _ => (.unit, [.self, .u8 b])) (fun n => runFn (eval cfg debug (writerProg cfg) (sinkHost S) n) fn_Output_W_write_byte [.self, .u8 b] t) (S.writeByte b t) := by
  unfold runFn Sink.writeByte
  rcases write_cases hS [b] t with ⟨t', h⟩ | ⟨k, t', h⟩ | ⟨f, t', h, hf⟩
  · rw [h]
    refine writesOk fun n => ?_
    rs_simp [fn_Output_W_write_byte, Bool.false_eq_true, wp_write_all, sink_all, h, wp_ok]
    rfl
  · rw [h]
    refine writesErr (Exists.intro ?_ fun n => ?_)
    rotate_left
    rs_simp [fn_Output_W_write_byte, Bool.false_eq_true, wp_write_all, sink_all, h, wp_ok]
    rfl
  · rw [h]
    refine writesFail hf fun n => ?_
    rs_simp [fn_Output_W_write_byte, Bool.false_eq_true, wp_write_all, sink_all, h, wp_ok, writeDone_fail _ _ _ hf]

/-- What `value` is at the end of `encode_uleb`. -/
def lastUleb (value : BitVec 64) : BitVec 64 :=
  if 0x7F < value.toNat then lastUleb (value >>> 7) else value
termination_by value.toNat
decreasing_by
  simp only [BitVec.toNat_ushiftRight, Nat.shiftRight_eq_div_pow]
  omega

/-- The bytes before the last one. -/
def headUleb (value : BitVec 64) : Bytes :=
  if 0x7F < value.toNat then (value.setWidth 8 ||| 0x80#8) :: headUleb (value >>> 7) else []
termination_by value.toNat
decreasing_by
  simp only [BitVec.toNat_ushiftRight, Nat.shiftRight_eq_div_pow]
  omega

theorem encodeUleb_split (v : BitVec 64) : encodeUleb v = headUleb v ++ [(lastUleb v).setWidth 8] := by
  induction v using encodeUleb.induct with
  | case1 v h ih => rw [encodeUleb, headUleb, lastUleb, if_pos h, if_pos h, if_pos h, ih]; rfl
  | case2 v h => rw [encodeUleb, headUleb, lastUleb, if_neg h, if_neg h, if_neg h]; rfl

theorem writeBytes_append (a b : Bytes) : writeBytes S (a ++ b) = writeBytes S a >>= fun _ => writeBytes S b := by
  induction a with
  | nil => rfl
  | cons x a ih =>
    funext t
    show Wr.bind (S.writeByte x) (fun _ => writeBytes S (a ++ b)) t = Wr.bind (Wr.bind (S.writeByte x) fun _ => writeBytes S a) (fun _ => writeBytes S b) t
    rw [ih]
    unfold Wr.bind
    rcases S.writeByte x t with ⟨(e | u), t'⟩
    · rfl
    · rfl

theorem writeBytes_one (b : Byte) : writeBytes S [b] = S.writeByte b := by
  funext t
  show Wr.bind (S.writeByte b) (fun _ => Wr.pure ()) t = _
  unfold Wr.bind Wr.pure
  rcases S.writeByte b t with ⟨(e | u), t'⟩ <;> rfl

def encCond : Expr := .bin .gt (.path [n! "value"]) (.lit 127 none)
def encStep : Expr := .block [.semi (.try (.method (.path [n! "output"]) n! "write_byte" [.bin .bor (.cast (.path [n! "value"]) (some .u8)) (.lit 128 none)])),
  .semi (.assignOp .shr (.path [n! "value"]) (.lit 7 none))]

theorem goes_encode (hS : IoSink S) (v : BitVec 64) : ∀ (t : τ),
    WGoes (fun n => eval cfg debug (writerProg cfg) (sinkHost S) n (.while encCond encStep) [[], [(n! "output", .self), (n! "value", .u64 v)]] t)
      (writeBytes S (headUleb v) t) (fun _ t' o => o = .val .unit [[], [(n! "output", .self), (n! "value", .u64 (lastUleb v))]] t') := by
  induction v using encodeUleb.induct with
  | case1 v h ih =>
    intro t
    rw [headUleb, lastUleb, if_pos h, if_pos h]
    simp only [encCond, encStep] at ih ⊢
    have hd : decide ((127#64).toNat < v.toNat) = true := by simpa using h
    show WGoes _ ((S.writeByte _ >>= fun _ => writeBytes S (headUleb (v >>> 7))) t) _
    refine WUse (gives_write_byte (cfg := cfg) (debug := debug) hS _ t) _ ?_ ?_ ?_
    · intro a t' N h
      simp only [show ∀ n, n + N + 40 = n + N + 39 + 1 from fun _ => rfl, eval_while]
      rs_simp [hd, whileAt_true, wp_byte, h]
      exact (ih t').later2 N 39
    · intro e args s' N h
      apply Exists.intro; intro n
      simp only [show ∀ n, n + N + 40 = n + N + 39 + 1 from fun _ => rfl, eval_while]
      rs_simp [hd, whileAt_true, wp_byte, h]
      rfl
    · intro e s' N h n
      simp only [show ∀ n, n + N + 40 = n + N + 39 + 1 from fun _ => rfl, eval_while]
      rs_simp [hd, whileAt_true, wp_byte, h]
  | case2 v h =>
    intro t
    rw [headUleb, lastUleb, if_neg h, if_neg h]
    simp only [encCond, encStep]
    have hd : decide ((127#64).toNat < v.toNat) = false := by simpa using h
    refine ⟨_, rfl, .shift 40 ⟨0, fun n _ => ?_⟩⟩
    rs_simp [eval_while, hd, whileAt_false]

/-- uleb.rs:42-47 -/
theorem gives_encode (hS : IoSink S) (v : BitVec 64) (t : τ) :
    WritesAs (fun _ => (.unit, [.self, .u64 (lastUleb v)])) (fun n => runFn (eval cfg debug (writerProg cfg) (sinkHost S) n) fn_encode_uleb [.self, .u64 v] t)
      (writeBytes S (encodeUleb v) t) := by
  rw [encodeUleb_split, writeBytes_append, writeBytes_one]
  unfold runFn
  have hw := goes_encode (cfg := cfg) (debug := debug) hS v t
  simp only [encCond, encStep] at hw
  refine WThen hw _ ?_ ?_ ?_
  · rintro _ t' o N rfl hN
    refine WTail (gives_write_byte (cfg := cfg) (debug := debug) hS _ t') _ ?_ ?_ ?_
    · intro _ s' M h n
      simp only [← Nat.add_assoc, fn_encode_uleb]
      rs_simp [hN, wp_byte, h]
      rfl
    · intro e args s' M h
      apply Exists.intro; intro n
      simp only [← Nat.add_assoc, fn_encode_uleb]
      rs_simp [hN, wp_byte, h]
      rfl
    · intro e s' M h n
      simp only [← Nat.add_assoc, fn_encode_uleb]
      rs_simp [hN, wp_byte, h]
  · intro e fr s' N h
    apply Exists.intro; intro n
    simp only [fn_encode_uleb]
    rs_simp [h]
    rfl
  · intro e s' N h n
    simp only [fn_encode_uleb]
    rs_simp [h]

theorem run_encode_usize (ev : Expr → Frame → τ → Out τ) (v : BitVec 64) (t : τ) :
    runFn ev fn_encode_uleb [.self, .asAny (.usize v)] t = runFn ev fn_encode_uleb [.self, .u64 (v.setWidth 64)] t := rfl
theorem run_encode_u16 (ev : Expr → Frame → τ → Out τ) (v : BitVec 16) (t : τ) :
    runFn ev fn_encode_uleb [.self, .asAny (.u16 v)] t = runFn ev fn_encode_uleb [.self, .u64 (v.setWidth 64)] t := rfl
theorem run_encode_u32 (ev : Expr → Frame → τ → Out τ) (v : BitVec 32) (t : τ) :
    runFn ev fn_encode_uleb [.self, .asAny (.u32 v)] t = runFn ev fn_encode_uleb [.self, .u64 (v.setWidth 64)] t := rfl
theorem run_encode_u64 (ev : Expr → Frame → τ → Out τ) (v : BitVec 64) (t : τ) :
    runFn ev fn_encode_uleb [.self, .asAny (.u64 v)] t = runFn ev fn_encode_uleb [.self, .u64 (v.setWidth 64)] t := rfl

/-- protocol.rs:404-406 -/
theorem gives_write_len (hS : IoSink S) (v : BitVec 64) (t : τ) :
    WritesAs (fun _ => (.unit, [.self, .usize v])) (fun n => runFn (eval cfg debug (writerProg cfg) (sinkHost S) n) fn_Output_W_write_len [.self, .usize v] t)
      (writeBytes S (encodeUleb v) t) := by
  ws_tail (gives_encode (cfg := cfg) (debug := debug) hS v t) [fn_Output_W_write_len, wp_encode, run_encode_usize, BitVec.setWidth_eq]

/-- protocol.rs:408-410 -/
theorem gives_write_i16 (hS : IoSink S) (v : BitVec 16) (t : τ) :
    WritesAs (fun _ => (.unit, [.self, .i16 v])) (fun n => runFn (eval cfg debug (writerProg cfg) (sinkHost S) n) fn_Output_W_write_i16 [.self, .i16 v] t)
      (S.writeI16 v t) := by
  ws_tail (gives_encode (cfg := cfg) (debug := debug) hS ((zigzagEncode v).setWidth 64) t) [fn_Output_W_write_i16, wp_encode, wp_zig16, run_zigzag_encode16, run_encode_u16]

/-- protocol.rs:412-414 -/
theorem gives_write_i32 (hS : IoSink S) (v : BitVec 32) (t : τ) :
    WritesAs (fun _ => (.unit, [.self, .i32 v])) (fun n => runFn (eval cfg debug (writerProg cfg) (sinkHost S) n) fn_Output_W_write_i32 [.self, .i32 v] t)
      (S.writeI32 v t) := by
  ws_tail (gives_encode (cfg := cfg) (debug := debug) hS ((zigzagEncode v).setWidth 64) t) [fn_Output_W_write_i32, wp_encode, wp_zig32, run_zigzag_encode32, run_encode_u32]

/-- protocol.rs:416-418 -/
theorem gives_write_i64 (hS : IoSink S) (v : BitVec 64) (t : τ) :
    WritesAs (fun _ => (.unit, [.self, .i64 v])) (fun n => runFn (eval cfg debug (writerProg cfg) (sinkHost S) n) fn_Output_W_write_i64 [.self, .i64 v] t)
      (S.writeI64 v t) := by
  ws_tail (gives_encode (cfg := cfg) (debug := debug) hS (zigzagEncode v) t) [fn_Output_W_write_i64, wp_encode, wp_zig64, run_zigzag_encode64, run_encode_u64, BitVec.setWidth_eq]

/-- protocol.rs:420-423 -/
theorem gives_write_double (hS : IoSink S) (v : BitVec 64) (t : τ) :
    WritesAs (fun _ => (.unit, [.self, .f64 v])) (fun n => runFn (eval cfg debug (writerProg cfg) (sinkHost S) n) fn_Output_W_write_double [.self, .f64 v] t)
      (S.writeDouble v t) := by
  unfold runFn Sink.writeDouble
  rcases write_cases hS (toLeBytes 8 v) t with ⟨t', h⟩ | ⟨k, t', h⟩ | ⟨f, t', h, hf⟩
  · rw [h]
    refine writesOk fun n => ?_
    rs_simp [fn_Output_W_write_double, Bool.false_eq_true, wp_write_all, sink_all, h, wp_ok]
    rfl
  · rw [h]
    refine writesErr (Exists.intro ?_ fun n => ?_)
    rotate_left
    rs_simp [fn_Output_W_write_double, Bool.false_eq_true, wp_write_all, sink_all, h, wp_ok]
    rfl
  · rw [h]
    refine writesFail hf fun n => ?_
    rs_simp [fn_Output_W_write_double, Bool.false_eq_true, wp_write_all, sink_all, h, wp_ok, writeDone_fail _ _ _ hf]

theorem writeFieldHeader_far {ft : Byte} {id last : BitVec 16} (h : BitVec.slt 15#16 (id - last) = true) :
    S.writeFieldHeader ft id last = (S.writeByte ft >>= fun _ => S.writeI16 (id - last) >>= fun _ => pure id) := by
  unfold Sink.writeFieldHeader
  simp only [h, if_true]

theorem writeFieldHeader_near {ft : Byte} {id last : BitVec 16} (h : BitVec.slt 15#16 (id - last) = false) :
    S.writeFieldHeader ft id last = (S.writeByte (ft ||| ((id - last).setWidth 8 <<< 4)) >>= fun _ => pure id) := by
  unfold Sink.writeFieldHeader
  simp only [h, Bool.false_eq_true, if_false]

/-- protocol.rs:259-271 -/
theorem gives_write_field_header (hS : IoSink S) (ft : Byte) (id last : BitVec 16) (t : τ) :
    WritesAs (fun a => (.unit, [.self, .u8 ft, .i16 id, .ref (.i16 a)]))
      (fun n => runFn (eval cfg debug (writerProg cfg) (sinkHost S) n) fn_write_field_header [.self, .u8 ft, .i16 id, .ref (.i16 last)] t)
      (S.writeFieldHeader ft id last t) := by
  refine WGoes.fn rfl ?_
  simp only [fn_write_field_header]
  cases hd : BitVec.slt 15#16 (id - last)
  · rw [writeFieldHeader_near hd]
    have hx : BitVec.signExtend 8 (id - last) = BitVec.setWidth 8 (id - last) := BitVec.signExtend_eq_setWidth_of_le _ (by omega)
    have hd' : decide ((15#16).toInt < (id - last).toInt) = false := by simpa [BitVec.slt] using hd
    ws_call (gives_write_byte (cfg := cfg) (debug := debug) hS _ t) [hd, hd', hx, wp_byte, wp_ok]
    intro _ t' N h
    rs_simp [hd, hd', hx, wp_byte, wp_ok, h]
    exact .val (by simp [rs, Done, V.unit])
  · rw [writeFieldHeader_far hd]
    have hd' : decide ((15#16).toInt < (id - last).toInt) = true := by simpa [BitVec.slt] using hd
    ws_call (gives_write_byte (cfg := cfg) (debug := debug) hS _ t) [hd, hd', wp_byte, wp_ok]
    intro _ t' N h
    ws_call (gives_write_i16 (cfg := cfg) (debug := debug) hS _ t') [hd, hd', wp_byte, wp_i16, wp_ok, h]
    intro _ t2 N2 h2
    rs_simp [hd, hd', wp_byte, wp_i16, wp_ok, h, h2]
    exact .val (by simp [rs, Done, V.unit])

/-- protocol.rs:425-432 -/
theorem gives_write_binary (hS : IoSink S) (v : Bytes) (hv : v.length < 2 ^ 64) (t : τ) :
    WritesAs (fun _ => (.unit, [.self, .bytes v])) (fun n => runFn (eval cfg debug (writerProg cfg) (sinkHost S) n) fn_Output_W_write_binary [.self, .bytes v] t)
      (S.writeBinary v t) := by
  have hl : (BitVec.ofNat 64 v.length).toNat = v.length := by simp; omega
  have hk : (BitVec.ofNat 64 (16 * 1024 * 1024)).toNat = MAX_BINARY_LEN := rfl
  refine WGoes.fn rfl ?_
  simp only [fn_Output_W_write_binary]
  unfold Sink.writeBinary
  by_cases h1 : MAX_BINARY_LEN < v.length
  · rw [if_pos h1]
    have hd : decide ((BitVec.ofNat 64 (16 * 1024 * 1024)).toNat < (BitVec.ofNat 64 v.length).toNat) = true := by rw [hk, hl]; simpa using h1
    refine .shift 40 ?_
    rs_simp [wp_max, hd, wp_err]
    rw [hl]
    exact .err
  · rw [if_neg h1]
    have hd : decide ((BitVec.ofNat 64 (16 * 1024 * 1024)).toNat < (BitVec.ofNat 64 v.length).toNat) = false := by rw [hk, hl]; simpa using h1
    ws_call (gives_write_len (cfg := cfg) (debug := debug) hS _ t) [wp_max, hd, wp_len, wp_write_all, sink_all, wp_ok]
    intro _ t' N h
    rcases write_cases hS v t' with ⟨t2, h2⟩ | ⟨k, t2, h2⟩ | ⟨f, t2, h2, hf⟩
    · rw [h2]
      rs_simp [wp_max, hd, wp_len, wp_write_all, sink_all, wp_ok, h, h2]
      exact .val (by simp [rs, Done, V.unit])
    · rw [h2]
      rs_simp [wp_max, hd, wp_len, wp_write_all, sink_all, wp_ok, h, h2]
      exact .err
    · rw [h2]
      rs_simp [wp_max, hd, wp_len, wp_write_all, sink_all, wp_ok, h, h2, writeDone_fail _ _ _ hf]
      cases f with
      | err e => exact (hf e rfl).elim
      | _ => exact Tends.const _

/-- protocol.rs:381-383 -/
theorem gives_write_string (hS : IoSink S) (v : Bytes) (hv : v.length < 2 ^ 64) (t : τ) :
    WritesAs (fun _ => (.unit, [.self, .bytes v])) (fun n => runFn (eval cfg debug (writerProg cfg) (sinkHost S) n) fn_Output_write_string [.self, .bytes v] t)
      (S.writeBinary v t) := by
  ws_tail (gives_write_binary (cfg := cfg) (debug := debug) hS v hv t) [fn_Output_write_string, wp_binary]

end
end CT.Rs
