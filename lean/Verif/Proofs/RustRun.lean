import Verif.Model.RustRun
import Verif.Model.RuntimeTable
import Verif.Proofs.RustAttr
/-!
# Evaluating the functions of protocol.rs and uleb.rs
-/
namespace CT.Rs
open CT

@[rs] theorem Out.bind_val {σ : Type} (v : V) (fr : Frame) (s : σ) (k : V → Frame → σ → Out σ) : (Out.val v fr s).bind k = k v fr s := (rfl)
@[rs] theorem Out.bind_brk {σ : Type} (fr : Frame) (s : σ) (k : V → Frame → σ → Out σ) : (Out.brk fr s).bind k = .brk fr s := (rfl)
@[rs] theorem Out.bind_ret {σ : Type} (v : V) (fr : Frame) (s : σ) (k : V → Frame → σ → Out σ) : (Out.ret v fr s).bind k = .ret v fr s := (rfl)
@[rs] theorem Out.bind_fail {σ : Type} (f : Fail) (s : σ) (k : V → Frame → σ → Out σ) : (Out.fail f s).bind k = .fail f s := (rfl)
@[rs] theorem Out.leave_val {σ : Type} (v : V) (fr : Frame) (s : σ) : (Out.val v fr s).leave = .val v fr.tail s := (rfl)
@[rs] theorem Out.leave_brk {σ : Type} (fr : Frame) (s : σ) : (Out.brk fr s).leave = .brk fr.tail s := (rfl)
@[rs] theorem Out.leave_ret {σ : Type} (v : V) (fr : Frame) (s : σ) : (Out.ret v fr s).leave = .ret v fr.tail s := (rfl)
@[rs] theorem Out.leave_fail {σ : Type} (f : Fail) (s : σ) : (Out.fail f s).leave = .fail f s := (rfl)
@[rs] theorem Out.of_ok {σ : Type} (v : V) (fr : Frame) (s : σ) : Out.of (.ok v) fr s = .val v fr s := (rfl)
@[rs] theorem Out.of_error {σ : Type} (f : Fail) (fr : Frame) (s : σ) : Out.of (.error f) fr s = .fail f s := (rfl)

attribute [rs] Frame.get Scope.get Frame.put Scope.put castU castS Except.map ofNat List.tail List.map List.headD bound putBacks
  List.nil_append List.cons_append

@[rs] theorem Frame.add_cons (sc : Scope) (fr : Frame) (l : Scope) : Frame.add (sc :: fr) l = (l ++ sc) :: fr := (rfl)
@[rs] theorem asSlot_int (t : ITy) (v : V) : asSlot (.int t) v = asType t v := (rfl)
@[rs] theorem asSlot_other (v : V) : asSlot .other v = v := (rfl)
@[rs] theorem asSlot_tuple (ts : List (Option ITy)) (vs : List V) : asSlot (.tuple ts) (.tuple vs) = .tuple (List.zipWith asSlot1 ts vs) := (rfl)
@[rs] theorem asSlot1_some (t : ITy) (v : V) : asSlot1 (some t) v = asType t v := (rfl)
@[rs] theorem asType_lit (t : ITy) (n : Nat) : asType t (.lit n) = ofNat t n := (rfl)
@[rs] theorem asReturn_ok (t : Slot) (v : V) : asReturn true t (.ok v) = .ok (asSlot t v) := (rfl)
@[rs] theorem asReturn_err (t : Slot) (v : V) : asReturn true t (.err v) = .err v := (rfl)
@[rs] theorem asReturn_plain (t : Slot) (v : V) : asReturn false t v = asSlot t v := (rfl)
@[rs] theorem evTry_ok {σ : Type} (v : V) (fr : Frame) (s : σ) : evTry (.ok v) fr s = .val v fr s := (rfl)
@[rs] theorem evTry_io {σ : Type} (k : ErrorKind) (fr : Frame) (s : σ) : evTry (.err (.io k)) fr s = .ret (.err (.thrift (.io k))) fr s := (rfl)
@[rs] theorem evTry_err {σ : Type} (e : ThriftError) (fr : Frame) (s : σ) : evTry (.err (.thrift e)) fr s = .ret (.err (.thrift e)) fr s := (rfl)
@[rs] theorem finished_val {σ : Type} (f : Fn) (v : V) (fr : Frame) (s : σ) :
    finished f (.val v fr s) = .ret (asReturn f.result f.ret v) ((fr.headD []).map Prod.snd) s := (rfl)
@[rs] theorem finished_ret {σ : Type} (f : Fn) (v : V) (fr : Frame) (s : σ) :
    finished f (.ret v fr s) = .ret (asReturn f.result f.ret v) ((fr.headD []).map Prod.snd) s := (rfl)
@[rs] theorem finished_fail {σ : Type} (f : Fn) (e : Fail) (s : σ) : finished f (.fail e s) = .fail e s := (rfl)
@[rs] theorem called_ret {σ : Type} (es : List Expr) (v : V) (args : List V) (s : σ) (fr : Frame) :
    called es (.ret v args s) fr = .val v (putBacks es args fr) s := (rfl)
@[rs] theorem called_fail {σ : Type} (es : List Expr) (f : Fail) (s : σ) (fr : Frame) : called es (.fail f s) fr = .fail f s := (rfl)

section
variable {σ : Type} (cfg : Cfg) (debug : Bool) (P : Prog) (H : Host σ)

@[rs] theorem evPath_one (ev : Expr → Frame → σ → Out σ) (x : Name) (fr : Frame) (s : σ) : evPath P ev [x] fr s = evVar P ev x (fr.get x) fr s := (rfl)
@[rs] theorem evPath_two (ev : Expr → Frame → σ → Out σ) (x y : Name) (fr : Frame) (s : σ) : evPath P ev [x, y] fr s = .of (stdPath [x, y]) fr s := (rfl)
@[rs] theorem evVar_some (ev : Expr → Frame → σ → Out σ) (x : Name) (v : V) (fr : Frame) (s : σ) : evVar P ev x (some v) fr s = .val v fr s := (rfl)
@[rs] theorem evIf_true (ev : Expr → Frame → σ → Out σ) (t : Expr) (e : Option Expr) (fr : Frame) (s : σ) : evIf ev (.bool true) t e fr s = ev t fr s := (rfl)
@[rs] theorem evIf_false (ev : Expr → Frame → σ → Out σ) (t : Expr) (e : Option Expr) (fr : Frame) (s : σ) : evIf ev (.bool false) t e fr s = evOpt ev e fr s := (rfl)

section
variable (ev : Expr → Frame → σ → Out σ)
@[rs ↓] theorem evBlock_nil (fr : Frame) (s : σ) : evBlock ev [] fr s = .val .unit fr s := (rfl)
@[rs ↓] theorem evBlock_one (e : Expr) (fr : Frame) (s : σ) : evBlock ev [e] fr s = ev e fr s := (rfl)
@[rs ↓] theorem evBlock_cons (e e' : Expr) (es : List Expr) (fr : Frame) (s : σ) :
    evBlock ev (e :: e' :: es) fr s = (ev e fr s).bind fun _ fr s => evBlock ev (e' :: es) fr s := (rfl)
@[rs ↓] theorem evArgs_nil (k : List V → Frame → σ → Out σ) (fr : Frame) (s : σ) : evArgs ev [] k fr s = k [] fr s := (rfl)
@[rs ↓] theorem evArgs_cons (e : Expr) (es : List Expr) (k : List V → Frame → σ → Out σ) (fr : Frame) (s : σ) :
    evArgs ev (e :: es) k fr s = (ev e fr s).bind fun v fr s => evArgs ev es (fun vs => k (v :: vs)) fr s := (rfl)
@[rs ↓] theorem evEnd_some (e : Expr) (k : Option V → Frame → σ → Out σ) (fr : Frame) (s : σ) :
    evEnd ev (some e) k fr s = (ev e fr s).bind fun v fr s => k (some v) fr s := (rfl)
@[rs ↓] theorem evEnd_none (k : Option V → Frame → σ → Out σ) (fr : Frame) (s : σ) : evEnd ev none k fr s = k none fr s := (rfl)
@[rs] theorem evOpt_some (e : Expr) (fr : Frame) (s : σ) : evOpt ev (some e) fr s = ev e fr s := (rfl)
@[rs] theorem evOpt_none (fr : Frame) (s : σ) : evOpt ev none fr s = .val .unit fr s := (rfl)
end

theorem eval_succ (n : Nat) (e : Expr) (fr : Frame) (s : σ) :
    eval cfg debug P H (n + 1) e fr s = step cfg debug P H (eval cfg debug P H n) e fr s := (rfl)

/-- The rounds of a loop after the first, kept folded. -/
def loopAt (n : Nat) (b : Expr) (fr : Frame) (s : σ) : Out σ := eval cfg debug P H n (.loop b) fr s

/-- `while` once its condition is known, kept folded. -/
def whileAt (n : Nat) (c b : Expr) (v : V) (fr : Frame) (s : σ) : Out σ := evWhile (eval cfg debug P H n) v c b fr s

theorem Out.bind_congr {o o' : Out σ} {k : V → Frame → σ → Out σ} (h : o = o') : o.bind k = o'.bind k := h ▸ rfl
theorem Out.again_congr {o o' : Out σ} {k : Frame → σ → Out σ} (h : o = o') : o.again k = o'.again k := h ▸ rfl
attribute [congr] Out.bind_congr Out.again_congr

@[rs ↓] theorem eval_lit (n : Nat) (k : Nat) (fr : Frame) (s : σ) :
    eval cfg debug P H (n + 1) (.lit k none) fr s = .val (.lit k) fr s := (rfl)

@[rs ↓] theorem eval_litT (n : Nat) (k : Nat) (t : ITy) (fr : Frame) (s : σ) :
    eval cfg debug P H (n + 1) (.lit k (some t)) fr s = .val (ofNat t k) fr s := (rfl)

@[rs ↓] theorem eval_bool (n : Nat) (b : Bool) (fr : Frame) (s : σ) :
    eval cfg debug P H (n + 1) (.bool b) fr s = .val (.bool b) fr s := (rfl)

@[rs ↓] theorem eval_path (n : Nat) (p : List Name) (fr : Frame) (s : σ) :
    eval cfg debug P H (n + 1) (.path p) fr s = evPath P (eval cfg debug P H n) p fr s := (rfl)

@[rs ↓] theorem eval_tuple (n : Nat) (es : List Expr) (fr : Frame) (s : σ) :
    eval cfg debug P H (n + 1) (.tuple es) fr s = evArgs (eval cfg debug P H n) es (fun vs fr s => .val (.tuple vs) fr s) fr s := (rfl)

@[rs ↓] theorem eval_neg (n : Nat) (e : Expr) (fr : Frame) (s : σ) :
    eval cfg debug P H (n + 1) (.neg e) fr s = (eval cfg debug P H n e fr s).bind fun v fr s => .of (negated cfg v) fr s := (rfl)

@[rs ↓] theorem eval_not (n : Nat) (e : Expr) (fr : Frame) (s : σ) :
    eval cfg debug P H (n + 1) (.not e) fr s = (eval cfg debug P H n e fr s).bind fun v fr s => .of (inverted v) fr s := (rfl)

@[rs ↓] theorem eval_ref (n : Nat) (m : Bool) (e : Expr) (fr : Frame) (s : σ) :
    eval cfg debug P H (n + 1) (.ref m e) fr s = (eval cfg debug P H n e fr s).bind fun v fr s => .val (if m then .ref v else v) fr s := (rfl)

@[rs ↓] theorem eval_bin (n : Nat) (op : BinOp) (a b : Expr) (fr : Frame) (s : σ) :
    eval cfg debug P H (n + 1) (.bin op a b) fr s = (eval cfg debug P H n a fr s).bind fun x fr s => (eval cfg debug P H n b fr s).bind fun y fr s => .of (binary cfg op x y) fr s := (rfl)

@[rs ↓] theorem eval_cast (n : Nat) (e : Expr) (t : ITy) (fr : Frame) (s : σ) :
    eval cfg debug P H (n + 1) (.cast e (some t)) fr s = (eval cfg debug P H n e fr s).bind fun v fr s => .of (castTo t v) fr s := (rfl)

@[rs ↓] theorem eval_castAny (n : Nat) (e : Expr) (fr : Frame) (s : σ) :
    eval cfg debug P H (n + 1) (.cast e none) fr s = (eval cfg debug P H n e fr s).bind fun v fr s => .val (.asAny v) fr s := (rfl)

@[rs ↓] theorem eval_range (n : Nat) (lo hi : Option Expr) (fr : Frame) (s : σ) :
    eval cfg debug P H (n + 1) (.range lo hi) fr s = evEnd (eval cfg debug P H n) lo (fun a fr s => evEnd (eval cfg debug P H n) hi (fun b fr s => .val (.range a b) fr s) fr s) fr s := (rfl)

@[rs ↓] theorem eval_try (n : Nat) (e : Expr) (fr : Frame) (s : σ) :
    eval cfg debug P H (n + 1) (.try e) fr s = (eval cfg debug P H n e fr s).bind evTry := (rfl)

@[rs ↓] theorem eval_ite (n : Nat) (c t : Expr) (e : Option Expr) (fr : Frame) (s : σ) :
    eval cfg debug P H (n + 1) (.ite c t e) fr s = (eval cfg debug P H n c fr s).bind fun v fr s => evIf (eval cfg debug P H n) v t e fr s := (rfl)

theorem eval_select (n : Nat) (e : Expr) (arms : List (Pat × Expr)) (fr : Frame) (s : σ) :
    eval cfg debug P H (n + 1) (.select e arms) fr s = (eval cfg debug P H n e fr s).bind fun v fr s => evArms (eval cfg debug P H n) arms v fr s := (rfl)

@[rs ↓] theorem eval_block (n : Nat) (es : List Expr) (fr : Frame) (s : σ) :
    eval cfg debug P H (n + 1) (.block es) fr s = (evBlock (eval cfg debug P H n) es ([] :: fr) s).leave := (rfl)

@[rs ↓] theorem eval_semi (n : Nat) (e : Expr) (fr : Frame) (s : σ) :
    eval cfg debug P H (n + 1) (.semi e) fr s = (eval cfg debug P H n e fr s).bind fun _ fr s => .val .unit fr s := (rfl)

@[rs ↓] theorem eval_ret (n : Nat) (e : Option Expr) (fr : Frame) (s : σ) :
    eval cfg debug P H (n + 1) (.ret e) fr s = (evOpt (eval cfg debug P H n) e fr s).bind fun v fr s => .ret v fr s := (rfl)

@[rs ↓] theorem eval_assign (n : Nat) (l r : Expr) (fr : Frame) (s : σ) :
    eval cfg debug P H (n + 1) (.assign l r) fr s = (eval cfg debug P H n r fr s).bind fun v fr s => evAssign H l v fr s := (rfl)

@[rs ↓] theorem eval_method0 (n : Nat) (e : Expr) (f : Name)  (fr : Frame) (s : σ) :
    eval cfg debug P H (n + 1) (.method e f []) fr s = (eval cfg debug P H n e fr s).bind fun v fr s => evArgs (eval cfg debug P H n) [] (fun vs fr s => evMethod P H (eval cfg debug P H n) e f [] v vs fr s) fr s := (rfl)

@[rs ↓] theorem eval_method_path (n : Nat) (e : Expr) (f : Name) (p : List Name) (fr : Frame) (s : σ) :
    eval cfg debug P H (n + 1) (.method e f [.path p]) fr s = (eval cfg debug P H n e fr s).bind fun v fr s => evArgs (eval cfg debug P H n) [.path p] (fun vs fr s => evMethod P H (eval cfg debug P H n) e f [.path p] v vs fr s) fr s := (rfl)

@[rs ↓] theorem eval_method_ref (n : Nat) (e : Expr) (f : Name) (m : Bool) (a : Expr) (fr : Frame) (s : σ) :
    eval cfg debug P H (n + 1) (.method e f [.ref m a]) fr s = (eval cfg debug P H n e fr s).bind fun v fr s => evArgs (eval cfg debug P H n) [.ref m a] (fun vs fr s => evMethod P H (eval cfg debug P H n) e f [.ref m a] v vs fr s) fr s := (rfl)

@[rs ↓] theorem eval_method_bin (n : Nat) (e : Expr) (f : Name) (op : BinOp) (a b : Expr) (fr : Frame) (s : σ) :
    eval cfg debug P H (n + 1) (.method e f [.bin op a b]) fr s = (eval cfg debug P H n e fr s).bind fun v fr s => evArgs (eval cfg debug P H n) [.bin op a b] (fun vs fr s => evMethod P H (eval cfg debug P H n) e f [.bin op a b] v vs fr s) fr s := (rfl)

@[rs ↓] theorem eval_method_cast (n : Nat) (e : Expr) (f : Name) (a : Expr) (t : Option ITy) (fr : Frame) (s : σ) :
    eval cfg debug P H (n + 1) (.method e f [.cast a t]) fr s = (eval cfg debug P H n e fr s).bind fun v fr s => evArgs (eval cfg debug P H n) [.cast a t] (fun vs fr s => evMethod P H (eval cfg debug P H n) e f [.cast a t] v vs fr s) fr s := (rfl)

@[rs ↓] theorem eval_method_range (n : Nat) (e : Expr) (f : Name) (lo hi : Option Expr) (fr : Frame) (s : σ) :
    eval cfg debug P H (n + 1) (.method e f [.range lo hi]) fr s = (eval cfg debug P H n e fr s).bind fun v fr s => evArgs (eval cfg debug P H n) [.range lo hi] (fun vs fr s => evMethod P H (eval cfg debug P H n) e f [.range lo hi] v vs fr s) fr s := (rfl)

@[rs ↓] theorem eval_method_method (n : Nat) (e : Expr) (f : Name) (a : Expr) (g : Name) (bs : List Expr) (fr : Frame) (s : σ) :
    eval cfg debug P H (n + 1) (.method e f [.method a g bs]) fr s = (eval cfg debug P H n e fr s).bind fun v fr s => evArgs (eval cfg debug P H n) [.method a g bs] (fun vs fr s => evMethod P H (eval cfg debug P H n) e f [.method a g bs] v vs fr s) fr s := (rfl)

@[rs ↓] theorem eval_bind (n : Nat) (p : Pat) (e : Expr) (fr : Frame) (s : σ) :
    eval cfg debug P H (n + 1) (.bind p e) fr s = (eval cfg debug P H n e fr s).bind fun v fr s => bindPat (matchPat p v) fr s := (rfl)

@[rs ↓] theorem eval_brk (n : Nat)  (fr : Frame) (s : σ) :
    eval cfg debug P H (n + 1) (.brk) fr s = .brk fr s := (rfl)

@[rs ↓] theorem eval_assignOp (n : Nat) (op : BinOp) (l r : Expr) (fr : Frame) (s : σ) :
    eval cfg debug P H (n + 1) (.assignOp op l r) fr s = (eval cfg debug P H n r fr s).bind fun v fr s => (eval cfg debug P H n l fr s).bind fun w fr s => (Out.of (binary cfg op w v) fr s).bind fun x fr s => evAssign H l x fr s := (rfl)

theorem eval_loop (n : Nat) (b : Expr) (fr : Frame) (s : σ) :
    eval cfg debug P H (n + 1) (.loop b) fr s = (eval cfg debug P H n b fr s).again (loopAt cfg debug P H n b) := (rfl)

theorem eval_while (n : Nat) (c b : Expr) (fr : Frame) (s : σ) :
    eval cfg debug P H (n + 1) (.while c b) fr s = (eval cfg debug P H n c fr s).bind (whileAt cfg debug P H n c b) := (rfl)

@[rs ↓] theorem eval_deref (n : Nat) (e : Expr) (fr : Frame) (s : σ) :
    eval cfg debug P H (n + 1) (.deref e) fr s = (eval cfg debug P H n e fr s).bind fun v fr s => .val v.deref fr s := (rfl)

@[rs ↓] theorem eval_for (n : Nat) (e b : Expr) (fr : Frame) (s : σ) :
    eval cfg debug P H (n + 1) (.for .wild e b) fr s = (eval cfg debug P H n e fr s).bind fun v fr s => evFor (eval cfg debug P H n) v b fr s := (rfl)

@[rs ↓] theorem eval_field (n : Nat) (e : Expr) (k : Nat) (fr : Frame) (s : σ) :
    eval cfg debug P H (n + 1) (.field e k) fr s = (eval cfg debug P H n e fr s).bind fun v fr s => evField H v k fr s := (rfl)

@[rs ↓] theorem eval_index (n : Nat) (e i : Expr) (fr : Frame) (s : σ) :
    eval cfg debug P H (n + 1) (.index e i) fr s = (eval cfg debug P H n e fr s).bind fun v fr s => (eval cfg debug P H n i fr s).bind fun w fr s => .of (indexedV v w) fr s := (rfl)

@[rs ↓] theorem eval_fill (n : Nat) (e : Expr) (k : Nat) (fr : Frame) (s : σ) :
    eval cfg debug P H (n + 1) (.fill e k) fr s = (eval cfg debug P H n e fr s).bind fun v fr s => .of (filled k v) fr s := (rfl)

@[rs ↓] theorem eval_iteLet (n : Nat) (p : Pat) (v t : Expr) (e : Option Expr) (fr : Frame) (s : σ) :
    eval cfg debug P H (n + 1) (.iteLet p v t e) fr s = (eval cfg debug P H n v fr s).bind fun v fr s => evIfLet (eval cfg debug P H n) (matchPat p v) t e fr s := (rfl)

@[rs] theorem binary_u8_lit (op : BinOp) (a : BitVec 8) (k : Nat) : binary cfg op (.u8 a) (.lit k) = binU cfg .u8 op a (BitVec.ofNat 8 k) := (rfl)

@[rs] theorem binary_u8 (op : BinOp) (a b : BitVec 8) : binary cfg op (.u8 a) (.u8 b) = binU cfg .u8 op a b := (rfl)

@[rs] theorem castTo_u8 (t : ITy) (a : BitVec 8) : castTo t (.u8 a) = .ok (castU a t) := (rfl)

@[rs] theorem binary_u16_lit (op : BinOp) (a : BitVec 16) (k : Nat) : binary cfg op (.u16 a) (.lit k) = binU cfg .u16 op a (BitVec.ofNat 16 k) := (rfl)

@[rs] theorem binary_u16 (op : BinOp) (a b : BitVec 16) : binary cfg op (.u16 a) (.u16 b) = binU cfg .u16 op a b := (rfl)

@[rs] theorem castTo_u16 (t : ITy) (a : BitVec 16) : castTo t (.u16 a) = .ok (castU a t) := (rfl)

@[rs] theorem binary_u32_lit (op : BinOp) (a : BitVec 32) (k : Nat) : binary cfg op (.u32 a) (.lit k) = binU cfg .u32 op a (BitVec.ofNat 32 k) := (rfl)

@[rs] theorem binary_u32 (op : BinOp) (a b : BitVec 32) : binary cfg op (.u32 a) (.u32 b) = binU cfg .u32 op a b := (rfl)

@[rs] theorem castTo_u32 (t : ITy) (a : BitVec 32) : castTo t (.u32 a) = .ok (castU a t) := (rfl)

@[rs] theorem binary_u64_lit (op : BinOp) (a : BitVec 64) (k : Nat) : binary cfg op (.u64 a) (.lit k) = binU cfg .u64 op a (BitVec.ofNat 64 k) := (rfl)

@[rs] theorem binary_u64 (op : BinOp) (a b : BitVec 64) : binary cfg op (.u64 a) (.u64 b) = binU cfg .u64 op a b := (rfl)

@[rs] theorem castTo_u64 (t : ITy) (a : BitVec 64) : castTo t (.u64 a) = .ok (castU a t) := (rfl)

@[rs] theorem binary_usize_lit (op : BinOp) (a : BitVec 64) (k : Nat) : binary cfg op (.usize a) (.lit k) = binU cfg .usize op a (BitVec.ofNat 64 k) := (rfl)

@[rs] theorem binary_usize (op : BinOp) (a b : BitVec 64) : binary cfg op (.usize a) (.usize b) = binU cfg .usize op a b := (rfl)

@[rs] theorem castTo_usize (t : ITy) (a : BitVec 64) : castTo t (.usize a) = .ok (castU a t) := (rfl)

@[rs] theorem binary_i16_lit (op : BinOp) (a : BitVec 16) (k : Nat) : binary cfg op (.i16 a) (.lit k) = binS cfg .i16 op a (BitVec.ofNat 16 k) := (rfl)

@[rs] theorem binary_i16 (op : BinOp) (a b : BitVec 16) : binary cfg op (.i16 a) (.i16 b) = binS cfg .i16 op a b := (rfl)

@[rs] theorem castTo_i16 (t : ITy) (a : BitVec 16) : castTo t (.i16 a) = .ok (castS a t) := (rfl)

@[rs] theorem binary_i32_lit (op : BinOp) (a : BitVec 32) (k : Nat) : binary cfg op (.i32 a) (.lit k) = binS cfg .i32 op a (BitVec.ofNat 32 k) := (rfl)

@[rs] theorem binary_i32 (op : BinOp) (a b : BitVec 32) : binary cfg op (.i32 a) (.i32 b) = binS cfg .i32 op a b := (rfl)

@[rs] theorem castTo_i32 (t : ITy) (a : BitVec 32) : castTo t (.i32 a) = .ok (castS a t) := (rfl)

@[rs] theorem binary_i64_lit (op : BinOp) (a : BitVec 64) (k : Nat) : binary cfg op (.i64 a) (.lit k) = binS cfg .i64 op a (BitVec.ofNat 64 k) := (rfl)

@[rs] theorem binary_i64 (op : BinOp) (a b : BitVec 64) : binary cfg op (.i64 a) (.i64 b) = binS cfg .i64 op a b := (rfl)

@[rs] theorem castTo_i64 (t : ITy) (a : BitVec 64) : castTo t (.i64 a) = .ok (castS a t) := (rfl)

@[rs] theorem asType_u8 (t : ITy) (a : BitVec 8) : asType t (.u8 a) = .u8 a := (rfl)

@[rs] theorem asAny_u8 (t : ITy) (a : BitVec 8) : asType t (.asAny (.u8 a)) = castU a t := (rfl)

@[rs] theorem asType_u16 (t : ITy) (a : BitVec 16) : asType t (.u16 a) = .u16 a := (rfl)

@[rs] theorem asAny_u16 (t : ITy) (a : BitVec 16) : asType t (.asAny (.u16 a)) = castU a t := (rfl)

@[rs] theorem asType_u32 (t : ITy) (a : BitVec 32) : asType t (.u32 a) = .u32 a := (rfl)

@[rs] theorem asAny_u32 (t : ITy) (a : BitVec 32) : asType t (.asAny (.u32 a)) = castU a t := (rfl)

@[rs] theorem asType_u64 (t : ITy) (a : BitVec 64) : asType t (.u64 a) = .u64 a := (rfl)

@[rs] theorem asAny_u64 (t : ITy) (a : BitVec 64) : asType t (.asAny (.u64 a)) = castU a t := (rfl)

@[rs] theorem asType_usize (t : ITy) (a : BitVec 64) : asType t (.usize a) = .usize a := (rfl)

@[rs] theorem asAny_usize (t : ITy) (a : BitVec 64) : asType t (.asAny (.usize a)) = castU a t := (rfl)

@[rs] theorem asType_i16 (t : ITy) (a : BitVec 16) : asType t (.i16 a) = .i16 a := (rfl)

@[rs] theorem asAny_i16 (t : ITy) (a : BitVec 16) : asType t (.asAny (.i16 a)) = castS a t := (rfl)

@[rs] theorem asType_i32 (t : ITy) (a : BitVec 32) : asType t (.i32 a) = .i32 a := (rfl)

@[rs] theorem asAny_i32 (t : ITy) (a : BitVec 32) : asType t (.asAny (.i32 a)) = castS a t := (rfl)

@[rs] theorem asType_i64 (t : ITy) (a : BitVec 64) : asType t (.i64 a) = .i64 a := (rfl)

@[rs] theorem asAny_i64 (t : ITy) (a : BitVec 64) : asType t (.asAny (.i64 a)) = castS a t := (rfl)

@[rs] theorem asType_f64 (t : ITy) (a : BitVec 64) : asType t (.f64 a) = .f64 a := (rfl)

@[rs] theorem binU_band {w : Nat} (mk : BitVec w → V) (a b : BitVec w) : binU cfg mk .band a b = .ok (mk (a &&& b)) := (rfl)

@[rs] theorem binS_band {w : Nat} (mk : BitVec w → V) (a b : BitVec w) : binS cfg mk .band a b = .ok (mk (a &&& b)) := (rfl)

@[rs] theorem binU_bor {w : Nat} (mk : BitVec w → V) (a b : BitVec w) : binU cfg mk .bor a b = .ok (mk (a ||| b)) := (rfl)

@[rs] theorem binS_bor {w : Nat} (mk : BitVec w → V) (a b : BitVec w) : binS cfg mk .bor a b = .ok (mk (a ||| b)) := (rfl)

@[rs] theorem binU_bxor {w : Nat} (mk : BitVec w → V) (a b : BitVec w) : binU cfg mk .bxor a b = .ok (mk (a ^^^ b)) := (rfl)

@[rs] theorem binS_bxor {w : Nat} (mk : BitVec w → V) (a b : BitVec w) : binS cfg mk .bxor a b = .ok (mk (a ^^^ b)) := (rfl)

@[rs] theorem binU_eq {w : Nat} (mk : BitVec w → V) (a b : BitVec w) : binU cfg mk .eq a b = .ok (.bool (a == b)) := (rfl)

@[rs] theorem binS_eq {w : Nat} (mk : BitVec w → V) (a b : BitVec w) : binS cfg mk .eq a b = .ok (.bool (a == b)) := (rfl)

@[rs] theorem binU_ne {w : Nat} (mk : BitVec w → V) (a b : BitVec w) : binU cfg mk .ne a b = .ok (.bool (a != b)) := (rfl)

@[rs] theorem binS_ne {w : Nat} (mk : BitVec w → V) (a b : BitVec w) : binS cfg mk .ne a b = .ok (.bool (a != b)) := (rfl)

@[rs] theorem binU_lt {w : Nat} (mk : BitVec w → V) (a b : BitVec w) : binU cfg mk .lt a b = .ok (.bool (decide (a.toNat < b.toNat))) := (rfl)

@[rs] theorem binS_lt {w : Nat} (mk : BitVec w → V) (a b : BitVec w) : binS cfg mk .lt a b = .ok (.bool (decide (a.toInt < b.toInt))) := (rfl)

@[rs] theorem binU_gt {w : Nat} (mk : BitVec w → V) (a b : BitVec w) : binU cfg mk .gt a b = .ok (.bool (decide (b.toNat < a.toNat))) := (rfl)

@[rs] theorem binS_gt {w : Nat} (mk : BitVec w → V) (a b : BitVec w) : binS cfg mk .gt a b = .ok (.bool (decide (b.toInt < a.toInt))) := (rfl)

@[rs] theorem binU_le {w : Nat} (mk : BitVec w → V) (a b : BitVec w) : binU cfg mk .le a b = .ok (.bool (decide (a.toNat ≤ b.toNat))) := (rfl)

@[rs] theorem binS_le {w : Nat} (mk : BitVec w → V) (a b : BitVec w) : binS cfg mk .le a b = .ok (.bool (decide (a.toInt ≤ b.toInt))) := (rfl)

@[rs] theorem binU_ge {w : Nat} (mk : BitVec w → V) (a b : BitVec w) : binU cfg mk .ge a b = .ok (.bool (decide (b.toNat ≤ a.toNat))) := (rfl)

@[rs] theorem binS_ge {w : Nat} (mk : BitVec w → V) (a b : BitVec w) : binS cfg mk .ge a b = .ok (.bool (decide (b.toInt ≤ a.toInt))) := (rfl)

@[rs] theorem shift_u16_shr_1 (a : BitVec 16) : binU cfg .u16 .shr a 1#16 = .ok (.u16 (a >>> 1)) := (rfl)

@[rs] theorem shift_u32_shr_1 (a : BitVec 32) : binU cfg .u32 .shr a 1#32 = .ok (.u32 (a >>> 1)) := (rfl)

@[rs] theorem shift_u64_shr_1 (a : BitVec 64) : binU cfg .u64 .shr a 1#64 = .ok (.u64 (a >>> 1)) := (rfl)

@[rs] theorem shift_i16_shl_1 (a : BitVec 16) : binS cfg .i16 .shl a 1#16 = .ok (.i16 (a <<< 1)) := (rfl)

@[rs] theorem shift_i32_shl_1 (a : BitVec 32) : binS cfg .i32 .shl a 1#32 = .ok (.i32 (a <<< 1)) := (rfl)

@[rs] theorem shift_i64_shl_1 (a : BitVec 64) : binS cfg .i64 .shl a 1#64 = .ok (.i64 (a <<< 1)) := (rfl)

@[rs] theorem shift_i16_shr_15 (a : BitVec 16) : binS cfg .i16 .shr a 15#16 = .ok (.i16 (a.sshiftRight 15)) := (rfl)

@[rs] theorem shift_i32_shr_31 (a : BitVec 32) : binS cfg .i32 .shr a 31#32 = .ok (.i32 (a.sshiftRight 31)) := (rfl)

@[rs] theorem shift_i64_shr_63 (a : BitVec 64) : binS cfg .i64 .shr a 63#64 = .ok (.i64 (a.sshiftRight 63)) := (rfl)

@[rs] theorem shift_u8_shr_4 (a : BitVec 8) : binU cfg .u8 .shr a 4#8 = .ok (.u8 (a >>> 4)) := (rfl)

@[rs] theorem shift_u8_shl_4 (a : BitVec 8) : binU cfg .u8 .shl a 4#8 = .ok (.u8 (a <<< 4)) := (rfl)

@[rs] theorem shift_u64_shr_7 (a : BitVec 64) : binU cfg .u64 .shr a 7#64 = .ok (.u64 (a >>> 7)) := (rfl)

@[rs ↓] theorem eval_call1 (n : Nat) (f : Name) (es : List Expr) (fr : Frame) (s : σ) :
    eval cfg debug P H (n + 1) (.call [f] es) fr s = evArgs (eval cfg debug P H n) es (fun vs fr s => evCall P (eval cfg debug P H n) [f] es vs fr s) fr s :=
  if_neg (by simp)

@[rs ↓] theorem eval_call2 (n : Nat) (t f : Name) (es : List Expr) (fr : Frame) (s : σ) :
    eval cfg debug P H (n + 1) (.call [t, f] es) fr s =
      evArgs (eval cfg debug P H n) es (fun vs fr s => evCall P (eval cfg debug P H n) [t, f] es vs fr s) fr s :=
  if_neg (by simp)

/-- A call of a function that is in the program or not. -/
def callOf (ev : Expr → Frame → σ → Out σ) (o : Option Fn) (f : Name) (es : List Expr) (vs : List V) (fr : Frame) (s : σ) : Out σ :=
  match o with
  | some fn => called es (runFn ev fn vs s) fr
  | none => .of (stdFn [f] vs) fr s

@[rs] theorem evCall_one (ev : Expr → Frame → σ → Out σ) (f : Name) (es : List Expr) (vs : List V) (fr : Frame) (s : σ) :
    evCall P ev [f] es vs fr s = callOf ev (assoc P.fns f) f es vs fr s := by
  simp only [evCall, callOf]
  cases assoc P.fns f <;> rfl

@[rs] theorem callOf_some (ev : Expr → Frame → σ → Out σ) (fn : Fn) (f : Name) (es : List Expr) (vs : List V) (fr : Frame) (s : σ) :
    callOf ev (some fn) f es vs fr s = called es (runFn ev fn vs s) fr := (rfl)

@[rs] theorem callOf_none (ev : Expr → Frame → σ → Out σ) (f : Name) (es : List Expr) (vs : List V) (fr : Frame) (s : σ) :
    callOf ev none f es vs fr s = .of (stdFn [f] vs) fr s := (rfl)

/-- A method of the device, implemented or not. -/
def methodOf (ev : Expr → Frame → σ → Out σ) (o : Option Fn) (e : Expr) (f : Name) (es : List Expr) (vs : List V) (fr : Frame) (s : σ) : Out σ :=
  match o with
  | some fn => called (e :: es) (runFn ev fn (.self :: vs) s) fr
  | none => match vs with
    | [v] => if f = n! "read_exact" then evReadExact H es v fr s else if f = n! "write_all" then evWriteAll H v fr s else .fail .stuck s
    | _ => .fail .stuck s

@[rs] theorem evSelf_of (ev : Expr → Frame → σ → Out σ) (e : Expr) (f : Name) (es : List Expr) (vs : List V) (fr : Frame) (s : σ) :
    evSelf P H ev e f es vs fr s = methodOf H ev (assoc P.methods f) e f es vs fr s := by
  unfold evSelf methodOf
  cases assoc P.methods f <;> rfl

@[rs] theorem methodOf_some (ev : Expr → Frame → σ → Out σ) (fn : Fn) (e : Expr) (f : Name) (es : List Expr) (vs : List V) (fr : Frame) (s : σ) :
    methodOf H ev (some fn) e f es vs fr s = called (e :: es) (runFn ev fn (.self :: vs) s) fr := (rfl)

/-- A constant of the program or of std. -/
def constOf (ev : Expr → Frame → σ → Out σ) (o : Option (Slot × Expr)) (x : Name) (fr : Frame) (s : σ) : Out σ :=
  match o with
  | some (t, e) => match ev e [] s with
    | .val v _ s => .val (asSlot t v) fr s
    | o => o
  | none => .of (stdPath [x]) fr s

/-- The end of a constant. -/
def constDone (t : Slot) (fr : Frame) : Out σ → Out σ
  | .val v _ s => .val (asSlot t v) fr s
  | o => o

@[rs] theorem evVar_none (ev : Expr → Frame → σ → Out σ) (x : Name) (fr : Frame) (s : σ) : evVar P ev x none fr s = constOf ev (assoc P.consts x) x fr s := by
  simp only [evVar, evConst, constOf]
  cases assoc P.consts x <;> rfl

@[rs] theorem constOf_some (ev : Expr → Frame → σ → Out σ) (t : Slot) (e : Expr) (x : Name) (fr : Frame) (s : σ) :
    constOf ev (some (t, e)) x fr s = constDone t fr (ev e [] s) := (rfl)

@[rs] theorem constDone_val (t : Slot) (v : V) (fr fr' : Frame) (s : σ) : constDone t fr (.val v fr' s) = .val (asSlot t v) fr s := (rfl)

@[rs] theorem binary_lits (a b : Nat) : binary cfg .mul (.lit a) (.lit b) = .ok (.lit (a * b)) := (rfl)

@[rs] theorem stdFn_ok (v : V) : stdFn [n! "Ok"] [v] = .ok (.ok v) := (rfl)
@[rs] theorem stdFn_err (v : V) : stdFn [n! "Err"] [v] = .ok (.err v) := (rfl)
@[rs] theorem stdPath_string : stdPath [n! "ThriftError", n! "InvalidString"] = .ok (.thrift .invalidString) := (rfl)
@[rs] theorem stdPath_collection : stdPath [n! "ThriftError", n! "InvalidCollectionLen"] = .ok (.thrift .invalidCollectionLen) := (rfl)
@[rs] theorem stdPath_type : stdPath [n! "ThriftError", n! "InvalidType"] = .ok (.thrift .invalidType) := (rfl)
@[rs] theorem stdPath_eof : stdPath [n! "ErrorKind", n! "UnexpectedEof"] = .ok (.kind .unexpectedEof) := (rfl)
@[rs] theorem stdFn_from (k : ErrorKind) : stdFn [n! "ThriftError", n! "from"] [.kind k] = .ok (.thrift (.io k)) := (rfl)
@[rs] theorem stdFn_binaryLen (n : BitVec 64) : stdFn [n! "ThriftError", n! "InvalidBinaryLen"] [.usize n] = .ok (.thrift (.invalidBinaryLen n.toNat)) := (rfl)
@[rs] theorem stdFn_owned (bs : Bytes) : stdFn [n! "Cow", n! "Owned"] [.bytes bs] = .ok (.cow true bs) := (rfl)
@[rs] theorem stdFn_borrowed (bs : Bytes) : stdFn [n! "Cow", n! "Borrowed"] [.bytes bs] = .ok (.cow false bs) := (rfl)

@[rs] theorem evCall_two (ev : Expr → Frame → σ → Out σ) (t f : Name) (es : List Expr) (vs : List V) (fr : Frame) (s : σ) :
    evCall P ev [t, f] es vs fr s = .of (stdFn [t, f] vs) fr s := (rfl)

@[rs] theorem evMethod_self (ev : Expr → Frame → σ → Out σ) (e : Expr) (f : Name) (es : List Expr) (vs : List V) (fr : Frame) (s : σ) :
    evMethod P H ev e f es .self vs fr s = evSelf P H ev e f es vs fr s := (rfl)

@[rs] theorem evMethod_bytes (ev : Expr → Frame → σ → Out σ) (e : Expr) (f : Name) (es : List Expr) (bs : Bytes) (vs : List V) (fr : Frame) (s : σ) :
    evMethod P H ev e f es (.bytes bs) vs fr s = evBytes e f bs vs fr s := (rfl)

@[rs] theorem Out.bind_assoc (o : Out σ) (f g : V → Frame → σ → Out σ) : (o.bind f).bind g = o.bind fun v fr s => (f v fr s).bind g := by
  cases o <;> rfl

@[rs] theorem Out.again_val (v : V) (fr : Frame) (s : σ) (k : Frame → σ → Out σ) : (Out.val v fr s).again k = k fr s := (rfl)
@[rs] theorem Out.again_brk (fr : Frame) (s : σ) (k : Frame → σ → Out σ) : (Out.brk fr s).again k = .val .unit fr s := (rfl)
@[rs] theorem Out.again_ret (v : V) (fr : Frame) (s : σ) (k : Frame → σ → Out σ) : (Out.ret v fr s).again k = .ret v fr s := (rfl)
@[rs] theorem Out.again_fail (f : Fail) (s : σ) (k : Frame → σ → Out σ) : (Out.fail f s).again k = .fail f s := (rfl)
@[rs] theorem bindPat_some (l : Scope) (fr : Frame) (s : σ) : bindPat (some l) fr s = .val .unit (fr.add l) s := (rfl)
@[rs] theorem deref_ref (v : V) : V.deref (.ref v) = v := (rfl)
@[rs] theorem deref_u8 (x : BitVec 8) : V.deref (.u8 x) = .u8 x := (rfl)
@[rs] theorem deref_i16 (x : BitVec 16) : V.deref (.i16 x) = .i16 x := (rfl)
@[rs] theorem putBack_u8 (e : Expr) (x : BitVec 8) (fr : Frame) : putBack e (.u8 x) fr = fr := by
  unfold putBack
  split <;> simp_all
@[rs] theorem putBack_u16 (e : Expr) (x : BitVec 16) (fr : Frame) : putBack e (.u16 x) fr = fr := by
  unfold putBack
  split <;> simp_all
@[rs] theorem putBack_u32 (e : Expr) (x : BitVec 32) (fr : Frame) : putBack e (.u32 x) fr = fr := by
  unfold putBack
  split <;> simp_all
@[rs] theorem putBack_u64 (e : Expr) (x : BitVec 64) (fr : Frame) : putBack e (.u64 x) fr = fr := by
  unfold putBack
  split <;> simp_all
@[rs] theorem putBack_usize (e : Expr) (x : BitVec 64) (fr : Frame) : putBack e (.usize x) fr = fr := by
  unfold putBack
  split <;> simp_all
@[rs] theorem putBack_i16 (e : Expr) (x : BitVec 16) (fr : Frame) : putBack e (.i16 x) fr = fr := by
  unfold putBack
  split <;> simp_all
@[rs] theorem putBack_i32 (e : Expr) (x : BitVec 32) (fr : Frame) : putBack e (.i32 x) fr = fr := by
  unfold putBack
  split <;> simp_all
@[rs] theorem putBack_i64 (e : Expr) (x : BitVec 64) (fr : Frame) : putBack e (.i64 x) fr = fr := by
  unfold putBack
  split <;> simp_all
@[rs] theorem putBack_f64 (e : Expr) (x : BitVec 64) (fr : Frame) : putBack e (.f64 x) fr = fr := by
  unfold putBack
  split <;> simp_all
@[rs] theorem putBack_bool (e : Expr) (x : Bool) (fr : Frame) : putBack e (.bool x) fr = fr := by
  unfold putBack
  split <;> simp_all
@[rs] theorem putBack_bytes (e : Expr) (x : Bytes) (fr : Frame) : putBack e (.bytes x) fr = fr := by
  unfold putBack
  split <;> simp_all
@[rs] theorem putBack_ref_var (x : Name) (w : V) (fr : Frame) : putBack (.ref true (.path [x])) (.ref w) fr = fr.put x w := (rfl)
@[rs] theorem putBack_ref_as (x m : Name) (w : V) (fr : Frame) : putBack (.method (.path [x]) m []) (.ref w) fr = fr.put x w := (rfl)
@[rs] theorem putBack_ref_path (x : Name) (w : V) (fr : Frame) : putBack (.path [x]) (.ref w) fr = fr.put x (.ref w) := (rfl)
@[rs] theorem putBack_self (e : Expr) (fr : Frame) : putBack e .self fr = fr := by
  unfold putBack
  split <;> simp_all


@[rs] theorem evMethod_u64 (ev : Expr → Frame → σ → Out σ) (e : Expr) (f : Name) (es : List Expr) (x : BitVec 64) (vs : List V) (fr : Frame) (s : σ) :
    evMethod P H ev e f es (.u64 x) vs fr s = .of (stdMethod f (.u64 x) vs) fr s := (rfl)
@[rs] theorem evMethod_i16 (ev : Expr → Frame → σ → Out σ) (e : Expr) (f : Name) (es : List Expr) (x : BitVec 16) (vs : List V) (fr : Frame) (s : σ) :
    evMethod P H ev e f es (.i16 x) vs fr s = .of (stdMethod f (.i16 x) vs) fr s := (rfl)
@[rs] theorem evMethod_i32 (ev : Expr → Frame → σ → Out σ) (e : Expr) (f : Name) (es : List Expr) (x : BitVec 32) (vs : List V) (fr : Frame) (s : σ) :
    evMethod P H ev e f es (.i32 x) vs fr s = .of (stdMethod f (.i32 x) vs) fr s := (rfl)
@[rs] theorem evMethod_f64 (ev : Expr → Frame → σ → Out σ) (e : Expr) (f : Name) (es : List Expr) (x : BitVec 64) (vs : List V) (fr : Frame) (s : σ) :
    evMethod P H ev e f es (.f64 x) vs fr s = .of (stdMethod f (.f64 x) vs) fr s := (rfl)
@[rs] theorem evMethod_cow (ev : Expr → Frame → σ → Out σ) (e : Expr) (f : Name) (es : List Expr) (o : Bool) (bs : Bytes) (vs : List V) (fr : Frame) (s : σ) :
    evMethod P H ev e f es (.cow o bs) vs fr s = .of (stdMethod f (.cow o bs) vs) fr s := (rfl)
@[rs] theorem evMethod_ok (ev : Expr → Frame → σ → Out σ) (e : Expr) (f : Name) (es : List Expr) (v : V) (vs : List V) (fr : Frame) (s : σ) :
    evMethod P H ev e f es (.ok v) vs fr s = .of (stdMethod f (.ok v) vs) fr s := (rfl)
@[rs] theorem std_wrapping_shl (x : BitVec 64) (k : BitVec 32) : stdMethod (n! "wrapping_shl") (.u64 x) [.u32 k] = .ok (.u64 (x <<< (k.toNat % 64))) := (rfl)
@[rs] theorem std_wrapping_sub (x y : BitVec 16) : stdMethod (n! "wrapping_sub") (.i16 x) [.i16 y] = .ok (.i16 (x - y)) := (rfl)
@[rs] theorem std_trailing_zeros (x : BitVec 32) : stdMethod (n! "trailing_zeros") (.i32 x) [] = .ok (.u32 (BitVec.ofNat 32 (trailingZeros x))) := (rfl)
@[rs] theorem std_to_le_bytes (x : BitVec 64) : stdMethod (n! "to_le_bytes") (.f64 x) [] = .ok (.bytes (toLeBytes 8 x)) := (rfl)
@[rs] theorem std_as_ref (o : Bool) (bs : Bytes) : stdMethod (n! "as_ref") (.cow o bs) [] = .ok (.bytes bs) := (rfl)
@[rs] theorem std_unwrap (v : V) : stdMethod (n! "unwrap") (.ok v) [] = .ok v := (rfl)
@[rs] theorem bytes_len (e : Expr) (bs : Bytes) (fr : Frame) (s : σ) : evBytes e (n! "len") bs [] fr s = .val (.usize (BitVec.ofNat 64 bs.length)) fr s := (rfl)
@[rs] theorem bytes_as_bytes (e : Expr) (bs : Bytes) (fr : Frame) (s : σ) : evBytes e (n! "as_bytes") bs [] fr s = .val (.bytes bs) fr s := (rfl)
@[rs] theorem bytes_as_ptr (e : Expr) (bs : Bytes) (fr : Frame) (s : σ) : evBytes e (n! "as_ptr") bs [] fr s = .val (.bytes bs) fr s := (rfl)
@[rs] theorem bytes_cast (e : Expr) (bs : Bytes) (fr : Frame) (s : σ) : evBytes e (n! "cast") bs [] fr s = .val (.bytes bs) fr s := (rfl)
@[rs] theorem bytes_into (e : Expr) (bs : Bytes) (fr : Frame) (s : σ) : evBytes e (n! "into") bs [] fr s = .val (.cow true bs) fr s := (rfl)
@[rs] theorem bytes_try_into (e : Expr) (bs : Bytes) (fr : Frame) (s : σ) : evBytes e (n! "try_into") bs [] fr s = .val (.ok (.bytes bs)) fr s := (rfl)
@[rs] theorem bytes_as_mut_slice (e : Expr) (bs : Bytes) (fr : Frame) (s : σ) : evBytes e (n! "as_mut_slice") bs [] fr s = .val (.ref (.bytes bs)) fr s := (rfl)
@[rs] theorem bytes_set_len (x : Name) (bs : Bytes) (k : BitVec 64) (fr : Frame) (s : σ) :
    evBytes (.path [x]) (n! "set_len") bs [.usize k] fr s = .val .unit (fr.put x (.bytes (List.replicate k.toNat 0#8))) s := (rfl)

/-- Assignment to a variable that is there or not. -/
def assignVar (o : Option V) (x : Name) (v : V) (fr : Frame) (s : σ) : Out σ :=
  match o with
  | some _ => .val .unit (fr.put x v) s
  | none => .fail .stuck s

/-- Assignment through a reference. -/
def assignRef (o : Option V) (x : Name) (v : V) (fr : Frame) (s : σ) : Out σ :=
  match o with
  | some (.ref _) => .val .unit (fr.put x (.ref v)) s
  | _ => .fail .stuck s

@[rs] theorem evAssign_var (x : Name) (v : V) (fr : Frame) (s : σ) : evAssign H (.path [x]) v fr s = assignVar (fr.get x) x v fr s := (rfl)
@[rs] theorem assignVar_some (w : V) (x : Name) (v : V) (fr : Frame) (s : σ) : assignVar (some w) x v fr s = .val .unit (fr.put x v) s := (rfl)
@[rs] theorem evAssign_ref (x : Name) (v : V) (fr : Frame) (s : σ) : evAssign H (.deref (.path [x])) v fr s = assignRef (fr.get x) x v fr s := (rfl)
@[rs] theorem assignRef_some (w : V) (x : Name) (v : V) (fr : Frame) (s : σ) : assignRef (some (.ref w)) x v fr s = .val .unit (fr.put x (.ref v)) s := (rfl)


/-- An arm that matches or not. -/
def armOf (ev : Expr → Frame → σ → Out σ) (o : Option Scope) (e : Expr) (arms : List (Pat × Expr)) (v : V) (fr : Frame) (s : σ) : Out σ :=
  match o with
  | some l => (ev e (l :: fr) s).leave
  | none => evArms ev arms v fr s

@[rs ↓] theorem evArms_cons (ev : Expr → Frame → σ → Out σ) (p : Pat) (e : Expr) (arms : List (Pat × Expr)) (v : V) (fr : Frame) (s : σ) :
    evArms ev ((p, e) :: arms) v fr s = armOf ev (matchPat p v) e arms v fr s := by
  simp only [evArms, armOf]
  cases matchPat p v <;> rfl
@[rs] theorem armOf_some (ev : Expr → Frame → σ → Out σ) (l : Scope) (e : Expr) (arms : List (Pat × Expr)) (v : V) (fr : Frame) (s : σ) :
    armOf ev (some l) e arms v fr s = (ev e (l :: fr) s).leave := (rfl)
@[rs] theorem armOf_none (ev : Expr → Frame → σ → Out σ) (e : Expr) (arms : List (Pat × Expr)) (v : V) (fr : Frame) (s : σ) :
    armOf ev none e arms v fr s = evArms ev arms v fr s := (rfl)
theorem armOf_congr {ev : Expr → Frame → σ → Out σ} {o o' : Option Scope} {e : Expr} {arms : List (Pat × Expr)} {v : V} {fr : Frame} {s : σ} (h : o = o') :
    armOf ev o e arms v fr s = armOf ev o' e arms v fr s := h ▸ rfl
attribute [congr] armOf_congr

/-- `map_err` -/
def mapErrOf (ev : Expr → Frame → σ → Out σ) (v : V) (c : Expr) (fr : Frame) (s : σ) : Out σ :=
  match v with
  | .err _ => (ev c fr s).bind fun w fr s => .val (.err w) fr s
  | v => .val v fr s

@[rs ↓] theorem eval_map_err (n : Nat) (e c : Expr) (fr : Frame) (s : σ) :
    eval cfg debug P H (n + 1) (.method e (n! "map_err") [.closure c]) fr s =
      (eval cfg debug P H n e fr s).bind fun v fr s => mapErrOf (eval cfg debug P H n) v c fr s := by
  rw [eval_succ]
  rfl
@[rs] theorem mapErr_ok (ev : Expr → Frame → σ → Out σ) (v : V) (c : Expr) (fr : Frame) (s : σ) : mapErrOf ev (.ok v) c fr s = .val (.ok v) fr s := (rfl)
@[rs] theorem mapErr_err (ev : Expr → Frame → σ → Out σ) (v : V) (c : Expr) (fr : Frame) (s : σ) :
    mapErrOf ev (.err v) c fr s = (ev c fr s).bind fun w fr s => .val (.err w) fr s := (rfl)
@[rs] theorem stdFn_from_utf8 (bs : Bytes) : stdFn [n! "from_utf8"] [.bytes bs] = .ok (if utf8Valid bs then .ok (.bytes bs) else .err .utf8Error) := (rfl)
@[rs] theorem stdFn_unchecked (v : V) : stdFn [n! "from_utf8_unchecked"] [v] = .ok v := (rfl)
@[rs] theorem stdFn_string_unchecked (v : V) : stdFn [n! "String", n! "from_utf8_unchecked"] [v] = .ok v := (rfl)
@[rs] theorem match_owned (o : Bool) (x : Name) (bs : Bytes) : matchPat (.con [n! "Cow", n! "Owned"] x) (.cow o bs) = if o then some [(x, .bytes bs)] else none := by
  cases o <;> rfl
@[rs] theorem match_borrowed (o : Bool) (x : Name) (bs : Bytes) :
    matchPat (.con [n! "Cow", n! "Borrowed"] x) (.cow o bs) = if o then none else some [(x, .bytes bs)] := by
  cases o <;> rfl
@[rs] theorem match_wild (v : V) : matchPat .wild v = some [] := (rfl)
@[rs] theorem match_name (x : Name) (v : V) : matchPat (.name x) v = some [(x, v)] := (rfl)
@[rs] theorem match_lit (k : Nat) (x : BitVec 8) : matchPat (.lit k) (.u8 x) = if x.toNat = k then some [] else none := (rfl)
@[rs] theorem match_range (a b : Nat) (x : BitVec 8) : matchPat (.range a b) (.u8 x) = if a ≤ x.toNat ∧ x.toNat ≤ b then some [] else none := (rfl)
@[rs] theorem match_alt (a b : Nat) (x : BitVec 8) : matchPat (.alt (.lit a) (.lit b)) (.u8 x) = if x.toNat = a then some [] else if x.toNat = b then some [] else none := by
  simp only [matchPat, patNat]
  split <;> rename_i h <;> split at h <;> simp_all
@[rs] theorem match_names2 (x y : Name) (a b : V) : matchPat (.names [x, y]) (.tuple [a, b]) = some [(x, a), (y, b)] := (rfl)
@[rs] theorem match_names3 (x y z : Name) (a b c : V) : matchPat (.names [x, y, z]) (.tuple [a, b, c]) = some [(x, a), (y, b), (z, c)] := (rfl)

/-- The rounds of `for`, kept folded. -/
def timesAt (n : Nat) (b : Expr) (k : Nat) (fr : Frame) (s : σ) : Out σ := evTimes (eval cfg debug P H n) b k fr s

@[rs] theorem evFor_u32 (n : Nat) (k : BitVec 32) (b : Expr) (fr : Frame) (s : σ) :
    evFor (eval cfg debug P H n) (.range (some (.lit 0)) (some (.u32 k))) b fr s = timesAt cfg debug P H n b k.toNat fr s := (rfl)

/-! ## Zigzag -/

theorem low_bit_ne {w : Nat} (x : BitVec w) (h : 1 < w) : x &&& 1#w ≠ BitVec.intMin w := by
  intro e
  have := congrArg (·.getLsbD (w - 1)) e
  have hw : w - 1 ≠ 0 := by omega
  simp [BitVec.getLsbD_intMin, BitVec.getLsbD_one, hw] at this
  omega

@[rs] theorem negated_i16 (x : BitVec 16) : negated cfg (.i16 (x &&& 1#16)) = .ok (.i16 (-(x &&& 1#16))) := by
  simp [negated, low_bit_ne]
@[rs] theorem negated_i32 (x : BitVec 32) : negated cfg (.i32 (x &&& 1#32)) = .ok (.i32 (-(x &&& 1#32))) := by
  simp [negated, low_bit_ne]
@[rs] theorem negated_i64 (x : BitVec 64) : negated cfg (.i64 (x &&& 1#64)) = .ok (.i64 (-(x &&& 1#64))) := by
  simp [negated, low_bit_ne]

theorem run_zigzag_decode16 (x : BitVec 16) (s : σ) (n : Nat) :
    runFn (eval cfg debug P H (n + 10)) fn_zigzag_decode16 [.u16 x] s = .ret (.i16 (zigzagDecode x)) [.u16 x] s := by
  simp only [rs, runFn, fn_zigzag_decode16, reduceIte, BitVec.setWidth_eq, zigzagDecode]

theorem run_zigzag_decode32 (x : BitVec 32) (s : σ) (n : Nat) :
    runFn (eval cfg debug P H (n + 10)) fn_zigzag_decode32 [.u32 x] s = .ret (.i32 (zigzagDecode x)) [.u32 x] s := by
  simp only [rs, runFn, fn_zigzag_decode32, reduceIte, BitVec.setWidth_eq, zigzagDecode]

theorem run_zigzag_decode64 (x : BitVec 64) (s : σ) (n : Nat) :
    runFn (eval cfg debug P H (n + 10)) fn_zigzag_decode64 [.u64 x] s = .ret (.i64 (zigzagDecode x)) [.u64 x] s := by
  simp only [rs, runFn, fn_zigzag_decode64, reduceIte, BitVec.setWidth_eq, zigzagDecode]

@[rs] theorem run_zigzag_decode16_any (x : BitVec 64) (s : σ) (n : Nat) :
    runFn (eval cfg debug P H (n + 10)) fn_zigzag_decode16 [.asAny (.u64 x)] s = .ret (.i16 (zigzagDecode (x.setWidth 16))) [.u16 (x.setWidth 16)] s := by
  rw [← run_zigzag_decode16 cfg debug P H _ s n]
  rfl

@[rs] theorem run_zigzag_decode32_any (x : BitVec 64) (s : σ) (n : Nat) :
    runFn (eval cfg debug P H (n + 10)) fn_zigzag_decode32 [.asAny (.u64 x)] s = .ret (.i32 (zigzagDecode (x.setWidth 32))) [.u32 (x.setWidth 32)] s := by
  rw [← run_zigzag_decode32 cfg debug P H _ s n]
  rfl

@[rs] theorem run_zigzag_decode64_any (x : BitVec 64) (s : σ) (n : Nat) :
    runFn (eval cfg debug P H (n + 10)) fn_zigzag_decode64 [.asAny (.u64 x)] s = .ret (.i64 (zigzagDecode (x.setWidth 64))) [.u64 (x.setWidth 64)] s := by
  rw [← run_zigzag_decode64 cfg debug P H _ s n]
  rfl

theorem run_zigzag_encode16 (x : BitVec 16) (s : σ) (n : Nat) :
    runFn (eval cfg debug P H (n + 10)) fn_zigzag_encode16 [.i16 x] s = .ret (.u16 (zigzagEncode x)) [.i16 x] s := by
  simp only [rs, runFn, fn_zigzag_encode16, reduceIte, BitVec.signExtend_eq, zigzagEncode]

theorem run_zigzag_encode32 (x : BitVec 32) (s : σ) (n : Nat) :
    runFn (eval cfg debug P H (n + 10)) fn_zigzag_encode32 [.i32 x] s = .ret (.u32 (zigzagEncode x)) [.i32 x] s := by
  simp only [rs, runFn, fn_zigzag_encode32, reduceIte, BitVec.signExtend_eq, zigzagEncode]

theorem run_zigzag_encode64 (x : BitVec 64) (s : σ) (n : Nat) :
    runFn (eval cfg debug P H (n + 10)) fn_zigzag_encode64 [.i64 x] s = .ret (.u64 (zigzagEncode x)) [.i64 x] s := by
  simp only [rs, runFn, fn_zigzag_encode64, reduceIte, BitVec.signExtend_eq, zigzagEncode]
end

end CT.Rs
