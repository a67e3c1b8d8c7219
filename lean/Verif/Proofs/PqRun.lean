import Verif.Model.PqRun
import Verif.Model.PqTable
import Verif.Proofs.PqAttr
/-!
# Evaluating the functions of the parquet crate
-/
namespace CT.Pq
open CT CT.Parquet
open CT.Rs (Name ITy BinOp)

@[pq] theorem Out.bind_val (v : V) (fr : Frame) (w : World) (k : V → Frame → World → Out) : (Out.val v fr w).bind k = k v fr w := (rfl)
@[pq] theorem Out.bind_ret (v : V) (fr : Frame) (w : World) (k : V → Frame → World → Out) : (Out.ret v fr w).bind k = .ret v fr w := (rfl)
@[pq] theorem Out.bind_fail (f : PFail) (w : World) (k : V → Frame → World → Out) : (Out.fail f w).bind k = .fail f w := (rfl)
@[pq] theorem Out.leave_val (v : V) (fr : Frame) (w : World) : (Out.val v fr w).leave = .val v fr.tail w := (rfl)
@[pq] theorem Out.leave_ret (v : V) (fr : Frame) (w : World) : (Out.ret v fr w).leave = .ret v fr.tail w := (rfl)
@[pq] theorem Out.leave_fail (f : PFail) (w : World) : (Out.fail f w).leave = .fail f w := (rfl)
@[pq] theorem Out.of_ok (v : V) (fr : Frame) (w : World) : Out.of (.ok v) fr w = .val v fr w := (rfl)
@[pq] theorem Out.of_error (f : Fail) (fr : Frame) (w : World) : Out.of (.error f) fr w = .fail (.ofFail f) w := (rfl)
@[pq] theorem Out.ofOption_some (v : V) (fr : Frame) (w : World) : Out.ofOption (some v) fr w = .val v fr w := (rfl)
theorem Out.bind_congr {o o' : Out} {k : V → Frame → World → Out} (h : o = o') : o.bind k = o'.bind k := h ▸ rfl
attribute [congr] Out.bind_congr

attribute [pq] Frame.get Scope.get Frame.put Scope.put Rs.castU Rs.castS Except.map Rs.ofNat List.tail List.map List.headD bound putBacks
  List.nil_append List.cons_append PFail.ofFail V.ok V.err V.some V.none V.io V.thrift typeName conArgs isConst isRecord matchPats matchFields matchField matchRef
  Scope.append rebuild rebuilds rebuildFields rebuildField litOp eqOp binBase binV negV castV posOf slicedAt indexV V.deref bytesOf stdPath stdFn stdMethod
  finished runFn putBack called progFn evCapacity evStdCall evStdCall.evRest evLib evCall applied evApply evFile backOf seekBy evInput evFill evChange evWith evStdMethod
  evMethod evTry written leaveArm evFor bindPat evIfLet evAssign evIf pathValue evConst evVar evPath recordV typed arrayV evAssert evAnd evOr evNot fillV assoc
  fieldOf asSlot Rs.asType Rs.castTo Rs.binary Rs.binU Rs.binS Rs.negated enumConst

@[pq] theorem Frame.add_cons (sc : Scope) (fr : Frame) (l : Scope) : Frame.add (sc :: fr) l = (l ++ sc) :: fr := (rfl)

@[pq] theorem opt_unwrapS (v : V) : optMethod (n! "unwrap") [n! "Some"] [v] [] = .ok v := (rfl)
@[pq] theorem opt_as_refS (v : V) : optMethod (n! "as_ref") [n! "Some"] [v] [] = .ok (.some v) := (rfl)
@[pq] theorem opt_is_noneS (v : V) : optMethod (n! "is_none") [n! "Some"] [v] [] = .ok (.base (.bool false)) := (rfl)
@[pq] theorem opt_transposeSO (v : V) : optMethod (n! "transpose") [n! "Some"] [.con [n! "Ok"] [v]] [] = .ok (.ok (.some v)) := (rfl)
@[pq] theorem opt_transposeSE (v : V) : optMethod (n! "transpose") [n! "Some"] [.con [n! "Err"] [v]] [] = .ok (.err v) := (rfl)
@[pq] theorem opt_unwrap_orS (v u : V) : optMethod (n! "unwrap_or") [n! "Some"] [v] [u] = .ok v := (rfl)
@[pq] theorem opt_ok_orS (v u : V) : optMethod (n! "ok_or") [n! "Some"] [v] [u] = .ok (.ok v) := (rfl)
@[pq] theorem opt_as_refN : optMethod (n! "as_ref") [n! "None"] [] [] = .ok .none := (rfl)
@[pq] theorem opt_is_noneN : optMethod (n! "is_none") [n! "None"] [] [] = .ok (.base (.bool true)) := (rfl)
@[pq] theorem opt_transposeN : optMethod (n! "transpose") [n! "None"] [] [] = .ok (.ok .none) := (rfl)
@[pq] theorem opt_unwrap_orN (u : V) : optMethod (n! "unwrap_or") [n! "None"] [] [u] = .ok u := (rfl)
@[pq] theorem opt_ok_orN (u : V) : optMethod (n! "ok_or") [n! "None"] [] [u] = .ok (.err u) := (rfl)
@[pq] theorem opt_unwrapO (v : V) : optMethod (n! "unwrap") [n! "Ok"] [v] [] = .ok v := (rfl)
@[pq] theorem opt_okO (v : V) : optMethod (n! "ok") [n! "Ok"] [v] [] = .ok (.some v) := (rfl)
@[pq] theorem opt_okE (v : V) : optMethod (n! "ok") [n! "Err"] [v] [] = .ok .none := (rfl)

section
variable (enums : List (Name × List (Name × Nat))) (m : Bool)
@[pq] theorem matchPat_wild (v : V) : matchPat enums m .wild v = some [] := (rfl)
@[pq] theorem matchPat_name (x : Name) (v : V) : matchPat enums m (.name x) v = some [(x, if m then .ref v else v)] := (rfl)
@[pq] theorem matchPat_tuple (ps : List Pat) (vs : List V) : matchPat enums m (.tuple ps) (.tuple vs) = matchPats enums m ps vs := (rfl)
@[pq] theorem matchPat_con (path : List Name) (ps : List Pat) (v : V) : matchPat enums m (.con path ps) v = match conArgs path v with
    | Option.some vs => matchPats enums m ps vs
    | Option.none => Option.none := (rfl)
@[pq] theorem matchPat_const (path : List Name) (v : V) : matchPat enums m (.const path) v = if isConst enums path v then some [] else none := (rfl)
@[pq] theorem matchPat_record (path : List Name) (fs : List (Name × Pat)) (v : V) :
    matchPat enums m (.record path fs) v = if isRecord path v then matchFields enums m fs v else none := (rfl)
@[pq] theorem matchPat_alt (p q : Pat) (v : V) : matchPat enums m (.alt p q) v = match matchPat enums m p v with
    | Option.some l => Option.some l
    | Option.none => matchPat enums m q v := (rfl)
end

section
variable (cfg : Cfg) (capacity : Nat → Except PFail Unit) (P : Prog)

section
variable (ev : Expr → Frame → World → Out)
@[pq ↓] theorem evBlock_nil (fr : Frame) (w : World) : evBlock ev [] fr w = .val .unit fr w := (rfl)
@[pq ↓] theorem evBlock_one (e : Expr) (fr : Frame) (w : World) : evBlock ev [e] fr w = ev e fr w := (rfl)
@[pq ↓] theorem evBlock_cons (e e' : Expr) (es : List Expr) (fr : Frame) (w : World) :
    evBlock ev (e :: e' :: es) fr w = (ev e fr w).bind fun _ fr w => evBlock ev (e' :: es) fr w := (rfl)
@[pq ↓] theorem evArgs_nil (k : List V → Frame → World → Out) (fr : Frame) (w : World) : evArgs ev [] k fr w = k [] fr w := (rfl)
@[pq ↓] theorem evArgs_cons (e : Expr) (es : List Expr) (k : List V → Frame → World → Out) (fr : Frame) (w : World) :
    evArgs ev (e :: es) k fr w = (ev e fr w).bind fun v fr w => evArgs ev es (fun vs => k (v :: vs)) fr w := (rfl)
@[pq ↓] theorem evFields_nil (k : List (Name × V) → Frame → World → Out) (fr : Frame) (w : World) : evFields ev [] k fr w = k [] fr w := (rfl)
@[pq ↓] theorem evFields_cons (x : Name) (e : Expr) (es : List (Name × Expr)) (k : List (Name × V) → Frame → World → Out) (fr : Frame) (w : World) :
    evFields ev ((x, e) :: es) k fr w = (ev e fr w).bind fun v fr w => evFields ev es (fun vs => k ((x, v) :: vs)) fr w := (rfl)
@[pq ↓] theorem evEnd_some (e : Expr) (k : Option V → Frame → World → Out) (fr : Frame) (w : World) :
    evEnd ev (some e) k fr w = (ev e fr w).bind fun v fr w => k (some v) fr w := (rfl)
@[pq ↓] theorem evEnd_none (k : Option V → Frame → World → Out) (fr : Frame) (w : World) : evEnd ev none k fr w = k none fr w := (rfl)
@[pq] theorem evOpt_some (e : Expr) (fr : Frame) (w : World) : evOpt ev (some e) fr w = ev e fr w := (rfl)
@[pq] theorem evOpt_none (fr : Frame) (w : World) : evOpt ev none fr w = .val .unit fr w := (rfl)
@[pq ↓] theorem evArms_cons (e : Expr) (p : Pat) (b : Expr) (arms : List (Pat × Expr)) (v : V) (fr : Frame) (w : World) :
    evArms P ev e ((p, b) :: arms) v fr w = match matchRef P.enums p v with
      | Option.some l => leaveArm e p v (ev b (l :: fr) w)
      | Option.none => evArms P ev e arms v fr w := (rfl)
end

/-- `while` once its condition is known, kept folded. -/
def whileAt (n : Nat) (c b : Expr) (v : V) (fr : Frame) (w : World) : Out := evWhile (eval cfg capacity P n) v c b fr w

/-- The rounds of `for`, kept folded. -/
def eachAt (n : Nat) (p : Pat) (b : Expr) (v : V) (fr : Frame) (w : World) : Out := evFor P (eval cfg capacity P n) p v b fr w

@[pq ↓] theorem eval_lit (n : Nat) (k : Nat) (fr : Frame) (w : World) :
    eval cfg capacity P (n + 1) (.lit k none) fr w = .val (.base (.lit k)) fr w := (rfl)

@[pq ↓] theorem eval_litT (n : Nat) (k : Nat) (t : ITy) (fr : Frame) (w : World) :
    eval cfg capacity P (n + 1) (.lit k (some t)) fr w = .val (.base (Rs.ofNat t k)) fr w := (rfl)

@[pq ↓] theorem eval_str (n : Nat) (s : Name) (fr : Frame) (w : World) :
    eval cfg capacity P (n + 1) (.str s) fr w = .val (.str s) fr w := (rfl)

@[pq ↓] theorem eval_bool (n : Nat) (b : Bool) (fr : Frame) (w : World) :
    eval cfg capacity P (n + 1) (.bool b) fr w = .val (.base (.bool b)) fr w := (rfl)

@[pq ↓] theorem eval_path (n : Nat) (p : List Name) (fr : Frame) (w : World) :
    eval cfg capacity P (n + 1) (.path p) fr w = evPath P (eval cfg capacity P n) p fr w := (rfl)

@[pq ↓] theorem eval_tuple (n : Nat) (es : List Expr) (fr : Frame) (w : World) :
    eval cfg capacity P (n + 1) (.tuple es) fr w = evArgs (eval cfg capacity P n) es (fun vs fr w => .val (.tuple vs) fr w) fr w := (rfl)

@[pq ↓] theorem eval_fill (n : Nat) (e : Expr) (k : Nat) (fr : Frame) (w : World) :
    eval cfg capacity P (n + 1) (.fill e k) fr w = (eval cfg capacity P n e fr w).bind fun v fr w => .ofOption (fillV k v) fr w := (rfl)

@[pq ↓] theorem eval_array (n : Nat) (es : List Expr) (fr : Frame) (w : World) :
    eval cfg capacity P (n + 1) (.array es) fr w = evArgs (eval cfg capacity P n) es (fun vs fr w => .ofOption (arrayV vs) fr w) fr w := (rfl)

@[pq ↓] theorem eval_record (n : Nat) (p : List Name) (fs : List (Name × Expr)) (fr : Frame) (w : World) :
    eval cfg capacity P (n + 1) (.record p fs) fr w = evFields (eval cfg capacity P n) fs (fun fs fr w => .val (recordV P p fs) fr w) fr w := (rfl)

@[pq ↓] theorem eval_neg (n : Nat) (e : Expr) (fr : Frame) (w : World) :
    eval cfg capacity P (n + 1) (.neg e) fr w = (eval cfg capacity P n e fr w).bind fun v fr w => .of (negV cfg v) fr w := (rfl)

@[pq ↓] theorem eval_not (n : Nat) (e : Expr) (fr : Frame) (w : World) :
    eval cfg capacity P (n + 1) (.not e) fr w = (eval cfg capacity P n e fr w).bind fun v fr w => evNot v fr w := (rfl)

@[pq ↓] theorem eval_deref (n : Nat) (e : Expr) (fr : Frame) (w : World) :
    eval cfg capacity P (n + 1) (.deref e) fr w = (eval cfg capacity P n e fr w).bind fun v fr w => .val v.deref fr w := (rfl)

@[pq ↓] theorem eval_ref (n : Nat) (m : Bool) (e : Expr) (fr : Frame) (w : World) :
    eval cfg capacity P (n + 1) (.ref m e) fr w = (eval cfg capacity P n e fr w).bind fun v fr w => .val (if m then .ref v else v) fr w := (rfl)

@[pq ↓] theorem eval_bin (n : Nat) (op : BinOp) (a b : Expr) (fr : Frame) (w : World) :
    eval cfg capacity P (n + 1) (.bin op a b) fr w = (eval cfg capacity P n a fr w).bind fun x fr w => (eval cfg capacity P n b fr w).bind fun y fr w => .of (binV cfg op x y) fr w := (rfl)

@[pq ↓] theorem eval_and (n : Nat) (a b : Expr) (fr : Frame) (w : World) :
    eval cfg capacity P (n + 1) (.and a b) fr w = (eval cfg capacity P n a fr w).bind fun x fr w => evAnd (eval cfg capacity P n) x b fr w := (rfl)

@[pq ↓] theorem eval_or (n : Nat) (a b : Expr) (fr : Frame) (w : World) :
    eval cfg capacity P (n + 1) (.or a b) fr w = (eval cfg capacity P n a fr w).bind fun x fr w => evOr (eval cfg capacity P n) x b fr w := (rfl)

@[pq ↓] theorem eval_cast (n : Nat) (e : Expr) (t : ITy) (fr : Frame) (w : World) :
    eval cfg capacity P (n + 1) (.cast e (some t)) fr w = (eval cfg capacity P n e fr w).bind fun v fr w => .of (castV t v) fr w := (rfl)

@[pq ↓] theorem eval_field (n : Nat) (e : Expr) (x : Name) (fr : Frame) (w : World) :
    eval cfg capacity P (n + 1) (.field e x) fr w = (eval cfg capacity P n e fr w).bind fun v fr w => .ofOption (fieldOf v x) fr w := (rfl)

@[pq ↓] theorem eval_index (n : Nat) (e i : Expr) (fr : Frame) (w : World) :
    eval cfg capacity P (n + 1) (.index e i) fr w = (eval cfg capacity P n e fr w).bind fun v fr w => (eval cfg capacity P n i fr w).bind fun u fr w => .of (indexV v u) fr w := (rfl)

@[pq ↓] theorem eval_range (n : Nat) (lo hi : Option Expr) (fr : Frame) (w : World) :
    eval cfg capacity P (n + 1) (.range lo hi) fr w = evEnd (eval cfg capacity P n) lo (fun a fr w => evEnd (eval cfg capacity P n) hi (fun b fr w => .val (.range a b) fr w) fr w) fr w := (rfl)

@[pq ↓] theorem eval_call (n : Nat) (f : List Name) (es : List Expr) (fr : Frame) (w : World) :
    eval cfg capacity P (n + 1) (.call f es) fr w = evArgs (eval cfg capacity P n) es (fun vs fr w => evCall cfg capacity P (eval cfg capacity P n) f es vs fr w) fr w := (rfl)

@[pq ↓] theorem eval_method (n : Nat) (e : Expr) (f : Name) (es : List Expr) (fr : Frame) (w : World) :
    eval cfg capacity P (n + 1) (.method e f es) fr w = (eval cfg capacity P n e fr w).bind fun v fr w => evArgs (eval cfg capacity P n) es (fun vs fr w => evMethod cfg capacity P (eval cfg capacity P n) e f es v vs fr w) fr w := (rfl)

@[pq ↓] theorem eval_try (n : Nat) (e : Expr) (fr : Frame) (w : World) :
    eval cfg capacity P (n + 1) (.try e) fr w = (eval cfg capacity P n e fr w).bind fun v fr w => evTry P (eval cfg capacity P n) v fr w := (rfl)

@[pq ↓] theorem eval_assert (n : Nat) (es : List Expr) (fr : Frame) (w : World) :
    eval cfg capacity P (n + 1) (.mac (n! "assert") es) fr w = evArgs (eval cfg capacity P n) es evAssert fr w := (rfl)

@[pq ↓] theorem eval_print (n : Nat) (s : Name) (es : List Expr) (fr : Frame) (w : World) :
    eval cfg capacity P (n + 1) (.mac (n! "print") (.str s :: es)) fr w =
      evArgs (eval cfg capacity P n) es (fun vs fr w => evPrint P (eval cfg capacity P n) (formatted (formatOf s) vs fr) fr w) fr w := (rfl)

@[pq ↓] theorem eval_println (n : Nat) (s : Name) (es : List Expr) (fr : Frame) (w : World) :
    eval cfg capacity P (n + 1) (.mac (n! "println") (.str s :: es)) fr w =
      evArgs (eval cfg capacity P n) es (fun vs fr w => evPrint P (eval cfg capacity P n) ((formatted (formatOf s) vs fr).map (· ++ [.base (.bytes [10])])) fr w) fr w := (rfl)

@[pq ↓] theorem eval_format_args (n : Nat) (s : Name) (es : List Expr) (fr : Frame) (w : World) :
    eval cfg capacity P (n + 1) (.mac (n! "format_args") (.str s :: es)) fr w =
      evArgs (eval cfg capacity P n) es (fun vs fr w => .ofOption ((formatted (formatOf s) vs fr).map (.con [n! "Arguments"])) fr w) fr w := (rfl)

@[pq ↓] theorem eval_chr (n : Nat) (c : Name) (fr : Frame) (w : World) :
    eval cfg capacity P (n + 1) (.chr c) fr w = .val (.con [n! "char"] [.base (.lit c)]) fr w := (rfl)

@[pq ↓] theorem eval_lambda (n : Nat) (x : Name) (e : Expr) (fr : Frame) (w : World) :
    eval cfg capacity P (n + 1) (.lambda x e) fr w = .val (.lambda x e fr) fr w := (rfl)

@[pq ↓] theorem eval_ite (n : Nat) (c t : Expr) (e : Option Expr) (fr : Frame) (w : World) :
    eval cfg capacity P (n + 1) (.ite c t e) fr w = (eval cfg capacity P n c fr w).bind fun v fr w => evIf (eval cfg capacity P n) v t e fr w := (rfl)

@[pq ↓] theorem eval_iteLet (n : Nat) (p : Pat) (v t : Expr) (e : Option Expr) (fr : Frame) (w : World) :
    eval cfg capacity P (n + 1) (.iteLet p v t e) fr w = (eval cfg capacity P n v fr w).bind fun u fr w => evIfLet P (eval cfg capacity P n) v p u t e fr w := (rfl)

@[pq ↓] theorem eval_select (n : Nat) (e : Expr) (arms : List (Pat × Expr)) (fr : Frame) (w : World) :
    eval cfg capacity P (n + 1) (.select e arms) fr w = (eval cfg capacity P n e fr w).bind fun v fr w => evArms P (eval cfg capacity P n) e arms v fr w := (rfl)

@[pq ↓] theorem eval_block (n : Nat) (es : List Expr) (fr : Frame) (w : World) :
    eval cfg capacity P (n + 1) (.block es) fr w = (evBlock (eval cfg capacity P n) es ([] :: fr) w).leave := (rfl)

@[pq ↓] theorem eval_semi (n : Nat) (e : Expr) (fr : Frame) (w : World) :
    eval cfg capacity P (n + 1) (.semi e) fr w = (eval cfg capacity P n e fr w).bind fun _ fr w => .val .unit fr w := (rfl)

@[pq ↓] theorem eval_bind (n : Nat) (p : Pat) (e : Expr) (fr : Frame) (w : World) :
    eval cfg capacity P (n + 1) (.bind p e) fr w = (eval cfg capacity P n e fr w).bind fun v fr w => bindPat (matchPat P.enums false p v) fr w := (rfl)

@[pq ↓] theorem eval_ret (n : Nat) (e : Option Expr) (fr : Frame) (w : World) :
    eval cfg capacity P (n + 1) (.ret e) fr w = (evOpt (eval cfg capacity P n) e fr w).bind fun v fr w => .ret v fr w := (rfl)

@[pq ↓] theorem eval_assign (n : Nat) (l r : Expr) (fr : Frame) (w : World) :
    eval cfg capacity P (n + 1) (.assign l r) fr w = (eval cfg capacity P n r fr w).bind fun v fr w => evAssign l v fr w := (rfl)

@[pq ↓] theorem eval_assignOp (n : Nat) (op : BinOp) (l r : Expr) (fr : Frame) (w : World) :
    eval cfg capacity P (n + 1) (.assignOp op l r) fr w = (eval cfg capacity P n r fr w).bind fun v fr w => (eval cfg capacity P n l fr w).bind fun u fr w => (Out.of (binV cfg op u v) fr w).bind fun x fr w => evAssign l x fr w := (rfl)

@[pq ↓] theorem eval_while (n : Nat) (c b : Expr) (fr : Frame) (w : World) :
    eval cfg capacity P (n + 1) (.while c b) fr w = (eval cfg capacity P n c fr w).bind (whileAt cfg capacity P n c b) := (rfl)

@[pq ↓] theorem eval_for (n : Nat) (p : Pat) (e b : Expr) (fr : Frame) (w : World) :
    eval cfg capacity P (n + 1) (.for p e b) fr w = (eval cfg capacity P n e fr w).bind (eachAt cfg capacity P n p b) := (rfl)

end

/-- Evaluates as far as possible. -/
macro "pq_simp" "[" ls:Lean.Parser.Tactic.simpLemma,* "]" : tactic =>
  `(tactic| simp only [pq, reduceIte, Nat.reduceEqDiff, Nat.reduceAdd, List.cons.injEq, and_true, true_and, and_false, false_and, reduceCtorEq, or_true, true_or, or_false, false_or,
    and_self, Bool.false_eq_true, Option.map_some, Option.map_none, List.append_nil, ne_eq, not_false_eq_true, $ls,*])

end CT.Pq
