import Verif.Model.TypesRun
import Verif.Proofs.RustRun
/-!
# Evaluating the functions of types.rs and encodings.rs
-/
namespace CT.Rs
open CT

section
variable {δ : Type} (C : Ctx δ)

@[rs ↓] theorem evalT_lit (n k : Nat) (fr : Frame) (m : Mem δ) : evalT C (n + 1) (.lit k none) fr m = .val (.lit k) fr m := (rfl)
@[rs ↓] theorem evalT_litT (n k : Nat) (t : ITy) (fr : Frame) (m : Mem δ) : evalT C (n + 1) (.lit k (some t)) fr m = .val (ofNat t k) fr m := (rfl)
@[rs ↓] theorem evalT_path (n : Nat) (p : List Name) (fr : Frame) (m : Mem δ) : evalT C (n + 1) (.path p) fr m = evPathT C (evalT C n) p fr m := (rfl)
@[rs ↓] theorem evalT_tuple (n : Nat) (es : List Expr) (fr : Frame) (m : Mem δ) :
    evalT C (n + 1) (.tuple es) fr m = evArgs (evalT C n) es (fun vs fr m => .val (.tuple vs) fr m) fr m := (rfl)
@[rs ↓] theorem evalT_not (n : Nat) (e : Expr) (fr : Frame) (m : Mem δ) :
    evalT C (n + 1) (.not e) fr m = (evalT C n e fr m).bind fun v fr m => .of (inverted v) fr m := (rfl)
@[rs ↓] theorem evalT_deref (n : Nat) (e : Expr) (fr : Frame) (m : Mem δ) :
    evalT C (n + 1) (.deref e) fr m = (evalT C n e fr m).bind fun v fr m => evDeref C v fr m := (rfl)
@[rs ↓] theorem evalT_ref (n : Nat) (b : Bool) (e : Expr) (fr : Frame) (m : Mem δ) :
    evalT C (n + 1) (.ref b e) fr m = (evalT C n e fr m).bind fun v fr m => .val (if b then .ref v else v) fr m := (rfl)
@[rs ↓] theorem evalT_bin (n : Nat) (op : BinOp) (a b : Expr) (fr : Frame) (m : Mem δ) :
    evalT C (n + 1) (.bin op a b) fr m = (evalT C n a fr m).bind fun x fr m => (evalT C n b fr m).bind fun y fr m => .of (binaryT C.cfg op x y) fr m := (rfl)

/-- `a && b` once `a` is known -/
def andT (ev : Expr → Frame → Mem δ → Out (Mem δ)) (b : Expr) (x : V) (fr : Frame) (m : Mem δ) : Out (Mem δ) :=
  match x with
  | .bool true => ev b fr m
  | .bool false => .val (.bool false) fr m
  | _ => .fail .stuck m

/-- `a || b` once `a` is known -/
def orT (ev : Expr → Frame → Mem δ → Out (Mem δ)) (b : Expr) (x : V) (fr : Frame) (m : Mem δ) : Out (Mem δ) :=
  match x with
  | .bool false => ev b fr m
  | .bool true => .val (.bool true) fr m
  | _ => .fail .stuck m

@[rs] theorem andT_true (ev : Expr → Frame → Mem δ → Out (Mem δ)) (b : Expr) (fr : Frame) (m : Mem δ) : andT ev b (.bool true) fr m = ev b fr m := (rfl)
@[rs] theorem andT_false (ev : Expr → Frame → Mem δ → Out (Mem δ)) (b : Expr) (fr : Frame) (m : Mem δ) : andT ev b (.bool false) fr m = .val (.bool false) fr m := (rfl)
@[rs] theorem orT_true (ev : Expr → Frame → Mem δ → Out (Mem δ)) (b : Expr) (fr : Frame) (m : Mem δ) : orT ev b (.bool true) fr m = .val (.bool true) fr m := (rfl)
@[rs] theorem orT_false (ev : Expr → Frame → Mem δ → Out (Mem δ)) (b : Expr) (fr : Frame) (m : Mem δ) : orT ev b (.bool false) fr m = ev b fr m := (rfl)

@[rs ↓] theorem evalT_and (n : Nat) (a b : Expr) (fr : Frame) (m : Mem δ) :
    evalT C (n + 1) (.and a b) fr m = (evalT C n a fr m).bind (andT (evalT C n) b) := (rfl)
@[rs ↓] theorem evalT_or (n : Nat) (a b : Expr) (fr : Frame) (m : Mem δ) :
    evalT C (n + 1) (.or a b) fr m = (evalT C n a fr m).bind (orT (evalT C n) b) := (rfl)
@[rs ↓] theorem evalT_cast (n : Nat) (e : Expr) (t : ITy) (fr : Frame) (m : Mem δ) :
    evalT C (n + 1) (.cast e (some t)) fr m = (evalT C n e fr m).bind fun v fr m => .of (castTo t v) fr m := (rfl)
@[rs ↓] theorem evalT_castPtr (n : Nat) (e : Expr) (fr : Frame) (m : Mem δ) : evalT C (n + 1) (.cast e none) fr m = evalT C n e fr m := (rfl)
@[rs ↓] theorem evalT_field (n : Nat) (e : Expr) (k : Nat) (fr : Frame) (m : Mem δ) :
    evalT C (n + 1) (.field e k) fr m = (evalT C n e fr m).bind fun v fr m => evFieldT C v k fr m := (rfl)
@[rs ↓] theorem evalT_range (n : Nat) (lo hi : Option Expr) (fr : Frame) (m : Mem δ) :
    evalT C (n + 1) (.range lo hi) fr m =
      evEnd (evalT C n) lo (fun a fr m => evEnd (evalT C n) hi (fun b fr m => .val (.range a b) fr m) fr m) fr m := (rfl)
@[rs ↓] theorem evalT_gen (n : Nat) (x : Name) (c : Expr) (fr : Frame) (m : Mem δ) :
    evalT C (n + 1) (.call [n! "std", n! "iter", n! "from_fn"] [.lambda x c]) fr m = .val (.gen c fr.flatten) fr m := (rfl)
@[rs ↓] theorem evalT_call0 (n : Nat) (f : List Name)  (fr : Frame) (m : Mem δ) :
    evalT C (n + 1) (.call f []) fr m = evArgs (evalT C n) [] (fun vs fr m => evCallT C f [] vs fr m) fr m := (rfl)
@[rs ↓] theorem evalT_method0 (n : Nat) (e : Expr) (f : Name)  (fr : Frame) (m : Mem δ) :
    evalT C (n + 1) (.method e f []) fr m =
      (evalT C n e fr m).bind fun v fr m => evArgs (evalT C n) [] (fun vs fr m => evMethodT C (evalT C n) e f [] v vs fr m) fr m := (rfl)
@[rs ↓] theorem evalT_callPath (n : Nat) (f : List Name) (p : List Name) (fr : Frame) (m : Mem δ) :
    evalT C (n + 1) (.call f [.path p]) fr m = evArgs (evalT C n) [.path p] (fun vs fr m => evCallT C f [.path p] vs fr m) fr m := (rfl)
@[rs ↓] theorem evalT_methodPath (n : Nat) (e : Expr) (f : Name) (p : List Name) (fr : Frame) (m : Mem δ) :
    evalT C (n + 1) (.method e f [.path p]) fr m =
      (evalT C n e fr m).bind fun v fr m => evArgs (evalT C n) [.path p] (fun vs fr m => evMethodT C (evalT C n) e f [.path p] v vs fr m) fr m := (rfl)
@[rs ↓] theorem evalT_callTuple (n : Nat) (f : List Name) (l : List Expr) (fr : Frame) (m : Mem δ) :
    evalT C (n + 1) (.call f [.tuple l]) fr m = evArgs (evalT C n) [.tuple l] (fun vs fr m => evCallT C f [.tuple l] vs fr m) fr m := (rfl)
@[rs ↓] theorem evalT_methodTuple (n : Nat) (e : Expr) (f : Name) (l : List Expr) (fr : Frame) (m : Mem δ) :
    evalT C (n + 1) (.method e f [.tuple l]) fr m =
      (evalT C n e fr m).bind fun v fr m => evArgs (evalT C n) [.tuple l] (fun vs fr m => evMethodT C (evalT C n) e f [.tuple l] v vs fr m) fr m := (rfl)
@[rs ↓] theorem evalT_callCast (n : Nat) (f : List Name) (a : Expr) (t : Option ITy) (fr : Frame) (m : Mem δ) :
    evalT C (n + 1) (.call f [.cast a t]) fr m = evArgs (evalT C n) [.cast a t] (fun vs fr m => evCallT C f [.cast a t] vs fr m) fr m := (rfl)
@[rs ↓] theorem evalT_methodCast (n : Nat) (e : Expr) (f : Name) (a : Expr) (t : Option ITy) (fr : Frame) (m : Mem δ) :
    evalT C (n + 1) (.method e f [.cast a t]) fr m =
      (evalT C n e fr m).bind fun v fr m => evArgs (evalT C n) [.cast a t] (fun vs fr m => evMethodT C (evalT C n) e f [.cast a t] v vs fr m) fr m := (rfl)
@[rs ↓] theorem evalT_callBin (n : Nat) (f : List Name) (op : BinOp) (a b : Expr) (fr : Frame) (m : Mem δ) :
    evalT C (n + 1) (.call f [.bin op a b]) fr m = evArgs (evalT C n) [.bin op a b] (fun vs fr m => evCallT C f [.bin op a b] vs fr m) fr m := (rfl)
@[rs ↓] theorem evalT_methodBin (n : Nat) (e : Expr) (f : Name) (op : BinOp) (a b : Expr) (fr : Frame) (m : Mem δ) :
    evalT C (n + 1) (.method e f [.bin op a b]) fr m =
      (evalT C n e fr m).bind fun v fr m => evArgs (evalT C n) [.bin op a b] (fun vs fr m => evMethodT C (evalT C n) e f [.bin op a b] v vs fr m) fr m := (rfl)
@[rs ↓] theorem evalT_callMethod (n : Nat) (f : List Name) (a : Expr) (g : Name) (l : List Expr) (fr : Frame) (m : Mem δ) :
    evalT C (n + 1) (.call f [.method a g l]) fr m = evArgs (evalT C n) [.method a g l] (fun vs fr m => evCallT C f [.method a g l] vs fr m) fr m := (rfl)
@[rs ↓] theorem evalT_methodMethod (n : Nat) (e : Expr) (f : Name) (a : Expr) (g : Name) (l : List Expr) (fr : Frame) (m : Mem δ) :
    evalT C (n + 1) (.method e f [.method a g l]) fr m =
      (evalT C n e fr m).bind fun v fr m => evArgs (evalT C n) [.method a g l] (fun vs fr m => evMethodT C (evalT C n) e f [.method a g l] v vs fr m) fr m := (rfl)
@[rs ↓] theorem evalT_callCall (n : Nat) (f : List Name) (g : List Name) (l : List Expr) (fr : Frame) (m : Mem δ) :
    evalT C (n + 1) (.call f [.call g l]) fr m = evArgs (evalT C n) [.call g l] (fun vs fr m => evCallT C f [.call g l] vs fr m) fr m := (rfl)
@[rs ↓] theorem evalT_methodCall (n : Nat) (e : Expr) (f : Name) (g : List Name) (l : List Expr) (fr : Frame) (m : Mem δ) :
    evalT C (n + 1) (.method e f [.call g l]) fr m =
      (evalT C n e fr m).bind fun v fr m => evArgs (evalT C n) [.call g l] (fun vs fr m => evMethodT C (evalT C n) e f [.call g l] v vs fr m) fr m := (rfl)
@[rs ↓] theorem evalT_callField (n : Nat) (f : List Name) (a : Expr) (k : Nat) (fr : Frame) (m : Mem δ) :
    evalT C (n + 1) (.call f [.field a k]) fr m = evArgs (evalT C n) [.field a k] (fun vs fr m => evCallT C f [.field a k] vs fr m) fr m := (rfl)
@[rs ↓] theorem evalT_methodField (n : Nat) (e : Expr) (f : Name) (a : Expr) (k : Nat) (fr : Frame) (m : Mem δ) :
    evalT C (n + 1) (.method e f [.field a k]) fr m =
      (evalT C n e fr m).bind fun v fr m => evArgs (evalT C n) [.field a k] (fun vs fr m => evMethodT C (evalT C n) e f [.field a k] v vs fr m) fr m := (rfl)
@[rs ↓] theorem evalT_callDeref (n : Nat) (f : List Name) (a : Expr) (fr : Frame) (m : Mem δ) :
    evalT C (n + 1) (.call f [.deref a]) fr m = evArgs (evalT C n) [.deref a] (fun vs fr m => evCallT C f [.deref a] vs fr m) fr m := (rfl)
@[rs ↓] theorem evalT_methodDeref (n : Nat) (e : Expr) (f : Name) (a : Expr) (fr : Frame) (m : Mem δ) :
    evalT C (n + 1) (.method e f [.deref a]) fr m =
      (evalT C n e fr m).bind fun v fr m => evArgs (evalT C n) [.deref a] (fun vs fr m => evMethodT C (evalT C n) e f [.deref a] v vs fr m) fr m := (rfl)
@[rs ↓] theorem evalT_callMany (n : Nat) (f : List Name) (a b : Expr) (l : List Expr) (fr : Frame) (m : Mem δ) :
    evalT C (n + 1) (.call f (a :: b :: l)) fr m = evArgs (evalT C n) (a :: b :: l) (fun vs fr m => evCallT C f (a :: b :: l) vs fr m) fr m := by cases a <;> rfl
@[rs ↓] theorem evalT_methodMany (n : Nat) (e : Expr) (f : Name) (a b : Expr) (l : List Expr) (fr : Frame) (m : Mem δ) :
    evalT C (n + 1) (.method e f (a :: b :: l)) fr m =
      (evalT C n e fr m).bind fun v fr m => evArgs (evalT C n) (a :: b :: l) (fun vs fr m => evMethodT C (evalT C n) e f (a :: b :: l) v vs fr m) fr m := by cases a <;> rfl
@[rs ↓] theorem evalT_callRef (n : Nat) (f : List Name) (b : Bool) (a : Expr) (fr : Frame) (m : Mem δ) :
    evalT C (n + 1) (.call f [.ref b a]) fr m = evArgs (evalT C n) [.ref b a] (fun vs fr m => evCallT C f [.ref b a] vs fr m) fr m := (rfl)
@[rs ↓] theorem evalT_methodRef (n : Nat) (e : Expr) (f : Name) (b : Bool) (a : Expr) (fr : Frame) (m : Mem δ) :
    evalT C (n + 1) (.method e f [.ref b a]) fr m =
      (evalT C n e fr m).bind fun v fr m => evArgs (evalT C n) [.ref b a] (fun vs fr m => evMethodT C (evalT C n) e f [.ref b a] v vs fr m) fr m := (rfl)
@[rs ↓] theorem evalT_closure (n : Nat) (e : Expr) (f : Name) (c : Expr) (fr : Frame) (m : Mem δ) :
    evalT C (n + 1) (.method e f [.closure c]) fr m = (evalT C n e fr m).bind fun v fr m => evClosure (evalT C n) f c v fr m := (rfl)

/-- `e.try_for_each(|x| c)` once `e` is known -/
def eachT (ev : Expr → Frame → Mem δ → Out (Mem δ)) (x : Name) (c : Expr) (v : V) (fr : Frame) (m : Mem δ) : Out (Mem δ) :=
  match v with
  | .elems us => evEach ev x c us fr m
  | _ => .fail .stuck m

@[rs] theorem eachT_elems (ev : Expr → Frame → Mem δ → Out (Mem δ)) (x : Name) (c : Expr) (us : List Val) (fr : Frame) (m : Mem δ) :
    eachT ev x c (.elems us) fr m = evEach ev x c us fr m := (rfl)

@[rs ↓] theorem evalT_each (n : Nat) (e : Expr) (x : Name) (c : Expr) (fr : Frame) (m : Mem δ) :
    evalT C (n + 1) (.method e (n! "try_for_each") [.lambda x c]) fr m = (evalT C n e fr m).bind (eachT (evalT C n) x c) := by
  show (evalT C n e fr m).bind _ = _
  congr 1
@[rs ↓] theorem evalT_try (n : Nat) (e : Expr) (fr : Frame) (m : Mem δ) : evalT C (n + 1) (.try e) fr m = (evalT C n e fr m).bind evTry := (rfl)
@[rs ↓] theorem evalT_ite (n : Nat) (c t : Expr) (e : Option Expr) (fr : Frame) (m : Mem δ) :
    evalT C (n + 1) (.ite c t e) fr m = (evalT C n c fr m).bind fun v fr m => evIf (evalT C n) v t e fr m := (rfl)
@[rs ↓] theorem evalT_iteLet (n : Nat) (p : Pat) (v t : Expr) (e : Option Expr) (fr : Frame) (m : Mem δ) :
    evalT C (n + 1) (.iteLet p v t e) fr m = (evalT C n v fr m).bind fun v fr m => evIfLet (evalT C n) (matchPatT p v) t e fr m := (rfl)
@[rs ↓] theorem evalT_select (n : Nat) (e : Expr) (arms : List (Pat × Expr)) (fr : Frame) (m : Mem δ) :
    evalT C (n + 1) (.select e arms) fr m = (evalT C n e fr m).bind fun v fr m => evArmsT (evalT C n) arms v fr m := (rfl)
@[rs ↓] theorem evalT_for (n : Nat) (e b : Expr) (fr : Frame) (m : Mem δ) :
    evalT C (n + 1) (.for .wild e b) fr m = (evalT C n e fr m).bind fun v fr m => evFor (evalT C n) v b fr m := (rfl)

/-- `for x in e` once `e` is known -/
def forT (ev : Expr → Frame → Mem δ → Out (Mem δ)) (x : Name) (b : Expr) (v : V) (fr : Frame) (m : Mem δ) : Out (Mem δ) :=
  match v with
  | .gen g vars => evGen ev x g b 1000 vars fr m
  | _ => .fail .stuck m

@[rs] theorem forT_gen (ev : Expr → Frame → Mem δ → Out (Mem δ)) (x : Name) (b g : Expr) (vars : Scope) (fr : Frame) (m : Mem δ) :
    forT ev x b (.gen g vars) fr m = evGen ev x g b 1000 vars fr m := (rfl)

@[rs ↓] theorem evalT_forIn (n : Nat) (x : Name) (e b : Expr) (fr : Frame) (m : Mem δ) :
    evalT C (n + 1) (.for (.name x) e b) fr m = (evalT C n e fr m).bind (forT (evalT C n) x b) := (rfl)
@[rs ↓] theorem evalT_block (n : Nat) (es : List Expr) (fr : Frame) (m : Mem δ) :
    evalT C (n + 1) (.block es) fr m = (evBlock (evalT C n) es ([] :: fr) m).leave := (rfl)
@[rs ↓] theorem evalT_semi (n : Nat) (e : Expr) (fr : Frame) (m : Mem δ) :
    evalT C (n + 1) (.semi e) fr m = (evalT C n e fr m).bind fun _ fr m => .val .unit fr m := (rfl)
@[rs ↓] theorem evalT_bind (n : Nat) (p : Pat) (e : Expr) (fr : Frame) (m : Mem δ) :
    evalT C (n + 1) (.bind p e) fr m = (evalT C n e fr m).bind fun v fr m => bindPat (matchPatT p v) fr m := (rfl)
@[rs ↓] theorem evalT_ret (n : Nat) (e : Option Expr) (fr : Frame) (m : Mem δ) :
    evalT C (n + 1) (.ret e) fr m = (evOpt (evalT C n) e fr m).bind fun v fr m => .ret v fr m := (rfl)
@[rs ↓] theorem evalT_assign (n : Nat) (l r : Expr) (fr : Frame) (m : Mem δ) :
    evalT C (n + 1) (.assign l r) fr m = (evalT C n r fr m).bind fun v fr m => evAssignT C l v fr m := (rfl)
@[rs ↓] theorem evalT_assignOp (n : Nat) (op : BinOp) (l r : Expr) (fr : Frame) (m : Mem δ) :
    evalT C (n + 1) (.assignOp op l r) fr m = (evalT C n r fr m).bind fun v fr m => (evalT C n l fr m).bind fun w fr m =>
      (Out.of (binaryT C.cfg op w v) fr m).bind fun x fr m => evAssignT C l x fr m := (rfl)

/-! ## Values -/

section
variable (ev : Expr → Frame → Mem δ → Out (Mem δ)) (e : Expr) (f : Name) (es : List Expr) (vs : List V) (fr : Frame) (m : Mem δ)

@[rs] theorem evMethodT_self : evMethodT C ev e f es .self vs fr m = onDev m fun d => answered es fr m (C.dev.method f vs d) := (rfl)
@[rs] theorem evMethodT_place : evMethodT C ev e f es (.place none) vs fr m = evSelfT C ev e f es vs fr m := (rfl)
@[rs] theorem evMethodT_obj (u : Val) : evMethodT C ev e f es (.obj u) vs fr m = writes C.part u f es vs fr m := (rfl)
@[rs] theorem evMethodT_cow (o : Bool) (bs : Bytes) : evMethodT C ev e f es (.cow o bs) vs fr m = .of (stdMethodT f (.cow o bs) vs) fr m := (rfl)
@[rs] theorem evMethodT_bytes (bs : Bytes) : evMethodT C ev e f es (.bytes bs) vs fr m = .of (stdMethodT f (.bytes bs) vs) fr m := (rfl)
@[rs] theorem evMethodT_some (v : V) : evMethodT C ev e f es (.some v) vs fr m = .of (stdMethodT f (.some v) vs) fr m := (rfl)
@[rs] theorem evMethodT_none : evMethodT C ev e f es .none vs fr m = .of (stdMethodT f .none vs) fr m := (rfl)
@[rs] theorem evMethodT_u32 (x : BitVec 32) : evMethodT C ev e f es (.u32 x) vs fr m = .of (stdMethodT f (.u32 x) vs) fr m := (rfl)
@[rs] theorem evMethodT_last (us : List Val) (u : Val) (d : Option δ) :
    evMethodT C ev e f es (.place (some .last)) vs fr ⟨.list (us ++ [u]), d⟩ = fills C.part (fun w => .list (us ++ [w])) u f vs fr ⟨.list (us ++ [u]), d⟩ := by
  simp [evMethodT, getPart, setPart]
@[rs] theorem evMethodT_content (u : Val) (d : Option δ) :
    evMethodT C ev e f es (.place (some .some)) vs fr ⟨.some u, d⟩ = fills C.part .some u f vs fr ⟨.some u, d⟩ := (rfl)
@[rs] theorem evMethodT_box (u : Val) (d : Option δ) :
    evMethodT C ev e f es (.place (some .box)) vs fr ⟨.box u, d⟩ = fills C.part .box u f vs fr ⟨.box u, d⟩ := (rfl)
@[rs] theorem evMethodT_rc (b : Bool) (u : Val) (d : Option δ) :
    evMethodT C ev e f es (.place (some .rc)) vs fr ⟨.rc b u, d⟩ = fills C.part (.rc b) u f vs fr ⟨.rc b u, d⟩ := (rfl)

@[rs] theorem fills_fill (M : Methods δ) (g : Val → Val) (v w : Val) (d : δ) :
    fills M g v (n! "fill_thrift") [.self] fr ⟨w, some d⟩ = refilled g fr (M.fill v d) := (rfl)
@[rs] theorem fills_field (M : Methods δ) (g : Val → Val) (v w : Val) (ft : Byte) (d : δ) :
    fills M g v (n! "fill_thrift_field") [.self, .u8 ft] fr ⟨w, some d⟩ = refilled g fr (M.fillField v ft d) := (rfl)
@[rs] theorem writes_write (M : Methods δ) (v w : Val) (d : δ) :
    writes M v (n! "write_thrift") es [.self] fr ⟨w, some d⟩ = answered es fr ⟨w, some d⟩ (answerW (fun _ => (.unit, [.self])) [.self] (M.write v d)) := (rfl)
@[rs] theorem writes_field (M : Methods δ) (v w : Val) (id last : BitVec 16) (d : δ) :
    writes M v (n! "write_thrift_field") es [.self, .i16 id, .ref (.i16 last)] fr ⟨w, some d⟩ =
      answered es fr ⟨w, some d⟩ (answerW (fun l => (.unit, [.self, .i16 id, .ref (.i16 l)])) [.self, .i16 id, .ref (.i16 last)] (M.writeField v id last d)) := (rfl)
@[rs] theorem onDev_some (w : Val) (d : δ) (k : δ → Out (Mem δ)) : onDev ⟨w, some d⟩ k = k d := (rfl)

@[rs] theorem refilled_ok (g : Val → Val) (w : Val) (d : δ) : refilled g fr (.ok (w, d)) = .val (.ok .unit) fr ⟨g w, some d⟩ := (rfl)
@[rs] theorem refilled_err (g : Val → Val) (w : Val) (x : ThriftError) : refilled (δ := δ) g fr (.error (.err x, w)) = .val (.err (.thrift x)) fr ⟨g w, none⟩ := (rfl)
@[rs] theorem refilled_panic (g : Val → Val) (w : Val) : refilled (δ := δ) g fr (.error (.panic, w)) = .fail .panic ⟨g w, none⟩ := (rfl)
@[rs] theorem refilled_ub (g : Val → Val) (w : Val) : refilled (δ := δ) g fr (.error (.ub, w)) = .fail .ub ⟨g w, none⟩ := (rfl)
@[rs] theorem refilled_diverge (g : Val → Val) (w : Val) : refilled (δ := δ) g fr (.error (.diverge, w)) = .fail .diverge ⟨g w, none⟩ := (rfl)
@[rs] theorem refilled_stuck (g : Val → Val) (w : Val) : refilled (δ := δ) g fr (.error (.stuck, w)) = .fail .stuck ⟨g w, none⟩ := (rfl)

@[rs] theorem answered_ok (v : V) (d : Option δ) : answered es fr m (.ok (v, vs), d) = .val v (putBacks es vs fr) ⟨m.self, d⟩ := (rfl)
@[rs] theorem answered_error (x : Fail) (d : Option δ) : answered es fr m (.error x, d) = .fail x ⟨m.self, d⟩ := (rfl)
end

@[rs] theorem answerR_ok {α : Type} (f : α → V) (vs : List V) (a : α) (d : δ) : answerR f vs (.ok (a, d)) = (.ok (.ok (f a), vs), some d) := (rfl)
@[rs] theorem answerR_err {α : Type} (f : α → V) (vs : List V) (x : ThriftError) : answerR (δ := δ) f vs (.error (.err x)) = (.ok (.err (.thrift x), vs), none) := (rfl)
@[rs] theorem answerR_panic {α : Type} (f : α → V) (vs : List V) : answerR (δ := δ) f vs (.error .panic) = (.error .panic, none) := (rfl)
@[rs] theorem answerR_ub {α : Type} (f : α → V) (vs : List V) : answerR (δ := δ) f vs (.error .ub) = (.error .ub, none) := (rfl)
@[rs] theorem answerR_diverge {α : Type} (f : α → V) (vs : List V) : answerR (δ := δ) f vs (.error .diverge) = (.error .diverge, none) := (rfl)
@[rs] theorem answerR_stuck {α : Type} (f : α → V) (vs : List V) : answerR (δ := δ) f vs (.error .stuck) = (.error .stuck, none) := (rfl)
@[rs] theorem answerW_ok {α : Type} (f : α → V × List V) (vs : List V) (a : α) (d : δ) : answerW f vs (.ok a, d) = (.ok (.ok (f a).1, (f a).2), some d) := (rfl)
@[rs] theorem answerW_err {α : Type} (f : α → V × List V) (vs : List V) (x : ThriftError) (d : δ) : answerW f vs (.error (.err x), d) = (.ok (.err (.thrift x), vs), some d) := (rfl)
@[rs] theorem answerW_panic {α : Type} (f : α → V × List V) (vs : List V) (d : δ) : answerW f vs (.error .panic, d) = (.error .panic, some d) := (rfl)
@[rs] theorem answerW_ub {α : Type} (f : α → V × List V) (vs : List V) (d : δ) : answerW f vs (.error .ub, d) = (.error .ub, some d) := (rfl)
@[rs] theorem answerW_diverge {α : Type} (f : α → V × List V) (vs : List V) (d : δ) : answerW f vs (.error .diverge, d) = (.error .diverge, some d) := (rfl)
@[rs] theorem answerW_stuck {α : Type} (f : α → V × List V) (vs : List V) (d : δ) : answerW f vs (.error .stuck, d) = (.error .stuck, some d) := (rfl)

/-! ## Calls, paths, assignments -/

section
variable (ev : Expr → Frame → Mem δ → Out (Mem δ)) (es : List Expr) (fr : Frame) (m : Mem δ)

@[rs] theorem evCallT_Ok (v : V) : evCallT C [n! "Ok"] es [v] fr m = .val (.ok v) fr m := (rfl)
@[rs] theorem evCallT_Err (v : V) : evCallT C [n! "Err"] es [v] fr m = .val (.err v) fr m := (rfl)
@[rs] theorem evCallT_Some (v : V) : evCallT C [n! "Some"] es [v] fr m = .val (.some v) fr m := (rfl)
@[rs] theorem evCallT_Encoding (v : V) : evCallT C [n! "Encoding"] es [v] fr m = .val (.tuple [v]) fr m := (rfl)
@[rs] theorem evCallT_collection (v : V) : evCallT C [n! "read_collection_len_and_type"] es [v] fr m =
    onDev m fun d => answered es fr m (C.dev.call (n! "read_collection_len_and_type") [v] d) := (rfl)
@[rs] theorem evCallT_header (a b c d : V) : evCallT C [n! "write_field_header"] es [a, b, c, d] fr m =
    onDev m fun x => answered es fr m (C.dev.call (n! "write_field_header") [a, b, c, d] x) := (rfl)
@[rs] theorem evCallT_default : evCallT C [n! "P", n! "default"] es [] fr m = .val (.obj C.part.dflt) fr m := (rfl)
@[rs] theorem evCallT_Self_default : evCallT C [n! "Self", n! "default"] es [] fr m = .val (.obj C.own.dflt) fr m := (rfl)
@[rs] theorem evCallT_pointer (t x : Name) : evCallT C [t, x] es [.place none] fr m = .of (pointerFn C.ty t x m.self) fr m := (rfl)
@[rs] theorem evCallT_Rc (bs : Bytes) : evCallT C [n! "Rc", n! "from"] es [.bytes bs] fr m = .val (.bytes bs) fr m := (rfl)
@[rs] theorem evCallT_Arc (bs : Bytes) : evCallT C [n! "Arc", n! "from"] es [.bytes bs] fr m = .val (.bytes bs) fr m := (rfl)

@[rs] theorem evPathT_two (x y : Name) : evPathT C ev [x, y] fr m = evConstT C ev [x, y] fr m := (rfl)
/-- A variable, or else a constant. -/
def varT (ev : Expr → Frame → Mem δ → Out (Mem δ)) (x : Name) (o : Option V) (fr : Frame) (m : Mem δ) : Out (Mem δ) :=
  match o with
  | some v => .val v fr m
  | none => evConstT C ev [x] fr m

@[rs] theorem evPathT_one (x : Name) : evPathT C ev [x] fr m = varT C ev x (fr.get x) fr m := (rfl)
@[rs] theorem varT_some (x : Name) (v : V) : varT C ev x (some v) fr m = .val v fr m := (rfl)
@[rs] theorem varT_none (x : Name) : varT C ev x none fr m = evConstT C ev [x] fr m := (rfl)
theorem evPathT_var {x : Name} {v : V} (h : fr.get x = some v) : evPathT C ev [x] fr m = .val v fr m := by
  simp [evPathT, h]
@[rs] theorem evConstT_P : evConstT C ev [n! "P", n! "FIELD_TYPE"] fr m = .val (.u8 C.part.fieldType) fr m := (rfl)
@[rs] theorem evConstT_Self : evConstT C ev [n! "Self", n! "FIELD_TYPE"] fr m = .val (.u8 C.own.fieldType) fr m := (rfl)
@[rs] theorem evConstT_bool : evConstT C ev [n! "bool", n! "FIELD_TYPE"] fr m = .val (.u8 2#8) fr m := (rfl)
@[rs] theorem evConstT_i32 : evConstT C ev [n! "i32", n! "FIELD_TYPE"] fr m = .val (.u8 5#8) fr m := (rfl)
@[rs] theorem evConstT_String : evConstT C ev [n! "String", n! "FIELD_TYPE"] fr m = .val (.u8 8#8) fr m := (rfl)
@[rs] theorem evConstT_InvalidType : evConstT C ev [n! "ThriftError", n! "InvalidType"] fr m = .val (.thrift .invalidType) fr m := (rfl)
@[rs] theorem evConstT_DuplicateField : evConstT C ev [n! "ThriftError", n! "DuplicateField"] fr m = .val (.thrift .duplicateField) fr m := (rfl)
@[rs] theorem evConstT_ReserveError : evConstT C ev [n! "ThriftError", n! "ReserveError"] fr m = .val (.thrift .reserveError) fr m := (rfl)
@[rs] theorem evConstT_MissingValue : evConstT C ev [n! "ThriftError", n! "MissingValue"] fr m = .val (.thrift .missingValue) fr m := (rfl)
@[rs] theorem evConstT_InvalidNumber : evConstT C ev [n! "ThriftError", n! "InvalidNumber"] fr m = .val (.thrift .invalidNumber) fr m := (rfl)
@[rs] theorem evConstT_InvalidCollectionLen : evConstT C ev [n! "ThriftError", n! "InvalidCollectionLen"] fr m = .val (.thrift .invalidCollectionLen) fr m := (rfl)
@[rs] theorem evConstT_max (n : Nat) : evConstT C (evalT C (n + 2)) [n! "MAX_COLLECTION_LEN"] fr m = .val (.usize (BitVec.ofNat 64 MAX_COLLECTION_LEN)) fr m := (rfl)
@[rs] theorem evConstT_None : evConstT C ev [n! "None"] fr m = .val .none fr m := (rfl)

@[rs] theorem evDeref_place (v : Val) (d : Option δ) : evDeref C (.place none) fr ⟨v, d⟩ = .of (loaded C.ty v) fr ⟨v, d⟩ := (rfl)
@[rs] theorem bindPatT_name (x : Name) (v : V) : bindPat (matchPatT (.name x) v) fr m = .val .unit (fr.add [(x, v)]) m := (rfl)
@[rs] theorem bindPatT_pair (x y : Name) (v w : V) : bindPat (matchPatT (.names [x, y]) (.tuple [v, w])) fr m = .val .unit (fr.add [(x, v), (y, w)]) m := (rfl)
@[rs] theorem evIfLetT_some (x : Name) (v : V) (t : Expr) (e : Option Expr) :
    evIfLet ev (matchPatT (.con [n! "Some"] x) (.some v)) t e fr m = (ev t ([(x, v)] :: fr) m).leave := (rfl)
@[rs] theorem evIfLetT_none (x : Name) (t : Expr) (e : Option Expr) :
    evIfLet ev (matchPatT (.con [n! "Some"] x) .none) t e fr m = evOpt ev e fr m := by cases e <;> rfl
@[rs] theorem evArmsT_borrowed (x y : Name) (a b : Expr) (bs : Bytes) :
    evArmsT ev [(.con [n! "Cow", n! "Borrowed"] x, a), (.con [n! "Cow", n! "Owned"] y, b)] (.cow false bs) fr m = (ev a ([(x, .bytes bs)] :: fr) m).leave := (rfl)
@[rs] theorem evArmsT_owned (x y : Name) (a b : Expr) (bs : Bytes) :
    evArmsT ev [(.con [n! "Cow", n! "Borrowed"] x, a), (.con [n! "Cow", n! "Owned"] y, b)] (.cow true bs) fr m = (ev b ([(y, .bytes bs)] :: fr) m).leave := (rfl)
end

@[rs] theorem binaryT_u8 (cfg : Cfg) (op : BinOp) (a b : BitVec 8) : binaryT cfg op (.u8 a) (.u8 b) = binU cfg .u8 op a b := by cases op <;> rfl
@[rs] theorem binaryT_u8_lit (cfg : Cfg) (op : BinOp) (a : BitVec 8) (n : Nat) : binaryT cfg op (.u8 a) (.lit n) = binU cfg .u8 op a (BitVec.ofNat 8 n) := by cases op <;> rfl
@[rs] theorem binaryT_usize (cfg : Cfg) (op : BinOp) (a b : BitVec 64) : binaryT cfg op (.usize a) (.usize b) = binU cfg .usize op a b := by cases op <;> rfl
@[rs] theorem binaryT_usize_lit (cfg : Cfg) (op : BinOp) (a : BitVec 64) (n : Nat) : binaryT cfg op (.usize a) (.lit n) = binU cfg .usize op a (BitVec.ofNat 64 n) := by cases op <;> rfl
@[rs] theorem binaryT_i32_lit (cfg : Cfg) (op : BinOp) (a : BitVec 32) (n : Nat) : binaryT cfg op (.i32 a) (.lit n) = binS cfg .i32 op a (BitVec.ofNat 32 n) := by cases op <;> rfl
@[rs] theorem binaryT_u32_lit (cfg : Cfg) (op : BinOp) (a : BitVec 32) (n : Nat) : binaryT cfg op (.u32 a) (.lit n) = binU cfg .u32 op a (BitVec.ofNat 32 n) := by cases op <;> rfl
@[rs] theorem binaryT_u32 (cfg : Cfg) (op : BinOp) (a b : BitVec 32) : binaryT cfg op (.u32 a) (.u32 b) = binU cfg .u32 op a b := by cases op <;> rfl
@[rs] theorem binaryT_shl_lit (cfg : Cfg) (n : Nat) (k : BitVec 32) : binaryT cfg .shl (.lit n) (.i32 k) = .ok (.shlLit n k) := (rfl)
@[rs] theorem inverted_bool (b : Bool) : inverted (.bool b) = .ok (.bool !b) := (rfl)
@[rs] theorem u8_shl_4 (cfg : Cfg) (a : BitVec 8) : binU cfg .u8 .shl a 4#8 = .ok (.u8 (a <<< 4)) := (rfl)

end

attribute [rs] evIf_true evIf_false
end CT.Rs
