import Verif.Model.RustRun
import Verif.Model.TypesTable
import Verif.Model.RuntimeTable
import Verif.Model.Partial
/-!
# What the implementations of runtime/src/types.rs and parquet/src/encodings.rs do

An interpreter for the functions of an `impl CompactThriftProtocol for …`. It is that of `RustRun.lean` with `self`: a place in memory, of which parts can be referred to and filled. The
functions are generic, so they are run with what the traits `CompactThriftInput` and `CompactThriftOutput` offer (the device, for which `RustRun.lean` shows what
the implementations do) and with the methods of the type parameter `P`, in turn obtained by running their code. Simplifications: as in `RustRun.lean`; a vector or
slice longer than any in memory has the greatest `usize` as its length.
-/
namespace CT.Rs
open CT

/-- The Rust types that are read and written. `named k` is the `k`-th definition of the schema. -/
inductive RTy where
  | bool | i8 | i16 | i32 | i64 | f64
  /-- `Vec<u8>`, `String`, `Cow<[u8]>`, `Cow<str>`, `Box<str>`, `Rc<str>`, `Arc<str>` -/
  | vecU8 | string | cowBytes | cowStr | boxStr | rcStr | arcStr
  | encodingSet
  | vec (t : RTy) | option (t : RTy) | box (t : RTy) | rc (t : RTy) | arc (t : RTy)
  | named (k : Nat)
deriving DecidableEq, Repr

/-- The type as the text of its `impl` has it: types.rs:24, 52, 67, 82, 97, 112, 127, 142, 158, 173, 188, 234, 283, 297, 311, 325, 340, 358; encodings.rs:40. -/
def RTy.text : RTy → Name
  | .bool => n! "bool" | .i8 => n! "i8" | .i16 => n! "i16" | .i32 => n! "i32" | .i64 => n! "i64" | .f64 => n! "f64"
  | .vecU8 => n! "Vec<u8>" | .string => n! "String" | .cowBytes => n! "Cow<,[u8]>" | .cowStr => n! "Cow<,str>"
  | .boxStr => n! "Box<str>" | .rcStr => n! "Rc<str>" | .arcStr => n! "Arc<str>" | .encodingSet => n! "EncodingSet"
  | .vec _ => n! "Vec<P>" | .option _ => n! "Option<P>" | .box _ => n! "Box<P>" | .rc _ => n! "Rc<P>" | .arc _ => n! "Arc<P>"
  | .named _ => 0

/-- The type in `Types.lean`, where the types of strings are one, those of byte strings, and `Rc` and `Arc`. -/
def RTy.erase : RTy → Ty
  | .bool => .bool | .i8 => .i8 | .i16 => .i16 | .i32 => .i32 | .i64 => .i64 | .f64 => .double
  | .vecU8 => .binary | .cowBytes => .binary
  | .string => .string | .cowStr => .string | .boxStr => .string | .rcStr => .string | .arcStr => .string
  | .encodingSet => .encodingSet
  | .vec t => .list t.erase | .option t => .option t.erase | .box t => .box t.erase | .rc t => .rc t.erase | .arc t => .rc t.erase
  | .named k => .named k

/-- What an implementation of `CompactThriftProtocol` offers, and `Default::default()`. -/
structure Methods (δ : Type) where
  fieldType : Byte
  dflt : Val
  fill : Val → Fl δ Val
  fillField : Val → Byte → Fl δ Val
  write : Val → Wr δ Unit
  writeField : Val → BitVec 16 → BitVec 16 → Wr δ (BitVec 16)

/-- No methods. -/
def Methods.none {δ : Type} (ft : Byte) (v : Val) : Methods δ :=
  ⟨ft, v, fun v => Fl.keep v (Rd.fail .stuck), fun v _ => Fl.keep v (Rd.fail .stuck), fun _ => Wr.fail .stuck, fun _ _ _ => Wr.fail .stuck⟩

/-- The answer of a function of the device: its value, what its arguments are then, and the state of the device, if known. -/
abbrev Answer (δ : Type) := Except Fail (V × List V) × Option δ

/-- A function that reads: after a failure the state of the device is unknown. -/
def answerR {δ α : Type} (f : α → V) (vs : List V) (r : Except Fail (α × δ)) : Answer δ :=
  match r with
  | .ok (a, d) => (.ok (.ok (f a), vs), some d)
  | .error (.err e) => (.ok (.err (.thrift e), vs), none)
  | .error x => (.error x, none)

/-- A function that writes. -/
def answerW {δ α : Type} (f : α → V × List V) (vs : List V) (r : Except Fail α × δ) : Answer δ :=
  match r with
  | (.ok a, d) => (.ok (.ok (f a).1, (f a).2), some d)
  | (.error (.err e), d) => (.ok (.err (.thrift e), vs), some d)
  | (.error x, d) => (.error x, some d)

/-- What the code can call. -/
structure Api (δ : Type) where
  /-- `input.f(vs)`, `output.f(vs)` -/
  method : Name → List V → δ → Answer δ
  /-- `f(vs)` -/
  call : Name → List V → δ → Answer δ

/-- The context of a function: the type `Self`, its methods, those of `P`. -/
structure Ctx (δ : Type) where
  cfg : Cfg
  dev : Api δ
  ty : RTy
  own : Methods δ
  part : Methods δ

/-- `*self` and the device. -/
structure Mem (δ : Type) where
  self : Val
  dev : Option δ

/-! ## `self` -/

/-- `*self` as a value. -/
def loaded : RTy → Val → Except Fail V
  | .bool, .bool b => .ok (.bool b)
  | .i8, .i8 x => .ok (.i8 x)
  | .i16, .i16 x => .ok (.i16 x)
  | .i32, .i32 x => .ok (.i32 x)
  | .i64, .i64 x => .ok (.i64 x)
  | .f64, .double x => .ok (.f64 x)
  | _, _ => .error .stuck

/-- What is in memory after `*self = v`. -/
def stored : RTy → V → Option Val
  | .bool, .bool b => some (.bool b)
  | .i8, .i8 x => some (.i8 x)
  | .i16, .i16 x => some (.i16 x)
  | .i32, .i32 x => some (.i32 x)
  | .i64, .i64 x => some (.i64 x)
  | .f64, .f64 x => some (.double x)
  | .vecU8, .bytes bs => some (.binary bs)
  | .cowBytes, .cow _ bs => some (.binary bs)
  | .string, .bytes bs => some (.string bs)
  | .cowStr, .cow _ bs => some (.string bs)
  | .boxStr, .bytes bs => some (.string bs)
  | .rcStr, .bytes bs => some (.string bs)
  | .arcStr, .bytes bs => some (.string bs)
  | .option _, .some (.obj v) => some (.some v)
  | _, _ => none

def getPart : Part → Val → Option Val
  | .last, .list vs => vs.getLast?
  | .some, .some v => some v
  | .box, .box v => some v
  | .rc, .rc _ v => some v
  | _, _ => none

def setPart : Part → Val → Val → Val
  | .last, .list vs, w => .list (vs.dropLast ++ [w])
  | .some, .some _, w => .some w
  | .box, .box _, w => .box w
  | .rc, .rc b _, w => .rc b w
  | _, v, _ => v

/-- A method of `self` that changes nothing. -/
def selfMethod (cfg : Cfg) (ty : RTy) (f : Name) (v : Val) (vs : List V) : Except Fail V :=
  match ty, v, vs with
  | .vec _, .list us, [] =>
    if f = n! "len" then .ok (.usize (BitVec.ofNat 64 (min us.length (2 ^ 64 - 1))))
    else if f = n! "iter" then .ok (.elems us)
    else if f = n! "last_mut" then .ok (if us.isEmpty then .none else .some (.place (some .last)))
    else .error .stuck
  | .vec _, .list _, [.usize n] => if f = n! "try_reserve" then .ok (if cfg.alloc n.toNat then .ok .unit else .err .unit) else .error .stuck
  | .option _, .some u, [] =>
    if f = n! "is_some" then .ok (.bool true)
    else if f = n! "as_mut" then .ok (.some (.place (some .some)))
    else if f = n! "as_ref" then .ok (.some (.obj u))
    else .error .stuck
  | .option _, .none, [] =>
    if f = n! "is_some" then .ok (.bool false)
    else if f = n! "as_mut" || f = n! "as_ref" then .ok .none
    else .error .stuck
  | .vecU8, .binary bs, [] => if f = n! "as_slice" then .ok (.bytes bs) else .error .stuck
  | .cowBytes, .binary bs, [] => if f = n! "as_ref" then .ok (.bytes bs) else .error .stuck
  | .string, .string bs, [] => if f = n! "as_str" then .ok (.bytes bs) else .error .stuck
  | .cowStr, .string bs, [] => if f = n! "as_ref" then .ok (.bytes bs) else .error .stuck
  | .boxStr, .string bs, [] => if f = n! "as_ref" then .ok (.bytes bs) else .error .stuck
  | .rcStr, .string bs, [] => if f = n! "as_ref" then .ok (.bytes bs) else .error .stuck
  | .arcStr, .string bs, [] => if f = n! "as_ref" then .ok (.bytes bs) else .error .stuck
  | _, _, _ => .error .stuck

/-- `T::f(self)` for `Box`, `Rc` and `Arc`; a shared `Rc` gives no `&mut`. -/
def pointerFn (ty : RTy) (t f : Name) (v : Val) : Except Fail V :=
  match ty, v with
  | .box _, .box u =>
    if t = n! "Box" then (if f = n! "as_mut" then .ok (.place (some .box)) else if f = n! "as_ref" then .ok (.obj u) else .error .stuck) else .error .stuck
  | .rc _, .rc shared u => if t = n! "Rc" then counted shared u else .error .stuck
  | .arc _, .rc shared u => if t = n! "Arc" then counted shared u else .error .stuck
  | _, _ => .error .stuck
where
  counted (shared : Bool) (u : Val) : Except Fail V :=
    if f = n! "get_mut" then .ok (if shared then .none else .some (.place (some .rc))) else if f = n! "as_ref" then .ok (.obj u) else .error .stuck

/-! ## std -/

/-- Methods of std, added to those of `RustRun.lean`. -/
def stdMethodT (f : Name) (v : V) (vs : List V) : Except Fail V :=
  match v, vs with
  | .cow _ bs, [] => if f = n! "into_owned" then .ok (.bytes bs) else .error .stuck
  | .bytes bs, [] => if f = n! "into_boxed_str" then .ok (.bytes bs) else .error .stuck
  | .some w, [] => if f = n! "unwrap_unchecked" then .ok w else .error .stuck
  | .none, [] => if f = n! "unwrap_unchecked" then .error .ub else .error .stuck
  | .some w, [_] => if f = n! "ok_or" then .ok (.ok w) else .error .stuck
  | .none, [w] => if f = n! "ok_or" then .ok (.err w) else .error .stuck
  | .u32 x, [] =>
    if f = n! "count_ones" then .ok (.u32 (BitVec.ofNat 32 (countOnes x)))
    else if f = n! "trailing_zeros" then .ok (.u32 (BitVec.ofNat 32 (trailingZeros x)))
    else .error .stuck
  | _, _ => .error .stuck

/-- Paths, added to those of `RustRun.lean`. -/
def stdPathT (p : List Name) : Except Fail V :=
  match p with
  | [f] => if f = n! "None" then .ok .none else .error .stuck
  | [t, f] =>
    if t = n! "ThriftError" then
      if f = n! "DuplicateField" then .ok (.thrift .duplicateField)
      else if f = n! "ReserveError" then .ok (.thrift .reserveError)
      else if f = n! "MissingValue" then .ok (.thrift .missingValue)
      else if f = n! "InvalidNumber" then .ok (.thrift .invalidNumber)
      else stdPath p
    else stdPath p
  | p => stdPath p

/-- Operators; the type of `1 << n` is that of the other operand. -/
def binaryT (cfg : Cfg) (op : BinOp) (a b : V) : Except Fail V :=
  match op, a, b with
  | .shl, .lit n, .i32 k => .ok (.shlLit n k)
  | op, .u32 x, .shlLit n k => match shifted cfg (fun k => BitVec.ofNat 32 n <<< k) k.toNat with
    | .ok y => binU cfg .u32 op x y
    | .error f => .error f
  | op, a, b => binary cfg op a b

/-- The variables bound by a pattern. -/
def matchPatT (p : Pat) (v : V) : Option Scope :=
  match p, v with
  | .con [c] x, .some w => if c = n! "Some" then some [(x, w)] else none
  | .con [_] _, _ => none
  | p, v => matchPat p v

/-! ## The files -/

def allImpls : List Impl := typesImpls ++ encodingsImpls

/-- `impl CompactThriftProtocol for type` -/
def implOf (ty : Name) : Option Impl := allImpls.find? fun i => i.trait == n! "CompactThriftProtocol" && i.type == ty

/-- The function of the `impl` of the type, else the one the trait provides (protocol.rs:435-460). -/
def implFn (ty : RTy) (f : Name) : Option Fn :=
  match (implOf ty.text).bind fun i => i.fns.find? fun g => g.name == f with
  | some g => some g
  | none => assoc (methodsOf false (n! "CompactThriftProtocol") (n! "no type") protocolItems) f

/-- The function of `impl type`. -/
def inherentFn (ty : RTy) (f : Name) : Option Fn :=
  (allImpls.find? fun i => i.trait == 0 && i.type == ty.text).bind fun i => i.fns.find? fun g => g.name == f

/-- `T::FIELD_TYPE` for a type without parameters, a literal. -/
def litFieldType (ty : Name) : Option Byte :=
  match (implOf ty).bind Impl.fieldType with
  | some (.lit n none) => some (BitVec.ofNat 8 n)
  | _ => none

/-- The constants of protocol.rs -/
def constProg : Prog := ⟨[], [], constsOf protocolItems⟩

/-! ## Evaluation -/

section
variable {δ : Type} (C : Ctx δ) (ev : Expr → Frame → Mem δ → Out (Mem δ))

/-- The device, if its state is known. -/
def onDev (m : Mem δ) (k : δ → Out (Mem δ)) : Out (Mem δ) :=
  match m.dev with
  | some d => k d
  | none => .fail .stuck m

/-- After the answer of a function with these arguments. -/
def answered (es : List Expr) (fr : Frame) (m : Mem δ) (a : Answer δ) : Out (Mem δ) :=
  match a with
  | (.ok (v, vs), d) => .val v (putBacks es vs fr) ⟨m.self, d⟩
  | (.error f, d) => .fail f ⟨m.self, d⟩

/-- After a place was filled; `g w` is `*self` when the place holds `w`. -/
def refilled (g : Val → Val) (fr : Frame) (r : Except (Fail × Val) (Val × δ)) : Out (Mem δ) :=
  match r with
  | .ok (w, d) => .val (.ok .unit) fr ⟨g w, some d⟩
  | .error (.err e, w) => .val (.err (.thrift e)) fr ⟨g w, none⟩
  | .error (f, w) => .fail f ⟨g w, none⟩

/-- A method of a type that reads. -/
def fills (M : Methods δ) (g : Val → Val) (v : Val) (f : Name) (vs : List V) (fr : Frame) (m : Mem δ) : Out (Mem δ) :=
  match vs with
  | [.self] => if f = n! "fill_thrift" then onDev m fun d => refilled g fr (M.fill v d) else .fail .stuck m
  | [.self, .u8 ft] => if f = n! "fill_thrift_field" then onDev m fun d => refilled g fr (M.fillField v ft d) else .fail .stuck m
  | _ => .fail .stuck m

/-- A method of a type that writes. -/
def writes (M : Methods δ) (v : Val) (f : Name) (es : List Expr) (vs : List V) (fr : Frame) (m : Mem δ) : Out (Mem δ) :=
  match vs with
  | [.self] => if f = n! "write_thrift" then onDev m fun d => answered es fr m (answerW (fun _ => (.unit, vs)) vs (M.write v d)) else .fail .stuck m
  | [.self, .i16 id, .ref (.i16 last)] =>
    if f = n! "write_thrift_field" then
      onDev m fun d => answered es fr m (answerW (fun l => (.unit, [.self, .i16 id, .ref (.i16 l)])) vs (M.writeField v id last d))
    else .fail .stuck m
  | _ => .fail .stuck m

/-- `self.extend(…)`: the elements one after the other. -/
def evExtend (e : Expr) : Nat → Frame → Mem δ → Out (Mem δ)
  | 0, fr, m => .val .unit fr m
  | n + 1, fr, m => (ev e fr m).bind fun v fr m => match v, m.self with
    | .obj w, .list vs => evExtend e n fr ⟨.list (vs ++ [w]), m.dev⟩
    | _, _ => .fail .stuck m

/-- `self.f(es)`: methods of std, then those of `impl Self`, then those of the trait. -/
def evSelfT (e : Expr) (f : Name) (es : List Expr) (vs : List V) (fr : Frame) (m : Mem δ) : Out (Mem δ) :=
  match C.ty, vs with
  | .vec _, [] => if f = n! "clear" then .val .unit fr ⟨.list [], m.dev⟩ else .of (selfMethod C.cfg C.ty f m.self []) fr m
  | .vec _, [.lazy n c] => if f = n! "extend" then evExtend ev c n fr m else .fail .stuck m
  | _, vs => match inherentFn C.ty f with
    | some fn => called (e :: es) (runFn ev fn (.place none :: vs) m) fr
    | none =>
      if f = n! "fill_thrift" then fills C.own id m.self f vs fr m
      else if f = n! "write_thrift" then writes C.own m.self f es vs fr m
      else .of (selfMethod C.cfg C.ty f m.self vs) fr m

/-- `e.f(es)` with the value of `e` -/
def evMethodT (e : Expr) (f : Name) (es : List Expr) (v : V) (vs : List V) (fr : Frame) (m : Mem δ) : Out (Mem δ) :=
  match v with
  | .self => onDev m fun d => answered es fr m (C.dev.method f vs d)
  | .place none => evSelfT C ev e f es vs fr m
  | .place (some p) => match getPart p m.self with
    | some u => fills C.part (fun w => setPart p m.self w) u f vs fr m
    | none => .fail .stuck m
  | .obj u => writes C.part u f es vs fr m
  | v => .of (stdMethodT f v vs) fr m

/-- `f(es)` -/
def evCallT (f : List Name) (es : List Expr) (vs : List V) (fr : Frame) (m : Mem δ) : Out (Mem δ) :=
  match f, vs with
  | [x], [v] =>
    if x = n! "Some" then .val (.some v) fr m
    else if x = n! "Encoding" then .val (.tuple [v]) fr m
    else if x = n! "read_collection_len_and_type" then onDev m fun d => answered es fr m (C.dev.call x [v] d)
    else .of (stdFn f [v]) fr m
  | [x], vs => onDev m fun d => answered es fr m (C.dev.call x vs d)
  | [t, x], [] =>
    if x = n! "default" then
      if t = n! "P" then .val (.obj C.part.dflt) fr m else if t = n! "Self" then .val (.obj C.own.dflt) fr m else .fail .stuck m
    else .fail .stuck m
  | [t, x], [.place none] => .of (pointerFn C.ty t x m.self) fr m
  | [t, x], [.bytes bs] => if x = n! "from" && (t = n! "Rc" || t = n! "Arc") then .val (.bytes bs) fr m else .fail .stuck m
  | [t, x], [.ref (.obj v), .self] =>
    if t = n! "Self" && x = n! "fill_thrift" then onDev m fun d => match C.own.fill v d with
      | .ok (w, d) => .val (.ok .unit) (putBacks es [.ref (.obj w), .self] fr) ⟨m.self, some d⟩
      | .error (.err e, w) => .val (.err (.thrift e)) (putBacks es [.ref (.obj w), .self] fr) ⟨m.self, none⟩
      | .error (f, _) => .fail f ⟨m.self, none⟩
    else .fail .stuck m
  | [a, b, c], [.place none, v] => if a = n! "std" && b = n! "ptr" && c = n! "write" then match stored C.ty v with
      | some w => .val .unit fr ⟨w, m.dev⟩
      | none => .fail .stuck m
    else .fail .stuck m
  | f, vs => .of (stdFn f vs) fr m

/-- `e.f(|_| c)` -/
def evClosure (f : Name) (c : Expr) (v : V) (fr : Frame) (m : Mem δ) : Out (Mem δ) :=
  if f = n! "map_err" then match v with
    | .err _ => (ev c fr m).bind fun w fr m => .val (.err w) fr m
    | .ok w => .val (.ok w) fr m
    | _ => .fail .stuck m
  else if f = n! "map" then match v with
    | .range (some (.lit a)) (some (.lit b)) => .val (.lazy (b - a) c) fr m
    | _ => .fail .stuck m
  else .fail .stuck m

/-- `vs.try_for_each(|x| c)` -/
def evEach (x : Name) (c : Expr) : List Val → Frame → Mem δ → Out (Mem δ)
  | [], fr, m => .val (.ok .unit) fr m
  | u :: us, fr, m => (ev c ([(x, .obj u)] :: fr) m).leave.bind fun v fr m => match v with
    | .ok _ => evEach x c us fr m
    | .err w => .val (.err w) fr m
    | _ => .fail .stuck m

/-- `for x in iter::from_fn(move || g)`; more rounds than the counter are taken for an endless loop. -/
def evGen (x : Name) (g b : Expr) : Nat → Scope → Frame → Mem δ → Out (Mem δ)
  | 0, _, _, m => .fail .diverge m
  | n + 1, vars, fr, m => (ev g [vars] m).bind fun v fr' m => match v with
    | .none => .val .unit fr m
    | .some w => (ev b ([(x, w)] :: fr) m).leave.again fun fr m => evGen x g b n (fr'.headD []) fr m
    | _ => .fail .stuck m

/-- `l = v` -/
def evAssignT (l : Expr) (v : V) (fr : Frame) (m : Mem δ) : Out (Mem δ) :=
  match l with
  | .path [x] => match fr.get x with
    | some _ => .val .unit (fr.put x v) m
    | none => .fail .stuck m
  | .deref (.path [x]) => match fr.get x with
    | some (.place none) => match stored C.ty v with
      | some w => .val .unit fr ⟨w, m.dev⟩
      | none => .fail .stuck m
    | _ => .fail .stuck m
  | .field (.path [x]) 0 => match fr.get x, C.ty, v with
    | some (.place none), .encodingSet, .u32 mask => .val .unit fr ⟨.encodingSet mask, m.dev⟩
    | _, _, _ => .fail .stuck m
  | _ => .fail .stuck m

/-- `v.n` -/
def evFieldT (v : V) (n : Nat) (fr : Frame) (m : Mem δ) : Out (Mem δ) :=
  match v with
  | .place none => match C.ty, n, m.self with
    | .encodingSet, 0, .encodingSet mask => .val (.u32 mask) fr m
    | _, _, _ => .fail .stuck m
  | .tuple vs => match vs[n]? with
    | some w => .val w fr m
    | none => .fail .stuck m
  | _ => .fail .stuck m

/-- `*v` -/
def evDeref (v : V) (fr : Frame) (m : Mem δ) : Out (Mem δ) :=
  match v with
  | .place none => .of (loaded C.ty m.self) fr m
  | v => .val v.deref fr m

/-- A path that is not a variable. -/
def evConstT (p : List Name) (fr : Frame) (m : Mem δ) : Out (Mem δ) :=
  match p with
  | [t, f] =>
    if f = n! "FIELD_TYPE" then
      if t = n! "P" then .val (.u8 C.part.fieldType) fr m
      else if t = n! "Self" then .val (.u8 C.own.fieldType) fr m
      else match litFieldType t with
        | some b => .val (.u8 b) fr m
        | none => .fail .stuck m
    else .of (stdPathT p) fr m
  | [x] => match assoc constProg.consts x with
    | some _ => evConst constProg ev p fr m
    | none => .of (stdPathT p) fr m
  | p => .of (stdPathT p) fr m

def evPathT (p : List Name) (fr : Frame) (m : Mem δ) : Out (Mem δ) :=
  match p with
  | [x] => match fr.get x with
    | some v => .val v fr m
    | none => evConstT C ev p fr m
  | p => evConstT C ev p fr m

/-- The first arm that matches. -/
def evArmsT : List (Pat × Expr) → V → Frame → Mem δ → Out (Mem δ)
  | [], _, _, m => .fail .stuck m
  | (p, e) :: arms, v, fr, m => match matchPatT p v with
    | some l => (ev e (l :: fr) m).leave
    | none => evArmsT arms v fr m

/-- One step of evaluation. -/
def stepT (e : Expr) (fr : Frame) (m : Mem δ) : Out (Mem δ) :=
  match e with
  | .lit n none => .val (.lit n) fr m
  | .lit n (some t) => .val (ofNat t n) fr m
  | .path p => evPathT C ev p fr m
  | .tuple es => evArgs ev es (fun vs fr m => .val (.tuple vs) fr m) fr m
  | .not e => (ev e fr m).bind fun v fr m => .of (inverted v) fr m
  | .deref e => (ev e fr m).bind fun v fr m => evDeref C v fr m
  | .ref b e => (ev e fr m).bind fun v fr m => .val (if b then .ref v else v) fr m
  | .bin op a b => (ev a fr m).bind fun x fr m => (ev b fr m).bind fun y fr m => .of (binaryT C.cfg op x y) fr m
  | .and a b => (ev a fr m).bind fun x fr m => match x with
    | .bool true => ev b fr m
    | .bool false => .val (.bool false) fr m
    | _ => .fail .stuck m
  | .or a b => (ev a fr m).bind fun x fr m => match x with
    | .bool false => ev b fr m
    | .bool true => .val (.bool true) fr m
    | _ => .fail .stuck m
  | .cast e (some t) => (ev e fr m).bind fun v fr m => .of (castTo t v) fr m
  | .cast e none => ev e fr m
  | .field e n => (ev e fr m).bind fun v fr m => evFieldT C v n fr m
  | .range lo hi => evEnd ev lo (fun a fr m => evEnd ev hi (fun b fr m => .val (.range a b) fr m) fr m) fr m
  | .call f [.lambda _ c] => if f = [n! "std", n! "iter", n! "from_fn"] then .val (.gen c fr.flatten) fr m else .fail .stuck m
  | .call f es => evArgs ev es (fun vs fr m => evCallT C f es vs fr m) fr m
  | .method e f es =>
    (ev e fr m).bind fun v fr m => match es with
      | [.closure c] => evClosure ev f c v fr m
      | [.lambda x c] => (match v with
        | .elems us => if f = n! "try_for_each" then evEach ev x c us fr m else .fail .stuck m
        | _ => .fail .stuck m)
      | es => evArgs ev es (fun vs fr m => evMethodT C ev e f es v vs fr m) fr m
  | .try e => (ev e fr m).bind evTry
  | .ite c t e => (ev c fr m).bind fun v fr m => evIf ev v t e fr m
  | .iteLet p v t e => (ev v fr m).bind fun v fr m => evIfLet ev (matchPatT p v) t e fr m
  | .select e arms => (ev e fr m).bind fun v fr m => evArmsT ev arms v fr m
  | .for .wild e b => (ev e fr m).bind fun v fr m => evFor ev v b fr m
  | .for (.name x) e b => (ev e fr m).bind fun v fr m => match v with
    | .gen g vars => evGen ev x g b 1000 vars fr m
    | _ => .fail .stuck m
  | .block es => (evBlock ev es ([] :: fr) m).leave
  | .semi e => (ev e fr m).bind fun _ fr m => .val .unit fr m
  | .bind p e => (ev e fr m).bind fun v fr m => bindPat (matchPatT p v) fr m
  | .ret e => (evOpt ev e fr m).bind fun v fr m => .ret v fr m
  | .assign l r => (ev r fr m).bind fun v fr m => evAssignT C l v fr m
  | .assignOp op l r => (ev r fr m).bind fun v fr m => (ev l fr m).bind fun w fr m =>
    (Out.of (binaryT C.cfg op w v) fr m).bind fun x fr m => evAssignT C l x fr m
  | _ => .fail .stuck m

end

/-- Evaluation; the number bounds its depth. -/
def evalT {δ : Type} (C : Ctx δ) : Nat → Expr → Frame → Mem δ → Out (Mem δ)
  | 0, _, _, m => .fail .diverge m
  | n + 1, e, fr, m => stepT C (evalT C n) e fr m

/-! ## Functions -/

/-- A call; the bodies are less than 40 deep. -/
def runT {δ : Type} (C : Ctx δ) (f : Fn) (vs : List V) (v : Val) (d : δ) : FnOut (Mem δ) := runFn (evalT C 40) f vs ⟨v, some d⟩

/-- The outcome of a function that fills `*self`. -/
def asFill {δ : Type} (o : FnOut (Mem δ)) : Except (Fail × Val) (Val × δ) :=
  match o with
  | .ret (.ok (.tuple [])) _ ⟨v, some d⟩ => .ok (v, d)
  | .ret (.err (.thrift e)) _ m => .error (.err e, m.self)
  | .ret _ _ m => .error (.stuck, m.self)
  | .fail f m => .error (f, m.self)

/-- The outcome of a function that writes; `g` is its result from the arguments at its end. -/
def asWrite {δ α : Type} (d : δ) (g : List V → Option α) (o : FnOut (Mem δ)) : Except Fail α × δ :=
  match o with
  | .ret (.ok (.tuple [])) vs m => match g vs with
    | some a => (.ok a, m.dev.getD d)
    | none => (.error .stuck, m.dev.getD d)
  | .ret (.err (.thrift e)) _ m => (.error (.err e), m.dev.getD d)
  | .ret _ _ m => (.error .stuck, m.dev.getD d)
  | .fail f m => (.error f, m.dev.getD d)

/-- The last argument, a `&mut i16`. -/
def lastId : List V → Option (BitVec 16)
  | [_, _, _, .ref (.i16 l)] => some l
  | _ => none

/-- The constant `FIELD_TYPE` of an `impl`. -/
def implFieldType {δ : Type} (C : Ctx δ) (v : Val) (d : Option δ) : Byte :=
  match (implOf C.ty.text).bind Impl.fieldType with
  | some e => match evalT C 40 e [] ⟨v, d⟩ with
    | .val v _ _ => match asType .u8 v with
      | .u8 b => b
      | _ => 0#8
    | _ => 0#8
  | none => 0#8

section
variable {δ : Type} (cfg : Cfg) (D : Api δ)

/-- The methods of `impl CompactThriftProtocol for ty`, given those of `P`, by running the code. `fill_thrift_field` and `write_thrift_field` can call the others. -/
def implMethods (ty : RTy) (dflt : Val) (part : Methods δ) : Methods δ :=
  let zero : Methods δ := .none 0#8 dflt
  let ft := implFieldType ⟨cfg, D, ty, zero, part⟩ dflt none
  let none : Methods δ := .none ft dflt
  let plain : Methods δ := { none with
    fill := fun v => Fl.of fun d => match implFn ty (n! "fill_thrift") with
      | some f => asFill (runT ⟨cfg, D, ty, none, part⟩ f [.place .none, .self] v d)
      | .none => .error (.stuck, v)
    write := fun v d => match implFn ty (n! "write_thrift") with
      | some f => asWrite d (fun _ => some ()) (runT ⟨cfg, D, ty, none, part⟩ f [.place .none, .self] v d)
      | .none => (.error .stuck, d) }
  { plain with
    fillField := fun v b => Fl.of fun d => match implFn ty (n! "fill_thrift_field") with
      | some f => asFill (runT ⟨cfg, D, ty, plain, part⟩ f [.place .none, .self, .u8 b] v d)
      | .none => .error (.stuck, v)
    writeField := fun v id last d => match implFn ty (n! "write_thrift_field") with
      | some f => asWrite d lastId (runT ⟨cfg, D, ty, plain, part⟩ f [.place .none, .self, .i16 id, .ref (.i16 last)] v d)
      | .none => (.error .stuck, d) }

/-- The methods of a definition of a schema, given the functions its `impl` has (macros.rs:73-110, 144-186, 220-234); `fill_thrift_field` and `write_thrift_field` are
those the trait provides. -/
def defMethods (k : Nat) (ft : Byte) (dflt : Val) (fill : Val → Fl δ Val) (write : Val → Wr δ Unit) : Methods δ :=
  let plain : Methods δ := { Methods.none ft dflt with fill := fill, write := write }
  { plain with
    fillField := fun v b => Fl.of fun d => match implFn (.named k) (n! "fill_thrift_field") with
      | some f => asFill (runT ⟨cfg, D, .named k, plain, .none 0#8 .undef⟩ f [.place .none, .self, .u8 b] v d)
      | .none => .error (.stuck, v)
    writeField := fun v id last d => match implFn (.named k) (n! "write_thrift_field") with
      | some f => asWrite d lastId (runT ⟨cfg, D, .named k, plain, .none 0#8 .undef⟩ f [.place .none, .self, .i16 id, .ref (.i16 last)] v d)
      | .none => (.error .stuck, d) }

/-- The methods of a type; `dflt` is `Default::default()`, `named` are the methods of the definitions. -/
def typeMethods (dflt : RTy → Val) (named : Nat → Methods δ) : RTy → Methods δ
  | .vec t => implMethods cfg D (.vec t) (dflt (.vec t)) (typeMethods dflt named t)
  | .option t => implMethods cfg D (.option t) (dflt (.option t)) (typeMethods dflt named t)
  | .box t => implMethods cfg D (.box t) (dflt (.box t)) (typeMethods dflt named t)
  | .rc t => implMethods cfg D (.rc t) (dflt (.rc t)) (typeMethods dflt named t)
  | .arc t => implMethods cfg D (.arc t) (dflt (.arc t)) (typeMethods dflt named t)
  | .named k => named k
  | ty => implMethods cfg D ty (dflt ty) (.none 0#8 .undef)

/-- `ty::read_thrift(input)`, protocol.rs:441-445 -/
def readText (ty : RTy) (M : Methods δ) : Rd δ Val := fun d =>
  match implFn ty (n! "read_thrift") with
  | some f => match runT ⟨cfg, D, ty, M, .none 0#8 .undef⟩ f [.self] .undef d with
    | .ret (.ok (.obj v)) _ ⟨_, some d⟩ => .ok (v, d)
    | .ret (.err (.thrift e)) _ _ => .error (.err e)
    | .ret _ _ _ => .error .stuck
    | .fail f _ => .error f
  | none => .error .stuck

end

/-! ## The functions of `impl EncodingSet`, encodings.rs:11-32 -/

/-- Without a device; none of the three uses one. -/
def bareCtx (cfg : Cfg) : Ctx Unit := ⟨cfg, ⟨fun _ _ _ => (.error .stuck, none), fun _ _ _ => (.error .stuck, none)⟩, .encodingSet, .none 0#8 .undef, .none 0#8 .undef⟩

/-- `EncodingSet(mask).f()` -/
def ownText (cfg : Cfg) (f : Name) (mask : BitVec 32) : Option V :=
  match inherentFn .encodingSet f with
  | some f => match runT (bareCtx cfg) f [.place none] (.encodingSet mask) () with
    | .ret v _ _ => some v
    | .fail _ _ => none
  | none => none

/-- The items of an iterator made with `std::iter::from_fn`, up to the first `None`; `none` when the closure fails or there are `n` items or more. -/
def genItems (cfg : Cfg) (mask : BitVec 32) (g : Expr) : Nat → Scope → Option (List V)
  | 0, _ => none
  | n + 1, vars => match evalT (bareCtx cfg) 40 g [vars] ⟨.encodingSet mask, none⟩ with
    | .val .none _ _ => some []
    | .val (.some v) fr _ => (genItems cfg mask g n (fr.headD [])).map (v :: ·)
    | _ => none

/-! ## Devices -/

/-- An input: `CompactThriftInput` as in `Protocol.lean`; `owned` tells whether bytes are returned as `Cow::Owned`. -/
def inputDevice {σ : Type} (cfg : Cfg) (I : Input σ) (owned : σ → Bool) : Api σ where
  method f vs d := match vs with
    | [] =>
      if f = n! "read_byte" then answerR .u8 [] (I.readByte d)
      else if f = n! "read_i16" then answerR .i16 [] (I.readI16 cfg d)
      else if f = n! "read_i32" then answerR .i32 [] (I.readI32 cfg d)
      else if f = n! "read_i64" then answerR .i64 [] (I.readI64 cfg d)
      else if f = n! "read_double" then answerR .f64 [] (I.readDouble d)
      else if f = n! "read_binary" then answerR (.cow (owned d)) [] (I.readBinary d)
      else if f = n! "read_string" then answerR (.cow (owned d)) [] (I.readString d)
      else (.error .stuck, some d)
    | _ => (.error .stuck, some d)
  call f vs d := match vs with
    | [.self] =>
      if f = n! "read_collection_len_and_type" then
        answerR (fun (n, t) => .tuple [.u32 (BitVec.ofNat 32 n), .u8 t]) [.self] (I.readCollectionLenAndType cfg d)
      else (.error .stuck, some d)
    | _ => (.error .stuck, some d)

/-- An output: `CompactThriftOutput`. -/
def outputDevice {τ : Type} (S : Sink τ) : Api τ where
  method f vs d := match vs with
    | [.u8 b] => if f = n! "write_byte" then answerW (fun _ => (.unit, vs)) vs (S.writeByte b d) else (.error .stuck, some d)
    | [.usize n] => if f = n! "write_len" then answerW (fun _ => (.unit, vs)) vs (S.writeLen n.toNat d) else (.error .stuck, some d)
    | [.i16 x] => if f = n! "write_i16" then answerW (fun _ => (.unit, vs)) vs (S.writeI16 x d) else (.error .stuck, some d)
    | [.i32 x] => if f = n! "write_i32" then answerW (fun _ => (.unit, vs)) vs (S.writeI32 x d) else (.error .stuck, some d)
    | [.i64 x] => if f = n! "write_i64" then answerW (fun _ => (.unit, vs)) vs (S.writeI64 x d) else (.error .stuck, some d)
    | [.f64 x] => if f = n! "write_double" then answerW (fun _ => (.unit, vs)) vs (S.writeDouble x d) else (.error .stuck, some d)
    | [.bytes bs] =>
      if f = n! "write_binary" || f = n! "write_string" then answerW (fun _ => (.unit, vs)) vs (S.writeBinary bs d) else (.error .stuck, some d)
    | _ => (.error .stuck, some d)
  call f vs d := match vs with
    | [.self, .u8 ft, .i16 id, .ref (.i16 last)] =>
      if f = n! "write_field_header" then
        answerW (fun l => (.unit, [.self, .u8 ft, .i16 id, .ref (.i16 l)])) vs (S.writeFieldHeader ft id last d)
      else (.error .stuck, some d)
    | _ => (.error .stuck, some d)

end CT.Rs
