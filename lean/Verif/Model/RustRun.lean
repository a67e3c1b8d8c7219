import Verif.Model.RustSyntax
import Verif.Model.Types
/-!
# What Rust functions do

An interpreter for the syntax of `RustSyntax.lean`. It knows nothing of the functions it is given: scopes, shadowing, early return, `?`, overflow and bounds
checks are those of Rust; the functions and methods of std that are called are built in. Simplifications: types are not checked (`stuck` is code the compiler refuses); a shared
reference is what it refers to; a `&mut` reference given to a function is passed as its referent and copied back when the function returns, which is the same
because it is exclusive; `self`, `input` and `output` of type `&mut I` are the one device `V.self`, whose state is threaded; the contents of an uninitialised `Vec`
are zeros; what a reader has delivered when it reports an error is lost.
-/
namespace CT.Rs
open CT

/-- The parts of a value that can be referred to: the last element of a vector, the content of `Some`, `Box` and `Rc` or `Arc`. -/
inductive Part where
  | last | some | box | rc
deriving DecidableEq, Repr

/-- Values. A literal has no type until it meets one, nor has `e as _`. -/
inductive V where
  | u8 (x : BitVec 8)
  | u16 (x : BitVec 16)
  | u32 (x : BitVec 32)
  | u64 (x : BitVec 64)
  | usize (x : BitVec 64)
  | i8 (x : BitVec 8)
  | i16 (x : BitVec 16)
  | i32 (x : BitVec 32)
  | i64 (x : BitVec 64)
  | lit (n : Nat)
  /-- `v as _` -/
  | asAny (v : V)
  | bool (b : Bool)
  | f64 (x : BitVec 64)
  | tuple (vs : List V)
  /-- `[u8; n]`, `&[u8]`, `Vec<u8>`, `str`, `__m128i` -/
  | bytes (bs : Bytes)
  /-- `Cow<[u8]>`, `Cow<str>` -/
  | cow (owned : Bool) (bs : Bytes)
  /-- `lo..hi`, with the ends that are given -/
  | range (lo hi : Option V)
  | ok (v : V)
  | err (v : V)
  | thrift (e : ThriftError)
  /-- `io::Error` of a kind -/
  | io (k : ErrorKind)
  | kind (k : ErrorKind)
  | utf8Error
  /-- The device -/
  | self
  /-- `&mut v` -/
  | ref (v : V)
  | none
  | some (v : V)
  /-- A value of one of the types that are read and written, or a reference to one. -/
  | obj (v : Val)
  /-- `&mut` to the part of `*self`; `self` itself if there is no part. -/
  | place (part : Option Part)
  /-- `(0..n).map(|_| e)` -/
  | lazy (n : Nat) (e : Expr)
  /-- an iterator over the elements of a vector -/
  | elems (vs : List Val)
  /-- `iter::from_fn(move || e)` with the variables -/
  | gen (e : Expr) (vars : List (Name × V))
  /-- `a << n` for a literal -/
  | shlLit (a : Nat) (n : BitVec 32)

def V.unit : V := .tuple []

/-- The variables of a scope, the innermost first. -/
abbrev Scope := List (Name × V)

/-- The scopes of a function, the innermost first. -/
abbrev Frame := List Scope

def Scope.get : Scope → Name → Option V
  | [], _ => none
  | (y, v) :: l, x => if x = y then some v else Scope.get l x

def Scope.put : Scope → Name → V → Scope
  | [], _, _ => []
  | (y, v) :: l, x, w => if x = y then (y, w) :: l else (y, v) :: Scope.put l x w

def Frame.get : Frame → Name → Option V
  | [], _ => none
  | sc :: fr, x => match sc.get x with
    | some v => some v
    | none => Frame.get fr x

/-- Assignment to the innermost variable of the name. -/
def Frame.put : Frame → Name → V → Frame
  | [], _, _ => []
  | sc :: fr, x, w => match sc.get x with
    | some _ => sc.put x w :: fr
    | none => sc :: Frame.put fr x w

/-- `let` -/
def Frame.add : Frame → Scope → Frame
  | [], _ => []
  | sc :: fr, l => (l ++ sc) :: fr

/-- How an expression ends. -/
inductive Out (σ : Type) where
  | val (v : V) (fr : Frame) (s : σ)
  | brk (fr : Frame) (s : σ)
  | ret (v : V) (fr : Frame) (s : σ)
  | fail (f : Fail) (s : σ)

/-- How a function ends: its value and what its parameters are at the end. -/
inductive FnOut (σ : Type) where
  | ret (v : V) (args : List V) (s : σ)
  | fail (f : Fail) (s : σ)

/-- What comes after an expression. -/
def Out.bind {σ : Type} (o : Out σ) (k : V → Frame → σ → Out σ) : Out σ :=
  match o with
  | .val v fr s => k v fr s
  | .brk fr s => .brk fr s
  | .ret v fr s => .ret v fr s
  | .fail f s => .fail f s

/-- What comes after a round of a loop. -/
def Out.again {σ : Type} (o : Out σ) (k : Frame → σ → Out σ) : Out σ :=
  match o with
  | .val _ fr s => k fr s
  | .brk fr s => .val .unit fr s
  | .ret v fr s => .ret v fr s
  | .fail f s => .fail f s

/-- The end of a scope. -/
def Out.leave {σ : Type} : Out σ → Out σ
  | .val v fr s => .val v fr.tail s
  | .brk fr s => .brk fr.tail s
  | .ret v fr s => .ret v fr.tail s
  | .fail f s => .fail f s

/-- The value of something that is computed without effects. -/
def Out.of {σ : Type} (r : Except Fail V) (fr : Frame) (s : σ) : Out σ :=
  match r with
  | .ok v => .val v fr s
  | .error f => .fail f s

/-! ## Integers -/

def ofNat (t : ITy) (n : Nat) : V :=
  match t with
  | .u8 => .u8 (BitVec.ofNat 8 n) | .u16 => .u16 (BitVec.ofNat 16 n) | .u32 => .u32 (BitVec.ofNat 32 n) | .u64 => .u64 (BitVec.ofNat 64 n)
  | .usize => .usize (BitVec.ofNat 64 n) | .i8 => .i8 (BitVec.ofNat 8 n) | .i16 => .i16 (BitVec.ofNat 16 n) | .i32 => .i32 (BitVec.ofNat 32 n)
  | .i64 => .i64 (BitVec.ofNat 64 n)

/-- A bit vector of another width as an integer of the type: unsigned values are extended with zeros. -/
def castU {w : Nat} (x : BitVec w) : ITy → V
  | .u8 => .u8 (x.setWidth 8) | .u16 => .u16 (x.setWidth 16) | .u32 => .u32 (x.setWidth 32) | .u64 => .u64 (x.setWidth 64)
  | .usize => .usize (x.setWidth 64) | .i8 => .i8 (x.setWidth 8) | .i16 => .i16 (x.setWidth 16) | .i32 => .i32 (x.setWidth 32) | .i64 => .i64 (x.setWidth 64)

/-- Signed values are extended with the sign. -/
def castS {w : Nat} (x : BitVec w) : ITy → V
  | .u8 => .u8 (x.signExtend 8) | .u16 => .u16 (x.signExtend 16) | .u32 => .u32 (x.signExtend 32) | .u64 => .u64 (x.signExtend 64)
  | .usize => .usize (x.signExtend 64) | .i8 => .i8 (x.signExtend 8) | .i16 => .i16 (x.signExtend 16) | .i32 => .i32 (x.signExtend 32) | .i64 => .i64 (x.signExtend 64)

/-- `v as t` -/
def castTo (t : ITy) : V → Except Fail V
  | .u8 x => .ok (castU x t) | .u16 x => .ok (castU x t) | .u32 x => .ok (castU x t) | .u64 x => .ok (castU x t) | .usize x => .ok (castU x t)
  | .i8 x => .ok (castS x t) | .i16 x => .ok (castS x t) | .i32 x => .ok (castS x t) | .i64 x => .ok (castS x t)
  | .bool b => .ok (ofNat t b.toNat)
  | .lit n => .ok (ofNat t n)
  | _ => .error .stuck

/-- A value where the type is known. -/
def asType (t : ITy) : V → V
  | .lit n => ofNat t n
  | .asAny v => match castTo t v with
    | .ok w => w
    | .error _ => .asAny v
  | v => v

def asSlot1 : Option ITy → V → V
  | some t, v => asType t v
  | none, v => v

def asSlot : Slot → V → V
  | .int t, v => asType t v
  | .tuple ts, .tuple vs => .tuple (List.zipWith asSlot1 ts vs)
  | _, v => v

/-- A value where the type is `slot` or `Result<slot, _>`. -/
def asReturn (result : Bool) (slot : Slot) (v : V) : V :=
  if result then match v with
    | .ok w => .ok (asSlot slot w)
    | v => v
  else asSlot slot v

section
variable (cfg : Cfg)

/-- `a << n`, `a >> n`: an amount of the width or more panics with overflow checks, and is taken modulo the width without. -/
def shifted {w : Nat} (f : Nat → BitVec w) (n : Nat) : Except Fail (BitVec w) :=
  if n < w then .ok (f n) else if cfg.overflowChecks then .error .panic else .ok (f (n % w))

/-- Operators on two unsigned integers of a type. -/
def binU {w : Nat} (mk : BitVec w → V) (op : BinOp) (a b : BitVec w) : Except Fail V :=
  match op with
  | .add => if cfg.overflowChecks && decide (2 ^ w ≤ a.toNat + b.toNat) then .error .panic else .ok (mk (a + b))
  | .sub => if cfg.overflowChecks && decide (a.toNat < b.toNat) then .error .panic else .ok (mk (a - b))
  | .mul => if cfg.overflowChecks && decide (2 ^ w ≤ a.toNat * b.toNat) then .error .panic else .ok (mk (a * b))
  | .shl => (shifted cfg (fun n => a <<< n) b.toNat).map mk
  | .shr => (shifted cfg (fun n => a >>> n) b.toNat).map mk
  | .band => .ok (mk (a &&& b))
  | .bor => .ok (mk (a ||| b))
  | .bxor => .ok (mk (a ^^^ b))
  | .eq => .ok (.bool (a == b))
  | .ne => .ok (.bool (a != b))
  | .lt => .ok (.bool (decide (a.toNat < b.toNat)))
  | .gt => .ok (.bool (decide (b.toNat < a.toNat)))
  | .le => .ok (.bool (decide (a.toNat ≤ b.toNat)))
  | .ge => .ok (.bool (decide (b.toNat ≤ a.toNat)))

/-- Whether a number is one of the signed integers of the width. -/
def fits (w : Nat) (n : Int) : Bool := decide (-(2 : Int) ^ (w - 1) ≤ n ∧ n < (2 : Int) ^ (w - 1))

/-- Operators on two signed integers of a type. -/
def binS {w : Nat} (mk : BitVec w → V) (op : BinOp) (a b : BitVec w) : Except Fail V :=
  match op with
  | .add => if cfg.overflowChecks && !fits w (a.toInt + b.toInt) then .error .panic else .ok (mk (a + b))
  | .sub => if cfg.overflowChecks && !fits w (a.toInt - b.toInt) then .error .panic else .ok (mk (a - b))
  | .mul => if cfg.overflowChecks && !fits w (a.toInt * b.toInt) then .error .panic else .ok (mk (a * b))
  | .shl => (shifted cfg (fun n => a <<< n) b.toNat).map mk
  | .shr => (shifted cfg (fun n => a.sshiftRight n) b.toNat).map mk
  | .band => .ok (mk (a &&& b))
  | .bor => .ok (mk (a ||| b))
  | .bxor => .ok (mk (a ^^^ b))
  | .eq => .ok (.bool (a == b))
  | .ne => .ok (.bool (a != b))
  | .lt => .ok (.bool (decide (a.toInt < b.toInt)))
  | .gt => .ok (.bool (decide (b.toInt < a.toInt)))
  | .le => .ok (.bool (decide (a.toInt ≤ b.toInt)))
  | .ge => .ok (.bool (decide (b.toInt ≤ a.toInt)))

/-- Operators on values of the same type; literals take the type of the other operand. -/
def binary (op : BinOp) : V → V → Except Fail V
  | .u8 a, .u8 b => binU cfg .u8 op a b
  | .u16 a, .u16 b => binU cfg .u16 op a b
  | .u32 a, .u32 b => binU cfg .u32 op a b
  | .u64 a, .u64 b => binU cfg .u64 op a b
  | .usize a, .usize b => binU cfg .usize op a b
  | .i8 a, .i8 b => binS cfg .i8 op a b
  | .i16 a, .i16 b => binS cfg .i16 op a b
  | .i32 a, .i32 b => binS cfg .i32 op a b
  | .i64 a, .i64 b => binS cfg .i64 op a b
  | .u8 a, .lit n => binU cfg .u8 op a (BitVec.ofNat 8 n)
  | .u16 a, .lit n => binU cfg .u16 op a (BitVec.ofNat 16 n)
  | .u32 a, .lit n => binU cfg .u32 op a (BitVec.ofNat 32 n)
  | .u64 a, .lit n => binU cfg .u64 op a (BitVec.ofNat 64 n)
  | .usize a, .lit n => binU cfg .usize op a (BitVec.ofNat 64 n)
  | .i8 a, .lit n => binS cfg .i8 op a (BitVec.ofNat 8 n)
  | .i16 a, .lit n => binS cfg .i16 op a (BitVec.ofNat 16 n)
  | .i32 a, .lit n => binS cfg .i32 op a (BitVec.ofNat 32 n)
  | .i64 a, .lit n => binS cfg .i64 op a (BitVec.ofNat 64 n)
  | .lit n, .u8 b => binU cfg .u8 op (BitVec.ofNat 8 n) b
  | .lit a, .lit b => match op with
    | .mul => .ok (.lit (a * b))
    | _ => .error .stuck
  | _, _ => .error .stuck

/-- `-v` -/
def negated : V → Except Fail V
  | .i16 x => if cfg.overflowChecks && decide (x = BitVec.intMin 16) then .error .panic else .ok (.i16 (-x))
  | .i32 x => if cfg.overflowChecks && decide (x = BitVec.intMin 32) then .error .panic else .ok (.i32 (-x))
  | .i64 x => if cfg.overflowChecks && decide (x = BitVec.intMin 64) then .error .panic else .ok (.i64 (-x))
  | _ => .error .stuck

end

/-- `!v` -/
def inverted : V → Except Fail V
  | .bool b => .ok (.bool !b)
  | .u8 x => .ok (.u8 (~~~x))
  | .i32 x => .ok (.i32 (~~~x))
  | _ => .error .stuck

/-- The number a pattern compares with, for unsigned integers. -/
def patNat : V → Option Nat
  | .u8 x => some x.toNat
  | .u16 x => some x.toNat
  | .u32 x => some x.toNat
  | .u64 x => some x.toNat
  | .usize x => some x.toNat
  | _ => none

/-- The variables bound by a pattern, if it matches. -/
def matchPat : Pat → V → Option Scope
  | .wild, _ => some []
  | .name x, v => some [(x, v)]
  | .lit n, v => match patNat v with
    | some m => if m = n then some [] else none
    | none => none
  | .range a b, v => match patNat v with
    | some m => if a ≤ m ∧ m ≤ b then some [] else none
    | none => none
  | .alt p q, v => match matchPat p v with
    | some l => some l
    | none => matchPat q v
  | .names xs, v => match v with
    | .tuple vs => if xs.length = vs.length then some (xs.zip vs) else none
    | _ => none
  | .headRest x y, v => match v with
    | .bytes (b :: bs) => some [(x, .u8 b), (y, .bytes bs)]
    | _ => none
  | .con p x, v => match v with
    | .cow owned bs => if p = [n! "Cow", if owned then n! "Owned" else n! "Borrowed"] then some [(x, .bytes bs)] else none
    | _ => none

/-! ## std -/

/-- What the device `&mut I` offers: a slice, `Read::read_exact` for a number of bytes, `Write::write_all`. -/
structure Host (σ : Type) where
  slice : σ → Option Bytes
  setSlice : Bytes → σ → σ
  readExact : Nat → Rd σ Bytes
  writeAll : Bytes → Wr σ Unit

/-- `bs[lo..hi]`, `bs[i]`: out of bounds panics. -/
def indexed (bs : Bytes) : V → Except Fail V
  | .usize i => match bs[i.toNat]? with
    | some b => .ok (.u8 b)
    | none => .error .panic
  | .lit i => match bs[i]? with
    | some b => .ok (.u8 b)
    | none => .error .panic
  | .range (some (.usize lo)) none => if lo.toNat ≤ bs.length then .ok (.bytes (bs.drop lo.toNat)) else .error .panic
  | .range (some (.lit lo)) none => if lo ≤ bs.length then .ok (.bytes (bs.drop lo)) else .error .panic
  | .range none (some (.lit hi)) => if hi ≤ bs.length then .ok (.bytes (bs.take hi)) else .error .panic
  | _ => .error .stuck

def indexedV : V → V → Except Fail V
  | .bytes bs, w => indexed bs w
  | _, _ => .error .stuck

/-- `[v; n]` -/
def filled (n : Nat) : V → Except Fail V
  | .u8 x => .ok (.bytes (List.replicate n x))
  | _ => .error .stuck

/-- `*v` -/
def V.deref : V → V
  | .ref w => w
  | w => w

/-- Functions of std and constructors. -/
def stdFn (f : List Name) (vs : List V) : Except Fail V :=
  match f, vs with
  | [f], [v] =>
    if f = n! "Ok" then .ok (.ok v)
    else if f = n! "Err" then .ok (.err v)
    else if f = n! "from_utf8" then match v with
      | .bytes bs => .ok (if utf8Valid bs then .ok (.bytes bs) else .err .utf8Error)
      | _ => .error .stuck
    else if f = n! "from_utf8_unchecked" then .ok v
    else if f = n! "_mm_loadu_si128" then match v with
      | .bytes bs => if 16 ≤ bs.length then .ok (.bytes (bs.take 16)) else .error .ub
      | _ => .error .stuck
    else if f = n! "_mm_movemask_epi8" then match v with
      | .bytes bs => .ok (.i32 (movemask bs))
      | _ => .error .stuck
    else .error .stuck
  | [t, f], [v] =>
    if t = n! "ThriftError" then
      if f = n! "from" then match v with
        | .kind k => .ok (.thrift (.io k))
        | .io k => .ok (.thrift (.io k))
        | _ => .error .stuck
      else if f = n! "InvalidBinaryLen" then match v with
        | .usize n => .ok (.thrift (.invalidBinaryLen n.toNat))
        | _ => .error .stuck
      else .error .stuck
    else if t = n! "Cow" then match v with
      | .bytes bs => if f = n! "Owned" then .ok (.cow true bs) else if f = n! "Borrowed" then .ok (.cow false bs) else .error .stuck
      | _ => .error .stuck
    else if t = n! "f64" then match v with
      | .bytes bs => if f = n! "from_le_bytes" && bs.length = 8 then .ok (.f64 (fromLeBytes bs)) else .error .stuck
      | _ => .error .stuck
    else if t = n! "Vec" then (if f = n! "with_capacity" then .ok (.bytes []) else .error .stuck)
    else if t = n! "String" then (if f = n! "from_utf8_unchecked" then .ok v else .error .stuck)
    else .error .stuck
  | _, _ => .error .stuck

/-- Paths that are constants of the crate or of std. -/
def stdPath (p : List Name) : Except Fail V :=
  match p with
  | [t, f] =>
    if t = n! "ThriftError" then
      if f = n! "InvalidString" then .ok (.thrift .invalidString)
      else if f = n! "InvalidCollectionLen" then .ok (.thrift .invalidCollectionLen)
      else if f = n! "InvalidType" then .ok (.thrift .invalidType)
      else .error .stuck
    else if t = n! "ErrorKind" then (if f = n! "UnexpectedEof" then .ok (.kind .unexpectedEof) else .error .stuck)
    else .error .stuck
  | _ => .error .stuck

/-- Methods of std that change nothing. -/
def stdMethod (f : Name) (v : V) (vs : List V) : Except Fail V :=
  match v, vs with
  | .bytes bs, [] =>
    if f = n! "len" then .ok (.usize (BitVec.ofNat 64 bs.length))
    else if f = n! "as_ptr" || f = n! "cast" || f = n! "as_bytes" then .ok (.bytes bs)
    else if f = n! "into" then .ok (.cow true bs)
    else if f = n! "try_into" then .ok (.ok (.bytes bs))
    else .error .stuck
  | .bytes bs, [.range (some (.usize lo)) none] =>
    if f = n! "get_unchecked" then (if lo.toNat ≤ bs.length then .ok (.bytes (bs.drop lo.toNat)) else .error .ub) else .error .stuck
  | .bytes bs, [.usize n] =>
    if f = n! "split_at" then (if n.toNat ≤ bs.length then .ok (.tuple [.bytes (bs.take n.toNat), .bytes (bs.drop n.toNat)]) else .error .panic) else .error .stuck
  | .cow _ bs, [] => if f = n! "as_ref" then .ok (.bytes bs) else .error .stuck
  | .ok w, [] => if f = n! "unwrap" then .ok w else .error .stuck
  | .err _, [] => if f = n! "unwrap" then .error .panic else .error .stuck
  | .f64 x, [] => if f = n! "to_le_bytes" then .ok (.bytes (toLeBytes 8 x)) else .error .stuck
  | .i32 x, [] => if f = n! "trailing_zeros" then .ok (.u32 (BitVec.ofNat 32 (trailingZeros x))) else .error .stuck
  | .u64 x, [.u32 n] => if f = n! "wrapping_shl" then .ok (.u64 (x <<< (n.toNat % 64))) else .error .stuck
  | .i16 x, [.i16 y] => if f = n! "wrapping_sub" then .ok (.i16 (x - y)) else .error .stuck
  | _, _ => .error .stuck

/-! ## Evaluation -/

/-- The functions, the methods of the device (an implementation comes before the defaults of the trait), and the constants. -/
structure Prog where
  fns : List (Name × Fn)
  methods : List (Name × Fn)
  consts : List (Name × Slot × Expr)

def assoc {α : Type} : List (Name × α) → Name → Option α
  | [], _ => none
  | (y, a) :: l, x => if x = y then some a else assoc l x

section
variable {σ : Type} (cfg : Cfg) (debug : Bool) (P : Prog) (H : Host σ) (ev : Expr → Frame → σ → Out σ)

/-- The values of arguments, from left to right. -/
def evArgs : List Expr → (List V → Frame → σ → Out σ) → Frame → σ → Out σ
  | [], k => k []
  | e :: es, k => fun fr s => (ev e fr s).bind fun v fr s => evArgs es (fun vs => k (v :: vs)) fr s

/-- The end of the body of a function. -/
def finished (f : Fn) (o : Out σ) : FnOut σ :=
  match o with
  | .val v fr s => .ret (asReturn f.result f.ret v) ((fr.headD []).map Prod.snd) s
  | .ret v fr s => .ret (asReturn f.result f.ret v) ((fr.headD []).map Prod.snd) s
  | .brk _ s => .fail .stuck s
  | .fail f s => .fail f s

/-- The parameters of a call; the type of a parameter is that of a literal given for it. -/
def bound : List (Name × Slot) → List V → Scope
  | (x, t) :: ps, v :: vs => (x, asSlot t v) :: bound ps vs
  | _, _ => []

/-- A call with the arguments. -/
def runFn (f : Fn) (vs : List V) (s : σ) : FnOut σ := finished f (ev f.body [bound f.params vs] s)

/-- What the function leaves in a `&mut` argument. -/
def putBack (e : Expr) (v : V) (fr : Frame) : Frame :=
  match e, v with
  | .ref true (.path [x]), .ref w => fr.put x w
  | .method (.path [x]) _ [], .ref w => fr.put x w
  | .path [x], .ref w => fr.put x (.ref w)
  | _, _ => fr

def putBacks : List Expr → List V → Frame → Frame
  | e :: es, v :: vs, fr => putBacks es vs (putBack e v fr)
  | _, _, fr => fr

/-- The end of a call with these arguments. -/
def called (es : List Expr) (o : FnOut σ) (fr : Frame) : Out σ :=
  match o with
  | .ret v args s => .val v (putBacks es args fr) s
  | .fail f s => .fail f s

/-- `f(es)` -/
def evCall (f : List Name) (es : List Expr) (vs : List V) (fr : Frame) (s : σ) : Out σ :=
  match f with
  | [x] => match assoc P.fns x with
    | some fn => called es (runFn ev fn vs s) fr
    | none => .of (stdFn f vs) fr s
  | f => .of (stdFn f vs) fr s

/-- `std::mem::take(&mut self.0)` -/
def evTake (fr : Frame) (s : σ) : Out σ :=
  match H.slice s with
  | some bs => .val (.bytes bs) fr (H.setSlice [] s)
  | none => .fail .stuck s

/-- `self.read_exact(buf)`; an error is an `io::Error`. -/
def evReadExact (es : List Expr) (v : V) (fr : Frame) (s : σ) : Out σ :=
  match v with
  | .ref (.bytes bs) => match H.readExact bs.length s with
    | .ok (bs', s') => .val (.ok .unit) (putBacks es [.ref (.bytes bs')] fr) s'
    | .error (.err (.io k)) => .val (.err (.io k)) fr s
    | .error f => .fail f s
  | _ => .fail .stuck s

/-- `self.write_all(bs)` -/
def evWriteAll (v : V) (fr : Frame) (s : σ) : Out σ :=
  match v with
  | .bytes bs => match H.writeAll bs s with
    | (.ok _, s') => .val (.ok .unit) fr s'
    | (.error (.err (.io k)), s') => .val (.err (.io k)) fr s'
    | (.error f, s') => .fail f s'
  | _ => .fail .stuck s

/-- A method of the device `e`. -/
def evSelf (e : Expr) (f : Name) (es : List Expr) (vs : List V) (fr : Frame) (s : σ) : Out σ :=
  match assoc P.methods f with
  | some fn => called (e :: es) (runFn ev fn (.self :: vs) s) fr
  | none => match vs with
    | [v] => if f = n! "read_exact" then evReadExact H es v fr s else if f = n! "write_all" then evWriteAll H v fr s else .fail .stuck s
    | _ => .fail .stuck s

/-- A method of bytes; two of them change a variable. -/
def evBytes (e : Expr) (f : Name) (bs : Bytes) (vs : List V) (fr : Frame) (s : σ) : Out σ :=
  if f = n! "as_mut_slice" then .val (.ref (.bytes bs)) fr s
  else if f = n! "set_len" then match e, vs with
    | .path [x], [.usize n] => .val .unit (fr.put x (.bytes (List.replicate n.toNat 0#8))) s
    | _, _ => .fail .stuck s
  else .of (stdMethod f (.bytes bs) vs) fr s

/-- `e.f(es)` with the value of `e` -/
def evMethod (e : Expr) (f : Name) (es : List Expr) (v : V) (vs : List V) (fr : Frame) (s : σ) : Out σ :=
  match v with
  | .self => evSelf P H ev e f es vs fr s
  | .bytes bs => evBytes e f bs vs fr s
  | v => .of (stdMethod f v vs) fr s

/-- `e?`: an `io::Error` becomes a `ThriftError`, error.rs:77-81. -/
def evTry (v : V) (fr : Frame) (s : σ) : Out σ :=
  match v with
  | .ok w => .val w fr s
  | .err (.io k) => .ret (.err (.thrift (.io k))) fr s
  | .err w => .ret (.err w) fr s
  | _ => .fail .stuck s

/-- The first arm that matches. -/
def evArms : List (Pat × Expr) → V → Frame → σ → Out σ
  | [], _, _, s => .fail .stuck s
  | (p, e) :: arms, v, fr, s => match matchPat p v with
    | some l => (ev e (l :: fr) s).leave
    | none => evArms arms v fr s

/-- The statements of a block; its value is that of the last. -/
def evBlock : List Expr → Frame → σ → Out σ
  | [], fr, s => .val .unit fr s
  | [e], fr, s => ev e fr s
  | e :: es, fr, s => (ev e fr s).bind fun _ fr s => evBlock es fr s

/-- `for _ in …`: the body so many times. -/
def evTimes (b : Expr) : Nat → Frame → σ → Out σ
  | 0, fr, s => .val .unit fr s
  | n + 1, fr, s => (ev b fr s).again fun fr s => evTimes b n fr s

/-- The number of rounds of `for _ in lo..hi`. -/
def rounds : V → Option Nat
  | .range (some (.lit lo)) (some (.u32 hi)) => some (hi.toNat - lo)
  | .range (some (.lit lo)) (some (.usize hi)) => some (hi.toNat - lo)
  | _ => none

/-- `for _ in v` -/
def evFor (v : V) (b : Expr) (fr : Frame) (s : σ) : Out σ :=
  match rounds v with
  | some n => evTimes ev b n fr s
  | none => .fail .stuck s

/-- `while c` with the value of `c` -/
def evWhile (v : V) (c b : Expr) (fr : Frame) (s : σ) : Out σ :=
  match v with
  | .bool true => (ev b fr s).again fun fr s => ev (.while c b) fr s
  | .bool false => .val .unit fr s
  | _ => .fail .stuck s

/-- `let` with what the pattern binds -/
def bindPat (l : Option Scope) (fr : Frame) (s : σ) : Out σ :=
  match l with
  | some l => .val .unit (fr.add l) s
  | none => .fail .stuck s

/-- `if let` with what the pattern binds -/
def evIfLet (l : Option Scope) (t : Expr) (e : Option Expr) (fr : Frame) (s : σ) : Out σ :=
  match l with
  | some l => (ev t (l :: fr) s).leave
  | none => match e with
    | some e => ev e fr s
    | none => .val .unit fr s

/-- `self.0` -/
def evField (v : V) (n : Nat) (fr : Frame) (s : σ) : Out σ :=
  match v, n, H.slice s with
  | .self, 0, some bs => .val (.bytes bs) fr s
  | _, _, _ => .fail .stuck s

/-- `l = v` -/
def evAssign (l : Expr) (v : V) (fr : Frame) (s : σ) : Out σ :=
  match l with
  | .path [x] => match fr.get x with
    | some _ => .val .unit (fr.put x v) s
    | none => .fail .stuck s
  | .deref (.path [x]) => match fr.get x with
    | some (.ref _) => .val .unit (fr.put x (.ref v)) s
    | _ => .fail .stuck s
  | .field (.path [_]) 0 => match v, H.slice s with
    | .bytes bs, some _ => .val .unit fr (H.setSlice bs s)
    | _, _ => .fail .stuck s
  | _ => .fail .stuck s

def evOpt : Option Expr → Frame → σ → Out σ
  | some e, fr, s => ev e fr s
  | none, fr, s => .val .unit fr s

/-- One end of a range. -/
def evEnd : Option Expr → (Option V → Frame → σ → Out σ) → Frame → σ → Out σ
  | some e, k, fr, s => (ev e fr s).bind fun v fr s => k (some v) fr s
  | none, k, fr, s => k none fr s

def evIf (v : V) (t : Expr) (e : Option Expr) (fr : Frame) (s : σ) : Out σ :=
  match v with
  | .bool true => ev t fr s
  | .bool false => evOpt ev e fr s
  | _ => .fail .stuck s

/-- A constant of the crate or of std. -/
def evConst (p : List Name) (fr : Frame) (s : σ) : Out σ :=
  match p with
  | [x] => match assoc P.consts x with
    | some (t, e) => match ev e [] s with
      | .val v _ s => .val (asSlot t v) fr s
      | o => o
    | none => .of (stdPath p) fr s
  | p => .of (stdPath p) fr s

/-- A variable, else a constant. -/
def evVar (x : Name) (v : Option V) (fr : Frame) (s : σ) : Out σ :=
  match v with
  | some v => .val v fr s
  | none => evConst P ev [x] fr s

/-- A path -/
def evPath (p : List Name) (fr : Frame) (s : σ) : Out σ :=
  match p with
  | [x] => evVar P ev x (fr.get x) fr s
  | p => evConst P ev p fr s

/-- One step of evaluation. -/
def step (e : Expr) (fr : Frame) (s : σ) : Out σ :=
  match e with
  | .lit n none => .val (.lit n) fr s
  | .lit n (some t) => .val (ofNat t n) fr s
  | .bool b => .val (.bool b) fr s
  | .path p => evPath P ev p fr s
  | .tuple es => evArgs ev es (fun vs fr s => .val (.tuple vs) fr s) fr s
  | .fill e n => (ev e fr s).bind fun v fr s => .of (filled n v) fr s
  | .array es => evArgs ev es (fun vs fr s => match vs with
    | [.u8 x] => .val (.bytes [x]) fr s
    | _ => .fail .stuck s) fr s
  | .neg e => (ev e fr s).bind fun v fr s => .of (negated cfg v) fr s
  | .not e => (ev e fr s).bind fun v fr s => .of (inverted v) fr s
  | .deref e => (ev e fr s).bind fun v fr s => .val v.deref fr s
  | .ref m e => (ev e fr s).bind fun v fr s => .val (if m then .ref v else v) fr s
  | .bin op a b => (ev a fr s).bind fun x fr s => (ev b fr s).bind fun y fr s => .of (binary cfg op x y) fr s
  | .and a b => (ev a fr s).bind fun x fr s => match x with
    | .bool true => ev b fr s
    | .bool false => .val (.bool false) fr s
    | _ => .fail .stuck s
  | .or a b => (ev a fr s).bind fun x fr s => match x with
    | .bool false => ev b fr s
    | .bool true => .val (.bool true) fr s
    | _ => .fail .stuck s
  | .cast e (some t) => (ev e fr s).bind fun v fr s => .of (castTo t v) fr s
  | .cast e none => (ev e fr s).bind fun v fr s => .val (.asAny v) fr s
  | .field e n => (ev e fr s).bind fun v fr s => evField H v n fr s
  | .index e i => (ev e fr s).bind fun v fr s => (ev i fr s).bind fun w fr s => .of (indexedV v w) fr s
  | .range lo hi => evEnd ev lo (fun a fr s => evEnd ev hi (fun b fr s => .val (.range a b) fr s) fr s) fr s
  | .call f es =>
    if f = [n! "std", n! "mem", n! "take"] then evTake H fr s
    else evArgs ev es (fun vs fr s => evCall P ev f es vs fr s) fr s
  | .method e f es =>
    (ev e fr s).bind fun v fr s => match es with
      | [.closure c] => if f = n! "map_err" then (match v with
          | .err _ => (ev c fr s).bind fun w fr s => .val (.err w) fr s
          | v => .val v fr s) else .fail .stuck s
      | es => evArgs ev es (fun vs fr s => evMethod P H ev e f es v vs fr s) fr s
  | .try e => (ev e fr s).bind evTry
  | .mac f es => if f = n! "debug_assert" then (if debug then evArgs ev es (fun vs fr s => match vs with
        | [.bool true] => .val .unit fr s
        | [.bool false] => .fail .panic s
        | _ => .fail .stuck s) fr s else .val .unit fr s) else .fail .stuck s
  | .closure _ => .fail .stuck s
  | .lambda _ _ => .fail .stuck s
  | .ite c t e => (ev c fr s).bind fun v fr s => evIf ev v t e fr s
  | .iteLet p v t e => (ev v fr s).bind fun v fr s => evIfLet ev (matchPat p v) t e fr s
  | .select e arms => (ev e fr s).bind fun v fr s => evArms ev arms v fr s
  | .loop b => (ev b fr s).again fun fr s => ev (.loop b) fr s
  | .while c b => (ev c fr s).bind fun v fr s => evWhile ev v c b fr s
  | .for .wild e b => (ev e fr s).bind fun v fr s => evFor ev v b fr s
  | .for _ _ _ => .fail .stuck s
  | .block es => (evBlock ev es ([] :: fr) s).leave
  | .semi e => (ev e fr s).bind fun _ fr s => .val .unit fr s
  | .bind p e => (ev e fr s).bind fun v fr s => bindPat (matchPat p v) fr s
  | .ret e => (evOpt ev e fr s).bind fun v fr s => .ret v fr s
  | .brk => .brk fr s
  | .assign l r => (ev r fr s).bind fun v fr s => evAssign H l v fr s
  | .assignOp op l r => (ev r fr s).bind fun v fr s => (ev l fr s).bind fun w fr s =>
    (Out.of (binary cfg op w v) fr s).bind fun x fr s => evAssign H l x fr s

end

/-- Evaluation; the fuel bounds its depth and the rounds of loops. -/
def eval {σ : Type} (cfg : Cfg) (debug : Bool) (P : Prog) (H : Host σ) : Nat → Expr → Frame → σ → Out σ
  | 0, _, _, s => .fail .diverge s
  | n + 1, e, fr, s => step cfg debug P H (eval cfg debug P H n) e fr s

/-! ## Programs -/

/-- The functions compiled with or without SSE2. -/
def present (sse2 : Bool) (fs : List (Bool × Fn)) : List (Name × Fn) :=
  (fs.filter fun (needs, _) => !needs || sse2).map fun (_, f) => (f.name, f)

/-- The functions of the files. -/
def fnsOf (sse2 : Bool) (items : List Item) : List (Name × Fn) :=
  items.flatMap fun
    | .fn needs f => present sse2 [(needs, f)]
    | _ => []

def constsOf (items : List Item) : List (Name × Slot × Expr) :=
  items.flatMap fun
    | .const x t e => [(x, t, e)]
    | _ => []

/-- The methods of `impl trait for type`, then those the trait provides. -/
def methodsOf (sse2 : Bool) (tr ty : Name) (items : List Item) : List (Name × Fn) :=
  (items.flatMap fun
    | .impl t y fs => if t = tr ∧ y = ty then present sse2 fs else []
    | _ => []) ++
  (items.flatMap fun
    | .trait t fs => if t = tr then present sse2 fs else []
    | _ => [])

/-- The program of the files, for the device `ty`. -/
def progOf (sse2 : Bool) (items : List Item) (tr ty : Name) : Prog := ⟨fnsOf sse2 items, methodsOf sse2 tr ty items, constsOf items⟩

/-- `&mut CompactThriftInputSlice` -/
def sliceHost : Host Bytes := ⟨some, fun bs _ => bs, fun _ => Rd.fail .stuck, fun _ => Wr.fail .stuck⟩

/-- `&mut R` with `R: Read` -/
def readerHost : Host (List REvent) := ⟨fun _ => none, fun _ s => s, readExact, fun _ => Wr.fail .stuck⟩

/-- `&mut W` with `W: Write` -/
def sinkHost {τ : Type} (S : Sink τ) : Host τ := ⟨fun _ => none, fun _ s => s, fun _ => Rd.fail .stuck, S.writeAll⟩

end CT.Rs
