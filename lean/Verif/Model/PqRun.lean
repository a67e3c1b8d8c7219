import Verif.Model.PqSyntax
import Verif.Model.Parquet
import Verif.Model.RustRun
import Verif.Model.FormatTokens
import Verif.Model.Print
/-!
# What the functions of the parquet crate do

An interpreter for the syntax of `PqSyntax.lean`, which knows nothing of the functions it is given. Integers are those of `RustRun.lean`. The values of generated types
(format.rs) are those of `Types.lean`, the constants of generated enums those in the tokens of format.rs. Simplifications: types are not checked (`stuck` is code the compiler refuses); a shared reference is what it refers to; a `&mut`
reference is copied in and out, which is the same because it is exclusive; `into` and `?` find the implementation by the type of the source alone; an untyped
integer literal that meets no type is a number; what a failed `fill_thrift` leaves is lost (types.rs and C111 have it); the contents of an uninitialised `Vec` are zeros; iterators are
evaluated by `collect`.
-/
namespace CT.Pq
open CT CT.Parquet
open CT.Rs (Name nameOf ITy BinOp)

/-- Values -/
inductive V where
  /-- integers, literals, booleans, bytes and strings, `ErrorKind`, `ThriftError` -/
  | base (v : Rs.V)
  /-- `-n`, a literal -/
  | neg (n : Nat)
  /-- a string literal -/
  | str (s : Name)
  | tuple (vs : List V)
  | vec (vs : List V)
  /-- `Path(v, …)` -/
  | con (p : List Name) (vs : List V)
  /-- `Path { x: v, … }` -/
  | record (p : List Name) (fields : List (Name × V))
  /-- a generated struct or union -/
  | obj (t : Ty) (v : Val)
  | range (lo hi : Option V)
  /-- `&mut v` -/
  | ref (v : V)
  /-- the `R: Read + Seek` -/
  | file
  /-- a function as a value -/
  | fn (p : List Name)
  /-- `|x| e` with the variables it sees -/
  | lambda (x : Name) (e : Expr) (fr : List (List (Name × V)))
  /-- `vs.map(f)` -/
  | mapped (vs : List V) (f : V)

def V.unit : V := .tuple []
def V.none : V := .con [n! "None"] []
def V.some (v : V) : V := .con [n! "Some"] [v]
def V.ok (v : V) : V := .con [n! "Ok"] [v]
def V.err (v : V) : V := .con [n! "Err"] [v]
/-- `io::Error` of a kind -/
def V.io (k : ErrorKind) : V := .con [n! "IOError"] [.base (.kind k)]
def V.thrift (e : ThriftError) : V := .con [n! "ThriftError"] [.base (.thrift e)]

abbrev Scope := List (Name × V)
abbrev Frame := List Scope

def Scope.get : Scope → Name → Option V
  | [], _ => Option.none
  | (y, v) :: l, x => if x = y then Option.some v else Scope.get l x

def Scope.put : Scope → Name → V → Scope
  | [], _, _ => []
  | (y, v) :: l, x, w => if x = y then (y, w) :: l else (y, v) :: Scope.put l x w

def Frame.get : Frame → Name → Option V
  | [], _ => Option.none
  | sc :: fr, x => match sc.get x with
    | Option.some v => Option.some v
    | Option.none => Frame.get fr x

/-- Assignment to the innermost variable of the name. -/
def Frame.put : Frame → Name → V → Frame
  | [], _, _ => []
  | sc :: fr, x, w => match sc.get x with
    | Option.some _ => sc.put x w :: fr
    | Option.none => sc :: Frame.put fr x w

/-- `let` -/
def Frame.add : Frame → Scope → Frame
  | [], _ => []
  | sc :: fr, l => (l ++ sc) :: fr

/-- What functions act upon: the file, the capacities requested of `Vec::with_capacity` so far, what is printed so far, and the error of `File::open` if it has one. -/
structure World where
  file : File
  caps : List Nat
  out : Bytes
  missing : Option ErrorKind

/-- Output appended to the standard output. -/
def World.print (w : World) (bs : Bytes) : World := { w with out := w.out ++ bs }

/-- How an expression ends. -/
inductive Out where
  | val (v : V) (fr : Frame) (w : World)
  | ret (v : V) (fr : Frame) (w : World)
  | fail (f : PFail) (w : World)

/-- How a function ends: its value and what its parameters are at the end. -/
inductive FnOut where
  | ret (v : V) (args : List V) (w : World)
  | fail (f : PFail) (w : World)

/-- What comes after an expression. -/
def Out.bind (o : Out) (k : V → Frame → World → Out) : Out :=
  match o with
  | .val v fr w => k v fr w
  | .ret v fr w => .ret v fr w
  | .fail f w => .fail f w

/-- The end of a scope. -/
def Out.leave : Out → Out
  | .val v fr w => .val v fr.tail w
  | .ret v fr w => .ret v fr.tail w
  | .fail f w => .fail f w

/-- The value of something that is computed without effects. -/
def Out.of (r : Except Fail V) (fr : Frame) (w : World) : Out :=
  match r with
  | .ok v => .val v fr w
  | .error f => .fail (.ofFail f) w

/-- What is found, if the code is well typed. -/
def Out.ofOption (r : Option V) (fr : Frame) (w : World) : Out :=
  match r with
  | Option.some v => .val v fr w
  | Option.none => .fail .stuck w

/-! ## Values of generated types -/

/-- The name of a definition. -/
def defName : Def → Name
  | .struct x _ => nameOf x.toList
  | .union x _ => nameOf x.toList
  | .enum x => nameOf x.toList

def nameAt (k : Nat) : Name :=
  match Format.parquetEnv[k]? with
  | Option.some d => defName d
  | Option.none => 0

/-- A value of a generated type: structs and unions are left as they are. -/
def wrap : Ty → Val → V
  | .bool, .bool b => .base (.bool b)
  | .i8, .i8 x => .base (.i8 x)
  | .i16, .i16 x => .base (.i16 x)
  | .i32, .i32 x => .base (.i32 x)
  | .i64, .i64 x => .base (.i64 x)
  | .string, .string bs => .base (.bytes bs)
  | .binary, .binary bs => .base (.bytes bs)
  | .option _, .none => V.none
  | .option t, .some v => V.some (wrap t v)
  | .list t, .list vs => .vec (vs.map (wrap t))
  | .named k, .enum x => .con [nameAt k] [.base (.i32 x)]
  | t, v => .obj t v

/-- A field of a struct. -/
def fieldIn : List Field → List Val → Name → Option V
  | f :: fs, v :: vs, x => if nameOf f.name.toList = x then Option.some (wrap f.rustTy v) else fieldIn fs vs x
  | _, _, _ => Option.none

def fieldAt (k : Nat) (vs : List Val) (x : Name) : Option V :=
  match Format.parquetEnv[k]? with
  | Option.some (.struct _ fs) => fieldIn fs vs x
  | _ => Option.none

/-- The path of a variant and its content. -/
def variantAt (k i : Nat) (v : Val) : Option (List Name × V) :=
  match Format.parquetEnv[k]? with
  | Option.some (.union x us) => match us[i]? with
    | Option.some u => Option.some ([nameOf x.toList, nameOf u.name.toList], wrap u.ty v)
    | Option.none => Option.none
  | _ => Option.none

/-- The definition of a name. -/
def indexOf (x : Name) : Option Nat := Format.parquetEnv.findIdx? fun d => defName d == x

/-- The constants in the tokens of an enum, macros.rs:212-218. -/
def tokenConsts : List Macro.TT → List (Name × Nat)
  | .ident x :: .punct '=' :: .lit (.int n) :: ts => (nameOf x.toList, n) :: tokenConsts ts
  | _ :: ts => tokenConsts ts
  | [] => []

/-- The name of an enum and its constants. -/
def enumTokens : List Macro.TT → Option (Name × List (Name × Nat))
  | .ident "enum" :: .ident x :: .group .brace ts :: _ => Option.some (nameOf x.toList, tokenConsts ts)
  | _ :: ts => enumTokens ts
  | [] => Option.none

/-- The enums of format.rs that occur in schema.rs. -/
def enumTable : List (Name × List (Name × Nat)) := [Format.kType, Format.kConvertedType, Format.kFieldRepetitionType].filterMap enumTokens

def assoc {α : Type} : List (Name × α) → Name → Option α
  | [], _ => Option.none
  | (y, a) :: l, x => if x = y then Option.some a else assoc l x

/-- `Enum::CONSTANT` -/
def enumConst (enums : List (Name × List (Name × Nat))) : List Name → Option (Name × Nat)
  | [t, c] => match assoc enums t with
    | Option.some l => match assoc l c with
      | Option.some n => Option.some (t, n)
      | Option.none => Option.none
    | Option.none => Option.none
  | _ => Option.none

/-- The first name in the path of the type, for finding its implementations; 0 if there are none. -/
def typeName : V → Name
  | .con (x :: _) _ => x
  | .record (x :: _) _ => x
  | .obj (.named k) _ => nameAt k
  | .base (.i32 _) => n! "i32"
  | _ => 0

/-- `v.x` -/
def fieldOf : V → Name → Option V
  | .record _ fs, x => assoc fs x
  | .obj (.named k) (.struct vs), x => fieldAt k vs x
  | .range (Option.some lo) (Option.some _), x => if x = n! "start" then Option.some lo else Option.none
  | .con [_] [v], x => if x = n! "0" then Option.some v else Option.none
  | _, _ => Option.none

/-! ## Patterns -/

/-- The arguments of a constructor. -/
def conArgs (path : List Name) : V → Option (List V)
  | .con p vs => if p = path then Option.some vs else Option.none
  | .obj (.named k) (.union i v) => match variantAt k i v with
    | Option.some (p, w) => if p = path then Option.some [w] else Option.none
    | Option.none => Option.none
  | _ => Option.none

/-- Whether the value is the constant of the path. -/
def isConst (enums : List (Name × List (Name × Nat))) (path : List Name) : V → Bool
  | .con p vs => match enumConst enums path with
    | Option.some (t, n) => match vs with
      | [.base (.i32 x)] => p == [t] && x == BitVec.ofNat 32 n
      | _ => false
    | Option.none => p == path && vs.isEmpty
  | _ => false

/-- Whether the struct is that of the path. -/
def isRecord (path : List Name) : V → Bool
  | .record p _ => p == path
  | .obj (.named k) (.struct _) => [nameAt k] == path
  | _ => false

def Scope.append (a b : Option Scope) : Option Scope :=
  match a with
  | Option.some a => match b with
    | Option.some b => Option.some (a ++ b)
    | Option.none => Option.none
  | Option.none => Option.none

section
variable (enums : List (Name × List (Name × Nat)))
mutual
/-- The variables bound by a pattern, if it matches; those of a `&mut` value are `&mut`. -/
def matchPat (m : Bool) : Pat → V → Option Scope
  | .wild, _ => Option.some []
  | .name x, v => Option.some [(x, if m then .ref v else v)]
  | .tuple ps, v => match v with
    | .tuple vs => matchPats m ps vs
    | _ => Option.none
  | .con path ps, v => match conArgs path v with
    | Option.some vs => matchPats m ps vs
    | Option.none => Option.none
  | .const path, v => if isConst enums path v then Option.some [] else Option.none
  | .record path fs, v => if isRecord path v then matchFields m fs v else Option.none
  | .alt p q, v => match matchPat m p v with
    | Option.some l => Option.some l
    | Option.none => matchPat m q v
def matchPats (m : Bool) : List Pat → List V → Option Scope
  | [], [] => Option.some []
  | p :: ps, v :: vs => Scope.append (matchPat m p v) (matchPats m ps vs)
  | _, _ => Option.none
def matchFields (m : Bool) : List (Name × Pat) → V → Option Scope
  | [], _ => Option.some []
  | f :: fs, v => match fieldOf v f.1 with
    | Option.some w => Scope.append (matchField m f w) (matchFields m fs v)
    | Option.none => Option.none
def matchField (m : Bool) : Name × Pat → V → Option Scope
  | (_, p), v => matchPat m p v
end

/-- A pattern against a value or a `&mut` to it. -/
def matchRef (p : Pat) : V → Option Scope
  | .ref v => matchPat enums true p v
  | v => matchPat enums false p v
end

mutual
/-- The value with the parts the pattern has bound replaced by what the variables are now. -/
def rebuild (sc : Scope) : Pat → V → V
  | .name x, v => match sc.get x with
    | Option.some (.ref w) => w
    | _ => v
  | .tuple ps, v => match v with
    | .tuple vs => .tuple (rebuilds sc ps vs)
    | v => v
  | .con _ ps, v => match v with
    | .con c vs => .con c (rebuilds sc ps vs)
    | v => v
  | .record _ fs, v => match v with
    | .record c gs => .record c (rebuildFields sc fs gs)
    | v => v
  | _, v => v
def rebuilds (sc : Scope) : List Pat → List V → List V
  | p :: ps, v :: vs => rebuild sc p v :: rebuilds sc ps vs
  | _, vs => vs
def rebuildFields (sc : Scope) : List (Name × Pat) → List (Name × V) → List (Name × V)
  | [], gs => gs
  | f :: fs, gs => rebuildFields sc fs (rebuildField sc f gs)
def rebuildField (sc : Scope) : Name × Pat → List (Name × V) → List (Name × V)
  | (x, p), gs => gs.map fun (y, v) => (y, if x = y then rebuild sc p v else v)
end

/-! ## Operators -/

/-- Numbers without type. -/
def litOp (op : BinOp) (a b : Nat) : Except Fail Rs.V :=
  match op with
  | .add => .ok (.lit (a + b))
  | .eq => .ok (.bool (a == b))
  | .ne => .ok (.bool (a != b))
  | .lt => .ok (.bool (decide (a < b)))
  | .gt => .ok (.bool (decide (b < a)))
  | .le => .ok (.bool (decide (a ≤ b)))
  | .ge => .ok (.bool (decide (b ≤ a)))
  | _ => .error .stuck

/-- `==`, `!=` of things that can be compared. -/
def eqOp {α : Type} [BEq α] (op : BinOp) (a b : α) : Except Fail Rs.V :=
  match op with
  | .eq => .ok (.bool (a == b))
  | .ne => .ok (.bool (a != b))
  | _ => .error .stuck

def binBase (cfg : Cfg) (op : BinOp) : Rs.V → Rs.V → Except Fail Rs.V
  | .lit a, .lit b => litOp op a b
  | .lit a, .usize b => Rs.binU cfg .usize op (BitVec.ofNat 64 a) b
  | .bytes a, .bytes b => eqOp op a b
  | a, b => Rs.binary cfg op a b

/-- `a op b`. Constructors are compared without arguments, or with one `i32` as generated enums have. -/
def binV (cfg : Cfg) (op : BinOp) : V → V → Except Fail V
  | .base a, .base b => (binBase cfg op a b).map .base
  | .base (.i32 a), .neg n => (Rs.binS cfg .i32 op a (-BitVec.ofNat 32 n)).map .base
  | .con p [], .con q [] => (eqOp op p q).map .base
  | .con p [.base (.i32 a)], .con q [.base (.i32 b)] => if p = q then (eqOp op a b).map .base else .error .stuck
  | _, _ => .error .stuck

/-- `-v` -/
def negV (cfg : Cfg) : V → Except Fail V
  | .base (.lit n) => .ok (.neg n)
  | .base v => (Rs.negated cfg v).map .base
  | _ => .error .stuck

/-- `v as t` -/
def castV (t : ITy) : V → Except Fail V
  | .base v => (Rs.castTo t v).map .base
  | _ => .error .stuck

/-- A value where the type is known. -/
def asSlot : Slot → V → V
  | .int t, .base v => .base (Rs.asType t v)
  | .mutInt t, .ref (.base v) => .ref (.base (Rs.asType t v))
  | _, v => v

/-- The position of a usize or a literal. -/
def posOf : V → Option Nat
  | .base (.usize i) => Option.some i.toNat
  | .base (.lit i) => Option.some i
  | _ => Option.none

/-- `l[lo..hi]`: out of bounds panics. -/
def sliced {α : Type} (l : List α) (lo hi : Nat) : Except Fail (List α) :=
  if lo ≤ hi ∧ hi ≤ l.length then .ok ((l.drop lo).take (hi - lo)) else .error .panic

def slicedAt {α : Type} (l : List α) : Option V → Option V → Except Fail (List α)
  | Option.some lo, Option.some hi => match posOf lo, posOf hi with
    | Option.some lo, Option.some hi => sliced l lo hi
    | _, _ => .error .stuck
  | Option.some lo, Option.none => match posOf lo with
    | Option.some lo => if lo ≤ l.length then .ok (l.drop lo) else .error .panic
    | Option.none => .error .stuck
  | _, _ => .error .stuck

/-- `v[i]` -/
def indexV : V → V → Except Fail V
  | .base (.bytes bs), .range lo hi => (slicedAt bs lo hi).map fun bs => .base (.bytes bs)
  | .vec vs, .range lo hi => (slicedAt vs lo hi).map .vec
  | .vec vs, i => match posOf i with
    | Option.some i => match vs[i]? with
      | Option.some v => .ok v
      | Option.none => .error .panic
    | Option.none => .error .stuck
  | _, _ => .error .stuck

/-- `*v` -/
def V.deref : V → V
  | .ref w => w
  | w => w

/-- The bytes of an array. -/
def bytesOf : List V → Option Bytes
  | [] => Option.some []
  | .base (.u8 x) :: vs => (bytesOf vs).map (x :: ·)
  | _ => Option.none

/-! ## std -/

/-- Paths that are constants of std. -/
def stdPath (p : List Name) : Option V :=
  if p = [n! "usize", n! "MAX"] then Option.some (.base (.usize (BitVec.ofNat 64 (2 ^ 64 - 1)))) else Option.none

/-- Functions of std and of the runtime. -/
def stdFn (p : List Name) (vs : List V) : Option (Except Fail V) :=
  match p, vs with
  | [t, f], [v] =>
    if t = n! "u32" ∧ f = n! "from_le_bytes" then Option.some (match v with
      | .base (.bytes bs) => if bs.length = 4 then .ok (.base (.u32 (BitVec.ofNat 32 (leNat bs)))) else .error .stuck
      | _ => .error .stuck)
    else if t = n! "CompactThriftInputSlice" ∧ f = n! "new" then Option.some (.ok (.con [t] [v]))
    else Option.none
  | [t, f], [] => if f = n! "default" then Option.some (match indexOf t with
      | Option.some k => .ok (.obj (.named k) (dflt Format.parquetEnv (.named k)))
      | Option.none => .error .stuck) else Option.none
  | _, _ => Option.none

/-- Methods of `Option` and `Result`. -/
def optMethod (f : Name) (p : List Name) (args vs : List V) : Except Fail V :=
  if p = [n! "Some"] then match args, vs with
    | [v], [] =>
      if f = n! "unwrap" then .ok v
      else if f = n! "as_ref" then .ok (.con p args)
      else if f = n! "is_none" then .ok (.base (.bool false))
      else if f = n! "transpose" then match v with
        | .con q [w] => if q = [n! "Ok"] then .ok (.ok (.some w)) else if q = [n! "Err"] then .ok (.err w) else .error .stuck
        | _ => .error .stuck
      else .error .stuck
    | [v], [_] =>
      if f = n! "unwrap_or" then .ok v
      else if f = n! "ok_or" then .ok (.ok v)
      else .error .stuck
    | _, _ => .error .stuck
  else if p = [n! "None"] then match vs with
    | [] =>
      if f = n! "as_ref" then .ok .none
      else if f = n! "is_none" then .ok (.base (.bool true))
      else if f = n! "transpose" then .ok (.ok .none)
      else .error .stuck
    | [w] =>
      if f = n! "unwrap_or" then .ok w
      else if f = n! "ok_or" then .ok (.err w)
      else .error .stuck
    | _ => .error .stuck
  else if p = [n! "Ok"] then match args, vs with
    | [v], [] => if f = n! "unwrap" then .ok v else if f = n! "ok" then .ok (.some v) else .error .stuck
    | _, _ => .error .stuck
  else if p = [n! "Err"] then match vs with
    | [] => if f = n! "unwrap" then .error .panic else if f = n! "ok" then .ok .none else .error .stuck
    | _ => .error .stuck
  else .error .stuck

/-- Methods of std that change nothing. -/
def stdMethod (f : Name) (v : V) (vs : List V) : Except Fail V :=
  if f = n! "clone" then .ok v else match v with
  | .con p args => optMethod f p args vs
  | .base (.bytes bs) => if f = n! "try_into" then .ok (.ok v) else if f = n! "as_str" then .ok v
    else if f = n! "len" then .ok (.base (.usize (BitVec.ofNat 64 bs.length))) else .error .stuck
  | .base (.i32 x) => if f = n! "to_ne_bytes" then .ok (.base (.bytes (toLeBytes 4 (x.setWidth 64)))) else .error .stuck
  | .base (.usize x) => match vs with
    | [.base (.usize y)] =>
      if f = n! "min" then .ok (.base (.usize (if x.toNat ≤ y.toNat then x else y)))
      else if f = n! "max" then .ok (.base (.usize (if x.toNat ≤ y.toNat then y else x)))
      else .error .stuck
    | _ => .error .stuck
  | .range (Option.some (.base (.usize lo))) (Option.some (.base (.usize hi))) =>
    if f = n! "len" then .ok (.base (.usize (BitVec.ofNat 64 (hi.toNat - lo.toNat)))) else .error .stuck
  | .vec l =>
    if f = n! "iter" then .ok v
    else if f = n! "len" then .ok (.base (.usize (BitVec.ofNat 64 l.length)))
    else if f = n! "is_empty" then .ok (.base (.bool l.isEmpty))
    else if f = n! "split_first" then .ok (match l with
      | [] => .none
      | a :: l => .some (.tuple [a, .vec l]))
    else .error .stuck
  | _ => .error .stuck

/-! ## Format strings -/

/-- The bytes of a name or of a literal of ASCII characters. -/
def nameBytesF : Nat → Name → Bytes
  | 0, _ => []
  | k + 1, n => if n = 0 then [] else nameBytesF k (n / 256) ++ [BitVec.ofNat 8 n]

def nameBytes (n : Name) : Bytes := nameBytesF 100 n

/-- A piece of a format string: text; `{}` and `{:?}`; `{x}` and `{x:?}`; `{:#?}`. -/
inductive Piece where
  | text (bs : Bytes)
  | next (debug : Bool)
  | var (x : Name) (debug : Bool)
  | pretty

/-- One more byte of text before the pieces. -/
def addText (b : Byte) : List Piece → List Piece
  | .text bs :: ps => .text (b :: bs) :: ps
  | ps => .text [b] :: ps

/-- What is between braces, of which the name is known: nothing or `:?`, or `:#?` without a name. -/
def pieceOf (name spec : Bytes) : Option Piece :=
  let piece : Bool → Piece := if name = [] then .next else .var (name.foldl (fun n b => 256 * n + b.toNat) 0)
  if spec = [] then Option.some (piece false) else if spec = [58, 63] then Option.some (piece true)
  else if name = [] ∧ spec = [58, 35, 63] then Option.some .pretty else Option.none

/-- Where one is in a format string: in text, after `{` and this text, after `}`. -/
inductive FormatState where
  | text
  | arg (bs : Bytes)
  | brace

/-- The pieces of a format string; `{{` and `}}` are braces. -/
def piecesOf : FormatState → Bytes → Option (List Piece)
  | .text, [] => Option.some []
  | _, [] => Option.none
  | .text, b :: bs => if b = 123 then piecesOf (.arg []) bs else if b = 125 then piecesOf .brace bs else (piecesOf .text bs).map (addText b)
  | .arg as, b :: bs =>
    if b = 123 then (if as = [] then (piecesOf .text bs).map (addText 123) else Option.none)
    else if b = 125 then match pieceOf (as.takeWhile (· ≠ 58)) (as.dropWhile (· ≠ 58)) with
      | Option.some p => (piecesOf .text bs).map (p :: ·)
      | Option.none => Option.none
    else piecesOf (.arg (as ++ [b])) bs
  | .brace, b :: bs => if b = 125 then (piecesOf .text bs).map (addText 125) else Option.none

def formatOf (s : Name) : Option (List Piece) := piecesOf .text (nameBytes s)

/-- A value and the way it is printed. -/
def itemOf (debug : Bool) (v : V) : V := .con [if debug then n! "Debug" else n! "Display"] [v]

/-- The pieces with the values given and those of the variables named. -/
def formattedBy : List Piece → List V → Frame → Option (List V)
  | [], [], _ => Option.some []
  | [], _ :: _, _ => Option.none
  | .text bs :: ps, vs, fr => (formattedBy ps vs fr).map (.base (.bytes bs) :: ·)
  | .next d :: ps, v :: vs, fr => (formattedBy ps vs fr).map (itemOf d v :: ·)
  | .next _ :: _, [], _ => Option.none
  | .pretty :: ps, v :: vs, fr => (formattedBy ps vs fr).map (.con [n! "Pretty"] [v] :: ·)
  | .pretty :: _, [], _ => Option.none
  | .var x d :: ps, vs, fr => match fr.get x with
    | Option.some v => (formattedBy ps vs fr).map (itemOf d v :: ·)
    | Option.none => Option.none

def formatted (ps : Option (List Piece)) (vs : List V) (fr : Frame) : Option (List V) :=
  match ps with
  | Option.some ps => formattedBy ps vs fr
  | Option.none => Option.none

/-! ## Evaluation -/

/-- `impl trait<arg> for type` -/
structure Impl where
  trait : Name
  arg : Name
  type : Name
  fns : List (Name × Fn)

/-- The functions, implementations, constants, declared structs, and the constants of generated enums; and the text `{:#?}` gives for values of other crates. -/
structure Prog where
  fns : List (Name × Fn)
  impls : List Impl
  consts : List (Name × Expr)
  structs : List (Name × List (Name × Slot))
  enums : List (Name × List (Name × Nat))
  pretty : V → Option Bytes

/-- A function of the implementations for the type; a trait with an argument is for the type of the value given. -/
def implFn (ty f source : Name) : List Impl → Option Fn
  | [] => Option.none
  | i :: is => if i.type = ty ∧ (i.arg = 0 ∨ i.arg = source) then (match assoc i.fns f with
      | Option.some fn => Option.some fn
      | Option.none => implFn ty f source is) else implFn ty f source is

/-- `From<source>` for any type, or for the type. -/
def fromFn (ty : Option Name) (source : Name) : List Impl → Option Fn
  | [] => Option.none
  | i :: is => if i.trait = n! "From" ∧ i.arg = source ∧ (ty = Option.none ∨ ty = Option.some i.type) then assoc i.fns (n! "from") else fromFn ty source is

section
variable (cfg : Cfg) (capacity : Nat → Except PFail Unit) (P : Prog) (ev : Expr → Frame → World → Out)

/-- The values of arguments, from left to right. -/
def evArgs : List Expr → (List V → Frame → World → Out) → Frame → World → Out
  | [], k => k []
  | e :: es, k => fun fr w => (ev e fr w).bind fun v fr w => evArgs es (fun vs => k (v :: vs)) fr w

/-- The values of the fields of a struct. -/
def evFields : List (Name × Expr) → (List (Name × V) → Frame → World → Out) → Frame → World → Out
  | [], k => k []
  | (x, e) :: es, k => fun fr w => (ev e fr w).bind fun v fr w => evFields es (fun vs => k ((x, v) :: vs)) fr w

/-- The end of the body of a function. -/
def finished (o : Out) : FnOut :=
  match o with
  | .val v fr w => .ret v ((fr.headD []).map Prod.snd) w
  | .ret v fr w => .ret v ((fr.headD []).map Prod.snd) w
  | .fail f w => .fail f w

/-- The parameters of a call; the type of a parameter is that of a literal given for it. -/
def bound : List (Name × Slot) → List V → Scope
  | (x, t) :: ps, v :: vs => (x, asSlot t v) :: bound ps vs
  | _, _ => []

/-- A call with the arguments. -/
def runFn (f : Fn) (vs : List V) (w : World) : FnOut := finished (ev f.body [bound f.params vs] w)

/-- What the function leaves in a `&mut` argument. -/
def putBack (e : Expr) (v : V) (fr : Frame) : Frame :=
  match e, v with
  | .ref true (.path [x]), .ref w => fr.put x w
  | .path [x], .ref w => fr.put x (.ref w)
  | _, _ => fr

def putBacks : List Expr → List V → Frame → Frame
  | e :: es, v :: vs, fr => putBacks es vs (putBack e v fr)
  | _, _, fr => fr

/-- The end of a call with these arguments. -/
def called (es : List Expr) (o : FnOut) (fr : Frame) : Out :=
  match o with
  | .ret v args w => .val v (putBacks es args fr) w
  | .fail f w => .fail f w

/-- The function of a path: one of the program. -/
def progFn (p : List Name) (vs : List V) : Option Fn :=
  match p with
  | [f] => assoc P.fns f
  | [t, f] => implFn t f (typeName (vs.headD .unit)) P.impls
  | _ => Option.none

/-- `Vec::with_capacity(v)` -/
def evCapacity (v : V) (fr : Frame) (w : World) : Out :=
  match v with
  | .base (.usize n) => match capacity n.toNat with
    | .ok _ => .val (.vec []) fr { w with caps := w.caps ++ [n.toNat] }
    | .error f => .fail f { w with caps := w.caps ++ [n.toNat] }
  | _ => .fail .stuck w

/-- The outcome of a function of the library whose errors are `ParquetError`s; of the error only that there is one. -/
def libResult {α : Type} (r : Except PFail (α × World)) (value : α → V) (fr : Frame) (w : World) : Out :=
  match r with
  | .ok (a, w) => .val (.ok (value a)) fr w
  | .error (.err _) => .val (.err .unit) fr w
  | .error f => .fail f w

/-- `get_metadata_chunk(v)`, lib.rs:38-57: as in the model, which C112 compares with its text. -/
def libChunk (v : V) (fr : Frame) (w : World) : Out :=
  match v with
  | .ref .file => libResult ((getMetadataChunk cfg w.file).map fun (bs, file) => (bs, { w with file := file })) (fun bs => .base (.bytes bs)) fr w
  | _ => .fail .stuck w

/-- `T::read_thrift(v)` for a generated type and a slice. The variable of the slice is what is left of it; after an error, how much that is is not modelled, and the variable cannot be used. -/
def libRead (t : Name) (es : List Expr) (v : V) (fr : Frame) (w : World) : Out :=
  match indexOf t, v with
  | Option.some k, .ref (.con p [.base (.bytes bs)]) =>
    if p = [n! "CompactThriftInputSlice"] then match readThrift cfg (sliceInput cfg) Format.parquetEnv (.named k) bs with
      | .ok (u, rest) => .val (.ok (.obj (.named k) u)) (putBacks es [.ref (.con p [.base (.bytes rest)])] fr) w
      | .error (.err err) => .val (.err (.thrift err)) (putBacks es [.ref .unit] fr) w
      | .error f => .fail (.ofFail f) w
    else .fail .stuck w
  | _, _ => .fail .stuck w

/-- `File::open` -/
def libOpen (fr : Frame) (w : World) : Out :=
  match w.missing with
  | Option.none => .val (.ok .file) fr w
  | Option.some k => .val (.err (.io k)) fr w

/-- Functions of other files. -/
def evLib (p : List Name) (es : List Expr) (vs : List V) (fr : Frame) (w : World) : Option Out :=
  match p, vs with
  | [f], [v] => if f = n! "get_metadata_chunk" then Option.some (libChunk cfg v fr w) else Option.none
  | [t, f], [v] =>
    if t = n! "File" ∧ f = n! "open" then Option.some (libOpen fr w)
    else if f = n! "read_thrift" then Option.some (libRead cfg t es v fr w)
    else Option.none
  | _, _ => Option.none

/-- A path that is no function of the program: `Vec::with_capacity`, std, another file, a constructor. -/
def evStdCall (p : List Name) (es : List Expr) (vs : List V) (fr : Frame) (w : World) : Out :=
  match vs with
  | [v] => if p = [n! "Vec", n! "with_capacity"] then evCapacity capacity v fr w else evRest p es vs fr w
  | vs => evRest p es vs fr w
where
  evRest (p : List Name) (es : List Expr) (vs : List V) (fr : Frame) (w : World) : Out :=
    if p = [n! "unreachable_unchecked"] then .fail .ub w else match stdFn p vs with
    | Option.some r => .of r fr w
    | Option.none => match evLib cfg p es vs fr w with
      | Option.some o => o
      | Option.none => .val (.con p vs) fr w

/-- `f(es)` -/
def evCall (p : List Name) (es : List Expr) (vs : List V) (fr : Frame) (w : World) : Out :=
  match progFn P p vs with
  | Option.some fn => called es (runFn ev fn vs w) fr
  | Option.none => evStdCall cfg capacity p es vs fr w

/-- The end of a closure. -/
def applied (o : Out) (fr : Frame) : Out :=
  match o with
  | .val v _ w => .val v fr w
  | .ret v _ w => .val v fr w
  | .fail f w => .fail f w

/-- `f(v)` for a closure or a function as a value -/
def evApply (f v : V) (fr : Frame) (w : World) : Out :=
  match f with
  | .lambda x e fr' => applied (ev e ([(x, v)] :: fr') w) fr
  | .fn p => evCall cfg capacity P ev p [] [v] fr w
  | _ => .fail .stuck w

/-- Whether a file operation succeeds; an error is an `io::Error`. -/
def evFile {α : Type} (r : Except PFail (α × File)) (k : α → Frame) (value : α → V) (fr : Frame) (w : World) : Out :=
  match r with
  | .ok (a, file) => .val (.ok (value a)) (k a) { w with file := file }
  | .error (.err (.io kind)) => .val (.err (.io kind)) fr w
  | .error f => .fail f w

/-- The distance from the end of the file, if not beyond it. -/
def backOf : V → Option Nat
  | .neg n => Option.some n
  | .base (.i64 x) => if x.toInt ≤ 0 then Option.some (-x.toInt).toNat else Option.none
  | _ => Option.none

/-- The argument of `seek` -/
def seekBy : V → Option (Fd Unit)
  | .con p [v] =>
    if p = [n! "SeekFrom", n! "End"] then (backOf v).map seekBack
    else if p = [n! "SeekFrom", n! "Start"] then match v with
      | .base (.u64 n) => Option.some (seekStart n.toNat)
      | _ => Option.none
    else Option.none
  | _ => Option.none

/-- `input.seek(v)`, `input.read_exact(v)` -/
def evInput (f : Name) (es : List Expr) (vs : List V) (fr : Frame) (w : World) : Out :=
  match vs with
  | [v] =>
    if f = n! "seek" then match seekBy v with
      | Option.some act => evFile (act w.file) (fun _ => fr) (fun _ => .unit) fr w
      | Option.none => .fail .stuck w
    else if f = n! "read_exact" then match v with
      | .ref (.base (.bytes bs)) => evFile (readExactF bs.length w.file) (fun bs' => putBacks es [.ref (.base (.bytes bs'))] fr) (fun _ => .unit) fr w
      | _ => .fail .stuck w
    else .fail .stuck w
  | _ => .fail .stuck w

/-- `self.fill_thrift(input)` for a generated type and a slice. What is left of value and slice after an error is not modelled here, and neither can be used then. -/
def evFill (e : Expr) (es : List Expr) (t : Ty) (v : Val) (vs : List V) (fr : Frame) (w : World) : Out :=
  match e, vs with
  | .path [x], [.ref (.con p [.base (.bytes bs)])] =>
    if p = [n! "CompactThriftInputSlice"] then match fillThrift cfg (sliceInput cfg) Format.parquetEnv t v bs with
      | .ok (v', rest) => .val (.ok .unit) (putBacks es [.ref (.con p [.base (.bytes rest)])] (fr.put x (.ref (.obj t v')))) w
      | .error (.err err) => .val (.err (.thrift err)) (putBacks es [.ref .unit] (fr.put x .unit)) w
      | .error f => .fail (.ofFail f) w
    else .fail .stuck w
  | _, _ => .fail .stuck w

/-- Methods that change a variable. -/
def evChange (e : Expr) (f : Name) (es : List Expr) (v : V) (vs : List V) (fr : Frame) (w : World) : Option Out :=
  match v, e, vs with
  | .ref (.vec l), .path [x], [u] => if f = n! "push" then Option.some (.val .unit (fr.put x (.ref (.vec (l ++ [u])))) w) else Option.none
  | .vec _, .path [x], [.base (.usize n)] =>
    if f = n! "set_len" then Option.some (.val .unit (fr.put x (.base (.bytes (List.replicate n.toNat 0#8)))) w) else Option.none
  | .ref (.obj t u), e, vs => if f = n! "fill_thrift" then Option.some (evFill cfg e es t u vs fr w) else Option.none
  | _, _, _ => Option.none

/-- `iter.map(f).collect()` into a `Result`: stops at the first error. -/
def evCollect (f : V) : List V → List V → Frame → World → Out
  | [], acc, fr, w => .val (.ok (.vec acc)) fr w
  | v :: vs, acc, fr, w => (evApply cfg capacity P ev f v fr w).bind fun r fr w => match r with
    | .con p [u] =>
      if p = [n! "Ok"] then evCollect f vs (acc ++ [u]) fr w
      else if p = [n! "Err"] then .val (.err u) fr w
      else .fail .stuck w
    | _ => .fail .stuck w

/-- `iter.find(f)` -/
def evFind (f : V) : List V → Frame → World → Out
  | [], fr, w => .val .none fr w
  | v :: vs, fr, w => (evApply cfg capacity P ev f v fr w).bind fun r fr w => match r with
    | .base (.bool true) => .val (.some v) fr w
    | .base (.bool false) => evFind f vs fr w
    | _ => .fail .stuck w

/-- `map`, `and_then`, `find` -/
def evWith (f : Name) (v g : V) (fr : Frame) (w : World) : Option Out :=
  match v with
  | .vec l =>
    if f = n! "map" then Option.some (.val (.mapped l g) fr w)
    else if f = n! "find" then Option.some (evFind cfg capacity P ev g l fr w)
    else Option.none
  | .con p vs =>
    if p = [n! "Some"] then match vs with
      | [u] =>
        if f = n! "map" then Option.some ((evApply cfg capacity P ev g u fr w).bind fun r fr w => .val (.some r) fr w)
        else if f = n! "and_then" then Option.some (evApply cfg capacity P ev g u fr w)
        else Option.none
      | _ => Option.none
    else if p = [n! "None"] then (if f = n! "map" ∨ f = n! "and_then" then Option.some (.val .none fr w) else Option.none)
    else Option.none
  | _ => Option.none

/-! ## Printing -/

/-- The function `fmt` of `impl trait for type` -/
def fmtFn (tr ty : Name) : List Impl → Option Fn
  | [] => Option.none
  | i :: is => if i.trait = tr ∧ i.type = ty then assoc i.fns (n! "fmt") else fmtFn tr ty is

/-- What is printed for a value with an implementation of its own; `print!` panics if it returns an error. -/
def evFmt (fn : Fn) (v : V) (fr : Frame) (w : World) : Out :=
  match runFn ev fn [v, .con [n! "Formatter"] []] w with
  | .ret (.con p _) _ w => if p = [n! "Ok"] then .val .unit fr w else .fail .panic w
  | .ret _ _ w => .fail .stuck w
  | .fail f w => .fail f w

/-- The numbers in decimal -/
def numberBytes : Rs.V → Option Bytes
  | .u8 x => Option.some (Schema.decimal x.toNat)
  | .u16 x => Option.some (Schema.decimal x.toNat)
  | .u32 x => Option.some (Schema.decimal x.toNat)
  | .u64 x => Option.some (Schema.decimal x.toNat)
  | .usize x => Option.some (Schema.decimal x.toNat)
  | .i8 x => Option.some (Schema.decimalInt x.toInt)
  | .i16 x => Option.some (Schema.decimalInt x.toInt)
  | .i32 x => Option.some (Schema.decimalInt x.toInt)
  | .i64 x => Option.some (Schema.decimalInt x.toInt)
  | .bool b => Option.some (Schema.debugBool b)
  | _ => Option.none

/-- Text that is printed, if there is one. -/
def printed (bs : Option Bytes) (fr : Frame) (w : World) : Out :=
  match bs with
  | Option.some bs => .val .unit fr (w.print bs)
  | Option.none => .fail .stuck w

/-- `{}` -/
def evDisplay (v : V) (fr : Frame) (w : World) : Out :=
  match v with
  | .base (.bytes bs) => .val .unit fr (w.print bs)
  | .base u => printed (numberBytes u) fr w
  | .str s => .val .unit fr (w.print (nameBytes s))
  | v => match fmtFn (n! "Display") (typeName v) P.impls with
    | Option.some fn => evFmt ev fn v fr w
    | Option.none => match v with
      | .con p [.base (.lit c)] => if p = [n! "char"] then .val .unit fr (w.print [BitVec.ofNat 8 c]) else .fail .stuck w
      | _ => .fail .stuck w

mutual
/-- `{:?}`: the implementation in the program, else the derived one. Of std only numbers, `bool` and `Option`. -/
def evDebug : V → Frame → World → Out
  | .base u, fr, w => printed (numberBytes u) fr w
  | .con p vs, fr, w => match fmtFn (n! "Debug") (p.headD 0) P.impls with
    | Option.some fn => evFmt ev fn (.con p vs) fr w
    | Option.none => evTupleDebug (nameBytes (p.getLastD 0)) vs fr w
  | .record p fs, fr, w => match fmtFn (n! "Debug") (p.headD 0) P.impls with
    | Option.some fn => evFmt ev fn (.record p fs) fr w
    | Option.none => evStructDebug true (nameBytes (p.getLastD 0)) fs fr w
  | _, _, w => .fail .stuck w
termination_by structural x => x
/-- `Name`, `Name(v, …)`: what follows the text given -/
def evTupleDebug (before : Bytes) : List V → Frame → World → Out
  | [], fr, w => .val .unit fr (w.print before)
  | v :: vs, fr, w => (evDebug v fr (w.print (before ++ [40]))).bind fun _ fr w => evMoreDebug vs fr w
termination_by structural x => x
/-- `, v` for each, and the closing parenthesis -/
def evMoreDebug : List V → Frame → World → Out
  | [], fr, w => .val .unit fr (w.print [41])
  | v :: vs, fr, w => (evDebug v fr (w.print [44, 32])).bind fun _ fr w => evMoreDebug vs fr w
termination_by structural x => x
/-- `Name { x: v, … }`: what follows the text given; the first field or a further one -/
def evStructDebug (first : Bool) (before : Bytes) : List (Name × V) → Frame → World → Out
  | [], fr, w => .val .unit fr (w.print (if first then before else [32, 125]))
  | f :: fs, fr, w => (evFieldDebug (if first then before ++ [32, 123, 32] else [44, 32]) f fr w).bind fun _ fr w => evStructDebug false before fs fr w
termination_by structural x => x
/-- `x: v` -/
def evFieldDebug (before : Bytes) : Name × V → Frame → World → Out
  | (x, v), fr, w => evDebug v fr (w.print (before ++ nameBytes x ++ [58, 32]))
termination_by structural x => x
end

/-- What `format_args!` is: text, and values with the way they are printed. -/
def evItem (i : V) (fr : Frame) (w : World) : Out :=
  match i with
  | .base (.bytes bs) => .val .unit fr (w.print bs)
  | .con p [v] => if p = [n! "Display"] then evDisplay P ev v fr w else if p = [n! "Debug"] then evDebug P ev v fr w
    else if p = [n! "Pretty"] then printed (P.pretty v) fr w else .fail .stuck w
  | _ => .fail .stuck w

def evItems : List V → Frame → World → Out
  | [], fr, w => .val .unit fr w
  | i :: is, fr, w => (evItem P ev i fr w).bind fun _ fr w => evItems is fr w

def evPrint (is : Option (List V)) (fr : Frame) (w : World) : Out :=
  match is with
  | Option.some is => evItems P ev is fr w
  | Option.none => .fail .stuck w

/-- `f.write_str(s)`; the formatter is the one of `print!`. -/
def evWriteStr (v u : V) (fr : Frame) (w : World) : Out :=
  match v, u with
  | .con p [], .str s => if p = [n! "Formatter"] then .val (.ok .unit) fr (w.print (nameBytes s)) else .fail .stuck w
  | _, _ => .fail .stuck w

/-- `f.write_fmt(format_args!(…))` -/
def evWriteFmt (v u : V) (fr : Frame) (w : World) : Out :=
  match v, u with
  | .con p [], .con q is =>
    if p = [n! "Formatter"] ∧ q = [n! "Arguments"] then (evItems P ev is fr w).bind fun _ fr w => .val (.ok .unit) fr w else .fail .stuck w
  | _, _ => .fail .stuck w

/-- `print!`, `println!`, `format_args!` -/
def evMacro (f : Name) (es : List Expr) (fr : Frame) (w : World) : Out :=
  match es with
  | .str s :: es =>
    if f = n! "print" then evArgs ev es (fun vs fr w => evPrint P ev (formatted (formatOf s) vs fr) fr w) fr w
    else if f = n! "println" then evArgs ev es (fun vs fr w => evPrint P ev ((formatted (formatOf s) vs fr).map (· ++ [.base (.bytes [10])])) fr w) fr w
    else if f = n! "format_args" then evArgs ev es (fun vs fr w => .ofOption ((formatted (formatOf s) vs fr).map (.con [n! "Arguments"])) fr w) fr w
    else .fail .stuck w
  | _ => .fail .stuck w

/-- Methods of iterators, of formatters and `into`, else those of std. -/
def evStdMethod (f : Name) (v : V) (vs : List V) (fr : Frame) (w : World) : Out :=
  match v, vs with
  | .mapped l g, [] => if f = n! "collect" then evCollect cfg capacity P ev g l [] fr w else .fail .stuck w
  | v, [] =>
    if f = n! "into" then match fromFn Option.none (typeName v) P.impls with
      | Option.some fn => called [] (runFn ev fn [v] w) fr
      | Option.none => .fail .stuck w
    else .of (stdMethod f v []) fr w
  | v, [u] =>
    if f = n! "write_str" then evWriteStr v u fr w
    else if f = n! "write_fmt" then evWriteFmt P ev v u fr w
    else .of (stdMethod f v [u]) fr w
  | v, vs => .of (stdMethod f v vs) fr w

/-- `e.f(es)` with the value of `e`: of the program, of the file, methods that change a variable, methods with closures, std -/
def evMethod (e : Expr) (f : Name) (es : List Expr) (v : V) (vs : List V) (fr : Frame) (w : World) : Out :=
  match implFn (typeName v) f 0 P.impls with
  | Option.some fn => called (e :: es) (runFn ev fn (v :: vs) w) fr
  | Option.none => match v with
    | .file => evInput f es vs fr w
    | v => match evChange cfg e f es v vs fr w with
      | Option.some o => o
      | Option.none => match vs with
        | [g] => match evWith cfg capacity P ev f v g fr w with
          | Option.some o => o
          | Option.none => evStdMethod cfg capacity P ev f v [g] fr w
        | vs => evStdMethod cfg capacity P ev f v vs fr w

/-- `e?`: another error than a `ParquetError` is converted by `From`. -/
def evTry (v : V) (fr : Frame) (w : World) : Out :=
  match v with
  | .con p [u] =>
    if p = [n! "Ok"] then .val u fr w
    else if p = [n! "Err"] then
      if typeName u = n! "ParquetError" then .ret (.err u) fr w
      else match fromFn (Option.some (n! "ParquetError")) (typeName u) P.impls with
        | Option.some fn => (called [] (runFn ev fn [u] w) fr).bind fun u fr w => .ret (.err u) fr w
        | Option.none => .fail .stuck w
    else .fail .stuck w
  | _ => .fail .stuck w

/-- The place a `&mut` refers to is given what the pattern's variables are at the end. -/
def written (e : Expr) (p : Pat) (v : V) (sc : Scope) (fr : Frame) : Frame :=
  match e, v with
  | .ref true (.path [x]), .ref u => fr.put x (rebuild sc p u)
  | _, _ => fr

/-- The end of what follows a pattern. -/
def leaveArm (e : Expr) (p : Pat) (v : V) (o : Out) : Out :=
  match o with
  | .val u (sc :: fr) w => .val u (written e p v sc fr) w
  | .ret u (sc :: fr) w => .ret u (written e p v sc fr) w
  | .fail f w => .fail f w
  | .val _ [] w => .fail .stuck w
  | .ret _ [] w => .fail .stuck w

/-- The first arm that matches. -/
def evArms (e : Expr) : List (Pat × Expr) → V → Frame → World → Out
  | [], _, _, w => .fail .stuck w
  | (p, b) :: arms, v, fr, w => match matchRef P.enums p v with
    | Option.some l => leaveArm e p v (ev b (l :: fr) w)
    | Option.none => evArms e arms v fr w

/-- The statements of a block; its value is that of the last. -/
def evBlock : List Expr → Frame → World → Out
  | [], fr, w => .val .unit fr w
  | [e], fr, w => ev e fr w
  | e :: es, fr, w => (ev e fr w).bind fun _ fr w => evBlock es fr w

/-- `for p in vs` -/
def evEach (p : Pat) (b : Expr) : List V → Frame → World → Out
  | [], fr, w => .val .unit fr w
  | v :: vs, fr, w => match matchPat P.enums false p v with
    | Option.some l => ((ev b (l :: fr) w).leave).bind fun _ fr w => evEach p b vs fr w
    | Option.none => .fail .stuck w

def evFor (p : Pat) (v : V) (b : Expr) (fr : Frame) (w : World) : Out :=
  match v with
  | .vec vs => evEach P ev p b vs fr w
  | .range (Option.some (.base (.lit lo))) (Option.some (.base (.usize hi))) =>
    evEach P ev p b ((List.range' lo (hi.toNat - lo)).map fun i => .base (.usize (BitVec.ofNat 64 i))) fr w
  | _ => .fail .stuck w

/-- `while c` with the value of `c` -/
def evWhile (v : V) (c b : Expr) (fr : Frame) (w : World) : Out :=
  match v with
  | .base (.bool true) => (ev b fr w).bind fun _ fr w => ev (.while c b) fr w
  | .base (.bool false) => .val .unit fr w
  | _ => .fail .stuck w

/-- `let` with what the pattern binds -/
def bindPat (l : Option Scope) (fr : Frame) (w : World) : Out :=
  match l with
  | Option.some l => .val .unit (fr.add l) w
  | Option.none => .fail .stuck w

def evOpt : Option Expr → Frame → World → Out
  | Option.some e, fr, w => ev e fr w
  | Option.none, fr, w => .val .unit fr w

/-- `if let` with the value of `e` -/
def evIfLet (e : Expr) (p : Pat) (v : V) (t : Expr) (f : Option Expr) (fr : Frame) (w : World) : Out :=
  match matchRef P.enums p v with
  | Option.some l => leaveArm e p v (ev t (l :: fr) w)
  | Option.none => evOpt ev f fr w

/-- `l = v` -/
def evAssign (l : Expr) (v : V) (fr : Frame) (w : World) : Out :=
  match l with
  | .path [x] => match fr.get x with
    | Option.some _ => .val .unit (fr.put x v) w
    | Option.none => .fail .stuck w
  | .deref (.path [x]) => match fr.get x with
    | Option.some (.ref _) => .val .unit (fr.put x (.ref v)) w
    | _ => .fail .stuck w
  | _ => .fail .stuck w

/-- One end of a range. -/
def evEnd : Option Expr → (Option V → Frame → World → Out) → Frame → World → Out
  | Option.some e, k, fr, w => (ev e fr w).bind fun v fr w => k (Option.some v) fr w
  | Option.none, k, fr, w => k Option.none fr w

def evIf (v : V) (t : Expr) (e : Option Expr) (fr : Frame) (w : World) : Out :=
  match v with
  | .base (.bool true) => ev t fr w
  | .base (.bool false) => evOpt ev e fr w
  | _ => .fail .stuck w

/-- A path that is a function as a value, or a constructor without arguments. -/
def pathValue (p : List Name) : V :=
  match p with
  | [t, f] => if implFn t f (n! "i32") P.impls |>.isSome then .fn p else .con [t, f] []
  | p => .con p []

/-- A path that is no variable: a constant, a function, a constructor. -/
def evConst (p : List Name) (fr : Frame) (w : World) : Out :=
  match p with
  | [x] => match assoc P.consts x with
    | Option.some e => match ev e [] w with
      | .val v _ w => .val v fr w
      | o => o
    | Option.none => .val (pathValue P p) fr w
  | p => match enumConst P.enums p with
    | Option.some (t, n) => .val (.con [t] [.base (.i32 (BitVec.ofNat 32 n))]) fr w
    | Option.none => match stdPath p with
      | Option.some v => .val v fr w
      | Option.none => .val (pathValue P p) fr w

/-- A variable, else a constant. -/
def evVar (x : Name) (v : Option V) (fr : Frame) (w : World) : Out :=
  match v with
  | Option.some v => .val v fr w
  | Option.none => evConst P ev [x] fr w

def evPath (p : List Name) (fr : Frame) (w : World) : Out :=
  match p with
  | [x] => evVar P ev x (fr.get x) fr w
  | p => evConst P ev p fr w

/-- The fields of a struct in the order and with the types declared for them. -/
def typed : List (Name × Slot) → List (Name × V) → List (Name × V)
  | [], _ => []
  | (x, t) :: slots, fs => match assoc fs x with
    | Option.some v => (x, asSlot t v) :: typed slots fs
    | Option.none => typed slots fs

def recordV (p : List Name) (fs : List (Name × V)) : V :=
  match p with
  | [x] => match assoc P.structs x with
    | Option.some slots => .record p (typed slots fs)
    | Option.none => .record p fs
  | p => .record p fs

/-- `[v, …]` -/
def arrayV (vs : List V) : Option V := (bytesOf vs).map fun bs => .base (.bytes bs)

/-- `assert!(v)` -/
def evAssert (vs : List V) (fr : Frame) (w : World) : Out :=
  match vs with
  | [.base (.bool true)] => .val .unit fr w
  | [.base (.bool false)] => .fail .panic w
  | _ => .fail .stuck w

/-- `a && b` with the value of `a` -/
def evAnd (v : V) (b : Expr) (fr : Frame) (w : World) : Out :=
  match v with
  | .base (.bool true) => ev b fr w
  | .base (.bool false) => .val (.base (.bool false)) fr w
  | _ => .fail .stuck w

/-- `a || b` with the value of `a` -/
def evOr (v : V) (b : Expr) (fr : Frame) (w : World) : Out :=
  match v with
  | .base (.bool false) => ev b fr w
  | .base (.bool true) => .val (.base (.bool true)) fr w
  | _ => .fail .stuck w

/-- `!v` -/
def evNot (v : V) (fr : Frame) (w : World) : Out :=
  match v with
  | .base (.bool b) => .val (.base (.bool !b)) fr w
  | _ => .fail .stuck w

/-- `[v; n]` -/
def fillV (n : Nat) : V → Option V
  | .base (.u8 x) => Option.some (.base (.bytes (List.replicate n x)))
  | _ => Option.none

/-- One step of evaluation. -/
def step (e : Expr) (fr : Frame) (w : World) : Out :=
  match e with
  | .lit n none => .val (.base (.lit n)) fr w
  | .lit n (some t) => .val (.base (Rs.ofNat t n)) fr w
  | .str s => .val (.str s) fr w
  | .chr c => .val (.con [n! "char"] [.base (.lit c)]) fr w
  | .bool b => .val (.base (.bool b)) fr w
  | .path p => evPath P ev p fr w
  | .tuple es => evArgs ev es (fun vs fr w => .val (.tuple vs) fr w) fr w
  | .fill e n => (ev e fr w).bind fun v fr w => .ofOption (fillV n v) fr w
  | .array es => evArgs ev es (fun vs fr w => .ofOption (arrayV vs) fr w) fr w
  | .record p fs => evFields ev fs (fun fs fr w => .val (recordV P p fs) fr w) fr w
  | .neg e => (ev e fr w).bind fun v fr w => .of (negV cfg v) fr w
  | .not e => (ev e fr w).bind fun v fr w => evNot v fr w
  | .deref e => (ev e fr w).bind fun v fr w => .val v.deref fr w
  | .ref m e => (ev e fr w).bind fun v fr w => .val (if m then .ref v else v) fr w
  | .bin op a b => (ev a fr w).bind fun x fr w => (ev b fr w).bind fun y fr w => .of (binV cfg op x y) fr w
  | .and a b => (ev a fr w).bind fun x fr w => evAnd ev x b fr w
  | .or a b => (ev a fr w).bind fun x fr w => evOr ev x b fr w
  | .cast e (some t) => (ev e fr w).bind fun v fr w => .of (castV t v) fr w
  | .cast _ none => .fail .stuck w
  | .field e x => (ev e fr w).bind fun v fr w => .ofOption (fieldOf v x) fr w
  | .index e i => (ev e fr w).bind fun v fr w => (ev i fr w).bind fun u fr w => .of (indexV v u) fr w
  | .range lo hi => evEnd ev lo (fun a fr w => evEnd ev hi (fun b fr w => .val (.range a b) fr w) fr w) fr w
  | .call f es => evArgs ev es (fun vs fr w => evCall cfg capacity P ev f es vs fr w) fr w
  | .method e f es => (ev e fr w).bind fun v fr w => evArgs ev es (fun vs fr w => evMethod cfg capacity P ev e f es v vs fr w) fr w
  | .try e => (ev e fr w).bind fun v fr w => evTry P ev v fr w
  | .mac f es => if f = n! "assert" then evArgs ev es evAssert fr w else evMacro P ev f es fr w
  | .lambda x e => .val (.lambda x e fr) fr w
  | .ite c t e => (ev c fr w).bind fun v fr w => evIf ev v t e fr w
  | .iteLet p v t e => (ev v fr w).bind fun u fr w => evIfLet P ev v p u t e fr w
  | .select e arms => (ev e fr w).bind fun v fr w => evArms P ev e arms v fr w
  | .while c b => (ev c fr w).bind fun v fr w => evWhile ev v c b fr w
  | .for p e b => (ev e fr w).bind fun v fr w => evFor P ev p v b fr w
  | .block es => (evBlock ev es ([] :: fr) w).leave
  | .semi e => (ev e fr w).bind fun _ fr w => .val .unit fr w
  | .bind p e => (ev e fr w).bind fun v fr w => bindPat (matchPat P.enums false p v) fr w
  | .ret e => (evOpt ev e fr w).bind fun v fr w => .ret v fr w
  | .assign l r => (ev r fr w).bind fun v fr w => evAssign l v fr w
  | .assignOp op l r => (ev r fr w).bind fun v fr w => (ev l fr w).bind fun u fr w =>
    (Out.of (binV cfg op u v) fr w).bind fun x fr w => evAssign l x fr w

end

/-- Evaluation; the fuel bounds its depth and the rounds of loops. -/
def eval (cfg : Cfg) (capacity : Nat → Except PFail Unit) (P : Prog) : Nat → Expr → Frame → World → Out
  | 0, _, _, w => .fail .diverge w
  | n + 1, e, fr, w => step cfg capacity P (eval cfg capacity P n) e fr w

/-! ## Programs -/

def named (f : Fn) : Name × Fn := (f.name, f)

def fnsOf (items : List Item) : List (Name × Fn) :=
  items.flatMap fun
    | .fn f => [named f]
    | _ => []

def implsOf (items : List Item) : List Impl :=
  items.flatMap fun
    | .impl tr arg ty fs => [⟨tr, arg, ty, fs.map named⟩]
    | _ => []

def constsOf (items : List Item) : List (Name × Expr) :=
  items.flatMap fun
    | .const x e => [(x, e)]
    | _ => []

def structsOf (items : List Item) : List (Name × List (Name × Slot)) :=
  items.flatMap fun
    | .struct x fs => [(x, fs)]
    | _ => []

/-- The program of a file. -/
def progOf (items : List Item) : Prog := ⟨fnsOf items, implsOf items, constsOf items, structsOf items, enumTable, fun _ => Option.none⟩

/-- The characters of a name. -/
def charsOf : Nat → Name → List Char
  | 0, _ => []
  | k + 1, n => if n = 0 then [] else charsOf k (n / 256) ++ [Char.ofNat (n % 256)]

def stringOf (n : Name) : String := String.ofList (charsOf 100 n)

/-- A `ParquetError` -/
def errorOf : V → PFail
  | .con p vs =>
    if p = [n! "ParquetError", n! "Thrift"] then match vs with
      | [.con _ [.base (.thrift e)]] => .err (.thrift e)
      | _ => .stuck
    else if p = [n! "ParquetError", n! "Io"] then match vs with
      | [.con _ [.base (.kind k)]] => .err (.io k)
      | _ => .stuck
    else if p = [n! "ParquetError", n! "InvalidMagic"] then .err .invalidMagic
    else if p = [n! "ParquetError", n! "InvalidOffset"] then .err .invalidOffset
    else if p = [n! "ParquetError", n! "Schema"] then match vs with
      | [.str s] => .err (.schema (stringOf s))
      | _ => .stuck
    else if p = [n! "ParquetError", n! "UnknownType"] then match vs with
      | [.base (.i32 x)] => .err (.unknownType x)
      | _ => .stuck
    else .stuck
  | _ => .stuck

/-- What a function returning `Result<_, ParquetError>` gives. -/
def resultOf : FnOut → Except PFail (V × List V × World)
  | .ret (.con p [v]) args w => if p = [n! "Ok"] then .ok (v, args, w) else if p = [n! "Err"] then .error (errorOf v) else .error .stuck
  | .ret _ _ _ => .error .stuck
  | .fail f _ => .error f

/-- The world in which it ends. -/
def FnOut.world : FnOut → World
  | .ret _ _ w => w
  | .fail _ w => w

end CT.Pq
