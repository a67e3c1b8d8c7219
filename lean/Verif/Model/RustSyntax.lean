import Lean.Elab.Term
/-!
# Syntax of Rust functions, and a parser from source text

The part of Rust that occurs in runtime/src/uleb.rs, runtime/src/protocol.rs, runtime/src/types.rs and parquet/src/encodings.rs. Names are numbers (the characters in base 256), so that comparing them is cheap;
`n! "read_byte"` is the number of a name. Lifetimes, visibility, generics, bounds, attributes other than `#[cfg(target_feature = "sse2")]`, and types other than
those that decide the type of an integer are dropped. `none` is a text with something else.
-/
namespace CT.Rs

abbrev Name := Nat

/-- The number of a name: its characters as digits in base 256. -/
def nameOf (cs : List Char) : Name := cs.foldl (fun n c => n * 256 + c.toNat) 0

open Lean in
/-- The number of a name given as a literal. -/
macro:max "n! " s:str : term =>
  return ⟨Syntax.mkNumLit (toString (s.getString.toList.foldl (fun n c => n * 256 + c.toNat) 0))⟩

/-! ## Tokens -/

inductive Delim where
  | paren | bracket | brace
deriving DecidableEq, Repr

inductive Lex where
  | id (n : Name)
  /-- An integer with its suffix (0: none). -/
  | num (n : Nat) (suffix : Name)
  | str (s : Name)
  /-- Operators of one character, and `:: -> => == != += -= && || ..`; the others are two or three tokens. -/
  | op (n : Name)
  | opening (d : Delim)
  | closing (d : Delim)
deriving DecidableEq, Repr

def wordStart (c : Char) : Bool := ('a'.toNat ≤ c.toNat && c.toNat ≤ 'z'.toNat) || ('A'.toNat ≤ c.toNat && c.toNat ≤ 'Z'.toNat) || c == '_'
def digit (c : Char) : Bool := '0'.toNat ≤ c.toNat && c.toNat ≤ '9'.toNat
def wordTail (c : Char) : Bool := wordStart c || digit c
def white (c : Char) : Bool := c == ' ' || c == '\n' || c == '\t' || c == '\r'

def twoOps : List (List Char) := [[':', ':'], ['-', '>'], ['=', '>'], ['=', '='], ['!', '='], ['+', '='], ['-', '='], ['&', '&'], ['|', '|'], ['.', '.']]

def opChar (c : Char) : Bool :=
  [':', '-', '>', '<', '=', '!', '+', '&', '|', '.', ',', ';', '#', '*', '?', '/', '^', '@', '%'].contains c

def delim (c : Char) : Option Lex :=
  if c == '(' then some (.opening .paren) else if c == ')' then some (.closing .paren)
  else if c == '[' then some (.opening .bracket) else if c == ']' then some (.closing .bracket)
  else if c == '{' then some (.opening .brace) else if c == '}' then some (.closing .brace)
  else none

def hexDigit (c : Char) : Option Nat :=
  if digit c then some (c.toNat - 48)
  else if 'a'.toNat ≤ c.toNat && c.toNat ≤ 'f'.toNat then some (c.toNat - 87)
  else if 'A'.toNat ≤ c.toNat && c.toNat ≤ 'F'.toNat then some (c.toNat - 55)
  else none

/-- The value of the leading digits, underscores left out, and what follows. -/
def hexadecimal : Nat → List Char → Nat × List Char
  | n, [] => (n, [])
  | n, c :: cs => if c == '_' then hexadecimal n cs else match hexDigit c with
    | some d => hexadecimal (n * 16 + d) cs
    | none => (n, c :: cs)

def decimal : Nat → List Char → Nat × List Char
  | n, [] => (n, [])
  | n, c :: cs => if c == '_' then decimal n cs else if digit c then decimal (n * 10 + (c.toNat - 48)) cs else (n, c :: cs)

def numLex : List Char → Lex
  | '0' :: 'x' :: cs => let (n, s) := hexadecimal 0 cs; .num n (nameOf s)
  | cs => let (n, s) := decimal 0 cs; .num n (nameOf s)

/-- What has been read of a token. -/
inductive St where
  | between
  | word (s : List Char)
  | number (s : List Char)
  | life
  | str (s : List Char)
  | op (c : Char)
  | comment
deriving DecidableEq, Repr

/-- A character at the beginning of a token. -/
def start (c : Char) : Option (List Lex × St) :=
  if white c then some ([], .between)
  else if wordStart c then some ([], .word [c])
  else if digit c then some ([], .number [c])
  else if c == '"' then some ([], .str [])
  else if c == '\'' then some ([], .life)
  else match delim c with
    | some d => some ([d], .between)
    | none => if opChar c then some ([], .op c) else none

/-- The end of a token before `c`. -/
def after (t : Lex) (c : Char) : Option (List Lex × St) := (start c).map fun (ts, st) => (t :: ts, st)

def stepLex : St → Char → Option (List Lex × St)
  | .between, c => start c
  | .word s, c => if wordTail c then some ([], .word (s ++ [c])) else if c == '"' || c == '\'' then none else after (.id (nameOf s)) c
  | .number s, c => if wordTail c then some ([], .number (s ++ [c])) else after (numLex s) c
  | .life, c => if wordTail c then some ([], .life) else if c == '\'' then none else start c
  | .str s, c => if c == '"' then some ([.str (nameOf s)], .between) else if c == '\\' || c == '\n' then none else some ([], .str (s ++ [c]))
  | .op d, c =>
    if d == '/' then (if c == '/' then some ([], .comment) else none)
    else if twoOps.contains [d, c] then some ([.op (nameOf [d, c])], .between)
    else after (.op (nameOf [d])) c
  | .comment, c => some ([], if c == '\n' then .between else .comment)

def runLex : St → List Char → Option (List Lex)
  | .between, [] => some []
  | _, [] => none
  | st, c :: cs => (stepLex st c).bind fun (ts, st') => (runLex st' cs).map fun us => ts ++ us

/-- Token trees -/
inductive T where
  | id (n : Name)
  | num (n : Nat) (suffix : Name)
  | str (s : Name)
  | op (n : Name)
  | group (d : Delim) (ts : List T)
deriving Repr

def trees : List (Delim × List T) → List T → List Lex → Option (List T)
  | [], ts, [] => some ts
  | _ :: _, _, [] => none
  | st, ts, .id n :: ls => trees st (ts ++ [.id n]) ls
  | st, ts, .num n s :: ls => trees st (ts ++ [.num n s]) ls
  | st, ts, .str s :: ls => trees st (ts ++ [.str s]) ls
  | st, ts, .op n :: ls => trees st (ts ++ [.op n]) ls
  | st, ts, .opening d :: ls => trees ((d, ts) :: st) [] ls
  | [], _, .closing _ :: _ => none
  | (d, before) :: st, ts, .closing d' :: ls => if d = d' then trees st (before ++ [.group d ts]) ls else none

/-! ## Syntax -/

/-- The integer types -/
inductive ITy where
  | u8 | u16 | u32 | u64 | usize | i8 | i16 | i32 | i64
deriving DecidableEq, Repr

inductive BinOp where
  | add | sub | mul | shl | shr | band | bor | bxor | eq | ne | lt | gt | le | ge
deriving DecidableEq, Repr

inductive Pat where
  | wild
  | name (x : Name)
  /-- an integer -/
  | lit (n : Nat)
  /-- `a..=b` -/
  | range (a b : Nat)
  /-- `p | q` -/
  | alt (p q : Pat)
  /-- `(x, y, …)` -/
  | names (xs : List Name)
  /-- `[x, y @ ..]` -/
  | headRest (x y : Name)
  /-- `Path::Constructor(x)`, `Constructor(x)` -/
  | con (path : List Name) (x : Name)
deriving DecidableEq, Repr

/-- Expressions; statements are expressions without value. -/
inductive Expr where
  | lit (n : Nat) (suffix : Option ITy)
  | bool (b : Bool)
  | path (p : List Name)
  | tuple (es : List Expr)
  /-- `[e; n]` -/
  | fill (e : Expr) (n : Nat)
  /-- `[e, …]` -/
  | array (es : List Expr)
  | neg (e : Expr)
  | not (e : Expr)
  | deref (e : Expr)
  /-- `&e`, `&mut e` -/
  | ref (mutable : Bool) (e : Expr)
  | bin (op : BinOp) (a b : Expr)
  | and (a b : Expr)
  | or (a b : Expr)
  /-- `e as t`; `none` for `_` -/
  | cast (e : Expr) (t : Option ITy)
  /-- `e.n` -/
  | field (e : Expr) (n : Nat)
  | index (e i : Expr)
  /-- `lo..hi` -/
  | range (lo hi : Option Expr)
  | call (f : List Name) (args : List Expr)
  | method (e : Expr) (f : Name) (args : List Expr)
  /-- `e?` -/
  | try (e : Expr)
  /-- `f!(…)` -/
  | mac (f : Name) (args : List Expr)
  /-- `|_| e` -/
  | closure (e : Expr)
  /-- `|x| e`, and `move || e` with 0 for the name -/
  | lambda (x : Name) (e : Expr)
  | ite (c t : Expr) (e : Option Expr)
  | iteLet (p : Pat) (v t : Expr) (e : Option Expr)
  | select (e : Expr) (arms : List (Pat × Expr))
  | loop (b : Expr)
  | while (c b : Expr)
  | for (p : Pat) (e b : Expr)
  /-- The last is the value of the block. -/
  | block (ss : List Expr)
  /-- `e;` -/
  | semi (e : Expr)
  /-- `let p = e;` -/
  | bind (p : Pat) (e : Expr)
  | ret (e : Option Expr)
  | brk
  | assign (l r : Expr)
  | assignOp (op : BinOp) (l r : Expr)
deriving Repr

/-- The types that decide those of integers. -/
inductive Slot where
  | int (t : ITy)
  | tuple (ts : List (Option ITy))
  | other
deriving DecidableEq, Repr

structure Fn where
  name : Name
  params : List (Name × Slot)
  /-- Whether the function returns `Result<ret, _>`. -/
  result : Bool
  ret : Slot
  body : Expr
deriving Repr

inductive Item where
  /-- `sse2`: with the attribute `#[cfg(target_feature = "sse2")]` -/
  | fn (sse2 : Bool) (f : Fn)
  | const (x : Name) (t : Slot) (e : Expr)
  | trait (x : Name) (fs : List (Bool × Fn))
  /-- `impl trait for type`; an `impl` without trait has its type as trait and 0 as type. -/
  | impl (trait type : Name) (fs : List (Bool × Fn))
deriving Repr

/-! ## Parser -/

def iTy (n : Name) : Option ITy :=
  if n == n! "u8" then some .u8 else if n == n! "u16" then some .u16 else if n == n! "u32" then some .u32 else if n == n! "u64" then some .u64
  else if n == n! "usize" then some .usize else if n == n! "i8" then some .i8 else if n == n! "i16" then some .i16 else if n == n! "i32" then some .i32
  else if n == n! "i64" then some .i64 else none

/-- `<…>`: what follows the bracket that closes the `depth`-th. -/
def skipAngles : Nat → List T → List T
  | _, [] => []
  | depth, .op n :: ts =>
    if n == n! "<" then skipAngles (depth + 1) ts
    else if n == n! ">" then (if depth ≤ 1 then ts else skipAngles (depth - 1) ts)
    else skipAngles depth ts
  | depth, _ :: ts => skipAngles depth ts

/-- Generics, if any. -/
def skipGenerics : List T → List T
  | .op n :: ts => if n == n! "<" then skipAngles 1 ts else .op n :: ts
  | ts => ts

/-- The integer types of the components of a tuple type. -/
def tupleSlots : List T → List (Option ITy)
  | [] => []
  | [.id n] => [iTy n]
  | .id n :: .op _ :: ts => iTy n :: tupleSlots ts
  | _ :: ts => tupleSlots ts

/-- A type: whether it is a `Result`, the slot, and what follows. -/
def parseTy : Nat → List T → Option (Bool × Slot × List T)
  | 0, _ => none
  | k + 1, ts => match ts with
    | .op n :: ts => if n == n! "&" then
        match ts with
        | .id m :: ts' => if m == n! "mut" then (parseTy k ts').map fun (_, _, r) => (false, .other, r) else (parseTy k (.id m :: ts')).map fun (_, _, r) => (false, .other, r)
        | ts' => (parseTy k ts').map fun (_, _, r) => (false, .other, r)
      else none
    | .group .paren ts :: r => some (false, .tuple (tupleSlots ts), r)
    | .group .bracket _ :: r => some (false, .other, r)
    | .id n :: r =>
      if n == n! "Result" then
        match r with
        | .op m :: r => if m == n! "<" then (parseTy k r).map fun (_, s, r) => (true, s, skipAngles 1 r) else none
        | _ => none
      else match iTy n with
        | some t => some (false, .int t, r)
        | none => some (false, .other, skipGenerics r)
    | _ => none

/-- A pattern without alternatives. -/
def parsePat1 : List T → Option (Pat × List T)
  | .num a _ :: .op d :: .op e :: .num b s :: ts =>
    if d == n! ".." && e == n! "=" then some (.range a b, ts) else some (.lit a, .op d :: .op e :: .num b s :: ts)
  | .num a _ :: ts => some (.lit a, ts)
  | .group .bracket [.id x, .op c, .id y, .op a, .op d] :: ts =>
    if c == n! "," && a == n! "@" && d == n! ".." then some (.headRest x y, ts) else none
  | .group .paren xs :: ts =>
    (names xs).map fun xs => (.names xs, ts)
  | .id x :: .op c :: .id y :: .group .paren [.id z] :: ts => 
    if c == n! "::" then some (.con [x, y] z, ts) else word x (.op c :: .id y :: .group .paren [.id z] :: ts)
  | .id x :: .group .paren [.id z] :: ts => some (.con [x] z, ts)
  | .id x :: ts => word x ts
  | _ => none
where
  names : List T → Option (List Name)
    | [] => some []
    | [.id x] => some [x]
    | .id x :: .op c :: r => if c == n! "," then (names r).map (x :: ·) else none
    | _ => none
  word (x : Name) (ts : List T) : Option (Pat × List T) :=
    if x == n! "_" then some (.wild, ts) else if x == n! "mut" then
      match ts with
      | .id y :: ts => some (.name y, ts)
      | _ => none
    else some (.name x, ts)

def parsePat : Nat → List T → Option (Pat × List T)
  | 0, _ => none
  | k + 1, ts => (parsePat1 ts).bind fun (p, r) => match r with
    | .op o :: r' => if o == n! "|" then (parsePat k r').map fun (q, r) => (.alt p q, r) else some (p, r)
    | _ => some (p, r)

/-- A binary operator: its precedence, the operator (`none` for `&&`, `||`) and what follows. -/
def binOp : List T → Option (Nat × Option BinOp × List T)
  | .op a :: .op b :: ts =>
    if a == n! ">" && b == n! ">" then (match ts with
      | .op c :: _ => if c == n! "=" then none else some (8, some .shr, ts)
      | _ => some (8, some .shr, ts))
    else if a == n! "<" && b == n! "<" then (match ts with
      | .op c :: _ => if c == n! "=" then none else some (8, some .shl, ts)
      | _ => some (8, some .shl, ts))
    else if a == n! ">" && b == n! "=" then some (4, some .ge, ts)
    else if a == n! "<" && b == n! "=" then some (4, some .le, ts)
    else if b == n! "=" && (a == n! "|" || a == n! "&" || a == n! "^" || a == n! "*") then none
    else binOp1 a (.op b :: ts)
  | .op a :: ts => binOp1 a ts
  | _ => none
where
  binOp1 (a : Name) (ts : List T) : Option (Nat × Option BinOp × List T) :=
    if a == n! "*" then some (10, some .mul, ts)
    else if a == n! "+" then some (9, some .add, ts)
    else if a == n! "-" then some (9, some .sub, ts)
    else if a == n! "&" then some (7, some .band, ts)
    else if a == n! "^" then some (6, some .bxor, ts)
    else if a == n! "|" then some (5, some .bor, ts)
    else if a == n! "==" then some (4, some .eq, ts)
    else if a == n! "!=" then some (4, some .ne, ts)
    else if a == n! "<" then some (4, some .lt, ts)
    else if a == n! ">" then some (4, some .gt, ts)
    else if a == n! "&&" then some (3, none, ts)
    else if a == n! "||" then some (2, none, ts)
    else none

/-- An assignment operator. -/
def assignTok : List T → Option (Option BinOp × List T)
  | .op a :: .op b :: .op c :: ts =>
    if a == n! ">" && b == n! ">" && c == n! "=" then some (some .shr, ts)
    else if a == n! "<" && b == n! "<" && c == n! "=" then some (some .shl, ts)
    else assign2 a b (.op c :: ts)
  | .op a :: .op b :: ts => assign2 a b ts
  | .op a :: ts => assign1 a ts
  | _ => none
where
  assign1 (a : Name) (ts : List T) : Option (Option BinOp × List T) :=
    if a == n! "=" then some (none, ts)
    else if a == n! "+=" then some (some .add, ts)
    else if a == n! "-=" then some (some .sub, ts)
    else none
  assign2 (a b : Name) (ts : List T) : Option (Option BinOp × List T) :=
    if a == n! "|" && b == n! "=" then some (some .bor, ts)
    else if a == n! "&" && b == n! "=" then some (some .band, ts)
    else if a == n! "^" && b == n! "=" then some (some .bxor, ts)
    else assign1 a (.op b :: ts)

/-- `:: name …` after the first name of a path. -/
def pathRest : List T → List Name × List T
  | .op a :: .id x :: ts => if a == n! "::" then let (p, r) := pathRest ts; (x :: p, r) else ([], .op a :: .id x :: ts)
  | ts => ([], ts)

/-- The tokens up to the first `;`, left out. -/
def skipSemi : List T → List T
  | [] => []
  | .op a :: ts => if a == n! ";" then ts else skipSemi ts
  | _ :: ts => skipSemi ts

/-- The expressions that end a statement without `;`. -/
def blockLike : List T → Bool
  | .id x :: _ => x == n! "if" || x == n! "match" || x == n! "loop" || x == n! "while" || x == n! "for" || x == n! "unsafe"
  | .group .brace _ :: _ => true
  | _ => false

/-- Split at the operator. -/
def splitAtOp (o : Name) : List T → List T → List (List T)
  | acc, [] => [acc]
  | acc, .op a :: ts => if a == o then acc :: splitAtOp o [] ts else splitAtOp o (acc ++ [.op a]) ts
  | acc, t :: ts => splitAtOp o (acc ++ [t]) ts

section
-- The parsers for what is inside, with less fuel.
variable (expr : List T → Option (Expr × List T)) (block : List T → Option Expr)

/-- An expression that takes all tokens. -/
def whole (ts : List T) : Option Expr := (expr ts).bind fun (e, r) => if r.isEmpty then some e else none

/-- `e, e, …` -/
def commas (ts : List T) : Option (List Expr) :=
  ((splitAtOp (n! ",") [] ts).filter fun l => !l.isEmpty).mapM (whole expr)

/-- The arms of a `match`. -/
def parseArms : Nat → List T → Option (List (Pat × Expr))
  | 0, _ => none
  | _, [] => some []
  | k + 1, ts => (parsePat 10 ts).bind fun (p, r) => match r with
    | .op a :: r => if a == n! "=>" then (match r with
        | .group .brace b :: r =>
          let r := (match r with
            | .op c :: r' => if c == n! "," then r' else .op c :: r'
            | r => r)
          (block b).bind fun e => (parseArms k r).map fun l => (p, e) :: l
        | r => (expr r).bind fun (e, r) => match r with
          | [] => some [(p, e)]
          | .op c :: r => if c == n! "," then (parseArms k r).map fun l => (p, e) :: l else none
          | _ => none) else none
    | _ => none

/-- `else …` -/
def parseElse (prim : List T → Option (Expr × List T)) : List T → Option (Option Expr × List T)
  | .id x :: .group .brace b :: ts => if x == n! "else" then (block b).map fun e => (some e, ts) else some (none, .id x :: .group .brace b :: ts)
  | .id x :: .id y :: ts => if x == n! "else" then (prim (.id y :: ts)).map fun (e, r) => (some e, r) else some (none, .id x :: .id y :: ts)
  | ts => some (none, ts)

/-- A path: a variable or constant, a call or a macro. -/
def parsePath (x : Name) (ts : List T) : Option (Expr × List T) :=
  let (p, r) := pathRest ts
  match r with
  | .group .paren as :: r => (commas expr as).map fun es => (.call (x :: p) es, r)
  | .op b :: .group .paren as :: r' => if b == n! "!" then (commas expr as).map fun es => (.mac x es, r') else some (.path (x :: p), .op b :: .group .paren as :: r')
  | r => some (.path (x :: p), r)

def parsePrim (prim : List T → Option (Expr × List T)) : List T → Option (Expr × List T)
  | .num n s :: ts => if s == 0 then some (.lit n none, ts) else (iTy s).map fun t => (.lit n (some t), ts)
  | .group .paren [] :: ts => some (.tuple [], ts)
  | .group .paren as :: ts => (match splitAtOp (n! ",") [] as with
    | [l] => (whole expr l).map fun e => (e, ts)
    | _ => (commas expr as).map fun es => (.tuple es, ts))
  | .group .bracket as :: ts => (match splitAtOp (n! ";") [] as with
    | [l, [.num n _]] => (whole expr l).map fun e => (.fill e n, ts)
    | _ => (commas expr as).map fun es => (.array es, ts))
  | .group .brace b :: ts => (block b).map fun e => (e, ts)
  | .op o :: .id x :: .op o' :: ts =>
    if o == n! "|" && o' == n! "|" then (expr ts).map fun (e, r) => (if x == n! "_" then .closure e else .lambda x e, r) else none
  | .id x :: ts =>
    if x == n! "true" then some (.bool true, ts)
    else if x == n! "false" then some (.bool false, ts)
    else if x == n! "if" then (match ts with
      | .id y :: ts' => if y == n! "let" then
          (parsePat 10 ts').bind fun (p, r) => (match r with
            | .op o :: r => if o == n! "=" then (expr r).bind fun (v, r) => (match r with
              | .group .brace b :: r => (block b).bind fun t => (parseElse block prim r).map fun (e, r) => (.iteLet p v t e, r)
              | _ => none) else none
            | _ => none)
        else parseIf ts
      | _ => parseIf ts)
    else if x == n! "match" then (expr ts).bind fun (e, r) => (match r with
      | .group .brace b :: r => (parseArms expr block 40 b).map fun arms => (.select e arms, r)
      | _ => none)
    else if x == n! "loop" then (match ts with
      | .group .brace b :: r => (block b).map fun e => (.loop e, r)
      | _ => none)
    else if x == n! "while" then (expr ts).bind fun (c, r) => (match r with
      | .group .brace b :: r => (block b).map fun e => (.while c e, r)
      | _ => none)
    else if x == n! "for" then (parsePat 10 ts).bind fun (p, r) => (match r with
      | .id i :: r => if i == n! "in" then (expr r).bind fun (e, r) => (match r with
        | .group .brace b :: r => (block b).map fun b => (.for p e b, r)
        | _ => none) else none
      | _ => none)
    else if x == n! "unsafe" then (match ts with
      | .group .brace b :: r => (block b).map fun e => (e, r)
      | _ => none)
    else if x == n! "return" then (match ts with
      | [] => some (.ret none, [])
      | .op o :: r => if o == n! ";" then some (.ret none, .op o :: r) else (expr (.op o :: r)).map fun (e, r) => (.ret (some e), r)
      | r => (expr r).map fun (e, r) => (.ret (some e), r))
    else if x == n! "break" then some (.brk, ts)
    else if x == n! "move" then (match ts with
      | .op o :: ts => if o == n! "||" then (expr ts).map fun (e, r) => (.lambda 0 e, r) else none
      | _ => none)
    else parsePath expr x ts
  | _ => none
where
  parseIf (ts : List T) : Option (Expr × List T) :=
    (expr ts).bind fun (c, r) => (match r with
      | .group .brace b :: r => (block b).bind fun t => (parseElse block prim r).map fun (e, r) => (.ite c t e, r)
      | _ => none)

/-- `e.f(…)`, `e.0`, `e[…]`, `e?` -/
def parsePost : Nat → Expr → List T → Option (Expr × List T)
  | 0, _, _ => none
  | k + 1, e, .op o :: ts =>
    if o == n! "?" then parsePost k (.try e) ts
    else if o == n! "." then (match ts with
      | .num n _ :: ts => parsePost k (.field e n) ts
      | .id f :: .group .paren as :: ts => (commas expr as).bind fun es => parsePost k (.method e f es) ts
      | _ => none)
    else some (e, .op o :: ts)
  | k + 1, e, .group .bracket as :: ts => (whole expr as).bind fun i => parsePost k (.index e i) ts
  | _, e, ts => some (e, ts)

/-- Prefix operators. -/
def parseUnary (prim : List T → Option (Expr × List T)) : Nat → List T → Option (Expr × List T)
  | 0, _ => none
  | k + 1, .op o :: ts =>
    if o == n! "-" then (parseUnary prim k ts).map fun (e, r) => (.neg e, r)
    else if o == n! "!" then (parseUnary prim k ts).map fun (e, r) => (.not e, r)
    else if o == n! "*" then (parseUnary prim k ts).map fun (e, r) => (.deref e, r)
    else if o == n! "&" then (match ts with
      | .id m :: ts' => if m == n! "mut" then (parseUnary prim k ts').map fun (e, r) => (.ref true e, r)
        else (parseUnary prim k ts).map fun (e, r) => (.ref false e, r)
      | _ => (parseUnary prim k ts).map fun (e, r) => (.ref false e, r))
    else (prim (.op o :: ts)).bind fun (e, r) => parsePost expr 40 e r
  | _, ts => (prim ts).bind fun (e, r) => parsePost expr 40 e r

/-- `e as t as t'`; `e as *mut _` is kept as `e as _`. -/
def parseCasts : Nat → Expr → List T → Option (Expr × List T)
  | k + 1, e, .id a :: .id t :: ts =>
    if a == n! "as" then (if t == n! "_" then parseCasts k (.cast e none) ts else (iTy t).bind fun t => parseCasts k (.cast e (some t)) ts)
    else some (e, .id a :: .id t :: ts)
  | k + 1, e, .id a :: .op o :: .id m :: .id t :: ts =>
    if a == n! "as" && o == n! "*" && m == n! "mut" && t == n! "_" then parseCasts k (.cast e none) ts else some (e, .id a :: .op o :: .id m :: .id t :: ts)
  | _, e, ts => some (e, ts)

def parseCast (prim : List T → Option (Expr × List T)) (ts : List T) : Option (Expr × List T) :=
  (parseUnary expr prim 10 ts).bind fun (e, r) => parseCasts 10 e r

/-- Binary operators of at least the precedence, after the left operand. -/
def climb (prim : List T → Option (Expr × List T)) : Nat → Nat → Expr → List T → Option (Expr × List T)
  | 0, _, _, _ => none
  | k + 1, least, l, ts => match binOp ts with
    | some (prec, op, r) =>
      if prec < least then some (l, ts)
      else (parseCast expr prim r).bind fun (e, r) => (climb prim k (prec + 1) e r).bind fun (e, r) =>
        climb prim k least (match op with
          | some o => .bin o l e
          | none => if prec == 3 then .and l e else .or l e) r
    | none => some (l, ts)

def parseBin (prim : List T → Option (Expr × List T)) (ts : List T) : Option (Expr × List T) :=
  (parseCast expr prim ts).bind fun (e, r) => climb expr prim 40 0 e r

/-- Whether a range without upper end stops here. -/
def rangeEnds : List T → Bool
  | [] => true
  | .group .brace _ :: _ => true
  | .op _ :: _ => true
  | _ => false

/-- Ranges and assignments. -/
def parseExpr1 (prim : List T → Option (Expr × List T)) (ts : List T) : Option (Expr × List T) :=
  match ts with
  | .op o :: r =>
    if o == n! ".." then (if rangeEnds r then some (.range none none, r) else (parseBin expr prim r).map fun (e, r) => (.range none (some e), r))
    else next ts
  | _ => next ts
where
  next (ts : List T) : Option (Expr × List T) :=
    (parseBin expr prim ts).bind fun (l, r) => match assignTok r with
      | some (none, r) => (expr r).map fun (e, r) => (.assign l e, r)
      | some (some op, r) => (expr r).map fun (e, r) => (.assignOp op l e, r)
      | none => match r with
        | .op o :: r' =>
          if o == n! ".." then (if rangeEnds r' then some (.range (some l) none, r') else (parseBin expr prim r').map fun (e, r) => (.range (some l) (some e), r))
          else some (l, r)
        | _ => some (l, r)

/-- An expression as a statement; `next` parses those after it. -/
def parseStmt (prim : List T → Option (Expr × List T)) (next : List T → Option (List Expr)) (ts : List T) : Option (List Expr) :=
  if blockLike ts then (prim ts).bind fun (e, r) => match r with
    | [] => some [e]
    | r => (next r).map fun l => .semi e :: l
  else (expr ts).bind fun (e, r) => match r with
    | [] => some [e]
    | .op s :: r => if s == n! ";" then (next r).map fun l => .semi e :: l else none
    | _ => none

/-- The statements of a block. -/
def parseStmts (prim : List T → Option (Expr × List T)) : Nat → List T → Option (List Expr)
  | 0, _ => none
  | _, [] => some []
  | k + 1, .op o :: ts =>
    if o == n! ";" then parseStmts prim k ts
    else if o == n! "#" then (match ts with
      | .group .bracket _ :: ts => parseStmts prim k ts
      | _ => none)
    else parseStmt expr prim (parseStmts prim k) (.op o :: ts)
  | k + 1, .id x :: ts =>
    if x == n! "use" then parseStmts prim k (skipSemi ts)
    else if x == n! "let" then (parsePat 10 ts).bind fun (p, r) => (match r with
      | .op o :: r => if o == n! "=" then (expr r).bind fun (e, r) => (match r with
        | .op s :: r => if s == n! ";" then (parseStmts prim k r).map fun l => .bind p e :: l else none
        | _ => none) else none
      | _ => none)
    else parseStmt expr prim (parseStmts prim k) (.id x :: ts)
  | k + 1, ts => parseStmt expr prim (parseStmts prim k) ts

end

mutual
/-- An expression and what follows. -/
def parseExpr : Nat → List T → Option (Expr × List T)
  | 0, _ => none
  | k + 1, ts => parseExpr1 (parseExpr k) (parsePrimF k) ts
/-- An operand. -/
def parsePrimF : Nat → List T → Option (Expr × List T)
  | 0, _ => none
  | k + 1, ts => parsePrim (parseExpr k) (parseBlock k) (parsePrimF k) ts
def parseBlock : Nat → List T → Option Expr
  | 0, _ => none
  | k + 1, ts => (parseStmts (parseExpr k) (parsePrimF k) 40 ts).map .block
end

/-- A parameter. -/
def parseParam : List T → Option (Name × Slot)
  | [.op _, .id s] => if s == n! "self" then some (s, .other) else none
  | [.op _, .id m, .id s] => if m == n! "mut" && s == n! "self" then some (s, .other) else none
  | .id x :: .op c :: ts => if c == n! ":" then (parseTy 10 ts).map fun (_, s, _) => (x, s) else none
  | .id m :: .id x :: .op c :: ts => if m == n! "mut" && c == n! ":" then (parseTy 10 ts).map fun (_, s, _) => (x, s) else none
  | _ => none

/-- The body of a function, or `none` for `;`, after the parameters. -/
def findBody : List T → Option (Option (List T) × List T)
  | [] => none
  | .group .brace b :: ts => some (some b, ts)
  | .op o :: ts => if o == n! ";" then some (none, ts) else findBody ts
  | _ :: ts => findBody ts

/-- A function after `fn`; without body there is nothing to keep. -/
def parseFn : List T → Option (Option Fn × List T)
  | .id name :: ts => match skipGenerics ts with
    | .group .paren ps :: ts =>
      (((splitAtOp (n! ",") [] ps).filter fun l => !l.isEmpty).mapM parseParam).bind fun params =>
        (match ts with
          | .op a :: ts => if a == n! "->" then parseTy 10 ts else some (false, .other, .op a :: ts)
          | ts => some (false, .other, ts)).bind fun (result, ret, ts) =>
            (findBody ts).bind fun (b, ts) => match b with
              | none => some (none, ts)
              | some b => (parseBlock 60 b).map fun body => (some ⟨name, params, result, ret, body⟩, ts)
    | _ => none
  | _ => none

/-- Whether an attribute is `cfg(target_feature = "sse2")`. -/
def isSse2 : List T → Bool
  | [.id c, .group .paren [.id t, .op e, .str s]] => c == n! "cfg" && t == n! "target_feature" && e == n! "=" && s == n! "sse2"
  | _ => false

/-- The functions in a trait or `impl`; constants are dropped. -/
def parseFns : Nat → Bool → List T → Option (List (Bool × Fn))
  | 0, _, _ => none
  | _, _, [] => some []
  | k + 1, sse2, .op o :: .group .bracket a :: ts => if o == n! "#" then parseFns k (sse2 || isSse2 a) ts else none
  | k + 1, sse2, .id x :: ts =>
    if x == n! "fn" then (parseFn ts).bind fun (f, r) => (parseFns k false r).map fun l => (f.toList.map fun f => (sse2, f)) ++ l
    else if x == n! "const" then parseFns k false (skipSemi ts)
    else if x == n! "pub" || x == n! "unsafe" then parseFns k sse2 ts
    else none
  | k + 1, sse2, .group .paren _ :: ts => parseFns k sse2 ts
  | _, _, _ => none

/-- `trait`, `impl` and their functions. -/
def parseImpl : List T → Option (Item × List T)
  | ts => match skipGenerics ts with
    | .id tr :: r => match skipGenerics r with
      | .id f :: .id ty :: r => if f == n! "for" then (match skipGenerics r with
          | .group .brace b :: r => (parseFns 60 false b).map fun fs => (.impl tr ty fs, r)
          | _ => none) else none
      | .group .brace b :: r => (parseFns 60 false b).map fun fs => (.impl tr 0 fs, r)
      | _ => none
    | _ => none

/-- The items of a file. `use` and `struct` are dropped. -/
def parseItems : Nat → Bool → List T → Option (List Item)
  | 0, _, _ => none
  | _, _, [] => some []
  | k + 1, sse2, .op o :: .group .bracket a :: ts => if o == n! "#" then parseItems k (sse2 || isSse2 a) ts else none
  | k + 1, sse2, .id x :: ts =>
    if x == n! "fn" then (parseFn ts).bind fun (f, r) => (parseItems k false r).map fun l => (f.toList.map (Item.fn sse2)) ++ l
    else if x == n! "const" then (match ts with
      | .id c :: .op o :: ts => if o == n! ":" then (parseTy 10 ts).bind fun (_, t, r) => (match r with
        | .op e :: r => if e == n! "=" then (parseExpr 60 r).bind fun (v, r) => (match r with
          | .op s :: r => if s == n! ";" then (parseItems k false r).map fun l => .const c t v :: l else none
          | _ => none) else none
        | _ => none) else none
      | _ => none)
    else if x == n! "use" || x == n! "struct" then parseItems k false (skipSemi ts)
    else if x == n! "pub" || x == n! "unsafe" then parseItems k sse2 ts
    else if x == n! "trait" then (match ts with
      | .id t :: ts => (match skipGenerics ts with
        | .group .brace b :: r => (parseFns 60 false b).bind fun fs => (parseItems k false r).map fun l => .trait t fs :: l
        | _ => none)
      | _ => none)
    else if x == n! "impl" then (parseImpl ts).bind fun (i, r) => (parseItems k false r).map (i :: ·)
    else none
  | k + 1, sse2, .group .paren _ :: ts => parseItems k sse2 ts
  | _, _, _ => none

/-- The items of a source text. -/
def parseText (cs : List Char) : Option (List Item) := (runLex .between (cs ++ ['\n'])).bind fun ls => (trees [] [] ls).bind (parseItems 100 false)

end CT.Rs
