import Verif.Model.RustSyntax
/-!
# Syntax of the parquet crate, and a parser from source text

The part of Rust that occurs in parquet/src/lib.rs, parquet/src/bin/schema.rs, parquet/examples/dump.rs and runtime/src/error.rs, which is more than that of `RustSyntax.lean`: structs, nested patterns, closures, characters. Names are
numbers as there. Lifetimes, visibility, generics, bounds, attributes, and types other than those that decide the type of an integer are dropped; `Self` is
replaced by the type. `none` is a text with something else.
-/
namespace CT.Pq
open CT.Rs (Name nameOf Delim wordStart digit wordTail white delim opChar twoOps numLex ITy BinOp iTy)

/-! ## Tokens -/

inductive Lex where
  | id (n : Name)
  | num (n : Nat) (suffix : Name)
  | str (s : Name)
  | chr (c : Name)
  | op (n : Name)
  | opening (d : Delim)
  | closing (d : Delim)
deriving DecidableEq, Repr

/-- The tokens of `RustSyntax.lean`. -/
def Lex.ofRs : Rs.Lex → Lex
  | .id n => .id n
  | .num n s => .num n s
  | .str s => .str s
  | .op n => .op n
  | .opening d => .opening d
  | .closing d => .closing d

/-- What has been read of a token. -/
inductive St where
  | between
  | word (s : List Char)
  | number (s : List Char)
  /-- a lifetime or a character -/
  | quote (s : List Char)
  /-- `b'c'` -/
  | byte (s : List Char)
  | str (s : List Char)
  | op (c : Char)
  | comment
deriving DecidableEq, Repr

/-- A character at the beginning of a token. -/
def start (c : Char) : Option (List Lex × St) :=
  if white c then some ([], .between)
  else if wordStart c then some ([], .word [c])
  else if digit c then some ([], .number [c])
  else if c == '"' then some ([], .str [])
  else if c == '\'' then some ([], .quote [])
  else match delim c with
    | some d => some ([.ofRs d], .between)
    | none => if opChar c then some ([], .op c) else none

/-- The end of a token before `c`. -/
def after (t : Lex) (c : Char) : Option (List Lex × St) := (start c).map fun (ts, st) => (t :: ts, st)

def stepLex : St → Char → Option (List Lex × St)
  | .between, c => start c
  | .word s, c =>
    if wordTail c then some ([], .word (s ++ [c])) else if c == '\'' && s == ['b'] then some ([], .byte [])
    else if c == '"' || c == '\'' then none else after (.id (nameOf s)) c
  | .number s, c => if wordTail c then some ([], .number (s ++ [c])) else after (.ofRs (numLex s)) c
  | .quote s, c =>
    if c == '\'' then (match s with
      | [d] => some ([.chr d.toNat], .between)
      | _ => none)
    else if wordTail c then some ([], .quote (s ++ [c])) else start c
  | .byte s, c =>
    if c == '\'' then (match s with
      | [d] => some ([.num d.toNat (n! "u8")], .between)
      | ['\\', '0'] => some ([.num 0 (n! "u8")], .between)
      | _ => none)
    else some ([], .byte (s ++ [c]))
  | .str s, c => if c == '"' then some ([.str (nameOf s)], .between) else if c == '\\' || c == '\n' then none else some ([], .str (s ++ [c]))
  | .op d, c =>
    if d == '/' then (if c == '/' then some ([], .comment) else none)
    else if twoOps.contains [d, c] then some ([.op (nameOf [d, c])], .between)
    else after (.op (nameOf [d])) c
  | .comment, c => some ([], if c == '\n' then .between else .comment)

def runLex : St → List Char → Option (List Lex)
  | .between, [] => some []
  | _, [] => none
  | st, c :: cs => (stepLex st c).bind fun (ts, st') => (runLex st' cs).map fun us => ts ++ us

/-- Token trees -/
inductive T where
  | id (n : Name)
  | num (n : Nat) (suffix : Name)
  | str (s : Name)
  | chr (c : Name)
  | op (n : Name)
  | group (d : Delim) (ts : List T)
deriving Repr

def trees : List (Delim × List T) → List T → List Lex → Option (List T)
  | [], ts, [] => some ts
  | _ :: _, _, [] => none
  | st, ts, .id n :: ls => trees st (ts ++ [.id n]) ls
  | st, ts, .num n s :: ls => trees st (ts ++ [.num n s]) ls
  | st, ts, .str s :: ls => trees st (ts ++ [.str s]) ls
  | st, ts, .chr s :: ls => trees st (ts ++ [.chr s]) ls
  | st, ts, .op n :: ls => trees st (ts ++ [.op n]) ls
  | st, ts, .opening d :: ls => trees ((d, ts) :: st) [] ls
  | [], _, .closing _ :: _ => none
  | (d, before) :: st, ts, .closing d' :: ls => if d = d' then trees st (before ++ [.group d ts]) ls else none

mutual
/-- `Self` stands for the type. -/
def T.replaceSelf (ty : Name) : T → T
  | .id n => if n == n! "Self" then .id ty else .id n
  | .group d ts => .group d (replaceSelfs ty ts)
  | t => t
def replaceSelfs (ty : Name) : List T → List T
  | [] => []
  | t :: ts => t.replaceSelf ty :: replaceSelfs ty ts
end

/-! ## Syntax -/

inductive Pat where
  | wild
  | name (x : Name)
  | tuple (ps : List Pat)
  /-- `Path(p, …)` -/
  | con (path : List Name) (ps : List Pat)
  /-- `Path`, of more than one name or `None` -/
  | const (path : List Name)
  /-- `Path { x: p, … }`, with or without `..` -/
  | record (path : List Name) (fields : List (Name × Pat))
  /-- `p | q` -/
  | alt (p q : Pat)
deriving Repr

/-- Expressions; statements are expressions without value. -/
inductive Expr where
  | lit (n : Nat) (suffix : Option ITy)
  | str (s : Name)
  | chr (c : Name)
  | bool (b : Bool)
  | path (p : List Name)
  | tuple (es : List Expr)
  /-- `[e; n]` -/
  | fill (e : Expr) (n : Nat)
  /-- `[e, …]` -/
  | array (es : List Expr)
  /-- `Path { x: e, … }` -/
  | record (p : List Name) (fields : List (Name × Expr))
  | neg (e : Expr)
  | not (e : Expr)
  | deref (e : Expr)
  /-- `&e`, `&mut e` -/
  | ref (mutable : Bool) (e : Expr)
  | bin (op : BinOp) (a b : Expr)
  | and (a b : Expr)
  | or (a b : Expr)
  /-- `e as t`; `none` for `_` -/
  | cast (e : Expr) (t : Option ITy)
  /-- `e.x`, `e.0` -/
  | field (e : Expr) (x : Name)
  | index (e i : Expr)
  /-- `lo..hi` -/
  | range (lo hi : Option Expr)
  | call (f : List Name) (args : List Expr)
  | method (e : Expr) (f : Name) (args : List Expr)
  /-- `e?` -/
  | try (e : Expr)
  /-- `f!(…)` -/
  | mac (f : Name) (args : List Expr)
  /-- `|x| e` -/
  | lambda (x : Name) (e : Expr)
  | ite (c t : Expr) (e : Option Expr)
  | iteLet (p : Pat) (v t : Expr) (e : Option Expr)
  | select (e : Expr) (arms : List (Pat × Expr))
  | while (c b : Expr)
  | for (p : Pat) (e b : Expr)
  /-- The last is the value of the block. -/
  | block (ss : List Expr)
  /-- `e;` -/
  | semi (e : Expr)
  /-- `let p = e;` -/
  | bind (p : Pat) (e : Expr)
  | ret (e : Option Expr)
  | assign (l r : Expr)
  | assignOp (op : BinOp) (l r : Expr)
deriving Repr

/-- The types that decide those of integers. -/
inductive Slot where
  | int (t : ITy)
  /-- `&mut t` -/
  | mutInt (t : ITy)
  | other
deriving DecidableEq, Repr

structure Fn where
  name : Name
  params : List (Name × Slot)
  body : Expr
deriving Repr

inductive Item where
  | fn (f : Fn)
  | const (x : Name) (e : Expr)
  | struct (x : Name) (fields : List (Name × Slot))
  /-- `impl trait<arg> for type`; 0 if there is none. A reference is what it refers to. -/
  | impl (trait arg type : Name) (fs : List Fn)
deriving Repr

/-! ## Parser -/

/-- `<…>`: what follows the bracket that closes the `depth`-th. -/
def skipAngles : Nat → List T → List T
  | _, [] => []
  | depth, .op n :: ts =>
    if n == n! "<" then skipAngles (depth + 1) ts
    else if n == n! ">" then (if depth ≤ 1 then ts else skipAngles (depth - 1) ts)
    else skipAngles depth ts
  | depth, _ :: ts => skipAngles depth ts

/-- Generics, if any. -/
def skipGenerics : List T → List T
  | .op n :: ts => if n == n! "<" then skipAngles 1 ts else .op n :: ts
  | ts => ts

/-- Split at the operator. -/
def splitAtOp (o : Name) : List T → List T → List (List T)
  | acc, [] => [acc]
  | acc, .op a :: ts => if a == o then acc :: splitAtOp o [] ts else splitAtOp o (acc ++ [.op a]) ts
  | acc, t :: ts => splitAtOp o (acc ++ [t]) ts

/-- The parts between commas. -/
def parts (ts : List T) : List (List T) := (splitAtOp (n! ",") [] ts).filter fun l => !l.isEmpty

/-- `:: name …` after the first name of a path. -/
def pathRest : List T → List Name × List T
  | .op a :: .id x :: ts => if a == n! "::" then let (p, r) := pathRest ts; (x :: p, r) else ([], .op a :: .id x :: ts)
  | ts => ([], ts)

def slotOf : List T → Slot
  | [.id n] => match iTy n with
    | some t => .int t
    | none => .other
  | [.op r, .id m, .id n] => if r == n! "&" && m == n! "mut" then (match iTy n with
      | some t => .mutInt t
      | none => .other) else .other
  | _ => .other

section
variable (pat : List T → Option (Pat × List T))

/-- A pattern that takes all tokens. -/
def wholePat (ts : List T) : Option Pat := (pat ts).bind fun (p, r) => if r.isEmpty then some p else none

/-- A field in the pattern of a struct; `none` is `..`. -/
def fieldPat : List T → Option (Option (Name × Pat))
  | [.op d] => if d == n! ".." then some none else none
  | [.id x] => some (some (x, .name x))
  | .id x :: .op c :: ts => if c == n! ":" then (wholePat pat ts).map fun p => some (x, p) else none
  | _ => none

/-- A pattern without alternatives. -/
def parsePat1 : List T → Option (Pat × List T)
  | .group .paren xs :: ts => ((parts xs).mapM (wholePat pat)).map fun ps => (.tuple ps, ts)
  | .id x :: ts =>
    if x == n! "_" then some (.wild, ts)
    else if x == n! "mut" then (match ts with
      | .id y :: ts => some (.name y, ts)
      | _ => none)
    else
      let (p, r) := pathRest ts
      match r with
      | .group .paren xs :: r => ((parts xs).mapM (wholePat pat)).map fun ps => (.con (x :: p) ps, r)
      | .group .brace xs :: r => ((parts xs).mapM (fieldPat pat)).map fun fs => (.record (x :: p) (fs.filterMap id), r)
      | r => some (if p.isEmpty && x != n! "None" then .name x else .const (x :: p), r)
  | _ => none
end

def parsePat : Nat → List T → Option (Pat × List T)
  | 0, _ => none
  | k + 1, ts => (parsePat1 (parsePat k) ts).bind fun (p, r) => match r with
    | .op o :: r' => if o == n! "|" then (parsePat k r').map fun (q, r) => (.alt p q, r) else some (p, r)
    | _ => some (p, r)

/-- A binary operator: its precedence, the operator (`none` for `&&`, `||`) and what follows. -/
def binOp : List T → Option (Nat × Option BinOp × List T)
  | .op a :: .op b :: ts =>
    if a == n! ">" && b == n! "=" then some (4, some .ge, ts)
    else if a == n! "<" && b == n! "=" then some (4, some .le, ts)
    else binOp1 a (.op b :: ts)
  | .op a :: ts => binOp1 a ts
  | _ => none
where
  binOp1 (a : Name) (ts : List T) : Option (Nat × Option BinOp × List T) :=
    if a == n! "+" then some (9, some .add, ts)
    else if a == n! "-" then some (9, some .sub, ts)
    else if a == n! "==" then some (4, some .eq, ts)
    else if a == n! "!=" then some (4, some .ne, ts)
    else if a == n! "<" then some (4, some .lt, ts)
    else if a == n! ">" then some (4, some .gt, ts)
    else if a == n! "&&" then some (3, none, ts)
    else if a == n! "||" then some (2, none, ts)
    else none

/-- An assignment operator. -/
def assignTok : List T → Option (Option BinOp × List T)
  | .op a :: ts => if a == n! "=" then some (none, ts) else if a == n! "+=" then some (some .add, ts) else none
  | _ => none

/-- The tokens up to the first `;`, left out. -/
def skipSemi : List T → List T
  | [] => []
  | .op a :: ts => if a == n! ";" then ts else skipSemi ts
  | _ :: ts => skipSemi ts

/-- `: type`, left out, up to `=`. -/
def skipType : List T → List T
  | .op a :: ts => if a == n! "=" then .op a :: ts else skipType ts
  | _ :: ts => skipType ts
  | [] => []

/-- The expressions that end a statement without `;`. -/
def blockLike : List T → Bool
  | .id x :: _ => x == n! "if" || x == n! "match" || x == n! "while" || x == n! "for" || x == n! "unsafe"
  | .group .brace _ :: _ => true
  | _ => false

section
-- The parsers for what is inside, with less fuel. The flag tells whether `Path { … }` is a struct; it is not in a condition.
variable (expr : Bool → List T → Option (Expr × List T)) (block : List T → Option Expr)

/-- An expression that takes all tokens. -/
def whole (ts : List T) : Option Expr := (expr true ts).bind fun (e, r) => if r.isEmpty then some e else none

/-- `e, e, …` -/
def commas (ts : List T) : Option (List Expr) := (parts ts).mapM (whole expr)

/-- `x: e`, `x` -/
def fieldExpr : List T → Option (Name × Expr)
  | [.id x] => some (x, .path [x])
  | .id x :: .op c :: ts => if c == n! ":" then (whole expr ts).map fun e => (x, e) else none
  | _ => none

/-- The arms of a `match`. -/
def parseArms : Nat → List T → Option (List (Pat × Expr))
  | 0, _ => none
  | _, [] => some []
  | k + 1, ts => (parsePat 10 ts).bind fun (p, r) => match r with
    | .op a :: r => if a == n! "=>" then (match r with
        | .group .brace b :: r =>
          let r := (match r with
            | .op c :: r' => if c == n! "," then r' else .op c :: r'
            | r => r)
          (block b).bind fun e => (parseArms k r).map fun l => (p, e) :: l
        | r => (expr true r).bind fun (e, r) => match r with
          | [] => some [(p, e)]
          | .op c :: r => if c == n! "," then (parseArms k r).map fun l => (p, e) :: l else none
          | _ => none) else none
    | _ => none

/-- `else …` -/
def parseElse (prim : Bool → List T → Option (Expr × List T)) : List T → Option (Option Expr × List T)
  | .id x :: .group .brace b :: ts => if x == n! "else" then (block b).map fun e => (some e, ts) else some (none, .id x :: .group .brace b :: ts)
  | .id x :: .id y :: ts => if x == n! "else" then (prim true (.id y :: ts)).map fun (e, r) => (some e, r) else some (none, .id x :: .id y :: ts)
  | ts => some (none, ts)

/-- A path: a variable or constant, a call, a struct or a macro. -/
def parsePath (structs : Bool) (x : Name) (ts : List T) : Option (Expr × List T) :=
  let (p, r) := pathRest ts
  match r with
  | .group .paren as :: r => (commas expr as).map fun es => (.call (x :: p) es, r)
  | .group .brace as :: r =>
    if structs then ((parts as).mapM (fieldExpr expr)).map fun fs => (.record (x :: p) fs, r) else some (.path (x :: p), .group .brace as :: r)
  | .op b :: .group .paren as :: r' => if b == n! "!" then (commas expr as).map fun es => (.mac x es, r') else some (.path (x :: p), .op b :: .group .paren as :: r')
  | r => some (.path (x :: p), r)

def parsePrim (prim : Bool → List T → Option (Expr × List T)) (structs : Bool) : List T → Option (Expr × List T)
  | .num n s :: ts => if s == 0 then some (.lit n none, ts) else if s == n! "_usize" then some (.lit n (some .usize), ts)
    else (iTy s).map fun t => (.lit n (some t), ts)
  | .str s :: ts => some (.str s, ts)
  | .chr s :: ts => some (.chr s, ts)
  | .group .paren [] :: ts => some (.tuple [], ts)
  | .group .paren as :: ts => (match splitAtOp (n! ",") [] as with
    | [l] => (whole expr l).map fun e => (e, ts)
    | _ => (commas expr as).map fun es => (.tuple es, ts))
  | .group .bracket as :: ts => (match splitAtOp (n! ";") [] as with
    | [l, [.num n _]] => (whole expr l).map fun e => (.fill e n, ts)
    | _ => (commas expr as).map fun es => (.array es, ts))
  | .group .brace b :: ts => (block b).map fun e => (e, ts)
  | .op o :: .id x :: .op o' :: ts => if o == n! "|" && o' == n! "|" then (expr structs ts).map fun (e, r) => (.lambda x e, r) else none
  | .op l :: .id t :: .id a :: .id tr :: .op g :: .op c :: .id f :: .group .paren as :: ts =>
    if l == n! "<" && a == n! "as" && g == n! ">" && c == n! "::" then (commas expr as).map fun es => (.call [t, tr, f] es, ts) else none
  | .id x :: ts =>
    if x == n! "true" then some (.bool true, ts)
    else if x == n! "false" then some (.bool false, ts)
    else if x == n! "if" then (match ts with
      | .id y :: ts' => if y == n! "let" then
          (parsePat 10 ts').bind fun (p, r) => (match r with
            | .op o :: r => if o == n! "=" then (expr false r).bind fun (v, r) => (match r with
              | .group .brace b :: r => (block b).bind fun t => (parseElse block prim r).map fun (e, r) => (.iteLet p v t e, r)
              | _ => none) else none
            | _ => none)
        else parseIf ts
      | _ => parseIf ts)
    else if x == n! "match" then (expr false ts).bind fun (e, r) => (match r with
      | .group .brace b :: r => (parseArms expr block 40 b).map fun arms => (.select e arms, r)
      | _ => none)
    else if x == n! "while" then (expr false ts).bind fun (c, r) => (match r with
      | .group .brace b :: r => (block b).map fun e => (.while c e, r)
      | _ => none)
    else if x == n! "for" then (parsePat 10 ts).bind fun (p, r) => (match r with
      | .id i :: r => if i == n! "in" then (expr false r).bind fun (e, r) => (match r with
        | .group .brace b :: r => (block b).map fun b => (.for p e b, r)
        | _ => none) else none
      | _ => none)
    else if x == n! "unsafe" then (match ts with
      | .group .brace b :: r => (block b).map fun e => (e, r)
      | _ => none)
    else if x == n! "return" then (match ts with
      | [] => some (.ret none, [])
      | r => (expr true r).map fun (e, r) => (.ret (some e), r))
    else parsePath expr structs x ts
  | _ => none
where
  parseIf (ts : List T) : Option (Expr × List T) :=
    (expr false ts).bind fun (c, r) => (match r with
      | .group .brace b :: r => (block b).bind fun t => (parseElse block prim r).map fun (e, r) => (.ite c t e, r)
      | _ => none)

/-- `e.f(…)`, `e.f::<T>(…)`, `e.x`, `e.0`, `e[…]`, `e?` -/
def parsePost : Nat → Expr → List T → Option (Expr × List T)
  | 0, _, _ => none
  | k + 1, e, .op o :: ts =>
    if o == n! "?" then parsePost k (.try e) ts
    else if o == n! "." then (match ts with
      | .num n _ :: ts => parsePost k (.field e (n + n! "0")) ts
      | .id f :: .group .paren as :: ts => (commas expr as).bind fun es => parsePost k (.method e f es) ts
      | .id f :: .op c :: .op l :: .id t :: .op g :: .group .paren as :: ts =>
        if c == n! "::" && l == n! "<" && g == n! ">" then (commas expr as).bind fun es => parsePost k (.method e f es) ts
        else parsePost k (.field e f) (.op c :: .op l :: .id t :: .op g :: .group .paren as :: ts)
      | .id x :: ts => parsePost k (.field e x) ts
      | _ => none)
    else some (e, .op o :: ts)
  | k + 1, e, .group .bracket as :: ts => (whole expr as).bind fun i => parsePost k (.index e i) ts
  | _, e, ts => some (e, ts)

/-- Prefix operators. -/
def parseUnary (prim : List T → Option (Expr × List T)) : Nat → List T → Option (Expr × List T)
  | 0, _ => none
  | k + 1, .op o :: ts =>
    if o == n! "-" then (parseUnary prim k ts).map fun (e, r) => (.neg e, r)
    else if o == n! "!" then (parseUnary prim k ts).map fun (e, r) => (.not e, r)
    else if o == n! "*" then (parseUnary prim k ts).map fun (e, r) => (.deref e, r)
    else if o == n! "&" then (match ts with
      | .id m :: ts' => if m == n! "mut" then (parseUnary prim k ts').map fun (e, r) => (.ref true e, r)
        else (parseUnary prim k ts).map fun (e, r) => (.ref false e, r)
      | _ => (parseUnary prim k ts).map fun (e, r) => (.ref false e, r))
    else (prim (.op o :: ts)).bind fun (e, r) => parsePost expr 40 e r
  | _, ts => (prim ts).bind fun (e, r) => parsePost expr 40 e r

/-- `e as t` -/
def parseCasts : Nat → Expr → List T → Option (Expr × List T)
  | k + 1, e, .id a :: .id t :: ts =>
    if a == n! "as" then (if t == n! "_" then parseCasts k (.cast e none) ts else (iTy t).bind fun t => parseCasts k (.cast e (some t)) ts)
    else some (e, .id a :: .id t :: ts)
  | _, e, ts => some (e, ts)

def parseCast (prim : List T → Option (Expr × List T)) (ts : List T) : Option (Expr × List T) :=
  (parseUnary expr prim 10 ts).bind fun (e, r) => parseCasts 10 e r

/-- Binary operators of at least the precedence, after the left operand. -/
def climb (prim : List T → Option (Expr × List T)) : Nat → Nat → Expr → List T → Option (Expr × List T)
  | 0, _, _, _ => none
  | k + 1, least, l, ts => match binOp ts with
    | some (prec, op, r) =>
      if prec < least then some (l, ts)
      else (parseCast expr prim r).bind fun (e, r) => (climb prim k (prec + 1) e r).bind fun (e, r) =>
        climb prim k least (match op with
          | some o => .bin o l e
          | none => if prec == 3 then .and l e else .or l e) r
    | none => some (l, ts)

def parseBin (prim : List T → Option (Expr × List T)) (ts : List T) : Option (Expr × List T) :=
  (parseCast expr prim ts).bind fun (e, r) => climb expr prim 40 0 e r

/-- Whether a range without upper end stops here. -/
def rangeEnds : List T → Bool
  | [] => true
  | .group .brace _ :: _ => true
  | .op _ :: _ => true
  | _ => false

/-- Ranges and assignments. -/
def parseExpr1 (prim : Bool → List T → Option (Expr × List T)) (structs : Bool) (ts : List T) : Option (Expr × List T) :=
  (parseBin expr (prim structs) ts).bind fun (l, r) => match assignTok r with
    | some (none, r) => (expr structs r).map fun (e, r) => (.assign l e, r)
    | some (some op, r) => (expr structs r).map fun (e, r) => (.assignOp op l e, r)
    | none => match r with
      | .op o :: r' =>
        if o == n! ".." then (if rangeEnds r' then some (.range (some l) none, r') else (parseBin expr (prim structs) r').map fun (e, r) => (.range (some l) (some e), r))
        else some (l, r)
      | _ => some (l, r)

/-- An expression as a statement; `next` parses those after it. -/
def parseStmt (prim : Bool → List T → Option (Expr × List T)) (next : List T → Option (List Expr)) (ts : List T) : Option (List Expr) :=
  if blockLike ts then (prim true ts).bind fun (e, r) => match r with
    | [] => some [e]
    | r => (next r).map fun l => .semi e :: l
  else (expr true ts).bind fun (e, r) => match r with
    | [] => some [e]
    | .op s :: r => if s == n! ";" then (next r).map fun l => .semi e :: l else none
    | _ => none

/-- The statements of a block; one that ends with `;` has `()` as its value. -/
def parseStmts (prim : Bool → List T → Option (Expr × List T)) : Nat → List T → Option (List Expr)
  | 0, _ => none
  | _, [] => some []
  | k + 1, .op o :: ts =>
    if o == n! ";" then parseStmts prim k ts
    else parseStmt expr prim (parseStmts prim k) (.op o :: ts)
  | k + 1, .id x :: ts =>
    if x == n! "let" then (parsePat 10 ts).bind fun (p, r) => (match skipType r with
      | _ :: r => (expr true r).bind fun (e, r) => (match r with
        | .op s :: r => if s == n! ";" then (parseStmts prim k r).map fun l => .bind p e :: l else none
        | _ => none)
      | _ => none)
    else parseStmt expr prim (parseStmts prim k) (.id x :: ts)
  | k + 1, ts => parseStmt expr prim (parseStmts prim k) ts

end

mutual
/-- An expression and what follows. -/
def parseExpr : Nat → Bool → List T → Option (Expr × List T)
  | 0, _, _ => none
  | k + 1, structs, ts => parseExpr1 (parseExpr k) (parsePrimF k) structs ts
/-- An operand. -/
def parsePrimF : Nat → Bool → List T → Option (Expr × List T)
  | 0, _, _ => none
  | k + 1, structs, ts => parsePrim (parseExpr k) (parseBlock k) (parsePrimF k) structs ts
def parseBlock : Nat → List T → Option Expr
  | 0, _ => none
  | k + 1, ts => (parseStmts (parseExpr k) (parsePrimF k) 40 ts).map .block
end

/-- A parameter. -/
def parseParam : List T → Option (Name × Slot)
  | [.op _, .id s] => if s == n! "self" then some (s, .other) else none
  | .id x :: .op c :: ts => if c == n! ":" then some (x, slotOf ts) else none
  | _ => none

/-- The braces and what follows. -/
def findBody : List T → Option (List T × List T)
  | [] => none
  | .group .brace b :: ts => some (b, ts)
  | _ :: ts => findBody ts

/-- A function after `fn`. -/
def parseFn : List T → Option (Fn × List T)
  | .id name :: ts => match skipGenerics ts with
    | .group .paren ps :: ts =>
      ((parts ps).mapM parseParam).bind fun params => (findBody ts).bind fun (b, ts) => (parseBlock 60 b).map fun body => (⟨name, params, body⟩, ts)
    | _ => none
  | _ => none

/-- The functions of an `impl`; types are dropped. -/
def parseFns : Nat → List T → Option (List Fn)
  | 0, _ => none
  | _, [] => some []
  | k + 1, .id x :: ts =>
    if x == n! "fn" then (parseFn ts).bind fun (f, r) => (parseFns k r).map fun l => f :: l
    else if x == n! "type" then parseFns k (skipSemi ts)
    else if x == n! "pub" then parseFns k ts
    else none
  | _, _ => none

/-- The type argument of a trait. -/
def traitArg : List T → Name × List T
  | .op a :: .op r :: .id x :: .op b :: ts => if a == n! "<" && r == n! "&" && b == n! ">" then (x, ts) else (0, .op a :: .op r :: .id x :: .op b :: ts)
  | .op a :: .id x :: .op b :: ts => if a == n! "<" && b == n! ">" then (x, ts) else (0, .op a :: .id x :: .op b :: ts)
  | ts => (0, ts)

/-- An `impl` after the word. -/
def parseImpl : List T → Option (Item × List T)
  | .id tr :: ts => match traitArg ts with
    | (arg, .id f :: .id ty :: .group .brace b :: r) =>
      if f == n! "for" then (parseFns 60 (replaceSelfs ty b)).map fun fs => (.impl tr arg ty fs, r) else none
    | (_, .group .brace b :: r) => (parseFns 60 (replaceSelfs tr b)).map fun fs => (.impl 0 0 tr fs, r)
    | _ => none
  | _ => none

/-- A field in the declaration of a struct. -/
def parseField : List T → Option (Name × Slot)
  | .id p :: .id x :: .op c :: ts => if p == n! "pub" && c == n! ":" then some (x, slotOf ts) else none
  | .id x :: .op c :: ts => if c == n! ":" then some (x, slotOf ts) else none
  | _ => none

/-- What follows braces or `;`. -/
def skipDecl : List T → List T
  | [] => []
  | .group .brace _ :: ts => ts
  | .op a :: ts => if a == n! ";" then ts else skipDecl ts
  | _ :: ts => skipDecl ts

/-- The items of a file. `use`, `mod`, `enum` and structs without names are dropped. -/
def parseItems : Nat → List T → Option (List Item)
  | 0, _ => none
  | _, [] => some []
  | k + 1, .op o :: .group .bracket _ :: ts => if o == n! "#" then parseItems k ts else none
  | k + 1, .id x :: ts =>
    if x == n! "fn" then (parseFn ts).bind fun (f, r) => (parseItems k r).map fun l => .fn f :: l
    else if x == n! "const" then (match ts with
      | .id c :: r => (match skipType r with
        | _ :: r => (parseExpr 60 true r).bind fun (v, r) => (match r with
          | .op s :: r => if s == n! ";" then (parseItems k r).map fun l => .const c v :: l else none
          | _ => none)
        | _ => none)
      | _ => none)
    else if x == n! "struct" then (match ts with
      | .id s :: .group .brace b :: r => ((parts b).mapM parseField).bind fun fs => (parseItems k r).map fun l => .struct s fs :: l
      | _ => parseItems k (skipDecl ts))
    else if x == n! "use" then parseItems k (skipSemi ts)
    else if x == n! "mod" || x == n! "enum" then parseItems k (skipDecl ts)
    else if x == n! "pub" || x == n! "unsafe" then parseItems k ts
    else if x == n! "impl" then (parseImpl ts).bind fun (i, r) => (parseItems k r).map (i :: ·)
    else none
  | _, _ => none

/-- The items of a source text. -/
def parseText (cs : List Char) : Option (List Item) := (runLex .between (cs ++ ['\n'])).bind fun ls => (trees [] [] ls).bind (parseItems 200)

end CT.Pq
