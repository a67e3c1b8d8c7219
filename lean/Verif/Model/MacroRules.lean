import Verif.Model.RustText
import Verif.Model.MacroText
/-!
# `macro_rules`: from the text of macros.rs to the code a macro expands to

Simplifications: a repetition in a pattern takes what it can (the compiler looks one token ahead, which is the same for the patterns here, as what a
repetition begins with cannot follow it); `meta` takes everything in its brackets, `ty` is a path with generic arguments; macros in the arguments
of a macro are expanded first (the compiler passes them on as a type or expression); the semicolon after a macro call as an
item or statement belongs to the call; `own` is the same for all macros (two of them with variables of the same name do not occur).
-/
namespace CT.Rust

/-- Fragment specifiers. -/
inductive Frag where
  | ident | literal | tt | ty | meta_
deriving DecidableEq, Repr

/-- Patterns. -/
inductive P where
  | tok (t : Tok)
  | group (d : Delim) (ps : List P)
  | var (x : List Char) (f : Frag)
  /-- `$(…)*`, or `$(…)?` -/
  | rep (ps : List P) (one : Bool)
deriving Repr

/-- Right hand sides. -/
inductive T where
  | tok (t : Tok)
  | crate
  | group (d : Delim) (ts : List T)
  | var (x : List Char)
  /-- `$(…)*`, `$(…)?` or `$(…) sep *` -/
  | rep (ts : List T) (sep : Option Tok)
  /-- `$crate::name!(…)` or `name!(…)` -/
  | call (name : List Char) (args : List T)
deriving Repr

abbrev Rules := List (List P × List T)

/-! ## Reading the rules -/

def fragOf (s : List Char) : Option Frag :=
  if s = text! "ident" then some .ident else if s = text! "literal" then some .literal else if s = text! "tt" then some .tt
  else if s = text! "ty" then some .ty else if s = text! "meta" then some .meta_ else none

/-- A pattern; the first argument bounds the steps. -/
def readP : Nat → List Tree → Option (List P)
  | 0, _ => none
  | _ + 1, [] => some []
  | n + 1, .tok (.op ['$']) _ :: .group .paren b :: .tok (.op ['*']) _ :: ts => do
    let b ← readP n b
    (readP n ts).map (.rep b false :: ·)
  | n + 1, .tok (.op ['$']) _ :: .group .paren b :: .tok (.op ['?']) _ :: ts => do
    let b ← readP n b
    (readP n ts).map (.rep b true :: ·)
  | n + 1, .tok (.op ['$']) _ :: .tok (.ident false x) _ :: .tok (.op [':']) _ :: .tok (.ident false f) _ :: ts => do
    let f ← fragOf f
    (readP n ts).map (.var x f :: ·)
  | _ + 1, .tok (.op ['$']) _ :: _ => none
  | n + 1, .tok t _ :: ts => (readP n ts).map (.tok t :: ·)
  | n + 1, .group d b :: ts => do
    let b ← readP n b
    (readP n ts).map (.group d b :: ·)
  | _ + 1, .bad :: _ => none

/-- A right hand side. -/
def readT : Nat → List Tree → Option (List T)
  | 0, _ => none
  | _ + 1, [] => some []
  | n + 1, .tok (.op ['$']) _ :: .tok (.ident false ['c', 'r', 'a', 't', 'e']) _ :: .tok (.op [':', ':']) _ :: .tok (.ident false m) _ :: .tok (.op ['!']) _ ::
      .group _ b :: .tok (.op [';']) _ :: ts => do
    let b ← readT n b
    (readT n ts).map (.call m b :: ·)
  | n + 1, .tok (.op ['$']) _ :: .tok (.ident false ['c', 'r', 'a', 't', 'e']) _ :: .tok (.op [':', ':']) _ :: .tok (.ident false m) _ :: .tok (.op ['!']) _ ::
      .group _ b :: ts => do
    let b ← readT n b
    (readT n ts).map (.call m b :: ·)
  | n + 1, .tok (.op ['$']) _ :: .tok (.ident false ['c', 'r', 'a', 't', 'e']) _ :: ts => (readT n ts).map (.crate :: ·)
  | n + 1, .tok (.op ['$']) _ :: .group .paren b :: .tok (.op ['*']) _ :: ts => do
    let b ← readT n b
    (readT n ts).map (.rep b none :: ·)
  | n + 1, .tok (.op ['$']) _ :: .group .paren b :: .tok (.op ['?']) _ :: ts => do
    let b ← readT n b
    (readT n ts).map (.rep b none :: ·)
  | n + 1, .tok (.op ['$']) _ :: .group .paren b :: .tok sep _ :: .tok (.op ['*']) _ :: ts => do
    let b ← readT n b
    (readT n ts).map (.rep b (some sep) :: ·)
  | n + 1, .tok (.op ['$']) _ :: .tok (.ident false x) _ :: ts => (readT n ts).map (.var x :: ·)
  | n + 1, .tok (.ident false m) _ :: .tok (.op ['!']) _ :: .group _ b :: ts => do
    let b ← readT n b
    (readT n ts).map (.call m b :: ·)
  | n + 1, .tok t _ :: ts => (readT n ts).map (.tok t :: ·)
  | n + 1, .group d b :: ts => do
    let b ← readT n b
    (readT n ts).map (.group d b :: ·)
  | _ + 1, .bad :: _ => none

/-- `(pattern) => { right hand side }; …` -/
def readRules : Nat → List Tree → Option Rules
  | 0, _ => none
  | _ + 1, [] => some []
  | n + 1, .group _ p :: .tok (.op ['=', '>']) _ :: .group _ t :: .tok (.op [';']) _ :: ts => do
    let p ← readP 1000 p
    let t ← readT 1000 t
    (readRules n ts).map ((p, t) :: ·)
  | _ + 1, .group _ p :: .tok (.op ['=', '>']) _ :: .group _ t :: [] => do
    let p ← readP 1000 p
    let t ← readT 1000 t
    some [(p, t)]
  | _ + 1, _ => none

/-- `macro_rules! name { … }` -/
def readMacro (text : List (List Char)) : Option (List Char × Rules) :=
  match parse true (joinLines text) with
  | some [.tok (.ident false ['m', 'a', 'c', 'r', 'o', '_', 'r', 'u', 'l', 'e', 's']) _, .tok (.op ['!']) _, .tok (.ident false name) _, .group .brace rules] =>
    (readRules 100 rules).map (name, ·)
  | _ => none

/-! ## Matching -/

/-- What a variable of a macro stands for, by how many repetitions it is in. -/
inductive B where
  | leaf (ts : List Tree)
  | seq (bs : List B)

abbrev Binds := List (List Char × B)

def look (x : List Char) : Binds → Option B
  | [] => none
  | (y, b) :: e => if x = y then some b else look x e

/-- Tokens up to the `>` that closes `n` open `<`. -/
def angle : Nat → List Tree → Option (List Tree × List Tree)
  | _, [] => none
  | n, t :: ts =>
    match t with
    | .tok (.op ['>']) _ => if n = 0 then some ([t], ts) else (angle (n - 1) ts).map fun (us, ts) => (t :: us, ts)
    | .tok (.op ['<']) _ => (angle (n + 1) ts).map fun (us, ts) => (t :: us, ts)
    | _ => (angle n ts).map fun (us, ts) => (t :: us, ts)

/-- The rest of a path. -/
def path : List Tree → Option (List Tree × List Tree)
  | .tok (.op [':', ':']) o :: .tok (.ident r s) o' :: ts => (path ts).map fun (us, ts) => (.tok (.op [':', ':']) o :: .tok (.ident r s) o' :: us, ts)
  | .tok (.op ['<']) o :: ts => (angle 0 ts).map fun (us, ts) => (.tok (.op ['<']) o :: us, ts)
  | ts => some ([], ts)

/-- The tokens of a fragment, and the rest. -/
def frag : Frag → List Tree → Option (List Tree × List Tree)
  -- `_` is no identifier for the compiler; nothing can be named so
  | .ident, .tok (.ident r s) o :: ts => some ([.tok (.ident r s) o], ts)
  | .literal, .tok (.num n s) o :: ts => some ([.tok (.num n s) o], ts)
  | .literal, .tok (.str s) o :: ts => some ([.tok (.str s) o], ts)
  | .literal, .tok (.cstr s) o :: ts => some ([.tok (.cstr s) o], ts)
  | .literal, .tok .float o :: ts => some ([.tok .float o], ts)
  | .literal, .tok (.op ['-']) o :: .tok (.num n s) o' :: ts => some ([.tok (.op ['-']) o, .tok (.num n s) o'], ts)
  | .literal, .tok (.op ['-']) o :: .tok .float o' :: ts => some ([.tok (.op ['-']) o, .tok .float o'], ts)
  | .literal, .tok (.ident false s) o :: ts => if s = text! "true" ∨ s = text! "false" then some ([.tok (.ident false s) o], ts) else none
  | .tt, t :: ts => some ([t], ts)
  | .ty, .tok (.ident r s) o :: ts => (path ts).map fun (us, ts) => (.tok (.ident r s) o :: us, ts)
  | .meta_, t :: ts => some (t :: ts, [])
  | _, _ => none

mutual
/-- The variables of a pattern. -/
def P.vars : P → List (List Char)
  | .var x _ => [x]
  | .rep ps _ => varsOf ps
  | .group _ ps => varsOf ps
  | .tok _ => []
def varsOf : List P → List (List Char)
  | [] => []
  | p :: ps => p.vars ++ varsOf ps
end

/-- The variables of a repetition: what they stand for each time. -/
def columns (xs : List (List Char)) (es : List Binds) : Binds := xs.map fun x => (x, .seq (es.map fun e => (look x e).getD (.leaf [.bad])))

/-- At most `n` times. -/
def many (m : List Tree → Option (Binds × List Tree)) : Nat → List Tree → List Binds × List Tree
  | 0, ts => ([], ts)
  | n + 1, ts =>
    match m ts with
    | none => ([], ts)
    | some (e, ts) => (e :: (many m n ts).1, (many m n ts).2)

mutual
def matchP : P → List Tree → Option (Binds × List Tree)
  | .tok t, .tok t' _ :: ts => if t = t' then some ([], ts) else none
  | .group d ps, .group d' us :: ts =>
    if d = d' then
      match matchPs ps us with
      | some (e, []) => some (e, ts)
      | _ => none
    else none
  | .var x f, ts => (frag f ts).map fun (us, ts) => ([(x, .leaf us)], ts)
  | .rep ps one, ts => some (columns (varsOf ps) (many (matchPs ps) (if one then 1 else ts.length) ts).1, (many (matchPs ps) (if one then 1 else ts.length) ts).2)
  | _, _ => none
def matchPs : List P → List Tree → Option (Binds × List Tree)
  | [], ts => some ([], ts)
  | p :: ps, ts => (matchP p ts).bind fun (e, ts) => (matchPs ps ts).map fun (e', ts) => (e ++ e', ts)
end

/-! ## Transcribing -/

mutual
def T.vars : T → List (List Char)
  | .var x => [x]
  | .rep ts _ => usedIn ts
  | .group _ ts => usedIn ts
  | .call _ ts => usedIn ts
  | .tok _ => []
  | .crate => []
/-- The variables of a right hand side. -/
def usedIn : List T → List (List Char)
  | [] => []
  | t :: ts => t.vars ++ usedIn ts
end

/-- How often a repetition with these variables is repeated: those in repetitions must agree, and there must be one. -/
def times (e : Binds) (xs : List (List Char)) : Option Nat :=
  match xs.filterMap fun x => match look x e with | some (.seq bs) => some bs.length | _ => none with
  | [] => none
  | n :: ns => if ns.all (· == n) then some n else none

/-- What the variables stand for the `i`th time. -/
def row (e : Binds) (i : Nat) : Binds := e.map fun (x, b) => (x, match b with | .seq bs => bs[i]?.getD (.leaf [.bad]) | .leaf ts => .leaf ts)

def joinWith (sep : Option Tok) : List (List Tree) → List Tree
  | [] => []
  | [a] => a
  | a :: b :: r => a ++ ((match sep with | some t => [.tok t true] | none => []) ++ joinWith sep (b :: r))

mutual
def transcribe1 (call : List Char → List Tree → List Tree) (e : Binds) : T → List Tree
  | .tok t => [.tok t true]
  | .crate => [.tok .crate true]
  | .group d ts => [.group d (transcribe call e ts)]
  | .var x =>
    match look x e with
    | some (.leaf ts) => ts
    | some (.seq _) => [.bad]
    -- no variable: the tokens themselves
    | none => [.tok (.op ['$']) true, .tok (.ident false x) true]
  | .rep ts sep =>
    match times e (usedIn ts) with
    | some n => joinWith sep ((List.range n).map fun i => transcribe call (row e i) ts)
    | none => [.bad]
  | .call name args => call name (transcribe call e args)
def transcribe (call : List Char → List Tree → List Tree) (e : Binds) : List T → List Tree
  | [] => []
  | t :: ts => transcribe1 call e t ++ transcribe call e ts
end

/-! ## Expansion -/

/-- `stringify!` of a name, or of `$name` -/
def stringify : List Tree → List Tree
  | [.tok (.ident false s) _] => [.tok (.str s) true]
  | [.tok (.op ['$']) _, .tok (.ident false s) _] => [.tok (.str ('$' :: s)) true]
  | _ => [.bad]

/-- `concat!` of strings -/
def concatText : List Tree → Option (List Char)
  | [.tok (.str s) _] => some s
  | .tok (.str s) _ :: .tok (.op [',']) _ :: ts => (concatText ts).map (s ++ ·)
  | _ => none

/-- The rule a macro uses: the first that matches. -/
def useRule (call : List Char → List Tree → List Tree) (args : List Tree) : Rules → List Tree
  | [] => [.bad]
  | (p, t) :: rs =>
    match matchPs p args with
    | some (e, []) => transcribe call e t
    | _ => useRule call args rs

/-- The expansion of `name!(args)`; the first argument is the recursion limit. -/
def expandMacro (macros : List (List Char × Rules)) : Nat → List Char → List Tree → List Tree
  | 0, _, _ => [.bad]
  | n + 1, name, args =>
    if name = text! "stringify" then stringify args
    else if name = text! "concat" then (match concatText args with | some s => [.tok (.str s) true] | none => [.bad])
    else
      match macros.find? fun m => m.1 == name with
      | some m => useRule (expandMacro macros n) args m.2
      | none => [.bad]

/-- The texts of all macros of macros.rs -/
def macroTexts : List (List (List Char)) :=
  [textThrift, textThriftStruct, textThriftUnion, textThriftEnum, textThriftUnionDefault, textThriftFieldType, textThriftRequiredOrOptional,
   textThriftRequiredFlag, textThriftRequiredSet, textThriftRequiredCheck]

/-- The macros of macros.rs: what the compiler reads -/
def macros : List (List Char × Rules) := macroTexts.filterMap readMacro

end CT.Rust
