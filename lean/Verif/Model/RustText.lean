import Verif.Model.Basic
/-!
# Rust source text as token trees

The part of Rust's lexical structure that occurs in runtime/src/macros.rs and in the templates of Generator.kt. Simplifications: all comments are
line comments and no token (doc comments do not occur in the texts below); integers are decimal; there are no floats, characters, raw strings;
`<<`, `>>`, `<=` and `>=` are two tokens (they do not occur other than as the ends of generics); of the escapes in strings only `\0`, `\"` and `\\`; no string
contains a line feed.
`none` is a text with something else.
-/
namespace CT.Rust

inductive Delim where
  | paren | bracket | brace
deriving DecidableEq, Repr

inductive Tok where
  /-- An identifier or keyword; `raw` is for keywords written `r#…` (for other words that makes no difference). -/
  | ident (raw : Bool) (s : List Char)
  /-- An integer with its suffix. -/
  | num (n : Nat) (suffix : List Char)
  /-- `"…"`, without escapes -/
  | str (s : List Char)
  /-- `c"…"` -/
  | cstr (s : List Char)
  /-- A literal that does not occur in the texts: floats. -/
  | float
  | life (s : List Char)
  | op (s : List Char)
  /-- `$crate` in a transcribed macro -/
  | crate
deriving DecidableEq, Repr

/-- Flat tokens. -/
inductive Lex where
  | tok (t : Tok)
  | opening (d : Delim)
  | closing (d : Delim)
deriving DecidableEq, Repr

def wordStart (c : Char) : Bool := ('a'.toNat ≤ c.toNat && c.toNat ≤ 'z'.toNat) || ('A'.toNat ≤ c.toNat && c.toNat ≤ 'Z'.toNat) || c == '_'
def digit (c : Char) : Bool := '0'.toNat ≤ c.toNat && c.toNat ≤ '9'.toNat
def wordTail (c : Char) : Bool := wordStart c || digit c
def white (c : Char) : Bool := c == ' ' || c == '\n' || c == '\t' || c == '\r'

/-- The keywords that occur as field names with `r#`; all keywords of Rust 2021. -/
def keywords : List (List Char) :=
  [['a','s'], ['b','r','e','a','k'], ['c','o','n','s','t'], ['c','o','n','t','i','n','u','e'], ['c','r','a','t','e'], ['e','l','s','e'],
   ['e','n','u','m'], ['e','x','t','e','r','n'], ['f','a','l','s','e'], ['f','n'], ['f','o','r'], ['i','f'], ['i','m','p','l'], ['i','n'],
   ['l','e','t'], ['l','o','o','p'], ['m','a','t','c','h'], ['m','o','d'], ['m','o','v','e'], ['m','u','t'], ['p','u','b'], ['r','e','f'],
   ['r','e','t','u','r','n'], ['s','e','l','f'], ['S','e','l','f'], ['s','t','a','t','i','c'], ['s','t','r','u','c','t'],
   ['s','u','p','e','r'], ['t','r','a','i','t'], ['t','r','u','e'], ['t','y','p','e'], ['u','n','s','a','f','e'], ['u','s','e'],
   ['w','h','e','r','e'], ['w','h','i','l','e'], ['a','s','y','n','c'], ['a','w','a','i','t'], ['d','y','n'],
   ['a','b','s','t','r','a','c','t'], ['b','e','c','o','m','e'], ['b','o','x'], ['d','o'], ['f','i','n','a','l'], ['m','a','c','r','o'],
   ['o','v','e','r','r','i','d','e'], ['p','r','i','v'], ['t','r','y'], ['t','y','p','e','o','f'], ['u','n','s','i','z','e','d'],
   ['v','i','r','t','u','a','l'], ['y','i','e','l','d']]

/-- Operators of two characters. -/
def twoOps : List (List Char) := [[':', ':'], ['-', '>'], ['=', '>'], ['=', '='], ['!', '='], ['+', '='], ['-', '='], ['&', '&'], ['|', '|'], ['.', '.']]

def opChar (c : Char) : Bool :=
  c == ':' || c == '-' || c == '>' || c == '<' || c == '=' || c == '!' || c == '+' || c == '&' || c == '|' || c == '.' || c == ',' || c == ';' ||
  c == '#' || c == '$' || c == '*' || c == '?' || c == '/'

def delim (c : Char) : Option Lex :=
  if c == '(' then some (.opening .paren) else if c == ')' then some (.closing .paren)
  else if c == '[' then some (.opening .bracket) else if c == ']' then some (.closing .bracket)
  else if c == '{' then some (.opening .brace) else if c == '}' then some (.closing .brace)
  else none

/-- The value of decimal digits, underscores left out. -/
def decimal : Nat → List Char → Nat
  | n, [] => n
  | n, c :: cs => if c == '_' then decimal n cs else decimal (n * 10 + (c.toNat - 48)) cs

/-- A number is digits and underscores, then a suffix. -/
def numTok (cs : List Char) : Tok :=
  .num (decimal 0 (cs.takeWhile fun c => digit c || c == '_')) (cs.dropWhile fun c => digit c || c == '_')

/-- What has been read of a token. -/
inductive St where
  | between
  | word (s : List Char)
  | raw (s : List Char)
  | number (s : List Char)
  | life (s : List Char)
  | str (c : Bool) (s : List Char)
  | esc (c : Bool) (s : List Char)
  | op (c : Char)
  | comment
deriving DecidableEq, Repr

/-- A character at the beginning of a token. -/
def start (c : Char) : Option (List Lex × St) :=
  if white c then some ([], .between)
  else if wordStart c then some ([], .word [c])
  else if digit c then some ([], .number [c])
  else if c == '"' then some ([], .str false [])
  else if c == '\'' then some ([], .life [])
  else match delim c with
    | some d => some ([d], .between)
    | none => if opChar c then some ([], .op c) else none

/-- The end of a token before `c`. -/
def after (t : Tok) (c : Char) : Option (List Lex × St) := (start c).map fun (ts, st) => (.tok t :: ts, st)

def step : St → Char → Option (List Lex × St)
  | .between, c => start c
  | .word s, c =>
    if wordTail c then some ([], .word (s ++ [c]))
    else if c == '#' && s == ['r'] then some ([], .raw [])
    else if c == '"' then (if s == ['c'] then some ([], .str true []) else none)
    else after (.ident false s) c
  | .raw s, c => if wordTail c then some ([], .raw (s ++ [c])) else if s.isEmpty then none else after (.ident (keywords.contains s) s) c
  | .number s, c => if wordTail c then some ([], .number (s ++ [c])) else if c == '.' then none else after (numTok s) c
  | .life s, c => if wordTail c then some ([], .life (s ++ [c])) else if s.isEmpty || c == '\'' then none else after (.life s) c
  | .str cs s, c =>
    if c == '"' then some ([.tok (if cs then .cstr s else .str s)], .between)
    else if c == '\\' then some ([], .esc cs s)
    else if c == '\n' then none
    else some ([], .str cs (s ++ [c]))
  | .esc cs s, c =>
    if c == '0' then some ([], .str cs (s ++ ['\x00']))
    else if c == '"' || c == '\\' then some ([], .str cs (s ++ [c]))
    else none
  | .op d, c =>
    if d == '/' then (if c == '/' then some ([], .comment) else none)
    else if twoOps.contains [d, c] then some ([.tok (.op [d, c])], .between)
    else after (.op [d]) c
  | .comment, c => some ([], if c == '\n' then .between else .comment)

/-- The tokens of a part of a text, and what is read of the next. -/
def run : St → List Char → Option (List Lex × St)
  | st, [] => some ([], st)
  | st, c :: cs => (step st c).bind fun (ts, st') => (run st' cs).map fun (us, st'') => (ts ++ us, st'')

/-- The tokens of a text. -/
def lex (cs : List Char) : Option (List Lex) := (run .between (cs ++ ['\n'])).bind fun (ts, st) => if st = .between then some ts else none

/-- Token trees. `own`: the token stands in the definition of a macro, not in its arguments (hygiene). -/
inductive Tree where
  | tok (t : Tok) (own : Bool)
  | group (d : Delim) (ts : List Tree)
  /-- what does not compile -/
  | bad
deriving Repr

/-- Token trees: those before each open delimiter, and those since the last. -/
def trees (own : Bool) : List (Delim × List Tree) → List Tree → List Lex → Option (List Tree)
  | [], ts, [] => some ts
  | _ :: _, _, [] => none
  | st, ts, .tok t :: ls => trees own st (ts ++ [.tok t own]) ls
  | st, ts, .opening d :: ls => trees own ((d, ts) :: st) [] ls
  | [], _, .closing _ :: _ => none
  | (d, before) :: st, ts, .closing d' :: ls => if d = d' then trees own st (before ++ [.group d ts]) ls else none

/-- The token trees of a text. -/
def parse (own : Bool) (cs : List Char) : Option (List Tree) := (lex cs).bind (trees own [] [])

end CT.Rust
