import Verif.Model.ThriftLexer
/-!
# The tokens of Thrift.g4

The lexer rules as regular expressions, transcribed from Thrift.g4:99-153, and which sequence of tokens a text is: always the longest match, the first rule
among those with the longest match. Of the model only the token types and the literals of the parser rules are used.
-/
namespace CT.Gen.Spec
open CT.Gen

/-- Regular expressions -/
inductive Re where
  | eps
  | one (p : Char → Prop)
  | seq (a b : Re)
  | alt (a b : Re)
  | star (a : Re)

/-- The language of an expression -/
inductive Matches : Re → List Char → Prop
  | eps : Matches .eps []
  | one {p c} (h : p c) : Matches (.one p) [c]
  | seq {a b u v} (hu : Matches a u) (hv : Matches b v) : Matches (.seq a b) (u ++ v)
  | left {a b u} (h : Matches a u) : Matches (.alt a b) u
  | right {a b u} (h : Matches b u) : Matches (.alt a b) u
  | nil {a} : Matches (.star a) []
  | more {a u v} (hu : Matches a u) (hv : Matches (.star a) v) : Matches (.star a) (u ++ v)

/-- `'c'` -/
def Re.chr (c : Char) : Re := .one (· = c)
/-- `'a'..'b'` -/
def Re.range (a b : Char) : Re := .one fun c => a ≤ c ∧ c ≤ b
/-- `r?` -/
def Re.opt (r : Re) : Re := .alt r .eps
/-- `r+` -/
def Re.plus (r : Re) : Re := .seq r (.star r)
/-- `~[…]` -/
def Re.noneOf (cs : List Char) : Re := .one (· ∉ cs)
/-- `[…]` -/
def Re.oneOf (cs : List Char) : Re := .one (· ∈ cs)

local infixr:65 " ⬝ " => Re.seq
local infixr:60 " ⊹ " => Re.alt
open Re

/-- Thrift.g4:133-135 -/
def DIGIT : Re := range '0' '9'
/-- Thrift.g4:128-131 -/
def LETTER : Re := range 'A' 'Z' ⊹ range 'a' 'z'
/-- Thrift.g4:137-141 -/
def HEX_DIGIT : Re := DIGIT ⊹ range 'A' 'F' ⊹ range 'a' 'f'
/-- Thrift.g4:116-118 -/
def ESC_SEQ : Re := chr '\\' ⬝ oneOf ['r', 'n', 't', '"', '\'', '\\']
/-- `('+' | '-')?` -/
def sign : Re := opt (chr '+' ⊹ chr '-')

/-- Thrift.g4:99-101 -/
def INTEGER : Re := sign ⬝ plus DIGIT
/-- Thrift.g4:103-105 -/
def HEX_INTEGER : Re := opt (chr '-') ⬝ (chr '0' ⬝ chr 'x') ⬝ plus HEX_DIGIT
/-- Thrift.g4:107-109 -/
def DOUBLE : Re := sign ⬝ (plus DIGIT ⬝ opt (chr '.' ⬝ plus DIGIT) ⊹ chr '.' ⬝ plus DIGIT) ⬝ opt ((chr 'E' ⊹ chr 'e') ⬝ sign ⬝ plus DIGIT)
/-- Thrift.g4:111-114 -/
def LITERAL : Re :=
  chr '"' ⬝ star (ESC_SEQ ⊹ noneOf ['\\', '"']) ⬝ chr '"' ⊹
  chr '\'' ⬝ star (ESC_SEQ ⊹ noneOf ['\\', '\'']) ⬝ chr '\''
/-- Thrift.g4:120-122 -/
def IDENTIFIER : Re := (LETTER ⊹ chr '_') ⬝ star (LETTER ⊹ DIGIT ⊹ chr '.' ⊹ chr '_')
/-- Thrift.g4:124-126 -/
def COMMA : Re := chr ','
/-- Thrift.g4:143-145 -/
def WS : Re := plus (chr ' ' ⊹ chr '\t' ⊹ chr '\r' ⬝ chr '\n' ⊹ chr '\n')
/-- Thrift.g4:147-149 -/
def SL_COMMENT : Re := (chr '/' ⬝ chr '/' ⊹ chr '#') ⬝ star (noneOf ['\n']) ⬝ opt (chr '\r') ⬝ chr '\n'
/-- Thrift.g4:151-153 -/
def ML_COMMENT : Re := (chr '/' ⬝ chr '*') ⬝ star (one fun _ => True) ⬝ chr '*' ⬝ chr '/'

/-- The texts a rule matches. `.*?` makes a rule match only the shortest possible text. -/
def Rule : Kind → List Char → Prop
  | .kw k, w => w = k.text
  | .INTEGER, w => Matches INTEGER w
  | .HEX_INTEGER, w => Matches HEX_INTEGER w
  | .DOUBLE, w => Matches DOUBLE w
  | .LITERAL, w => Matches LITERAL w
  | .IDENTIFIER, w => Matches IDENTIFIER w
  | .COMMA, w => Matches COMMA w
  | .WS, w => Matches WS w
  | .SL_COMMENT, w => Matches SL_COMMENT w
  | .ML_COMMENT, w => Matches ML_COMMENT w ∧ ∀ u v, w = u ++ v → Matches ML_COMMENT u → v = []

/-- The position of a rule in the grammar; the literals of the parser rules are different from each other, so their order does not matter. -/
def position : Kind → Nat
  | .kw _ => 0
  | .INTEGER => 1
  | .HEX_INTEGER => 2
  | .DOUBLE => 3
  | .LITERAL => 4
  | .IDENTIFIER => 5
  | .COMMA => 6
  | .WS => 7
  | .SL_COMMENT => 8
  | .ML_COMMENT => 9

/-- `w` is the token at the start of `w ++ rest`, of type `k`. -/
structure First (k : Kind) (w rest : List Char) : Prop where
  rule : Rule k w
  longest : ∀ k' u v, u ++ v = w ++ rest → Rule k' u → u.length ≤ w.length
  earliest : ∀ k', Rule k' w → position k ≤ position k'

/-- The text begins with this sequence of tokens, and then comes `rest`. -/
inductive LexedTo (rest : List Char) : List Char → List Token → Prop
  | nil : LexedTo rest rest []
  | cons {k w s ts} (h : First k w s) (ht : LexedTo rest s ts) : LexedTo rest (w ++ s) ((k, w) :: ts)

/-- The text is this sequence of tokens. -/
def Lexed : List Char → List Token → Prop := LexedTo []

/-! ## Layout -/

/-- The texts of a token -/
inductive TokText : Tok → List Char → Prop
  | kw (k : Kw) : TokText (.kw k) k.text
  | INTEGER {w} (h : Matches INTEGER w) : TokText (.INTEGER w) w
  | HEX_INTEGER {w} (h : Matches HEX_INTEGER w) : TokText (.HEX_INTEGER w) w
  | DOUBLE {w} (h : Matches DOUBLE w) (hi : ¬ Matches INTEGER w) : TokText (.DOUBLE w) w
  | LITERAL {w} (h : Matches LITERAL w) : TokText (.LITERAL w) w
  | IDENTIFIER {w} (h : Matches IDENTIFIER w) (hk : ∀ k : Kw, w ≠ k.text) : TokText (.IDENTIFIER w) w
  | COMMA : TokText .COMMA [',']

/-- White space and comments -/
inductive Gap : List Char → Prop
  | nil : Gap []
  | white {w s} (h : w = [' '] ∨ w = ['\t'] ∨ w = ['\n'] ∨ w = ['\r', '\n']) (hs : Gap s) : Gap (w ++ s)
  | line {p u s} (hp : p = ['/', '/'] ∨ p = ['#']) (hu : '\n' ∉ u) (hs : Gap s) : Gap (p ++ u ++ ['\n'] ++ s)
  | block {u s} (hu : ∀ a b, u ++ ['*'] ≠ a ++ ['*', '/'] ++ b) (hs : Gap s) : Gap (['/', '*'] ++ u ++ ['*', '/'] ++ s)

/-- Nothing can be appended to the token: symbols and quoted strings -/
def Closed : Tok → Prop
  | .kw k => k.text.length = 1
  | .LITERAL _ => True
  | .COMMA => True
  | _ => False

/-- Characters words and numbers consist of -/
def inWord (c : Char) : Prop := ('A' ≤ c ∧ c ≤ 'Z') ∨ ('a' ≤ c ∧ c ≤ 'z') ∨ ('0' ≤ c ∧ c ≤ '9') ∨ c = '_' ∨ c = '.' ∨ c = '+' ∨ c = '-'

/-- The text consists of these tokens with gaps between them, followed by `rest`; a word or number is followed by something that cannot belong to it. -/
inductive Laid (rest : List Char) : List Tok → List Char → Prop
  | nil {g} (hg : Gap g) : Laid rest [] (g ++ rest)
  | cons {g t w ts s} (hg : Gap g) (ht : TokText t w) (hs : Closed t ∨ ∀ c r, s = c :: r → ¬ inWord c) (h : Laid rest ts s) : Laid rest (t :: ts) (g ++ (w ++ s))

end CT.Gen.Spec
