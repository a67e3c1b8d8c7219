/-!
# The lexer generated from generator/src/main/antlr4/net/jhorstmann/compactthrift/Thrift.g4

ANTLR lexers match at each position the longest text any lexer rule matches; among the rules matching that text the first one
in the grammar wins, where the literals quoted in parser rules come before all lexer rules. `Parser.kt:16-29` turns every error of the lexer into
an exception: `none`. Characters are code points (`CharStreams.fromString`).
-/
namespace CT.Gen

/-- The literals quoted in the parser rules (Thrift.g4:7-97), each a token type of its own. -/
inductive Kw where
  | INCLUDE | CPP_INCLUDE | NAMESPACE | STAR | CONST | EQ | TYPEDEF | ENUM | LBRACE | RBRACE | STRUCT | UNION | EXCEPTION | SERVICE | EXTENDS
  | COLON | REQUIRED | OPTIONAL | ONEWAY | LPAREN | RPAREN | VOID | THROWS | MAP | LT | GT | SET | LIST | CPP_TYPE | LBRACK | RBRACK | SEMI
  | BOOL | BYTE | I16 | I32 | I64 | DOUBLE | STRING | BINARY
deriving DecidableEq, Repr

/-- The literal. -/
def Kw.text : Kw → List Char
  | .INCLUDE => ['i', 'n', 'c', 'l', 'u', 'd', 'e']
  | .CPP_INCLUDE => ['c', 'p', 'p', '_', 'i', 'n', 'c', 'l', 'u', 'd', 'e']
  | .NAMESPACE => ['n', 'a', 'm', 'e', 's', 'p', 'a', 'c', 'e']
  | .STAR => ['*']
  | .CONST => ['c', 'o', 'n', 's', 't']
  | .EQ => ['=']
  | .TYPEDEF => ['t', 'y', 'p', 'e', 'd', 'e', 'f']
  | .ENUM => ['e', 'n', 'u', 'm']
  | .LBRACE => ['{']
  | .RBRACE => ['}']
  | .STRUCT => ['s', 't', 'r', 'u', 'c', 't']
  | .UNION => ['u', 'n', 'i', 'o', 'n']
  | .EXCEPTION => ['e', 'x', 'c', 'e', 'p', 't', 'i', 'o', 'n']
  | .SERVICE => ['s', 'e', 'r', 'v', 'i', 'c', 'e']
  | .EXTENDS => ['e', 'x', 't', 'e', 'n', 'd', 's']
  | .COLON => [':']
  | .REQUIRED => ['r', 'e', 'q', 'u', 'i', 'r', 'e', 'd']
  | .OPTIONAL => ['o', 'p', 't', 'i', 'o', 'n', 'a', 'l']
  | .ONEWAY => ['o', 'n', 'e', 'w', 'a', 'y']
  | .LPAREN => ['(']
  | .RPAREN => [')']
  | .VOID => ['v', 'o', 'i', 'd']
  | .THROWS => ['t', 'h', 'r', 'o', 'w', 's']
  | .MAP => ['m', 'a', 'p']
  | .LT => ['<']
  | .GT => ['>']
  | .SET => ['s', 'e', 't']
  | .LIST => ['l', 'i', 's', 't']
  | .CPP_TYPE => ['c', 'p', 'p', '_', 't', 'y', 'p', 'e']
  | .LBRACK => ['[']
  | .RBRACK => [']']
  | .SEMI => [';']
  | .BOOL => ['b', 'o', 'o', 'l']
  | .BYTE => ['b', 'y', 't', 'e']
  | .I16 => ['i', '1', '6']
  | .I32 => ['i', '3', '2']
  | .I64 => ['i', '6', '4']
  | .DOUBLE => ['d', 'o', 'u', 'b', 'l', 'e']
  | .STRING => ['s', 't', 'r', 'i', 'n', 'g']
  | .BINARY => ['b', 'i', 'n', 'a', 'r', 'y']

/-- In the order of the grammar. -/
def keywords : List Kw :=
  [.INCLUDE, .CPP_INCLUDE, .NAMESPACE, .STAR, .CONST, .EQ, .TYPEDEF, .ENUM, .LBRACE, .RBRACE, .STRUCT, .UNION, .EXCEPTION, .SERVICE, .EXTENDS,
   .COLON, .REQUIRED, .OPTIONAL, .ONEWAY, .LPAREN, .RPAREN, .VOID, .THROWS, .MAP, .LT, .GT, .SET, .LIST, .CPP_TYPE, .LBRACK, .RBRACK, .SEMI,
   .BOOL, .BYTE, .I16, .I32, .I64, .DOUBLE, .STRING, .BINARY]

/-- The token types, in the order of the grammar. -/
inductive Kind where
  | kw (k : Kw)
  | INTEGER | HEX_INTEGER | DOUBLE | LITERAL | IDENTIFIER | COMMA | WS | SL_COMMENT | ML_COMMENT
deriving DecidableEq, Repr

/-! ## Characters -/

/-- Thrift.g4:133-135 -/
def isDigit (c : Char) : Bool := '0' ≤ c && c ≤ '9'

/-- Thrift.g4:128-131 -/
def isLetter (c : Char) : Bool := ('A' ≤ c && c ≤ 'Z') || ('a' ≤ c && c ≤ 'z')

/-- Thrift.g4:137-141 -/
def isHexDigit (c : Char) : Bool := isDigit c || ('A' ≤ c && c ≤ 'F') || ('a' ≤ c && c ≤ 'f')

/-- Thrift.g4:121, after the first character -/
def isIdentChar (c : Char) : Bool := isLetter c || isDigit c || c == '.' || c == '_'

/-! ## Rules

Each function returns the length of the longest prefix the rule matches. -/

/-- The length of the longest prefix of characters satisfying `p`. -/
def spanLen (p : Char → Bool) : List Char → Nat
  | [] => 0
  | c :: cs => if p c then spanLen p cs + 1 else 0

/-- `p+` -/
def plusLen (p : Char → Bool) (s : List Char) : Option Nat :=
  match spanLen p s with
  | 0 => none
  | n + 1 => some (n + 1)

/-- `('+' | '-')?` -/
def signLen : List Char → Nat
  | '+' :: _ => 1
  | '-' :: _ => 1
  | _ => 0

/-- Thrift.g4:99-101 -/
def scanInteger (s : List Char) : Option Nat := (plusLen isDigit (s.drop (signLen s))).map (signLen s + ·)

/-- Thrift.g4:103-105, after the sign -/
def scanHexBody : List Char → Option Nat
  | '0' :: 'x' :: s => (plusLen isHexDigit s).map (2 + ·)
  | _ => none

/-- Thrift.g4:103-105 -/
def scanHex : List Char → Option Nat
  | '-' :: s => (scanHexBody s).map (1 + ·)
  | s => scanHexBody s

/-- `'.' DIGIT+`; 0 if it is absent -/
def fractionLen : List Char → Nat
  | '.' :: s => match plusLen isDigit s with
    | some n => 1 + n
    | none => 0
  | _ => 0

/-- `('E' | 'e') ('+' | '-')? DIGIT+`; 0 if it is absent -/
def exponentLen : List Char → Nat
  | c :: s =>
    if c = 'E' ∨ c = 'e' then
      match plusLen isDigit (s.drop (signLen s)) with
      | some n => 1 + (signLen s + n)
      | none => 0
    else 0
  | [] => 0

/-- `DIGIT+ ('.' DIGIT+)? | '.' DIGIT+` -/
def scanMantissa (s : List Char) : Option Nat :=
  match plusLen isDigit s with
  | some n => some (n + fractionLen (s.drop n))
  | none => match fractionLen s with
    | 0 => none
    | n + 1 => some (n + 1)

/-- Thrift.g4:107-109 -/
def scanDouble (s : List Char) : Option Nat :=
  (scanMantissa (s.drop (signLen s))).map fun n => signLen s + (n + exponentLen (s.drop (signLen s + n)))

/-- Thrift.g4:116-118, the characters after the backslash -/
def isEscape (c : Char) : Bool := c == 'r' || c == 'n' || c == 't' || c == '"' || c == '\'' || c == '\\'

/-- Thrift.g4:111-114, after the opening quote `q` -/
def scanQuoted (q : Char) : List Char → Option Nat
  | [] => none
  | c :: s =>
    if c = q then some 1
    else if c = '\\' then
      match s with
      | [] => none
      | e :: s => if isEscape e then (scanQuoted q s).map (2 + ·) else none
    else (scanQuoted q s).map (1 + ·)

/-- Thrift.g4:111-114 -/
def scanLiteral : List Char → Option Nat
  | '"' :: s => (scanQuoted '"' s).map (1 + ·)
  | '\'' :: s => (scanQuoted '\'' s).map (1 + ·)
  | _ => none

/-- Thrift.g4:120-122 -/
def scanIdentifier : List Char → Option Nat
  | c :: s => if isLetter c ∨ c = '_' then some (1 + spanLen isIdentChar s) else none
  | [] => none

/-- Thrift.g4:124-126 -/
def scanComma : List Char → Option Nat
  | ',' :: _ => some 1
  | _ => none

/-- Thrift.g4:143-145, repeated -/
def wsLen : List Char → Nat
  | ' ' :: s => wsLen s + 1
  | '\t' :: s => wsLen s + 1
  | '\n' :: s => wsLen s + 1
  | '\r' :: '\n' :: s => wsLen s + 2
  | _ => 0

/-- Thrift.g4:143-145 -/
def scanWs (s : List Char) : Option Nat :=
  match wsLen s with
  | 0 => none
  | n + 1 => some (n + 1)

/-- The rest of the line with its end. -/
def lineLen : List Char → Option Nat
  | [] => none
  | c :: s => if c = '\n' then some 1 else (lineLen s).map (1 + ·)

/-- Thrift.g4:147-149; the carriage return is one of the characters before the line feed. -/
def scanSlComment : List Char → Option Nat
  | '/' :: '/' :: s => (lineLen s).map (2 + ·)
  | '#' :: s => (lineLen s).map (1 + ·)
  | _ => none

/-- Up to the first `*/`, which `.*?` does not pass. -/
def commentLen : List Char → Option Nat
  | '*' :: '/' :: _ => some 2
  | _ :: s => (commentLen s).map (1 + ·)
  | [] => none

/-- Thrift.g4:151-153 -/
def scanMlComment : List Char → Option Nat
  | '/' :: '*' :: s => (commentLen s).map (2 + ·)
  | _ => none

/-- A literal of a parser rule -/
def scanKw (k : Kw) (s : List Char) : Option Nat := if k.text.isPrefixOf s then some k.text.length else none

/-- One rule -/
def scan : Kind → List Char → Option Nat
  | .kw k, s => scanKw k s
  | .INTEGER, s => scanInteger s
  | .HEX_INTEGER, s => scanHex s
  | .DOUBLE, s => scanDouble s
  | .LITERAL, s => scanLiteral s
  | .IDENTIFIER, s => scanIdentifier s
  | .COMMA, s => scanComma s
  | .WS, s => scanWs s
  | .SL_COMMENT, s => scanSlComment s
  | .ML_COMMENT, s => scanMlComment s

/-- All rules, in the order of the grammar. -/
def rules : List Kind :=
  keywords.map .kw ++ [.INTEGER, .HEX_INTEGER, .DOUBLE, .LITERAL, .IDENTIFIER, .COMMA, .WS, .SL_COMMENT, .ML_COMMENT]

/-! ## Tokens -/

/-- The longest match, the first one among those of the same length. -/
def longest (s : List Char) : List Kind → Option (Kind × Nat)
  | [] => none
  | k :: ks =>
    match scan k s, longest s ks with
    | none, r => r
    | some n, none => some (k, n)
    | some n, some (k', m) => if n < m then some (k', m) else some (k, n)

/-- A token: its type and text -/
abbrev Token := Kind × List Char

/-- All tokens, including those skipped; the first argument bounds their number. -/
def lexF : Nat → List Char → Option (List Token)
  | _, [] => some []
  | 0, _ :: _ => none
  | fuel + 1, c :: s =>
    match longest (c :: s) rules with
    | none => none
    | some (k, n) => (lexF fuel ((c :: s).drop n)).map ((k, (c :: s).take n) :: ·)

/-- The tokens of a text, including those skipped -/
def lex (s : List Char) : Option (List Token) := lexF s.length s

/-- What the parser sees of a token. -/
inductive Tok where
  | kw (k : Kw)
  | INTEGER (text : List Char)
  | HEX_INTEGER (text : List Char)
  | DOUBLE (text : List Char)
  | LITERAL (text : List Char)
  | IDENTIFIER (text : List Char)
  | COMMA
deriving DecidableEq, Repr

/-- `-> skip`: Thrift.g4:144, 148, 152 -/
def Token.toTok : Token → Option Tok
  | (.kw k, _) => some (.kw k)
  | (.INTEGER, t) => some (.INTEGER t)
  | (.HEX_INTEGER, t) => some (.HEX_INTEGER t)
  | (.DOUBLE, t) => some (.DOUBLE t)
  | (.LITERAL, t) => some (.LITERAL t)
  | (.IDENTIFIER, t) => some (.IDENTIFIER t)
  | (.COMMA, _) => some .COMMA
  | (.WS, _) => none
  | (.SL_COMMENT, _) => none
  | (.ML_COMMENT, _) => none

/-- The tokens the parser is given: Parser.kt:30-38 -/
def tokens (s : List Char) : Option (List Tok) := (lex s).map fun ts => ts.filterMap Token.toTok

end CT.Gen
