import Verif.Proofs.ThriftParser
/-! # C85: the parser of the generator -/
namespace CT.Props
open CT.Gen CT.Gen.Spec

/-- C85: the parser accepts exactly the sentences of the grammar and returns the parse tree. -/
theorem C85_parse (ts : List Tok) (d : PDoc) : parse ts = some d ↔ document d = ts :=
  ⟨parse_sound, fun h => h ▸ parse_complete d⟩

/-- C85: the grammar is unambiguous: a sentence has one parse tree, so it does not matter which of several alternatives ANTLR would choose. -/
theorem C85_unambiguous {d e : PDoc} (h : document d = document e) : d = e := by
  have h1 := parse_complete d
  rw [h, parse_complete e] at h1
  cases h1; rfl

/-- C85: anything else is refused. -/
theorem C85_refused (ts : List Tok) : parse ts = none ↔ ∀ d, document d ≠ ts := by
  constructor
  · intro h d hd
    rw [(C85_parse ts d).2 hd] at h; cases h
  · intro h
    cases hp : parse ts with
    | none => rfl
    | some d => exact absurd ((C85_parse ts d).1 hp) (h d)

/-- `namespace * x  enum E { A = 1, B = 0x2 }  struct S { 1: required list<E> a = [E.A; "b"] ; map<string, i64> m }  typedef E F` -/
def sampleSentence : List Tok :=
  [.kw .NAMESPACE, .kw .STAR, .IDENTIFIER ['x'],
   .kw .ENUM, .IDENTIFIER ['E'], .kw .LBRACE, .IDENTIFIER ['A'], .kw .EQ, .INTEGER ['1'], .COMMA, .IDENTIFIER ['B'], .kw .EQ, .HEX_INTEGER ['0', 'x', '2'], .kw .RBRACE,
   .kw .STRUCT, .IDENTIFIER ['S'], .kw .LBRACE,
     .INTEGER ['1'], .kw .COLON, .kw .REQUIRED, .kw .LIST, .kw .LT, .IDENTIFIER ['E'], .kw .GT, .IDENTIFIER ['a'], .kw .EQ,
       .kw .LBRACK, .IDENTIFIER ['E', '.', 'A'], .kw .SEMI, .LITERAL ['"', 'b', '"'], .kw .RBRACK, .kw .SEMI,
     .kw .MAP, .kw .LT, .kw .STRING, .COMMA, .kw .I64, .kw .GT, .IDENTIFIER ['m'], .kw .RBRACE,
   .kw .TYPEDEF, .IDENTIFIER ['E'], .IDENTIFIER ['F']]

def sampleParse : PDoc :=
  ⟨[.namespace none ['x']],
   [.enum ['E'] [⟨['A'], .dec ['1'], some .comma⟩, ⟨['B'], .hex ['0', 'x', '2'], none⟩],
    .struct ['S'] [⟨some (.dec ['1']), some true, .list none (.named ['E']), ['a'], some (.list (.cons (.identifier ['E', '.', 'A']) (some .semi) (.cons (.literal ['"', 'b', '"']) none .nil))), some .semi⟩,
      ⟨none, none, .map none (.builtin .STRING) (.builtin .I64), ['m'], none, none⟩],
    .typedef (.named ['E']) ['F']]⟩

example : document sampleParse = sampleSentence := by decide +kernel

example : parse sampleSentence = some sampleParse := (C85_parse _ _).2 (by decide +kernel)

/-- A service, and what is not a sentence: a definition before a header, two separators. -/
example : (parse [.kw .SERVICE, .IDENTIFIER ['S'], .kw .EXTENDS, .IDENTIFIER ['T'], .kw .LBRACE, .kw .ONEWAY, .kw .VOID, .IDENTIFIER ['f'], .kw .LPAREN, .kw .RPAREN,
      .kw .THROWS, .kw .LPAREN, .INTEGER ['1'], .kw .COLON, .IDENTIFIER ['E'], .IDENTIFIER ['e'], .kw .RPAREN, .COMMA, .kw .RBRACE]).isSome = true ∧
    (parse [.kw .TYPEDEF, .kw .I32, .IDENTIFIER ['F'], .kw .INCLUDE, .LITERAL ['"', '"']]).isSome = false ∧
    (parse [.kw .ENUM, .IDENTIFIER ['E'], .kw .LBRACE, .IDENTIFIER ['A'], .kw .EQ, .INTEGER ['1'], .COMMA, .COMMA, .kw .RBRACE]).isSome = false := by
  decide +kernel

end CT.Props
