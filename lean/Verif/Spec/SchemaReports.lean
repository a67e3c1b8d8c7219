import Verif.Spec.ParquetSchema
/-!
# Specification: which error a list of schema elements calls for

The elements are gone through in order, with the numbers of children that the open groups still lack, the innermost first. Nothing here builds a tree.
-/
namespace CT.Spec
open CT CT.Parquet CT.Schema

/-- The repetition is one of the three, or absent. -/
def KnownRepetition (e : Element) : Prop := ∃ r, RepetitionOf e.repetitionType r

/-- The number of children, 0 if absent. -/
def declaredChildren (e : Element) : Int := match e.numChildren with | some n => n.toInt | none => 0

/-- A leaf with nothing wrong. -/
def GoodLeaf (e : Element) : Prop := KnownRepetition e ∧ declaredChildren e = 0 ∧ ∃ t p, e.type_ = some t ∧ PhysicalOf t e.typeLength p

/-- A group with nothing wrong, with `n` children, `open` groups around it and `left` elements after it. -/
def GoodGroup (e : Element) (n opened left : Nat) : Prop := KnownRepetition e ∧ declaredChildren e = n ∧ 0 < n ∧ n ≤ left ∧ opened < 127

/-- `SchemaAt es rest open`: going through the elements `es` comes to `rest`, when the open groups lack `open` children. The list of all elements counts as a
group with one child, the root. -/
inductive SchemaAt (es : List Element) : List Element → List Nat → Prop where
  | start : SchemaAt es es [1]
  | leaf (e rest n opened) (h : SchemaAt es (e :: rest) ((n + 1) :: opened)) (he : GoodLeaf e) : SchemaAt es rest (n :: opened)
  | group (e rest n k opened) (h : SchemaAt es (e :: rest) ((n + 1) :: opened)) (he : GoodGroup e k opened.length rest.length) : SchemaAt es rest (k :: n :: opened)
  | close (rest opened) (h : SchemaAt es rest (0 :: opened)) : SchemaAt es rest opened

/-- What is wrong with an element, with `opened` groups around it and `left` elements after it. -/
inductive ElementWrong (e : Element) (opened left : Nat) : ParquetError → Prop where
  | repetition (r) (hr : e.repetitionType = some r) (h : ¬ KnownRepetition e) : ElementWrong e opened left (.unknownType r)
  | noType (hr : KnownRepetition e) (h0 : declaredChildren e = 0) (h : e.type_ = none) : ElementWrong e opened left (.schema "Missing physical type for SchemaElement without children")
  | noLength (hr : KnownRepetition e) (h0 : declaredChildren e = 0) (h : e.type_ = some 7#32) (hl : e.typeLength = none) :
      ElementWrong e opened left (.schema "Missing length for FIXED_LEN_BYTE_ARRAY type")
  | length (l) (hr : KnownRepetition e) (h0 : declaredChildren e = 0) (h : e.type_ = some 7#32) (hl : e.typeLength = some l) (hn : l.toInt ≤ 0) :
      ElementWrong e opened left (.schema "Invalid length for FIXED_LEN_BYTE_ARRAY type")
  | type (t) (hr : KnownRepetition e) (h0 : declaredChildren e = 0) (h : e.type_ = some t) (ht : t.toInt < 0 ∨ 7 < t.toInt) : ElementWrong e opened left (.unknownType t)
  | children (hr : KnownRepetition e) (h : declaredChildren e < 0 ∨ (left : Int) < declaredChildren e) : ElementWrong e opened left (.schema "Invalid number of children")
  /-- seen after the number of children -/
  | deep (n : Nat) (hr : KnownRepetition e) (hn : declaredChildren e = n) (h0 : 0 < n) (h : n ≤ left) (hd : 127 ≤ opened) :
      ElementWrong e opened left (.schema "Schema is too deeply nested")

/-- The error for a list of elements. -/
inductive SchemaReports (es : List Element) : ParquetError → Prop where
  | empty (h : es = []) : SchemaReports es (.schema "Empty schema")
  | element (e rest n opened x) (h : SchemaAt es (e :: rest) ((n + 1) :: opened)) (hw : ElementWrong e opened.length rest.length x) : SchemaReports es x
  /-- groups are still open at the end -/
  | missing (n opened) (h0 : es ≠ []) (h : SchemaAt es [] ((n + 1) :: opened)) : SchemaReports es (.schema "Missing schema elements")
  | trailing (e rest) (h : SchemaAt es (e :: rest) []) : SchemaReports es (.schema "Trailing schema elements after root group")
  /-- only seen when everything else is fine -/
  | root (e rest) (he : es = e :: rest) (h : SchemaAt es [] []) (hr : ¬ RepetitionOf e.repetitionType .Required) :
      SchemaReports es (.schema "Root element must have repetition type required")

end CT.Spec
