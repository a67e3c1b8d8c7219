import Verif.Model.Macros
/-!
# The syntax of `thrift! { … }`

Written after the documentation of the macros (macros.rs:41-52, 113-125, 191-200), as a grammar: which token sequences are texts of which definitions.
-/
namespace CT.Macro.Spec
open CT.Macro

/-- Any number of attributes. -/
inductive Attrs : List TT → Prop
  | nil : Attrs []
  | cons (content ts) (h : Attrs ts) : Attrs (.punct '#' :: .group .bracket content :: ts)

/-- A literal. -/
inductive LiteralText : Literal → List TT → Prop
  | int (n) : LiteralText (.int false n) [.lit (.int n)]
  | neg (n) : LiteralText (.int true n) [.punct '-', .lit (.int n)]
  | float : LiteralText .other [.lit .float]
  | negFloat : LiteralText .other [.punct '-', .lit .float]
  | text : LiteralText .other [.lit .text]
  | true : LiteralText .other [.ident "true"]
  | false : LiteralText .other [.ident "false"]

/-- `type` or `type < element >` -/
inductive TypeText : String → Option String → List TT → Prop
  | plain (ty) : TypeText ty none [.ident ty]
  | generic (ty e) : TypeText ty (some e) [.ident ty, .punct '<', .ident e, .punct '>']

/-- `[ = literal ]` -/
inductive DefaultText : List TT → Prop
  | absent : DefaultText []
  | present (l ts) (h : LiteralText l ts) : DefaultText (.punct '=' :: ts)

/-- `[ ; ]` -/
inductive SemiText : List TT → Prop
  | absent : SemiText []
  | present : SemiText [.punct ';']

/-- `attributes id : required|optional type name [ = default ] [ ; ]` -/
inductive StructFieldText : FieldSyn → List TT → Prop
  | mk (f : FieldSyn) (attrs lit ty dflt semi) (ha : Attrs attrs) (hl : LiteralText f.id lit) (ht : TypeText f.ty f.elem ty) (hd : DefaultText dflt) (hs : SemiText semi) :
    StructFieldText f (attrs ++ (lit ++ (.punct ':' :: .ident f.req :: (ty ++ (.ident f.name :: (dflt ++ semi))))))

/-- `attributes id : type name [ ; ]` -/
inductive UnionFieldText : VariantSyn → List TT → Prop
  | mk (f : VariantSyn) (attrs lit ty semi) (ha : Attrs attrs) (hl : LiteralText f.id lit) (ht : TypeText f.ty f.elem ty) (hs : SemiText semi) :
    UnionFieldText f (attrs ++ (lit ++ (.punct ':' :: (ty ++ (.ident f.name :: semi)))))

/-- `attributes name = value ;` -/
inductive EnumFieldText : String × Literal → List TT → Prop
  | mk (name value attrs lit) (ha : Attrs attrs) (hl : LiteralText value lit) : EnumFieldText (name, value) (attrs ++ (.ident name :: .punct '=' :: (lit ++ [.punct ';'])))

/-- One after the other. -/
inductive Many {α : Type} (p : α → List TT → Prop) : List α → List TT → Prop
  | nil : Many p [] []
  | cons (a as ts us) (h : p a ts) (hs : Many p as us) : Many p (a :: as) (ts ++ us)

/-- `attributes struct|union|enum name { body }` -/
inductive ItemText : Item → List TT → Prop
  | struct (name body attrs) (ha : Attrs attrs) : ItemText (.struct name body) (attrs ++ [.ident "struct", .ident name, .group .brace body])
  | union (name body attrs) (ha : Attrs attrs) : ItemText (.union name body) (attrs ++ [.ident "union", .ident name, .group .brace body])
  | enum (name body attrs) (ha : Attrs attrs) : ItemText (.enum name body) (attrs ++ [.ident "enum", .ident name, .group .brace body])

/-- Definitions and namespace declarations; the number counts both. -/
inductive Document : Nat → List Item → List TT → Prop
  | nil : Document 0 [] []
  | item (n it items ts us) (h : ItemText it ts) (hs : Document n items us) : Document (n + 1) (it :: items) (ts ++ us)
  | namespace (n items attrs a b us) (ha : Attrs attrs) (hs : Document n items us) :
    Document (n + 1) items (attrs ++ (.ident "namespace" :: .ident a :: .ident b :: us))

end CT.Macro.Spec
