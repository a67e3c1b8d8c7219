import Verif.Model.RustSyntax
/-!
# Implementations as syntax, and a parser from source text

For runtime/src/types.rs and parquet/src/encodings.rs: of each `impl` its trait, its type, the constant `FIELD_TYPE` and its functions. The type is kept as the
number of its text without white space and lifetimes. `none` is a text with something else.
-/
namespace CT.Rs

/-- `impl trait for type { const FIELD_TYPE: u8 = c; fns }`; an `impl` without trait has 0 as trait. -/
structure Impl where
  trait : Name
  type : Name
  fieldType : Option Expr
  fns : List Fn
deriving Repr

/-- Texts one after the other. -/
def Name.append (a b : Name) : Name := a * 256 ^ digits b + b
where
  /-- The number of characters; no name here has more than 30. -/
  digits (b : Name) : Nat := ((List.range 30).find? fun k => b < 256 ^ k).getD 30

def tokenText : T → Name
  | .id n => n
  | .op n => n
  | .group .bracket [.id n] => Name.append (Name.append (n! "[") n) (n! "]")
  | _ => 0

def typeText (ts : List T) : Name := ts.foldl (fun n t => Name.append n (tokenText t)) 0

/-- The tokens before the braces, and what is between and after them. -/
def upToBrace : List T → List T → Option (List T × List T × List T)
  | _, [] => none
  | acc, .group .brace b :: ts => some (acc, b, ts)
  | acc, t :: ts => upToBrace (acc ++ [t]) ts

/-- The tokens after `for`. -/
def afterFor : List T → Option (List T)
  | [] => none
  | .id x :: ts => if x == n! "for" then some ts else afterFor ts
  | _ :: ts => afterFor ts

/-- `const FIELD_TYPE: u8 = e;` -/
def parseFieldType : List T → Option (Option Expr)
  | .id c :: .id f :: .op _ :: .id t :: .op e :: ts =>
    if c == n! "const" && f == n! "FIELD_TYPE" && t == n! "u8" && e == n! "=" then
      (parseExpr 60 ts).bind fun (v, r) => (match r with
        | .op s :: _ => if s == n! ";" then some (some v) else none
        | _ => none)
    else some none
  | _ => some none

/-- An `impl` after the word. -/
def parseImplFull (ts : List T) : Option (Impl × List T) :=
  (upToBrace [] (skipGenerics ts)).bind fun (head, body, rest) =>
    (parseFieldType body).bind fun c => (parseFns 60 false body).map fun fs =>
      (match afterFor head with
        | some ty => ⟨typeText (head.take 1), typeText ty, c, fs.map Prod.snd⟩
        | none => ⟨0, typeText head, c, fs.map Prod.snd⟩, rest)

/-- The `impl`s of a file. `use`, `struct` and the tests are dropped. -/
def parseImpls : Nat → List T → Option (List Impl)
  | 0, _ => none
  | _, [] => some []
  | k + 1, .op o :: .group .bracket _ :: ts => if o == n! "#" then parseImpls k ts else none
  | k + 1, .id x :: ts =>
    if x == n! "use" || x == n! "struct" then parseImpls k (skipSemi ts)
    else if x == n! "pub" then parseImpls k ts
    else if x == n! "mod" then (upToBrace [] ts).bind fun (_, _, r) => parseImpls k r
    else if x == n! "impl" then (parseImplFull ts).bind fun (i, r) => (parseImpls k r).map (i :: ·)
    else none
  | _, _ => none

/-- The `impl`s of a source text. -/
def parseTypes (cs : List Char) : Option (List Impl) := (runLex .between (cs ++ ['\n'])).bind fun ls => (trees [] [] ls).bind (parseImpls 100)

end CT.Rs
