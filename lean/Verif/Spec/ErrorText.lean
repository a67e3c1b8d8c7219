import Verif.Model.ErrorText
import Verif.Spec.Debug
/-!
# Specification: what the text of an error shows
-/
namespace CT.Spec
open CT

/-- Printable ASCII other than the quote and the backslash -/
def PlainByte (b : Byte) : Prop := 32 ≤ b.toNat ∧ b.toNat < 127 ∧ b.toNat ≠ 34 ∧ b.toNat ≠ 92

/-- The same for the characters of a string -/
def PlainString (s : String) : Prop := ∀ c ∈ s.toList, 32 ≤ c.toNat ∧ c.toNat < 127 ∧ c.toNat ≠ 34 ∧ c.toNat ≠ 92

instance (s : String) : Decidable (PlainString s) := by unfold PlainString; infer_instance

/-- What Rust guarantees: plain names are shown between quotes; kinds have different names, which are identifiers. -/
structure ErrorStdOk (s : ErrorStd) : Prop where
  cstr : ∀ bs : Bytes, (∀ b ∈ bs, PlainByte b) → s.cstr bs = ascii! "\"" ++ bs ++ ascii! "\""
  kind : ∀ n, IdentBytes (s.kind n)
  inj : ∀ n m, s.kind n = s.kind m → n = m
  other : ∀ n, s.kind n ∉ [ascii! "UnexpectedEof", ascii! "Interrupted", ascii! "InvalidInput", ascii! "WriteZero"]

/-- A name in the error is plain. -/
def PlainError : ThriftError → Prop
  | .missingField name => PlainString name
  | _ => True

/-- The names of structs and their fields are plain. -/
def PlainNames : Def → Prop
  | .struct name fs => PlainString name ∧ ∀ f ∈ fs, PlainString f.name
  | _ => True

instance (d : Def) : Decidable (PlainNames d) := by unfold PlainNames; cases d <;> infer_instance

end CT.Spec
