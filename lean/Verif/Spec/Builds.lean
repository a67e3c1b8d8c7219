import Verif.Spec.Sse2
import Verif.Spec.Programs
/-!
# Specification: what reading does, in every build

A build is for x86-64 (`sse2`) or not, and has overflow checks or not. A reader behaves as in a build that is not for x86-64.
-/
namespace CT.Spec
open CT CT.Parquet

/-- What is skipped for an integer. -/
def skippedInt : Bool → Bytes → Prop
  | true => Sse2Int
  | false => IsVarint

/-- Where reading panics. -/
def panicsAt (sse2 checks : Bool) : Faults where
  int := skippedInt sse2
  varint s := checks = true ∧ LongVarint s
  skip s := match sse2 with | true => CutShort s | false => checks = true ∧ LongVarint s
  sum := checks = true

/-- What reading a value ends with: a value and the bytes that are left, an error, a panic, or undefined behaviour. -/
inductive Outcome where
  | value (v : Val) (rest : Bytes)
  | error
  | panic
  | undefined

/-- Reading `s` into the value `o` of type `t` ends with this outcome. -/
inductive Ends (sse2 checks : Bool) (env : List Def) (t : Ty) (o : Val) (s : Bytes) : Outcome → Prop where
  | panic (h : BreaksOff (panicsAt sse2 checks) env (.value t o) s) : Ends sse2 checks env t o s .panic
  | undefined (hs : sse2 = true) (h : ¬ BreaksOff (panicsAt sse2 checks) env (.value t o) s) (hu : BreaksOff sse2Undefined env (.value t o) s) :
      Ends sse2 checks env t o s .undefined
  | value (v p rest) (h : ¬ BreaksOff (panicsAt sse2 checks) env (.value t o) s) (hp : s = p ++ rest) (hd : DecOf (skippedInt sse2) env (.value t o v) p) :
      Ends sse2 checks env t o s (.value v rest)
  | error (h : ¬ BreaksOff (panicsAt sse2 checks) env (.value t o) s) (hu : sse2 = true → ¬ BreaksOff sse2Undefined env (.value t o) s)
      (hd : ¬ ∃ v p rest, s = p ++ rest ∧ DecOf (skippedInt sse2) env (.value t o v) p) : Ends sse2 checks env t o s .error

/-- Reading the metadata of a file ends with this outcome: there is no footer, or the bytes before it do. -/
inductive FileEnds (sse2 checks : Bool) (file : Bytes) : Outcome → Prop where
  | noFooter (h : ¬ ∃ mb, HasFooter file mb) : FileEnds sse2 checks file .error
  | footer (mb d o) (h : HasFooter file mb) (hd : IsDefault Format.parquetEnv Format.tFileMetaData d)
      (he : Ends sse2 checks Format.parquetEnv Format.tFileMetaData d mb o) : FileEnds sse2 checks file o

end CT.Spec
