import Verif.Spec.SchemaCode
import Verif.Model.Programs
/-!
# How the program ends

Used to state C114.
-/
namespace CT.Pq
open CT CT.Parquet CT.Programs

/-- What the system makes of the file name. -/
def World.opened (w : World) : Except ErrorKind File :=
  match w.missing with
  | none => .ok w.file
  | some k => .error k

/-- What is printed, and how a function without a value ends. -/
def asRun : FnOut → Run
  | .ret (.tuple []) [] w => ⟨w.out, .ok ()⟩
  | .ret _ _ w => ⟨w.out, .error .stuck⟩
  | .fail f w => ⟨w.out, .error f⟩

/-- A program that begins after something was printed, and in which the `unwrap` of an error is a panic. -/
def unwrapped (before : Bytes) (r : Run) : Run :=
  ⟨before ++ r.out, match r.exit with
    | .error (.err _) => .error .panic
    | e => e⟩

end CT.Pq
