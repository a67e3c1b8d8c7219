import Verif.Model.PqRun
import Verif.Model.PqTable
import Verif.Model.PqText
/-!
# The files of the parquet crate as programs
-/
namespace CT.Pq
open CT CT.Parquet
open CT.Rs (Name)

/-- The program of lib.rs, as in the table. -/
def libProg : Prog := progOf libItems

/-- The program of schema.rs, as in the table. -/
def schemaProg : Prog := progOf schemaItems

/-- The text is parsed, and its function of that name is run with at most `n` nested steps; more do not change the outcome once it is enough. -/
def runText (cfg : Cfg) (capacity : Nat → Except PFail Unit) (text : List Char) (f : Name) (n : Nat) (vs : List V) (w : World) : FnOut :=
  match parseText text with
  | Option.none => .fail .stuck w
  | Option.some items => match assoc (progOf items).fns f with
    | Option.none => .fail .stuck w
    | Option.some fn => runFn (eval cfg capacity (progOf items) n) fn vs w

end CT.Pq
