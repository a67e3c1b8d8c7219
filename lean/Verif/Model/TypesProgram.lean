import Verif.Model.TypesRun
import Verif.Model.Code

/-! # The text of `types.rs` and `encodings.rs` together with the code of `thrift!`

The methods of a type of a schema: those of `types.rs` and `encodings.rs` run by `evalT` (`TypesRun.lean`), those of a definition by executing the statements
`thrift!` expands to (`Code.lean`), and the defaults of the trait run by `evalT`.
-/

namespace CT.Rs
open CT CT.Code

/-- The methods of `t` for reading, with the given `fill_thrift` for the definitions (macros.rs:43-100, 121-175, 221-228). -/
def textIn {σ : Type} (cfg : Cfg) (I : Input σ) (owned : σ → Bool) (env : List Def) (fill : Nat → Val → Fl σ Val) (t : RTy) : Methods σ :=
  typeMethods cfg (inputDevice cfg I owned) (fun t => dflt env t.erase)
    (fun k => defMethods cfg (inputDevice cfg I owned) k (fieldType env (.named k)) (dflt env (.named k)) (fill k) (fun _ => Wr.fail .stuck)) t

/-- The methods of `t` for writing, with the given `write_thrift` for the definitions (macros.rs:102-109, 177-184, 230-232). -/
def textOut {τ : Type} (cfg : Cfg) (S : Sink τ) (env : List Def) (write : Nat → Val → Wr τ Unit) (t : RTy) : Methods τ :=
  typeMethods cfg (outputDevice S) (fun t => dflt env t.erase)
    (fun k => defMethods cfg (outputDevice S) k (fieldType env (.named k)) (dflt env (.named k)) (fun v => Fl.keep v (Rd.fail .stuck)) (write k)) t

/-- `T::read_thrift(input)` for a type of a schema declared with `thrift!`. -/
def readProgram {σ : Type} (cfg : Cfg) (I : Input σ) (owned : σ → Bool) (env : List Def) (t : RTy) : Rd σ Val := fun s =>
  readText cfg (inputDevice cfg I owned) t (textIn cfg I owned env (fillCode cfg I env macroFill (Style.macro.own "input") (I.size s + 1)) t) s

/-- `value.write_thrift(output)` for a type of a schema declared with `thrift!`. -/
def writeProgram {τ : Type} (cfg : Cfg) (S : Sink τ) (env : List Def) (t : RTy) (v : Val) : Wr τ Unit :=
  (textOut cfg S env (fun k v => match env[k]? with
    | some d => wrun S env d v (Style.macro.own "output") (macroWrite d)
    | none => Wr.fail .stuck) t).write v

end CT.Rs
