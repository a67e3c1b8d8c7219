import Verif.Model.Code
import Verif.Model.Format
import Verif.Proofs.Code
/-! # C95: the code of the templates does what the model of reading and writing says -/
namespace CT.Props
open CT Code

instance : (env : List Def) → Decidable (namesDiffer env) := fun env =>
  @List.decidableBAll _ _ (fun d => by cases d <;> infer_instance) env

/-- C95: the body of `fill_thrift` that `thrift!` expands to, executed statement by statement with its local variables, has the result the model of
`fill_thrift` has, in every case: value, error, and what a failure leaves in `*self`. -/
theorem C95_macro {σ : Type} (cfg : Cfg) (I : Input σ) (env : List Def) (hn : namesDiffer env) (t : Ty) (v : Val) (s : σ) :
    fillThriftCode cfg I env macroFill (Style.macro.own "input") t v s = fillThriftP cfg I env t v s ∧
    (fillThriftCode cfg I env macroFill (Style.macro.own "input") t v).forget s = fillThrift cfg I env t v s := by
  have h : fillThriftCode cfg I env macroFill (Style.macro.own "input") t v = fillThriftP cfg I env t v := by
    funext s
    unfold fillThriftCode fillThriftP
    rw [show fillCode cfg I env macroFill (Style.macro.own "input") (I.size s + 1) = CT.fillNamedP cfg I env (I.size s + 1) from
      funext fun k => funext fun v => fillCode_macro hn _ k v]
  exact ⟨by rw [h], by rw [h, forget_fillThriftP]⟩

/-- C95: the same for the code of the generator, except that the error for a variant the union does not have carries the name of the union, where the
expansion of the macro has the text `$struct_name`. -/
theorem C95_generator {σ : Type} (cfg : Cfg) (I : Input σ) (env : List Def) (hn : namesDiffer env) (t : Ty) (v : Val) (s : σ) :
    fillThriftCode cfg I env generatorFill (Style.generator.own "input") t v s = fillThriftP cfg I env t v s ∨
    ∃ nm us w, Def.union nm us ∈ env ∧
      fillThriftCode cfg I env generatorFill (Style.generator.own "input") t v s = .error (.err (.missingField nm), w) ∧
      fillThriftP cfg I env t v s = .error (.err (.missingField "$struct_name"), w) :=
  Upto.ty (fillCode_generator hn _) t v s

/-- C95: so both read the same values, from the same bytes, whatever the schema. -/
theorem C95_both {σ : Type} (cfg : Cfg) (I : Input σ) (env : List Def) (hn : namesDiffer env) (t : Ty) (v : Val) (s : σ) (r : Val × σ) :
    fillThriftCode cfg I env generatorFill (Style.generator.own "input") t v s = .ok r ↔
    fillThriftCode cfg I env macroFill (Style.macro.own "input") t v s = .ok r := by
  rw [(C95_macro cfg I env hn t v s).1]
  rcases C95_generator cfg I env hn t v s with h | ⟨nm, us, w, _, h1, h2⟩
  · rw [h]
  · rw [h1, h2]; simp

/-- C95: the body of `write_thrift` that `thrift!` expands to, with its local `last_field_id`, writes what the model writes. -/
theorem C95_write_macro {τ : Type} (S : Sink τ) (env : List Def) (hn : namesDiffer env) {k : Nat} {d : Def} {v : Val} (hk : env[k]? = some d)
    (hv : HasTy env v (.named k)) : wrun S env d v (Style.macro.own "output") (macroWrite d) = writeTy S env (.named k) v := by
  have hd := hn d (List.mem_of_getElem? hk)
  cases hv with
  | enum _ nm x hk' => rw [hk'] at hk; cases hk; simp [wrun, macroWrite, wexec, Locals.get, writeTy, hk', wr_bind_assoc, wr_pure_bind, wr_bind_pure]
  | struct _ nm fs vs hk' hlen _ =>
    rw [hk'] at hk; cases hk
    simp only [writeTy, hk', macroWrite]
    exact wrun_struct clean_macro hd hlen true
  | union _ nm us i u w hk' hu _ =>
    rw [hk'] at hk; cases hk
    simp only [writeTy, hk', hu, macroWrite]
    exact wrun_union clean_macro hd hu w

/-- C95: the same for the code of the generator. -/
theorem C95_write_generator {τ : Type} (S : Sink τ) (env : List Def) (hn : namesDiffer env) {k : Nat} {d : Def} {v : Val} (hk : env[k]? = some d)
    (hv : HasTy env v (.named k)) : wrun S env d v (Style.generator.own "output") (generatorWrite d) = writeTy S env (.named k) v := by
  have hd := hn d (List.mem_of_getElem? hk)
  cases hv with
  | enum _ nm x hk' => rw [hk'] at hk; cases hk; simp [wrun, generatorWrite, wexec, Locals.get, writeTy, hk', wr_bind_assoc, wr_pure_bind, wr_bind_pure]
  | struct _ nm fs vs hk' hlen _ =>
    rw [hk'] at hk; cases hk
    simp only [writeTy, hk', generatorWrite]
    exact wrun_struct clean_generator hd hlen false
  | union _ nm us i u w hk' hu _ =>
    rw [hk'] at hk; cases hk
    simp only [writeTy, hk', hu, generatorWrite]
    exact wrun_union clean_generator hd hu w

/-- A macro without hygiene: the flag of a required field has the name of the field, like any other name. -/
def unhygienic : Style := ⟨fun x => ⟨x, true⟩, fun f => ⟨f, true⟩, fun _ => "$struct_name"⟩

def clashFields : List CT.Field := [⟨1#16, true, "last_field_id", .i32⟩]
def clashEnv : List Def := [.struct "Clash" clashFields]

/-- C95: it is the hygiene of macros that lets a required field be named like a variable of the macro: without it, the code makes no sense (and would
not compile), for every input. -/
theorem C95_hygiene {σ : Type} (cfg : Cfg) (I : Input σ) (s : σ) :
    run cfg I clashEnv (fun _ v => Fl.keep v (Rd.fail .stuck)) (.struct "Clash" clashFields) (unhygienic.own "input")
      (unhygienic.structFillMacro "Clash" clashFields) (.struct [.i32 0#32]) s = .error (.stuck, .struct [.i32 0#32]) := rfl

-- the names the templates use, as names of required fields: both templates read them
def namesEnv : List Def := [.struct "Names" [⟨1#16, true, "input", .i32⟩, ⟨2#16, true, "last_field_id", .i16⟩, ⟨3#16, true, "field_type", .bool⟩,
  ⟨4#16, true, "output", .binary⟩, ⟨5#16, false, "stop", .option .i8⟩]]

example : namesDiffer namesEnv := by decide
example : namesDiffer CT.Format.parquetEnv := by decide

example : fillThriftCode ⟨false, false, fun _ => true⟩ (sliceInput ⟨false, false, fun _ => true⟩) namesEnv macroFill (Style.macro.own "input") (.named 0)
    (dflt namesEnv (.named 0)) ([0x15, 2, 0x14, 6, 0x11, 0x18, 1, 65, 0, 9]) =
    .ok (.struct [.i32 1#32, .i16 3#16, .bool true, .binary [65], .none], [9]) := by
  have h := (C95_macro ⟨false, false, fun _ => true⟩ (sliceInput ⟨false, false, fun _ => true⟩) namesEnv (by decide) (.named 0) (dflt namesEnv (.named 0)) [0x15, 2, 0x14, 6, 0x11, 0x18, 1, 65, 0, 9]).1
  rw [h]
  rfl

end CT.Props
