import Lean
import Verif.Proofs.GeneratedNames
/-!
# Computing fixed code

Simplification procedures that compute the tokens and token trees of fixed texts (by reduction; the kernel checks the result).
-/
namespace CT.Props
open CT CT.Rust CT.Rust.Spec CT.Gen

open Lean Meta in
/-- The normal form of data: constructors applied to normal forms. Characters are given by their numbers. -/
partial def normalForm (e : Expr) : MetaM Expr := do
  if e.isAppOf ``Char.ofNat then return e
  let e ← whnfCore e
  if e.isAppOf ``Char.ofNat || e.isRawNatLit then return e
  let ty ← inferType e
  if ty.isSort then return e
  if ty.isConstOf ``Char then
    let n ← ofExceptKernelException (Kernel.whnf (← getEnv) (← getLCtx) (mkApp (mkConst ``Char.toNat) e))
    return if n.isRawNatLit then mkApp (mkConst ``Char.ofNat) n else e
  let e ← ofExceptKernelException (Kernel.whnf (← getEnv) (← getLCtx) e)
  if e.isRawNatLit then return e
  let .const c _ := e.getAppFn | return e
  if (← getEnv).find? c |>.any (· matches .ctorInfo _) then
    return mkAppN e.getAppFn (← e.getAppArgs.mapM fun a => do if (← inferType a).isSort then return a else normalForm a)
  return e

open Lean Meta in
/-- Closed terms -/
def compute (e : Expr) : Simp.DStep → SimpM Simp.DStep := fun other => do
  if e.hasFVar || e.hasMVar then return other
  return .done (← normalForm e)

dsimproc_decl nfCode (code _) := fun e => compute e .continue
dsimproc_decl nfLocal (localVar _) := fun e => compute e .continue
dsimproc_decl nfBinder (binder _ _ _) := fun e => compute e .continue
dsimproc_decl nfExpr (Spec.expr _) := fun e => compute e .continue
dsimproc_decl nfCond (Spec.cond _) := fun e => compute e .continue
dsimproc_decl nfError (Spec.error _ _) := fun e => compute e .continue
dsimproc_decl nfStmt (stmt _ _) := fun e => compute e .continue
dsimproc_decl nfWStmt (wstmt _ _ _) := fun e => compute e .continue
dsimproc_decl nfFlat (flat _) := fun e => compute e .continue
dsimproc_decl nfFine (fine _) := fun e => compute e .continue
dsimproc_decl nfToks (toks _) := fun e => compute e .continue

/-- Code as an explicit list -/
macro "code_simp" "[" ls:Lean.Parser.Tactic.simpLemma,* "]" : tactic =>
  `(tactic| simp only [↓nfCode, ↓nfLocal, ↓nfBinder, ↓nfExpr, ↓nfCond, ↓nfError, ↓nfStmt, ↓nfWStmt, ↓nfFlat, ↓nfFine, ↓nfToks,
    List.append_assoc, List.cons_append, List.nil_append, List.append_nil, $ls,*])

example (s : Tree) : code (text! "let x =") ++ [s] ++ code (text! "(a.b)") = code (text! "let") ++ code (text! "x =") ++ ([s] ++ group .paren (code (text! "a.b"))) := by
  code_simp [group]

end CT.Props
