import Lean
import Verif.Model.Quote

/-!
# Evaluation by the kernel

`knf` closes `a = ?b`: the kernel evaluates `a` as far as it is made of constructors.  `knf_lhs` replaces `a` in
`a = b`.  The result is checked by the kernel like every other proof.
-/

namespace Ublox.Quote

open Lean Meta Elab Tactic

/-- Types whose values are taken apart -/
def knfTypes : List Lean.Name :=
  [``Except, ``Prod, ``List, ``Option, ``Bool, ``Out, ``V, ``Node, ``Code.Tk, ``Code.K, ``Syn.Ty, ``Syn.Word, ``Unit,
    ``PUnit, ``FieldV, ``MapV, ``PackV]

/-- The normal form of a term -/
partial def knfCore (e : Lean.Expr) : MetaM Lean.Expr := do
  match e with
  | .fvar _ => return e
  | .lit _ => return e
  | .lam .. => lambdaTelescope e fun xs b => do mkLambdaFVars xs (← knfCore b)
  | _ =>
  let w ← ofExceptKernelException (Kernel.whnf (← getEnv) (← getLCtx) e)
  match w with
  | .lit (.natVal n) => return mkNatLit n
  | .lam .. => lambdaTelescope w fun xs b => do mkLambdaFVars xs (← knfCore b)
  | _ =>
    if let .const c _ := w.getAppFn then
      if let some (.ctorInfo v) := (← getEnv).find? c then
        if knfTypes.contains v.induct then
          let args ← w.getAppArgs.mapIdxM fun i a => if i < v.numParams then pure a else knfCore a
          return mkAppN w.getAppFn args
        else if c == ``Nat.zero then return mkNatLit 0
        else return e.headBeta
    -- stuck
    let e := e.headBeta
    if let .const c _ := e.getAppFn then
      let n := e.getAppNumArgs
      if c == ``varNode && n == 2 then
        let v ← ofExceptKernelException
          (Kernel.whnf (← getEnv) (← getLCtx) (mkAppN (.const ``lookup []) e.getAppArgs))
        if v.isAppOfArity ``Except.ok 3 then return mkApp (.const ``V.node []) v.appArg!
      if c == `Ublox.Quote.rawNodes then
        return mkAppN e.getAppFn (← e.getAppArgs.mapM knfCore)
      if (c == ``HAppend.hAppend && n == 6) || (c == ``HAdd.hAdd && n == 6) || (c == ``List.map && n == 4) then
        let args ← e.getAppArgs.mapIdxM fun i a => if i + 2 < n then pure a else knfCore a
        return mkAppN e.getAppFn args
    return e

/-- `a = ?b` -/
elab "knf" : tactic => liftMetaTactic fun g => do
  let some (α, a, b) := (← instantiateMVars (← g.getType)).eq? | throwError "not an equation"
  let a' ← knfCore a
  unless ← isDefEq b a' do throwError "result is{indentExpr a'}"
  let u ← getLevel α
  g.assign (mkApp2 (.const ``Eq.refl [u]) α a')
  return []

/-- `a = b` -/
elab "knf_lhs" : tactic => liftMetaTactic fun g => do
  let some (α, a, b) := (← instantiateMVars (← g.getType)).eq? | throwError "not an equation"
  let a' ← knfCore a
  let u ← getLevel α
  let t' := mkApp3 (.const ``Eq [u]) α a' b
  let m ← mkFreshExprSyntheticOpaqueMVar t'
  g.assign (mkApp2 (.const ``id [.zero]) (← g.getType) m)
  return [m.mvarId!]

end Ublox.Quote
