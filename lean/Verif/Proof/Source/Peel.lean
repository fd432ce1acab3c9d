import Verif.Py.Interp
import Lean.Elab.Tactic
/-!
# Running the interpreter inside a proof

`peel` rewrites a goal about an interpreted program to one that shows the next thing the program does: it evaluates the interpreter on the
syntax tree (which is data) until a call, an access to an object or a decision is reached.  Every step is a definitional equality, which
the kernel checks again.
-/

namespace Genie.Src

open Lean Meta Elab Tactic

/-- Heads at which `peel` stops. -/
def peelStops : List Lean.Name :=
  [``callN, ``heapM, ``handlerAttr, ``setHandlerAttr, ``structUnpackM, ``structPackM, ``objAttr, ``objMethod, ``forRange, ``forEach,
    ``HReader.alloc, ``HReader.setAttr, ``HReader.append, ``done, ``fail, ``result, ``unpackK]

/-- Evaluate a computation until the next thing it does. -/
partial def peelExpr (e : Expr) : MetaM Expr := do
  let e ← whnfCore e
  let fn := e.getAppFn
  let args := e.getAppArgs
  match fn with
  | .const n _ =>
    if n == ``andThen && args.size == 4 then
      let f ← peelExpr args[2]!
      if f.isAppOf ``done then
        peelExpr (args[3]!.beta #[f.appArg!])
      else if f.isAppOf ``fail then
        mkAppOptM ``fail #[some args[1]!, some f.appArg!]
      else
        return mkAppN fn #[args[0]!, args[1]!, f, args[3]!]
    else if n == ``branch && args.size == 4 then
      let c ← whnf args[1]!
      if c.isConstOf ``Bool.true then peelExpr args[2]!
      else if c.isConstOf ``Bool.false then peelExpr args[3]!
      else return e
    else if n == ``pyM && args.size == 2 then
      let x ← whnf args[1]!
      if x.isAppOf ``Except.ok then mkAppOptM ``done #[some args[0]!, some x.appArg!]
      else if x.isAppOf ``Except.error then mkAppOptM ``fail #[some args[0]!, some x.appArg!]
      else return e
    else if peelStops.contains n then
      return e
    else
      match ← unfoldDefinition? e with
      | none => return e
      | some e' =>
        let e' ← peelExpr e'
        match e'.getAppFn with
        | .const n' _ =>
          if n' == ``andThen || n' == ``branch || n' == ``pyM || peelStops.contains n' then return e' else return e
        | .fvar _ => return e'
        | _ => return e
  | _ => return e

/-- `peel`: the goal is `R … f g` for a computation `f` (the second-to-last argument). -/
elab "peel" : tactic => withMainContext do
  let goal ← getMainGoal
  let t ← instantiateMVars (← goal.getType)
  let args := t.getAppArgs
  let i := args.size - 2
  let f' ← peelExpr args[i]!
  let t' := mkAppN t.getAppFn (args.set! i f')
  let goal' ← mkFreshExprSyntheticOpaqueMVar t'
  goal.assign (mkApp2 (mkConst ``id [levelZero]) t goal') 
  replaceMainGoal [goal'.mvarId!]

/-- Unfold until the head is `andThen`. -/
partial def enterExpr (e : Expr) : MetaM Expr := do
  let e ← whnfCore e
  if e.isAppOf ``andThen then return e
  match ← unfoldDefinition? e with
  | none => return e
  | some e' => enterExpr e'

/-- `enter_fun`: the goal is `R … (run …) g`; look up the function and bind its arguments. -/
elab "enter_fun" : tactic => withMainContext do
  let goal ← getMainGoal
  let t ← instantiateMVars (← goal.getType)
  let args := t.getAppArgs
  let i := args.size - 2
  let f' ← enterExpr args[i]!
  let t' := mkAppN t.getAppFn (args.set! i f')
  let goal' ← mkFreshExprSyntheticOpaqueMVar t'
  goal.assign (mkApp2 (mkConst ``id [levelZero]) t goal')
  replaceMainGoal [goal'.mvarId!]

/-- `peel_at`: the goal is `f H s = r` for a computation `f`. -/
elab "peel_at" : tactic => withMainContext do
  let goal ← getMainGoal
  let t ← instantiateMVars (← goal.getType)
  let some (ty, lhs, rhs) := t.eq? | throwError "not an equation"
  let .app (.app f H) s := lhs.headBeta | throwError "not applied to a heap and a handler"
  let f' ← peelExpr f
  let t' ← mkEq (mkApp2 f' H s) rhs
  let _ := ty
  let goal' ← mkFreshExprSyntheticOpaqueMVar t'
  goal.assign (mkApp2 (mkConst ``id [levelZero]) t goal')
  replaceMainGoal [goal'.mvarId!]

end Genie.Src
