import Lean.Meta.Tactic.Simp.RegisterCommand
import Lean.Meta.Eqns
import Lean.Elab.Command

/-!
# The rules that evaluate programs, as a set for `simp`
-/

/-- Rules that evaluate programs. -/
register_simp_attr go

open Lean Elab Command Meta in
/-- Use the defining equations of functions as rules. They are applied before the arguments are simplified if `↓` is given. -/
elab "go_eqns " pre:("↓")? ds:ident+ : command => do
  for d in ds do
    let n ← liftCoreM (realizeGlobalConstNoOverload d)
    let some eqns ← liftTermElabM (getEqnsFor? n) | throwErrorAt d "no equations"
    for e in eqns do
      let id := mkIdent (`_root_ ++ e)
      if pre.isSome then elabCommand (← `(attribute [go ↓] $id)) else elabCommand (← `(attribute [go] $id))
