import Verif.Lang.Rules

/-!
# Blocks in parts

A block run as the sequence of its parts.
-/
namespace GoLang

/-- The body of a function. -/
def bodyOf : Decl → Stmts
  | .func _ _ _ _ _ _ b => b
  | _ => .nil

/-- The first statements. -/
def takeS : Nat → Stmts → Stmts
  | n + 1, .cons s r => .cons s (takeS n r)
  | _, _ => .nil

/-- The statements after the first. -/
def dropS : Nat → Stmts → Stmts
  | n + 1, .cons _ r => dropS n r
  | 0, r => r
  | _, .nil => .nil

/-- Statements after statements. -/
def appS : Stmts → Stmts → Stmts
  | .nil, b => b
  | .cons s r, b => .cons s (appS r b)

theorem execs_app (C : Ctx) (b : Stmts) : ∀ (a : Stmts) (s : St), execs C (appS a b) s = (execs C a s).bind (andNext (execs C b))
  | .nil, s => by simp only [appS, execs]; rfl
  | .cons x r, s => by
    simp only [appS, execs, bind_apply]
    cases hx : exec C x s with
    | ok v s' =>
      simp only [Out.bind]
      cases v with
      | next => exact execs_app C b r s'
      | _ => rfl
    | _ => rfl

end GoLang
