import Verif.Go.Basic
import Lean.Elab.Tactic.Basic
import Lean.Elab.Tactic.Decide

/-!
# Syntax of the fragment of Go that the repository uses

Names and operators are numbers: the bytes of the text read as digits to base 256. `n! "abc"` is the number of a literal name.
-/
namespace GoLang

abbrev Name := Nat

/-- The number of a text. -/
def nameOf (l : List Nat) : Name := l.foldl (fun n b => n * 256 + b) 0

open Lean in
/-- `n! "abc"` is the number that `nameOf` gives the bytes of `abc`, as a literal. -/
macro "n!" s:str : term =>
  return Syntax.mkNumLit (toString (s.getString.toUTF8.foldl (fun n b => n * 256 + b.toNat) 0))

example : nameOf [97, 98, 99] = n! "abc" := rfl

open Lean Elab Tactic in
/-- Close `a = b` by reflexivity, checked by the kernel only. -/
elab "kernel_rfl" : tactic => do
  let g ← getMainGoal
  let t ← instantiateMVars (← g.getType)
  match t.eq? with
  | some (ty, a, _) => do
    let u ← g.withContext (Meta.getLevel ty)
    g.assign (mkApp2 (mkConst ``Eq.refl [u]) ty a)
  | none => throwError "not an equation"

inductive BinOp where
  | add | sub | mul | div | rem | and | or | xor | shl | shr | eq | ne | lt | le | gt | ge | land | lor
  deriving Repr

inductive UnOp where
  | neg | com | not | addr | deref
  deriving Repr

mutual

/-- Types. -/
inductive Ty where
  | name (n : Name)
  | qual (p n : Name)
  | slice (t : Ty)
  | array (len : Expr) (t : Ty)
  /-- `[...]t` -/
  | dots (t : Ty)
  | ptr (t : Ty)
  | func (ps rs : Params)
  | iface
  | struct (fs : Params)
  /-- no type given -/
  | none

/-- Parameters, results and fields; the name 0 is no name. -/
inductive Params where
  | nil
  | cons (n : Name) (t : Ty) (rest : Params)

/-- Expressions. -/
inductive Expr where
  /-- integer and character literals -/
  | int (n : Nat)
  | str (s : List Nat)
  | id (n : Name)
  | bin (op : BinOp) (a b : Expr)
  | un (op : UnOp) (a : Expr)
  /-- `dots`: the last argument is followed by `...` -/
  | call (f : Expr) (args : Exprs) (dots : Bool)
  | sel (e : Expr) (n : Name)
  | idx (e i : Expr)
  | slc (e lo hi : Expr)
  | comp (t : Ty) (elts : Elts)
  | ty (t : Ty)
  | assert (e : Expr) (t : Ty)
  | func (ps rs : Params) (body : Stmts)
  /-- no expression given -/
  | none

inductive Exprs where
  | nil
  | cons (e : Expr) (rest : Exprs)

/-- Elements of a composite literal; the name 0 is no key. -/
inductive Elts where
  | nil
  | cons (key : Name) (e : Expr) (rest : Elts)

/-- Statements. -/
inductive Stmt where
  | expr (e : Expr)
  | assign (lhs rhs : Exprs)
  | opAssign (op : BinOp) (lhs rhs : Expr)
  | define (ns : List Name) (rhs : Exprs)
  | var (ns : List Name) (t : Ty) (rhs : Exprs)
  | const (n : Name) (e : Expr)
  | ret (es : Exprs)
  | ifs (init : Stmt) (cond : Expr) (th el : Stmts)
  | for (init : Stmt) (cond : Expr) (post : Stmt) (body : Stmts)
  /-- `for k, v := range e`; the name 0 is no variable -/
  | range (k v : Name) (e : Expr) (body : Stmts)
  /-- without tag if `tag` is `none` -/
  | switch (tag : Expr) (cs : Cases)
  | brk
  | cont
  | block (body : Stmts)
  | skip

inductive Stmts where
  | nil
  | cons (s : Stmt) (rest : Stmts)

/-- Cases of a switch; `default` has no expressions. -/
inductive Cases where
  | nil
  | cons (es : Exprs) (body : Stmts) (rest : Cases)

end

deriving instance Repr for Ty, Params, Expr, Exprs, Elts, Stmt, Stmts, Cases

/-- Declarations at the top level. A method has the receiver name `recv`, its type `recvTy`, and `recvPtr` if it is a pointer. -/
inductive Decl where
  | func (recv : Name) (recvPtr : Bool) (recvTy name : Name) (ps rs : Params) (body : Stmts)
  | type (n : Name) (t : Ty)
  | const (n : Name) (e : Expr)
  | var (n : Name) (t : Ty) (e : Expr)
  deriving Repr

/-- A file: its package, the paths of its imports, its declarations. -/
structure File where
  pkg : Name
  imports : List (List Nat)
  decls : List Decl
  deriving Repr

end GoLang
