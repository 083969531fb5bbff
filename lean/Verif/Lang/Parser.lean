import Verif.Lang.Lexer

/-!
# Parser

Recursive descent over the tokens, with precedences as in the Go language specification. `none` means that the text is not in the
fragment. The first argument of the functions bounds the depth of the recursion.
-/
namespace GoLang

/-- Parsers. -/
def P (α : Type) := List Tok → Option (α × List Tok)

namespace P

def pure {α : Type} (a : α) : P α := fun l => some (a, l)

def bind {α β : Type} (x : P α) (f : α → P β) : P β := fun l =>
  match x l with
  | some (a, l) => f a l
  | none => none

instance : Monad P where
  pure := P.pure
  bind := P.bind

end P

def fail {α : Type} : P α := fun _ => none

/-- Whether the next token is the operator `n`. -/
def isOp (n : Name) : P Bool := fun l =>
  match l with
  | .op m :: _ => some (Nat.beq m n, l)
  | _ => some (false, l)

/-- Whether the next token is the name or keyword `n`. -/
def isKw (n : Name) : P Bool := fun l =>
  match l with
  | .id m :: _ => some (Nat.beq m n, l)
  | _ => some (false, l)

def next : P Tok := fun l =>
  match l with
  | t :: l => some (t, l)
  | [] => none

def peek : P Tok := fun l =>
  match l with
  | t :: _ => some (t, l)
  | [] => none

/-- The keywords, which are no identifiers; neither is 0, which stands for no name. -/
def reserved : List Name :=
  [0, n! "break", n! "case", n! "chan", n! "const", n! "continue", n! "default", n! "defer", n! "else", n! "fallthrough", n! "for", n! "func",
   n! "go", n! "goto", n! "if", n! "import", n! "interface", n! "map", n! "package", n! "range", n! "return", n! "select", n! "struct",
   n! "switch", n! "type", n! "var"]

def ident : P Name := do
  match ← next with
  | .id n => if elemN n reserved then fail else return n
  | _ => fail

/-- Read the operator `n`. -/
def expect (n : Name) : P Unit := do
  match ← next with
  | .op m => if Nat.beq m n then return () else fail
  | _ => fail

/-- Read the operator `n` if it is there. -/
def accept (n : Name) : P Bool := do
  if ← isOp n then do let _ ← next; return true else return false

/-- Read the keyword `n` if it is there. -/
def acceptKw (n : Name) : P Bool := do
  if ← isKw n then do let _ ← next; return true else return false

/-- Binary operators and their precedence. -/
def binOps : List (Name × BinOp × Nat) :=
  [(n! "*", .mul, 5), (n! "/", .div, 5), (n! "%", .rem, 5), (n! "<<", .shl, 5), (n! ">>", .shr, 5), (n! "&", .and, 5),
   (n! "+", .add, 4), (n! "-", .sub, 4), (n! "|", .or, 4), (n! "^", .xor, 4),
   (n! "==", .eq, 3), (n! "!=", .ne, 3), (n! "<", .lt, 3), (n! "<=", .le, 3), (n! ">", .gt, 3), (n! ">=", .ge, 3),
   (n! "&&", .land, 2), (n! "||", .lor, 1)]

/-- Assignment operators. -/
def asgOps : List (Name × BinOp) :=
  [(n! "+=", .add), (n! "-=", .sub), (n! "*=", .mul), (n! "/=", .div), (n! "%=", .rem), (n! "&=", .and), (n! "|=", .or),
   (n! "^=", .xor), (n! "<<=", .shl), (n! ">>=", .shr)]

/-- Find a name in a table. -/
def find {α : Type} (n : Name) : List (Name × α) → Option α
  | [] => none
  | (m, a) :: l => if Nat.beq n m then some a else find n l

/-- The binary operator that comes next. -/
def peekBin : P (Option (BinOp × Nat)) := fun l =>
  match l with
  | .op m :: _ => some (find m binOps, l)
  | _ => some (none, l)

def Exprs.append : Exprs → Exprs → Exprs
  | .nil, b => b
  | .cons e r, b => .cons e (r.append b)

def Params.append : Params → Params → Params
  | .nil, b => b
  | .cons n t r, b => .cons n t (r.append b)

/-- Parameters as read: pairs of a name, or no name (0), and a type. If one of them is named, a lone type is a name with the type of the
next. -/
def groupNamed : List (Name × Ty) → Option (List (Name × Ty))
  | [] => some []
  | (0, .name n) :: l =>
    match groupNamed l with
    | some ((m, t) :: l) => some ((n, t) :: (m, t) :: l)
    | _ => none
  | (0, _) :: _ => none
  | (n, t) :: l =>
    match groupNamed l with
    | some l => some ((n, t) :: l)
    | none => none

def isNamed : List (Name × Ty) → Bool
  | [] => false
  | (n, _) :: l => !Nat.beq n 0 || isNamed l

def toParams : List (Name × Ty) → Params
  | [] => .nil
  | (n, t) :: l => .cons n t (toParams l)

def group (l : List (Name × Ty)) : P Params := fun ts =>
  if isNamed l then
    match groupNamed l with
    | some l => some (toParams l, ts)
    | none => none
  else some (toParams l, ts)

/-- Fields `a, b T`. -/
def fields (ns : List Name) (t : Ty) (r : Params) : Params := ns.foldr (fun n r => .cons n t r) r

/-- Skip to the brace that closes the current one. -/
def skipBraces : Nat → Nat → P Unit
  | 0, _ => fail
  | f + 1, d => do
    match ← next with
    | .op o =>
      if Nat.beq o (n! "{") then skipBraces f (d + 1)
      else if Nat.beq o (n! "}") then (match d with | 0 => return () | d + 1 => skipBraces f d)
      else skipBraces f d
    | _ => skipBraces f d

/-- Names separated by commas, after the first. -/
def moreNames : Nat → P (List Name)
  | 0 => fail
  | f + 1 => do
    if ← accept (n! ",") then do
      let n ← ident
      let ns ← moreNames f
      return n :: ns
    else return []

/-- Names of a list of expressions that are names. -/
def exprNames : Exprs → Option (List Name)
  | .nil => some []
  | .cons (.id n) r => (exprNames r).map (n :: ·)
  | .cons _ _ => none

/-- Whether an expression can be the type of a composite literal. -/
def litType : Expr → Option Ty
  | .id n => some (.name n)
  | .sel (.id p) n => some (.qual p n)
  | .ty t => some t
  | _ => none

/-- The statement, if it is not a range clause. -/
def noRange : Stmt → P Stmt
  | .range _ _ _ _ => fail
  | s => P.pure s

/-- The statement, if it is not a range clause and not empty. -/
def oneStmt : Stmt → P Stmt
  | .range _ _ _ _ => fail
  | .skip => fail
  | s => P.pure s

mutual

/-- A type. -/
def pType : Nat → P Ty
  | 0 => fail
  | f + 1 => do
    match ← next with
    | .id n =>
      if Nat.beq n (n! "func") then do
        let ps ← pParams f
        let rs ← pResults f
        return .func ps rs
      else if Nat.beq n (n! "interface") then do
        expect (n! "{")
        skipBraces f 0
        return .iface
      else if Nat.beq n (n! "struct") then do
        expect (n! "{")
        let fs ← pFields f
        return .struct fs
      else if elemN n reserved then fail
      else if ← accept (n! ".") then do
        let m ← ident
        return .qual n m
      else return .name n
    | .op o =>
      if Nat.beq o (n! "*") then do
        let t ← pType f
        return .ptr t
      else if Nat.beq o (n! "[") then do
        if ← accept (n! "]") then do
          let t ← pType f
          return .slice t
        else if ← accept (n! "...") then do
          expect (n! "]")
          let t ← pType f
          return .dots t
        else do
          let e ← pExpr f 1 false
          expect (n! "]")
          let t ← pType f
          return .array e t
      else fail
    | _ => fail

/-- The fields of a struct, up to the closing brace. -/
def pFields : Nat → P Params
  | 0 => fail
  | f + 1 => do
    if ← accept (n! "}") then return .nil
    else do
      let n ← ident
      let ns ← moreNames f
      let t ← pType f
      if ← accept (n! ";") then do
        let r ← pFields f
        return fields (n :: ns) t r
      else do
        expect (n! "}")
        return fields (n :: ns) t .nil

/-- The parameters of a function in parentheses. -/
def pParams : Nat → P Params
  | 0 => fail
  | f + 1 => do
    expect (n! "(")
    let l ← pParamList f
    group l

/-- Parameters up to the closing parenthesis. -/
def pParamList : Nat → P (List (Name × Ty))
  | 0 => fail
  | f + 1 => do
    if ← accept (n! ")") then return []
    else do
      let t ← pType f
      let sep ← isOp (n! ",")
      let close ← isOp (n! ")")
      let p ← if sep || close then pure (0, t)
        else
          match t with
          | .name n => do
            let t ← pType f
            pure (n, t)
          | _ => fail
      if ← accept (n! ",") then do
        let l ← pParamList f
        return p :: l
      else do
        expect (n! ")")
        return [p]

/-- The results of a function: nothing before `{`, at the end of a parameter or statement. -/
def pResults : Nat → P Params
  | 0 => fail
  | f + 1 => do
    if ← isOp (n! "(") then pParams f
    else do
      let a ← isOp (n! "{")
      let b ← isOp (n! ")")
      let c ← isOp (n! ",")
      let d ← isOp (n! ";")
      if a || b || c || d then return .nil
      else do
        let t ← pType f
        return .cons 0 t .nil

/-- An expression whose binary operators have at least the precedence `prec`. No composite literal of a bare type name if `noLit`. -/
def pExpr : Nat → Nat → Bool → P Expr
  | 0, _, _ => fail
  | f + 1, prec, noLit => do
    let a ← pUnary f noLit
    pBin f prec noLit a

/-- The binary operators after an operand. -/
def pBin : Nat → Nat → Bool → Expr → P Expr
  | 0, _, _, _ => fail
  | f + 1, prec, noLit, a => do
    match ← peekBin with
    | some (op, p) =>
      if Nat.ble prec p then do
        let _ ← next
        let b ← pExpr f (p + 1) noLit
        pBin f prec noLit (.bin op a b)
      else return a
    | none => return a

/-- An operand with the operators before it. -/
def pUnary : Nat → Bool → P Expr
  | 0, _ => fail
  | f + 1, noLit => do
    if ← accept (n! "-") then do let e ← pUnary f noLit; return .un .neg e
    else if ← accept (n! "^") then do let e ← pUnary f noLit; return .un .com e
    else if ← accept (n! "!") then do let e ← pUnary f noLit; return .un .not e
    else if ← accept (n! "&") then do let e ← pUnary f noLit; return .un .addr e
    else if ← accept (n! "*") then do let e ← pUnary f noLit; return .un .deref e
    else do
      let e ← pOperand f
      pSuffix f noLit e

/-- An operand. -/
def pOperand : Nat → P Expr
  | 0 => fail
  | f + 1 => do
    match ← peek with
    | .int n => do let _ ← next; return .int n
    | .str s => do let _ ← next; return .str s
    | .op o =>
      if Nat.beq o (n! "(") then do
        let _ ← next
        let e ← pExpr f 1 false
        expect (n! ")")
        return e
      else do
        let t ← pType f
        return .ty t
    | .id n =>
      if Nat.beq n (n! "func") then do
        let t ← pType f
        match t with
        | .func ps rs =>
          if ← isOp (n! "{") then do
            let b ← pBlock f
            return .func ps rs b
          else return .ty t
        | _ => fail
      else if Nat.beq n (n! "interface") || Nat.beq n (n! "struct") then do
        let t ← pType f
        return .ty t
      else if elemN n reserved then fail
      else do
        let _ ← next
        return .id n

/-- Selectors, indices, slices, calls, assertions and composite literals after an operand. -/
def pSuffix : Nat → Bool → Expr → P Expr
  | 0, _, _ => fail
  | f + 1, noLit, e => do
    if ← accept (n! ".") then do
      if ← accept (n! "(") then do
        let t ← pType f
        expect (n! ")")
        pSuffix f noLit (.assert e t)
      else do
        let n ← ident
        pSuffix f noLit (.sel e n)
    else if ← accept (n! "(") then do
      let (es, dots) ← pArgs f
      pSuffix f noLit (.call e es dots)
    else if ← accept (n! "[") then do
      let lo ← if ← isOp (n! ":") then pure Expr.none else pExpr f 1 false
      if ← accept (n! ":") then do
        let hi ← if ← isOp (n! "]") then pure Expr.none else pExpr f 1 false
        expect (n! "]")
        pSuffix f noLit (.slc e lo hi)
      else do
        expect (n! "]")
        pSuffix f noLit (.idx e lo)
    else if ← isOp (n! "{") then
      match litType e with
      | some t =>
        let bare := match e with | .ty _ => false | _ => true
        if bare && noLit then return e
        else do
          let _ ← next
          let es ← pElts f
          pSuffix f noLit (.comp t es)
      | none => return e
    else return e

/-- Arguments up to the closing parenthesis. -/
def pArgs : Nat → P (Exprs × Bool)
  | 0 => fail
  | f + 1 => do
    if ← accept (n! ")") then return (.nil, false)
    else do
      let e ← pExpr f 1 false
      if ← accept (n! "...") then do
        let _ ← accept (n! ",")
        expect (n! ")")
        return (.cons e .nil, true)
      else if ← accept (n! ",") then do
        let (es, d) ← pArgs f
        return (.cons e es, d)
      else do
        expect (n! ")")
        return (.cons e .nil, false)

/-- Elements of a composite literal up to the closing brace. -/
def pElts : Nat → P Elts
  | 0 => fail
  | f + 1 => do
    if ← accept (n! "}") then return .nil
    else do
      let e ← pExpr f 1 false
      let (k, e) ← if ← accept (n! ":") then
          match e with
          | .id k => do let e ← pExpr f 1 false; pure (k, e)
          | _ => fail
        else pure (0, e)
      if ← accept (n! ",") then do
        let es ← pElts f
        return .cons k e es
      else do
        expect (n! "}")
        return .cons k e .nil

/-- Expressions separated by commas. -/
def pExprs : Nat → Bool → P Exprs
  | 0, _ => fail
  | f + 1, noLit => do
    let e ← pExpr f 1 noLit
    if ← accept (n! ",") then do
      let es ← pExprs f noLit
      return .cons e es
    else return .cons e .nil

/-- Simple statements; nothing before `;` or `{`. In the header of a loop it may be a range clause, without its body. -/
def pSimple : Nat → Bool → P Stmt
  | 0, _ => fail
  | f + 1, noLit => do
    let a ← isOp (n! ";")
    let b ← isOp (n! "{")
    if a || b then return .skip
    else do
      let es ← pExprs f noLit
      match ← peek with
      | .op o =>
        if Nat.beq o (n! ":=") then do
          let _ ← next
          match exprNames es with
          | some ns =>
            if ← acceptKw (n! "range") then do
              let e ← pExpr f 1 noLit
              match ns with
              | [k] => return .range k 0 e .nil
              | [k, v] => return .range k v e .nil
              | _ => fail
            else do
              let rs ← pExprs f noLit
              return .define ns rs
          | none => fail
        else if Nat.beq o (n! "=") then do
          let _ ← next
          let rs ← pExprs f noLit
          return .assign es rs
        else
          match es with
          | .cons e .nil =>
            if Nat.beq o (n! "++") then do
              let _ ← next
              return .opAssign .add e (.int 1)
            else if Nat.beq o (n! "--") then do
              let _ ← next
              return .opAssign .sub e (.int 1)
            else
              match find o asgOps with
              | some op => do
                let _ ← next
                let r ← pExpr f 1 noLit
                return .opAssign op e r
              | none => return .expr e
          | _ => fail
      | _ => fail

/-- A block in braces. -/
def pBlock : Nat → P Stmts
  | 0 => fail
  | f + 1 => do
    expect (n! "{")
    let b ← pStmts f
    expect (n! "}")
    return b

/-- Statements up to a closing brace, `case` or `default`. -/
def pStmts : Nat → P Stmts
  | 0 => fail
  | f + 1 => do
    let a ← isOp (n! "}")
    let b ← isKw (n! "case")
    let c ← isKw (n! "default")
    if a || b || c then return .nil
    else if ← accept (n! ";") then pStmts f
    else do
      let s ← pStmt f
      if ← accept (n! ";") then do
        let r ← pStmts f
        return .cons s r
      else if ← isOp (n! "}") then return .cons s .nil
      else fail

/-- One statement, without the semicolon after it. -/
def pStmt : Nat → P Stmt
  | 0 => fail
  | f + 1 => do
    if ← acceptKw (n! "return") then do
      let a ← isOp (n! ";")
      let b ← isOp (n! "}")
      if a || b then return .ret .nil
      else do
        let es ← pExprs f false
        return .ret es
    else if ← acceptKw (n! "break") then return .brk
    else if ← acceptKw (n! "continue") then return .cont
    else if ← acceptKw (n! "if") then pIf f
    else if ← acceptKw (n! "for") then do
      if ← isOp (n! "{") then do
        let b ← pBlock f
        return .for .skip (.id (n! "true")) .skip b
      else do
        let s ← pSimple f true
        if ← accept (n! ";") then do
          let s ← noRange s
          let c ← if ← isOp (n! ";") then pure (Expr.id (n! "true")) else pExpr f 1 true
          expect (n! ";")
          let p ← pSimple f true
          let p ← noRange p
          let b ← pBlock f
          return .for s c p b
        else do
          let b ← pBlock f
          match s with
          | .range k v e _ => return .range k v e b
          | .expr e => return .for .skip e .skip b
          | _ => fail
    else if ← acceptKw (n! "switch") then do
      let tag ← if ← isOp (n! "{") then pure Expr.none else pExpr f 1 true
      expect (n! "{")
      let cs ← pCases f
      return .switch tag cs
    else if ← acceptKw (n! "var") then do
      let n ← ident
      let ns ← moreNames f
      let t ← if ← isOp (n! "=") then pure Ty.none else pType f
      if ← accept (n! "=") then do
        let es ← pExprs f false
        return .var (n :: ns) t es
      else return .var (n :: ns) t .nil
    else if ← acceptKw (n! "const") then do
      let n ← ident
      expect (n! "=")
      let e ← pExpr f 1 false
      return .const n e
    else if ← isOp (n! "{") then do
      let b ← pBlock f
      return .block b
    else do
      let s ← pSimple f false
      oneStmt s

/-- An if statement after the keyword. -/
def pIf : Nat → P Stmt
  | 0 => fail
  | f + 1 => do
    let s ← pSimple f true
    let (init, c) ← if ← accept (n! ";") then do
        let s ← noRange s
        let c ← pExpr f 1 true
        pure (s, c)
      else
        match s with
        | .expr e => pure (Stmt.skip, e)
        | _ => fail
    let th ← pBlock f
    if ← acceptKw (n! "else") then do
      if ← acceptKw (n! "if") then do
        let s ← pIf f
        return .ifs init c th (.cons s .nil)
      else do
        let el ← pBlock f
        return .ifs init c th el
    else return .ifs init c th .nil

/-- The cases of a switch up to the closing brace. -/
def pCases : Nat → P Cases
  | 0 => fail
  | f + 1 => do
    if ← accept (n! "}") then return .nil
    else if ← acceptKw (n! "case") then do
      let es ← pExprs f false
      expect (n! ":")
      let b ← pStmts f
      let cs ← pCases f
      return .cons es b cs
    else if ← acceptKw (n! "default") then do
      expect (n! ":")
      let b ← pStmts f
      let cs ← pCases f
      return .cons .nil b cs
    else fail

end

/-- Entries of a declaration group in parentheses, or a single one. -/
def pGroup {α : Type} (f : Nat) (p : P α) : P (List α) := do
  if ← accept (n! "(") then
    let rec go : Nat → P (List α)
      | 0 => fail
      | f + 1 => do
        if ← accept (n! ")") then return []
        else do
          let a ← p
          if ← accept (n! ";") then do
            let l ← go f
            return a :: l
          else do
            expect (n! ")")
            return [a]
    go f
  else do
    let a ← p
    return [a]

/-- The path of an import. -/
def pImport : P (List Nat) := do
  match ← next with
  | .str s => return s
  | _ => fail

def pConst (f : Nat) : P Decl := do
  let n ← ident
  expect (n! "=")
  let e ← pExpr f 1 false
  return .const n e

def pVar (f : Nat) : P Decl := do
  let n ← ident
  let t ← if ← isOp (n! "=") then pure Ty.none else pType f
  if ← accept (n! "=") then do
    let e ← pExpr f 1 false
    return .var n t e
  else return .var n t .none

/-- A function or method, after the keyword. -/
def pFunc (f : Nat) : P Decl := do
  if ← accept (n! "(") then do
    let r ← ident
    let p ← accept (n! "*")
    let t ← ident
    expect (n! ")")
    let n ← ident
    let ps ← pParams f
    let rs ← pResults f
    let b ← pBlock f
    return .func r p t n ps rs b
  else do
    let n ← ident
    let ps ← pParams f
    let rs ← pResults f
    let b ← pBlock f
    return .func 0 false 0 n ps rs b

/-- The declarations of a file. -/
def pDecls (f : Nat) : Nat → P (List Decl)
  | 0 => fail
  | k + 1 => fun l =>
    match l with
    | [] => some ([], [])
    | _ => (do
      if ← acceptKw (n! "func") then do
        let d ← pFunc f
        expect (n! ";")
        let ds ← pDecls f k
        return d :: ds
      else if ← acceptKw (n! "type") then do
        let n ← ident
        let t ← pType f
        expect (n! ";")
        let ds ← pDecls f k
        return .type n t :: ds
      else if ← acceptKw (n! "const") then do
        let cs ← pGroup f (pConst f)
        expect (n! ";")
        let ds ← pDecls f k
        return cs ++ ds
      else if ← acceptKw (n! "var") then do
        let cs ← pGroup f (pVar f)
        expect (n! ";")
        let ds ← pDecls f k
        return cs ++ ds
      else fail : P (List Decl)) l

/-- The imports of a file. -/
def pImports (f : Nat) : Nat → P (List (List Nat))
  | 0 => fail
  | k + 1 => do
    if ← acceptKw (n! "import") then do
      let is ← pGroup f pImport
      expect (n! ";")
      let l ← pImports f k
      return is ++ l
    else return []

def pFile (f : Nat) : P File := do
  if ← acceptKw (n! "package") then do
    let n ← ident
    expect (n! ";")
    let is ← pImports f f
    let ds ← pDecls f f
    return ⟨n, is, ds⟩
  else fail

/-- The meaning of a source text as a syntax tree. -/
def parse (src : List String) : Option File :=
  match lex src with
  | some ts =>
    match pFile (ts.length + 1) ts with
    | some (f, []) => some f
    | _ => none
  | none => none

end GoLang
