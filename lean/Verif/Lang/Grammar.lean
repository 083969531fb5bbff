import Verif.Lang.Lexer

/-!
# Grammar

The grammar of the fragment, after the productions of the Go language specification, as relations between tokens and syntax trees. It says
nothing about how to find a tree. C109 proves that the parser finds only trees of the grammar.
-/
namespace GoLang

abbrev Toks := List Tok

/-- The keywords of Go. -/
def goKeywords : List Name :=
  [n! "break", n! "default", n! "func", n! "interface", n! "select", n! "case", n! "defer", n! "go", n! "map", n! "struct", n! "chan", n! "else",
   n! "goto", n! "package", n! "switch", n! "const", n! "fallthrough", n! "if", n! "range", n! "type", n! "continue", n! "for", n! "import",
   n! "return", n! "var"]

/-- An identifier: a word that is not a keyword. (0 is the name of the empty word.) -/
def IsIdent (n : Name) : Prop := n ≠ 0 ∧ n ∉ goKeywords

/-- IdentifierList = identifier { "," identifier } . -/
inductive GNames : Toks → List Name → Prop
  | one {n : Name} : IsIdent n → GNames [.id n] [n]
  | more {n : Name} {ts : Toks} {ns : List Name} : IsIdent n → GNames ts ns → GNames (.id n :: .op (n! ",") :: ts) (n :: ns)

/-- Tokens in which every brace is closed. -/
inductive Balanced : Toks → Prop
  | nil : Balanced []
  | tok {t : Tok} {ts : Toks} : t ≠ .op (n! "{") → t ≠ .op (n! "}") → Balanced ts → Balanced (t :: ts)
  | braces {a b : Toks} : Balanced a → Balanced b → Balanced (.op (n! "{") :: a ++ .op (n! "}") :: b)

/-- The operators before an operand. -/
def unOps : List (Name × UnOp) := [(n! "-", .neg), (n! "^", .com), (n! "!", .not), (n! "&", .addr), (n! "*", .deref)]

/-- The operators between operands, with their precedences. -/
def binaryOps : List (Name × BinOp × Nat) :=
  [(n! "||", .lor, 1),
   (n! "&&", .land, 2),
   (n! "==", .eq, 3), (n! "!=", .ne, 3), (n! "<", .lt, 3), (n! "<=", .le, 3), (n! ">", .gt, 3), (n! ">=", .ge, 3),
   (n! "+", .add, 4), (n! "-", .sub, 4), (n! "|", .or, 4), (n! "^", .xor, 4),
   (n! "*", .mul, 5), (n! "/", .div, 5), (n! "%", .rem, 5), (n! "<<", .shl, 5), (n! ">>", .shr, 5), (n! "&", .and, 5)]

/-- The operators of assignments, and what they do. -/
def assignOps : List (Name × BinOp) :=
  [(n! "+=", .add), (n! "-=", .sub), (n! "|=", .or), (n! "^=", .xor),
   (n! "*=", .mul), (n! "/=", .div), (n! "%=", .rem), (n! "<<=", .shl), (n! ">>=", .shr), (n! "&=", .and)]

/-- Parameters or fields of the same type. -/
def ofType (t : Ty) : List Name → Params → Params
  | [], r => r
  | n :: ns, r => .cons n t (ofType t ns r)

/-- Expressions that are names. -/
inductive AreNames : Exprs → List Name → Prop
  | nil : AreNames .nil []
  | cons {n : Name} {es : Exprs} {ns : List Name} : AreNames es ns → AreNames (.cons (.id n) es) (n :: ns)

/-- The type of a composite literal, read as an expression. -/
inductive LitType : Expr → Ty → Prop
  | name {n : Name} : LitType (.id n) (.name n)
  | qual {p n : Name} : LitType (.sel (.id p) n) (.qual p n)
  | ty {t : Ty} : LitType (.ty t) t

/-- Types that begin with a bracket or a keyword: these are told apart from expressions by their first token. -/
def IsLitType : Ty → Prop
  | .slice _ => True
  | .array _ _ => True
  | .dots _ => True
  | .func _ _ => True
  | .iface => True
  | .struct _ => True
  | _ => False

/-- A type that is more than a name. -/
def IsTy : Expr → Prop
  | .ty _ => True
  | _ => False

mutual

/-- Type. What an interface demands is not kept. -/
inductive GType : Toks → Ty → Prop
  | name {n : Name} : IsIdent n → GType [.id n] (.name n)
  | qual {p n : Name} : IsIdent p → IsIdent n → GType [.id p, .op (n! "."), .id n] (.qual p n)
  | ptr {ts : Toks} {t : Ty} : GType ts t → GType (.op (n! "*") :: ts) (.ptr t)
  | slice {ts : Toks} {t : Ty} : GType ts t → GType (.op (n! "[") :: .op (n! "]") :: ts) (.slice t)
  | dots {ts : Toks} {t : Ty} : GType ts t → GType (.op (n! "[") :: .op (n! "...") :: .op (n! "]") :: ts) (.dots t)
  | array {es ts : Toks} {e : Expr} {t : Ty} : GExpr false 1 es e → GType ts t → GType (.op (n! "[") :: es ++ .op (n! "]") :: ts) (.array e t)
  | func {ps rs : Toks} {p r : Params} : GParams ps p → GResults rs r → GType (.id (n! "func") :: ps ++ rs) (.func p r)
  | iface {ts : Toks} : Balanced ts → GType (.id (n! "interface") :: .op (n! "{") :: ts ++ [.op (n! "}")]) .iface
  | struct {ts : Toks} {fs : Params} : GFields ts fs → GType (.id (n! "struct") :: .op (n! "{") :: ts ++ [.op (n! "}")]) (.struct fs)

/-- { IdentifierList Type ";" }, where the last semicolon may be missing. -/
inductive GFields : Toks → Params → Prop
  | nil : GFields [] .nil
  | last {ns ts : Toks} {l : List Name} {t : Ty} : GNames ns l → GType ts t → GFields (ns ++ ts) (ofType t l .nil)
  | cons {ns ts rs : Toks} {l : List Name} {t : Ty} {r : Params} : GNames ns l → GType ts t → GFields rs r →
      GFields (ns ++ ts ++ .op (n! ";") :: rs) (ofType t l r)

/-- Parameters = "(" [ ParameterList [ "," ] ] ")" . Either all have names or none. -/
inductive GParams : Toks → Params → Prop
  | types {ts : Toks} {p : Params} : GTypes ts p → GParams (.op (n! "(") :: ts ++ [.op (n! ")")]) p
  | named {ts : Toks} {p : Params} : GNamed ts p → GParams (.op (n! "(") :: ts ++ [.op (n! ")")]) p

/-- Types separated by commas. -/
inductive GTypes : Toks → Params → Prop
  | nil : GTypes [] .nil
  | last {ts : Toks} {t : Ty} : GType ts t → GTypes ts (.cons 0 t .nil)
  | cons {ts rs : Toks} {t : Ty} {r : Params} : GType ts t → GTypes rs r → GTypes (ts ++ .op (n! ",") :: rs) (.cons 0 t r)

/-- IdentifierList Type, separated by commas. -/
inductive GNamed : Toks → Params → Prop
  | nil : GNamed [] .nil
  | last {ns ts : Toks} {l : List Name} {t : Ty} : GNames ns l → GType ts t → GNamed (ns ++ ts) (ofType t l .nil)
  | cons {ns ts rs : Toks} {l : List Name} {t : Ty} {r : Params} : GNames ns l → GType ts t → GNamed rs r →
      GNamed (ns ++ ts ++ .op (n! ",") :: rs) (ofType t l r)

/-- [ Result ], Result = Parameters | Type . -/
inductive GResults : Toks → Params → Prop
  | none : GResults [] .nil
  | one {ts : Toks} {t : Ty} : GType ts t → GResults ts (.cons 0 t .nil)
  | many {ts : Toks} {p : Params} : GParams ts p → GResults ts p

/-- Expression, of operators with at least the precedence given. The left operand of an operator may have operators of the same precedence,
the right one only of higher. The first argument is true between a keyword and the block that belongs to it: there a brace after a type name
begins that block and not a composite literal. -/
inductive GExpr : Bool → Nat → Toks → Expr → Prop
  | unary {nl : Bool} {p : Nat} {ts : Toks} {e : Expr} : GUnary nl ts e → GExpr nl p ts e
  | bin {nl : Bool} {p q : Nat} {o : Name} {op : BinOp} {as bs : Toks} {a b : Expr} : (o, op, q) ∈ binaryOps → p ≤ q → GExpr nl q as a →
      GExpr nl (q + 1) bs b → GExpr nl p (as ++ .op o :: bs) (.bin op a b)

/-- UnaryExpr = PrimaryExpr | unary_op UnaryExpr . -/
inductive GUnary : Bool → Toks → Expr → Prop
  | primary {nl : Bool} {ts : Toks} {e : Expr} : GPrimary nl ts e → GUnary nl ts e
  | un {nl : Bool} {o : Name} {op : UnOp} {ts : Toks} {e : Expr} : (o, op) ∈ unOps → GUnary nl ts e → GUnary nl (.op o :: ts) (.un op e)

/-- PrimaryExpr: operands, and operands followed by selectors, indices and so on. A conversion is written like a call. -/
inductive GPrimary : Bool → Toks → Expr → Prop
  | int {nl : Bool} {n : Nat} : GPrimary nl [.int n] (.int n)
  | str {nl : Bool} {s : List Nat} : GPrimary nl [.str s] (.str s)
  | id {nl : Bool} {n : Name} : IsIdent n → GPrimary nl [.id n] (.id n)
  | paren {nl : Bool} {ts : Toks} {e : Expr} : GExpr false 1 ts e → GPrimary nl (.op (n! "(") :: ts ++ [.op (n! ")")]) e
  | ty {nl : Bool} {ts : Toks} {t : Ty} : IsLitType t → GType ts t → GPrimary nl ts (.ty t)
  | func {nl : Bool} {ps rs bs : Toks} {p r : Params} {b : Stmts} : GParams ps p → GResults rs r → GBlock bs b →
      GPrimary nl (.id (n! "func") :: ps ++ rs ++ bs) (.func p r b)
  | sel {nl : Bool} {ts : Toks} {e : Expr} {n : Name} : GPrimary nl ts e → IsIdent n → GPrimary nl (ts ++ [.op (n! "."), .id n]) (.sel e n)
  | assert {nl : Bool} {ts us : Toks} {e : Expr} {t : Ty} : GPrimary nl ts e → GType us t →
      GPrimary nl (ts ++ .op (n! ".") :: .op (n! "(") :: us ++ [.op (n! ")")]) (.assert e t)
  | call {nl : Bool} {ts us : Toks} {e : Expr} {es : Exprs} {dots : Bool} : GPrimary nl ts e → GArgs us es dots →
      GPrimary nl (ts ++ .op (n! "(") :: us ++ [.op (n! ")")]) (.call e es dots)
  | idx {nl : Bool} {ts us : Toks} {e i : Expr} : GPrimary nl ts e → GExpr false 1 us i →
      GPrimary nl (ts ++ .op (n! "[") :: us ++ [.op (n! "]")]) (.idx e i)
  | slc {nl : Bool} {ts us vs : Toks} {e lo hi : Expr} : GPrimary nl ts e → GOpt us lo → GOpt vs hi →
      GPrimary nl (ts ++ .op (n! "[") :: us ++ .op (n! ":") :: vs ++ [.op (n! "]")]) (.slc e lo hi)
  | comp {nl : Bool} {ts us : Toks} {e : Expr} {t : Ty} {es : Elts} : GPrimary nl ts e → LitType e t → nl = false ∨ IsTy e → GElts us es →
      GPrimary nl (ts ++ .op (n! "{") :: us ++ [.op (n! "}")]) (.comp t es)

/-- [ Expression ] -/
inductive GOpt : Toks → Expr → Prop
  | none : GOpt [] .none
  | some {ts : Toks} {e : Expr} : GExpr false 1 ts e → GOpt ts e

/-- [ ExpressionList [ "..." ] [ "," ] ] -/
inductive GArgs : Toks → Exprs → Bool → Prop
  | nil : GArgs [] .nil false
  | last {ts : Toks} {e : Expr} : GExpr false 1 ts e → GArgs ts (.cons e .nil) false
  | dots {ts : Toks} {e : Expr} : GExpr false 1 ts e → GArgs (ts ++ [.op (n! "...")]) (.cons e .nil) true
  | dotsComma {ts : Toks} {e : Expr} : GExpr false 1 ts e → GArgs (ts ++ [.op (n! "..."), .op (n! ",")]) (.cons e .nil) true
  | cons {ts us : Toks} {e : Expr} {es : Exprs} {d : Bool} : GExpr false 1 ts e → GArgs us es d → GArgs (ts ++ .op (n! ",") :: us) (.cons e es) d

/-- KeyedElement = [ Key ":" ] Element . Keys are names. -/
inductive GElt : Toks → Name → Expr → Prop
  | plain {ts : Toks} {e : Expr} : GExpr false 1 ts e → GElt ts 0 e
  | keyed {ts us : Toks} {k : Name} {e : Expr} : GExpr false 1 ts (.id k) → GExpr false 1 us e → GElt (ts ++ .op (n! ":") :: us) k e

/-- [ ElementList [ "," ] ] -/
inductive GElts : Toks → Elts → Prop
  | nil : GElts [] .nil
  | last {ts : Toks} {k : Name} {e : Expr} : GElt ts k e → GElts ts (.cons k e .nil)
  | cons {ts us : Toks} {k : Name} {e : Expr} {es : Elts} : GElt ts k e → GElts us es → GElts (ts ++ .op (n! ",") :: us) (.cons k e es)

/-- ExpressionList = Expression { "," Expression } . -/
inductive GExprs : Bool → Toks → Exprs → Prop
  | one {nl : Bool} {ts : Toks} {e : Expr} : GExpr nl 1 ts e → GExprs nl ts (.cons e .nil)
  | more {nl : Bool} {ts us : Toks} {e : Expr} {es : Exprs} : GExpr nl 1 ts e → GExprs nl us es → GExprs nl (ts ++ .op (n! ",") :: us) (.cons e es)

/-- SimpleStmt = EmptyStmt | ExpressionStmt | IncDecStmt | Assignment | ShortVarDecl . -/
inductive GSimple : Bool → Toks → Stmt → Prop
  | skip {nl : Bool} : GSimple nl [] .skip
  | expr {nl : Bool} {ts : Toks} {e : Expr} : GExpr nl 1 ts e → GSimple nl ts (.expr e)
  | assign {nl : Bool} {ts us : Toks} {es rs : Exprs} : GExprs nl ts es → GExprs nl us rs → GSimple nl (ts ++ .op (n! "=") :: us) (.assign es rs)
  | define {nl : Bool} {ts us : Toks} {es rs : Exprs} {ns : List Name} : GExprs nl ts es → AreNames es ns → GExprs nl us rs →
      GSimple nl (ts ++ .op (n! ":=") :: us) (.define ns rs)
  | opAssign {nl : Bool} {ts us : Toks} {o : Name} {op : BinOp} {e r : Expr} : (o, op) ∈ assignOps → GExpr nl 1 ts e → GExpr nl 1 us r →
      GSimple nl (ts ++ .op o :: us) (.opAssign op e r)
  | inc {nl : Bool} {ts : Toks} {e : Expr} : GExpr nl 1 ts e → GSimple nl (ts ++ [.op (n! "++")]) (.opAssign .add e (.int 1))
  | dec {nl : Bool} {ts : Toks} {e : Expr} : GExpr nl 1 ts e → GSimple nl (ts ++ [.op (n! "--")]) (.opAssign .sub e (.int 1))

/-- RangeClause = IdentifierList ":=" "range" Expression . -/
inductive GRange : Toks → Name → Name → Expr → Prop
  | one {ts us : Toks} {es : Exprs} {k : Name} {e : Expr} : GExprs true ts es → AreNames es [k] → GExpr true 1 us e →
      GRange (ts ++ .op (n! ":=") :: .id (n! "range") :: us) k 0 e
  | two {ts us : Toks} {es : Exprs} {k v : Name} {e : Expr} : GExprs true ts es → AreNames es [k, v] → GExpr true 1 us e →
      GRange (ts ++ .op (n! ":=") :: .id (n! "range") :: us) k v e

/-- Block = "{" StatementList "}" . -/
inductive GBlock : Toks → Stmts → Prop
  | block {ts : Toks} {b : Stmts} : GStmts ts b → GBlock (.op (n! "{") :: ts ++ [.op (n! "}")]) b

/-- StatementList = { Statement ";" }, where the last semicolon may be missing. Empty statements are dropped. -/
inductive GStmts : Toks → Stmts → Prop
  | nil : GStmts [] .nil
  | empty {ts : Toks} {b : Stmts} : GStmts ts b → GStmts (.op (n! ";") :: ts) b
  | last {ts : Toks} {s : Stmt} : GStmt ts s → GStmts ts (.cons s .nil)
  | cons {ts us : Toks} {s : Stmt} {b : Stmts} : GStmt ts s → GStmts us b → GStmts (ts ++ .op (n! ";") :: us) (.cons s b)

/-- Statement. -/
inductive GStmt : Toks → Stmt → Prop
  | ret0 : GStmt [.id (n! "return")] (.ret .nil)
  | ret {ts : Toks} {es : Exprs} : GExprs false ts es → GStmt (.id (n! "return") :: ts) (.ret es)
  | brk : GStmt [.id (n! "break")] .brk
  | cont : GStmt [.id (n! "continue")] .cont
  | ifs {ts : Toks} {s : Stmt} : GIf ts s → GStmt (.id (n! "if") :: ts) s
  | forever {ts : Toks} {b : Stmts} : GBlock ts b → GStmt (.id (n! "for") :: ts) (.for .skip (.id (n! "true")) .skip b)
  | while {ts us : Toks} {e : Expr} {b : Stmts} : GExpr true 1 ts e → GBlock us b → GStmt (.id (n! "for") :: ts ++ us) (.for .skip e .skip b)
  | for {ts us vs ws : Toks} {s p : Stmt} {e : Expr} {b : Stmts} : GSimple true ts s → GCond us e → GSimple true vs p → GBlock ws b →
      GStmt (.id (n! "for") :: ts ++ .op (n! ";") :: us ++ .op (n! ";") :: vs ++ ws) (.for s e p b)
  | range {ts us : Toks} {k v : Name} {e : Expr} {b : Stmts} : GRange ts k v e → GBlock us b → GStmt (.id (n! "for") :: ts ++ us) (.range k v e b)
  | switch0 {us : Toks} {cs : Cases} : GCases us cs → GStmt (.id (n! "switch") :: .op (n! "{") :: us ++ [.op (n! "}")]) (.switch .none cs)
  | switch {ts us : Toks} {e : Expr} {cs : Cases} : GExpr true 1 ts e → GCases us cs →
      GStmt (.id (n! "switch") :: ts ++ .op (n! "{") :: us ++ [.op (n! "}")]) (.switch e cs)
  | varTy {ns ts : Toks} {l : List Name} {t : Ty} : GNames ns l → GType ts t → GStmt (.id (n! "var") :: ns ++ ts) (.var l t .nil)
  | varVal {ns us : Toks} {l : List Name} {es : Exprs} : GNames ns l → GExprs false us es →
      GStmt (.id (n! "var") :: ns ++ .op (n! "=") :: us) (.var l .none es)
  | varTyVal {ns ts us : Toks} {l : List Name} {t : Ty} {es : Exprs} : GNames ns l → GType ts t → GExprs false us es →
      GStmt (.id (n! "var") :: ns ++ ts ++ .op (n! "=") :: us) (.var l t es)
  | const {n : Name} {ts : Toks} {e : Expr} : IsIdent n → GExpr false 1 ts e → GStmt (.id (n! "const") :: .id n :: .op (n! "=") :: ts) (.const n e)
  | block {ts : Toks} {b : Stmts} : GBlock ts b → GStmt ts (.block b)
  | simple {ts : Toks} {s : Stmt} : GSimple false ts s → s ≠ .skip → GStmt ts s

/-- The condition of a for clause; `true` if it is missing. -/
inductive GCond : Toks → Expr → Prop
  | none : GCond [] (.id (n! "true"))
  | some {ts : Toks} {e : Expr} : GExpr true 1 ts e → GCond ts e

/-- [ SimpleStmt ";" ] Expression Block [ "else" ( IfStmt | Block ) ] -/
inductive GIf : Toks → Stmt → Prop
  | cond {cs ts us : Toks} {c : Expr} {th el : Stmts} : GExpr true 1 cs c → GBlock ts th → GElse us el → GIf (cs ++ ts ++ us) (.ifs .skip c th el)
  | init {ss cs ts us : Toks} {s : Stmt} {c : Expr} {th el : Stmts} : GSimple true ss s → GExpr true 1 cs c → GBlock ts th → GElse us el →
      GIf (ss ++ .op (n! ";") :: cs ++ ts ++ us) (.ifs s c th el)

/-- [ "else" ( IfStmt | Block ) ] -/
inductive GElse : Toks → Stmts → Prop
  | none : GElse [] .nil
  | block {ts : Toks} {b : Stmts} : GBlock ts b → GElse (.id (n! "else") :: ts) b
  | ifs {ts : Toks} {s : Stmt} : GIf ts s → GElse (.id (n! "else") :: .id (n! "if") :: ts) (.cons s .nil)

/-- { ExprCaseClause }, ExprCaseClause = ( "case" ExpressionList | "default" ) ":" StatementList . -/
inductive GCases : Toks → Cases → Prop
  | nil : GCases [] .nil
  | case {es ts us : Toks} {l : Exprs} {b : Stmts} {cs : Cases} : GExprs false es l → GStmts ts b → GCases us cs →
      GCases (.id (n! "case") :: es ++ .op (n! ":") :: ts ++ us) (.cons l b cs)
  | default {ts us : Toks} {b : Stmts} {cs : Cases} : GStmts ts b → GCases us cs →
      GCases (.id (n! "default") :: .op (n! ":") :: ts ++ us) (.cons .nil b cs)

end

/-- { Spec ";" }, where the last semicolon may be missing. -/
inductive GSpecs {α : Type} (G : Toks → α → Prop) : Toks → List α → Prop
  | nil : GSpecs G [] []
  | last {ts : Toks} {a : α} : G ts a → GSpecs G ts [a]
  | cons {ts us : Toks} {a : α} {l : List α} : G ts a → GSpecs G us l → GSpecs G (ts ++ .op (n! ";") :: us) (a :: l)

/-- Spec | "(" { Spec ";" } ")" . -/
inductive GGroup {α : Type} (G : Toks → α → Prop) : Toks → List α → Prop
  | one {ts : Toks} {a : α} : G ts a → GGroup G ts [a]
  | group {ts : Toks} {l : List α} : GSpecs G ts l → GGroup G (.op (n! "(") :: ts ++ [.op (n! ")")]) l

/-- ImportSpec = ImportPath . -/
inductive GImport : Toks → List Nat → Prop
  | path {s : List Nat} : GImport [.str s] s

/-- ConstSpec = identifier "=" Expression . -/
inductive GConst : Toks → Decl → Prop
  | const {n : Name} {ts : Toks} {e : Expr} : IsIdent n → GExpr false 1 ts e → GConst (.id n :: .op (n! "=") :: ts) (.const n e)

/-- VarSpec = identifier ( Type [ "=" Expression ] | "=" Expression ) . -/
inductive GVar : Toks → Decl → Prop
  | ty {n : Name} {ts : Toks} {t : Ty} : IsIdent n → GType ts t → GVar (.id n :: ts) (.var n t .none)
  | val {n : Name} {us : Toks} {e : Expr} : IsIdent n → GExpr false 1 us e → GVar (.id n :: .op (n! "=") :: us) (.var n .none e)
  | tyVal {n : Name} {ts us : Toks} {t : Ty} {e : Expr} : IsIdent n → GType ts t → GExpr false 1 us e →
      GVar (.id n :: ts ++ .op (n! "=") :: us) (.var n t e)

/-- FunctionDecl and MethodDecl after the keyword. Receivers have names. -/
inductive GFunc : Toks → Decl → Prop
  | func {n : Name} {ps rs bs : Toks} {p r : Params} {b : Stmts} : IsIdent n → GParams ps p → GResults rs r → GBlock bs b →
      GFunc (.id n :: ps ++ rs ++ bs) (.func 0 false 0 n p r b)
  | byValue {x t n : Name} {ps rs bs : Toks} {p r : Params} {b : Stmts} : IsIdent x → IsIdent t → IsIdent n → GParams ps p → GResults rs r →
      GBlock bs b → GFunc (.op (n! "(") :: .id x :: .id t :: .op (n! ")") :: .id n :: ps ++ rs ++ bs) (.func x false t n p r b)
  | byPointer {x t n : Name} {ps rs bs : Toks} {p r : Params} {b : Stmts} : IsIdent x → IsIdent t → IsIdent n → GParams ps p → GResults rs r →
      GBlock bs b →
      GFunc (.op (n! "(") :: .id x :: .op (n! "*") :: .id t :: .op (n! ")") :: .id n :: ps ++ rs ++ bs) (.func x true t n p r b)

/-- One declaration, which may declare many things. -/
inductive GDecl : Toks → List Decl → Prop
  | func {ts : Toks} {d : Decl} : GFunc ts d → GDecl (.id (n! "func") :: ts) [d]
  | type {n : Name} {ts : Toks} {t : Ty} : IsIdent n → GType ts t → GDecl (.id (n! "type") :: .id n :: ts) [.type n t]
  | const {ts : Toks} {l : List Decl} : GGroup GConst ts l → GDecl (.id (n! "const") :: ts) l
  | var {ts : Toks} {l : List Decl} : GGroup GVar ts l → GDecl (.id (n! "var") :: ts) l

/-- { TopLevelDecl ";" } -/
inductive GDecls : Toks → List Decl → Prop
  | nil : GDecls [] []
  | cons {ts us : Toks} {ds es : List Decl} : GDecl ts ds → GDecls us es → GDecls (ts ++ .op (n! ";") :: us) (ds ++ es)

/-- { ImportDecl ";" } -/
inductive GImports : Toks → List (List Nat) → Prop
  | nil : GImports [] []
  | cons {ts us : Toks} {is js : List (List Nat)} : GGroup GImport ts is → GImports us js →
      GImports (.id (n! "import") :: ts ++ .op (n! ";") :: us) (is ++ js)

/-- SourceFile = "package" PackageName ";" { ImportDecl ";" } { TopLevelDecl ";" } . -/
inductive GFile : Toks → File → Prop
  | file {n : Name} {is ds : Toks} {l : List (List Nat)} {d : List Decl} : IsIdent n → GImports is l → GDecls ds d →
      GFile (.id (n! "package") :: .id n :: .op (n! ";") :: is ++ ds) ⟨n, l, d⟩

end GoLang
