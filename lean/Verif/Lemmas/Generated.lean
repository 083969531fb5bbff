import Verif.Lang.Parser

/-! # The parser on functions that return a sum of string literals, or a composite literal of numbers -/
namespace GoLang

theorem bind_some {α β : Type} {x : P α} {f : α → P β} {l l' : List Tok} {a : α} (h : x l = some (a, l')) : P.bind x f l = f a l' := by
  rw [P.bind, h]

/-- The tokens of numbers with commas, after the opening brace. -/
def eltToks : List Nat → List Tok
  | [] => [.op (n! "}")]
  | [a] => [.int a, .op (n! "}")]
  | a :: b :: l => .int a :: .op (n! ",") :: eltToks (b :: l)

def intElts : List Nat → Elts
  | [] => .nil
  | a :: l => .cons 0 (.int a) (intElts l)

/-- The tokens of further summands. -/
def plusToks : List (List Nat) → List Tok
  | [] => []
  | s :: l => .op (n! "+") :: .str s :: plusToks l

/-- A sum of string literals. -/
def strSum (e : Expr) : List (List Nat) → Expr
  | [] => e
  | s :: l => strSum (.bin .add e (.str s)) l

theorem pElts_toks : ∀ (l : List Nat) (k : Nat) (r : List Tok), pElts (k + l.length + 5) (eltToks l ++ r) = some (intElts l, r)
  | [], k, r => rfl
  | [a], k, r => rfl
  | a :: b :: l, k, r => by
    have ih := pElts_toks (b :: l) k r
    have : pElts (k + (a :: b :: l).length + 5) (eltToks (a :: b :: l) ++ r) =
        P.bind (pElts (k + (b :: l).length + 5)) (fun es => P.pure (.cons 0 (.int a) es)) (eltToks (b :: l) ++ r) := rfl
    rw [this, bind_some ih]
    rfl

theorem pStr_operand (k p : Nat) (s : List Nat) (o : Name) (l : List Tok) (h : o = n! "+" ∨ o = n! ";") :
    pExpr (k + 4) 5 false (.str s :: .op o :: l) = some (.str s, .op o :: l) := by
  rcases h with rfl | rfl <;> rfl

theorem plusToks_head (ss : List (List Nat)) (r : List Tok) : ∃ o l, plusToks ss ++ .op (n! ";") :: r = .op o :: l ∧ (o = n! "+" ∨ o = n! ";") := by
  cases ss with
  | nil => exact ⟨_, _, rfl, .inr rfl⟩
  | cons s ss => exact ⟨_, _, rfl, .inl rfl⟩

theorem pBin_toks : ∀ (ss : List (List Nat)) (k : Nat) (e : Expr) (r : List Tok),
    pBin (k + ss.length + 5) 1 false e (plusToks ss ++ .op (n! ";") :: r) = some (strSum e ss, .op (n! ";") :: r)
  | [], k, e, r => rfl
  | s :: ss, k, e, r => by
    have ih := pBin_toks ss k (.bin .add e (.str s)) r
    obtain ⟨o, l, e1, e2⟩ := plusToks_head ss r
    rw [e1] at ih
    have h1 : pExpr (k + ss.length + 5) 5 false (.str s :: .op o :: l) = some (.str s, .op o :: l) := pStr_operand (k + ss.length + 1) 5 s o l e2
    have : pBin (k + (s :: ss).length + 5) 1 false e (.op (n! "+") :: .str s :: .op o :: l) =
        P.bind (pExpr (k + ss.length + 5) 5 false) (fun b => pBin (k + ss.length + 5) 1 false (.bin .add e b)) (.str s :: .op o :: l) := rfl
    show pBin (k + (s :: ss).length + 5) 1 false e (.op (n! "+") :: .str s :: (plusToks ss ++ .op (n! ";") :: r)) = _
    rw [e1, this, bind_some h1]
    exact ih

theorem pExpr_sum (s : List Nat) (ss : List (List Nat)) (k : Nat) (r : List Tok) :
    pExpr (k + ss.length + 6) 1 false (.str s :: (plusToks ss ++ .op (n! ";") :: r)) = some (strSum (.str s) ss, .op (n! ";") :: r) := by
  have ih := pBin_toks ss k (.str s) r
  obtain ⟨o, l, e1, e2⟩ := plusToks_head ss r
  rw [e1] at ih ⊢
  have h1 : pUnary (k + ss.length + 5) false (.str s :: .op o :: l) = some (.str s, .op o :: l) := by
    rcases e2 with rfl | rfl <;> rfl
  have : pExpr (k + ss.length + 6) 1 false (.str s :: .op o :: l) =
      P.bind (pUnary (k + ss.length + 5) false) (fun a => pBin (k + ss.length + 5) 1 false a) (.str s :: .op o :: l) := rfl
  rw [this, bind_some h1]
  exact ih

theorem pExpr_comp (l : List Nat) (k : Nat) (r : List Tok) :
    pExpr (k + l.length + 8) 1 false (.op (n! "[") :: .op (n! "]") :: .id (n! "byte") :: .op (n! "{") :: (eltToks l ++ .op (n! ";") :: r)) =
      some (.comp (.slice (.name (n! "byte"))) (intElts l), .op (n! ";") :: r) := by
  have ih := pElts_toks l k (.op (n! ";") :: r)
  have : pExpr (k + l.length + 8) 1 false (.op (n! "[") :: .op (n! "]") :: .id (n! "byte") :: .op (n! "{") :: (eltToks l ++ .op (n! ";") :: r)) =
      P.bind (fun _ => P.bind (pElts (k + l.length + 5)) (fun es => pSuffix (k + l.length + 5) false (.comp (.slice (.name (n! "byte"))) es))
        (eltToks l ++ .op (n! ";") :: r)) (fun a => pBin (k + l.length + 7) 1 false a) [] := rfl
  rw [this]
  refine (bind_some (a := .comp (.slice (.name (n! "byte"))) (intElts l)) (l' := .op (n! ";") :: r) ?_).trans rfl
  exact (bind_some ih).trans rfl

/-- The file that declares one function without parameters, whose body is one return statement. -/
def oneReturn (t : Ty) (e : Expr) : File :=
  ⟨n! "p", [], [.func 0 false 0 (n! "F") .nil (.cons 0 t .nil) (.cons (.ret (.cons e .nil)) .nil)]⟩

/-- The tokens before the expression. -/
def headToks (ty : List Tok) : List Tok := [.id (n! "package"), .id (n! "p"), .op (n! ";"), .id (n! "func"), .id (n! "F"), .op (n! "("), .op (n! ")")] ++ ty ++
  [.op (n! "{"), .id (n! "return")]

def tailToks : List Tok := [.op (n! ";"), .op (n! "}"), .op (n! ";")]

theorem pStmts_return (k : Nat) (t : Tok) (ts : List Tok) (e : Expr) (ht : (∃ s, t = .str s) ∨ t = .op (n! "["))
    (h : pExpr (k + 10) 1 false (t :: (ts ++ tailToks)) = some (e, tailToks)) :
    pStmts (k + 13) (.id (n! "return") :: t :: (ts ++ tailToks)) = some (.cons (.ret (.cons e .nil)) .nil, [.op (n! "}"), .op (n! ";")]) := by
  have h1 : pExprs (k + 11) false (t :: (ts ++ tailToks)) = some (.cons e .nil, tailToks) := (bind_some h).trans rfl
  have h2 : pStmt (k + 12) (.id (n! "return") :: t :: (ts ++ tailToks)) = some (.ret (.cons e .nil), tailToks) := by
    have : pStmt (k + 12) (.id (n! "return") :: t :: (ts ++ tailToks)) = P.bind (pExprs (k + 11) false) (fun es => P.pure (.ret es)) (t :: (ts ++ tailToks)) := by
      rcases ht with ⟨s, rfl⟩ | rfl <;> rfl
    rw [this]
    exact bind_some h1
  exact (bind_some (x := pStmt (k + 12)) h2).trans rfl

theorem pFile_return (k : Nat) (t : Tok) (ts ty : List Tok) (T : Ty) (e : Expr) (ht : (∃ s, t = .str s) ∨ t = .op (n! "["))
    (hty : ty = [.id (n! "string")] ∧ T = .name (n! "string") ∨ ty = [.op (n! "["), .op (n! "]"), .id (n! "byte")] ∧ T = .slice (.name (n! "byte")))
    (h : pExpr (k + 10) 1 false (t :: (ts ++ tailToks)) = some (e, tailToks)) :
    pFile (k + 14) (headToks ty ++ t :: (ts ++ tailToks)) = some (oneReturn T e, []) := by
  have h1 := pStmts_return k t ts e ht h
  have h2 : pBlock (k + 14) (.op (n! "{") :: .id (n! "return") :: t :: (ts ++ tailToks)) = some (.cons (.ret (.cons e .nil)) .nil, [.op (n! ";")]) :=
    (bind_some (x := pStmts (k + 13)) (f := fun b => P.bind (expect (n! "}")) fun _ => P.pure b) h1).trans rfl
  have h3 : pFunc (k + 14) ([.id (n! "F"), .op (n! "("), .op (n! ")")] ++ ty ++ .op (n! "{") :: .id (n! "return") :: t :: (ts ++ tailToks)) =
      some (.func 0 false 0 (n! "F") .nil (.cons 0 T .nil) (.cons (.ret (.cons e .nil)) .nil), [.op (n! ";")]) := by
    have : pFunc (k + 14) ([.id (n! "F"), .op (n! "("), .op (n! ")")] ++ ty ++ .op (n! "{") :: .id (n! "return") :: t :: (ts ++ tailToks)) =
        P.bind (pBlock (k + 14)) (fun b => P.pure (.func 0 false 0 (n! "F") .nil (.cons 0 T .nil) b))
          (.op (n! "{") :: .id (n! "return") :: t :: (ts ++ tailToks)) := by
      rcases hty with ⟨rfl, rfl⟩ | ⟨rfl, rfl⟩ <;> rfl
    rw [this]
    exact bind_some h2
  have h4 : pDecls (k + 14) (k + 14) (.id (n! "func") :: ([.id (n! "F"), .op (n! "("), .op (n! ")")] ++ ty ++ .op (n! "{") :: .id (n! "return") :: t :: (ts ++ tailToks))) =
      some ((oneReturn T e).decls, []) :=
    (bind_some (x := pFunc (k + 14)) (f := fun d => P.bind (expect (n! ";")) fun _ => P.bind (pDecls (k + 14) (k + 13)) fun ds => P.pure (d :: ds)) h3).trans rfl
  have e1 : headToks ty ++ t :: (ts ++ tailToks) = .id (n! "package") :: .id (n! "p") :: .op (n! ";") ::
      .id (n! "func") :: ([.id (n! "F"), .op (n! "("), .op (n! ")")] ++ ty ++ .op (n! "{") :: .id (n! "return") :: t :: (ts ++ tailToks)) := by
    simp [headToks]
  rw [e1]
  exact (bind_some (x := pDecls (k + 14) (k + 14)) (f := fun ds => P.pure (⟨n! "p", [], ds⟩ : File)) h4).trans rfl

end GoLang
