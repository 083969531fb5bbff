import Verif.Lang.Attr
import Lean.Meta.Tactic.Simp.BuiltinSimprocs
import Verif.Lang.Std

/-!
# Rules for proofs about programs
-/
namespace GoLang

open Lean Meta Simp in
/-- Compare the numbers of two names. -/
dsimproc [go] reduceBeq (Nat.beq _ _) := fun e => do
  let_expr Nat.beq a b := e | return .continue
  let some m ← getNatValue? (← whnfR a) | return .continue
  let some n ← getNatValue? (← whnfR b) | return .continue
  return .done (toExpr (m == n))

open Lean Meta in
/-- The weak head normal form of an option, if it is found. -/
def lookup (e : Lean.Expr) : MetaM (Option Lean.Expr) := do
  if e.hasExprMVar then return none
  let .ok r := Kernel.whnf (← Lean.getEnv) (← getLCtx) e | return none
  if r.isAppOf ``Option.some || r.isAppOf ``Option.none then return some r else return none

open Lean Meta Simp in
/-- Find a type in the declarations of a package. -/
dsimproc [go] reduceFindType (findType _ _) := fun e => do
  let some r ← lookup e | return .continue
  return .done r

open Lean Meta Simp in
/-- Find a function in the declarations of a package. -/
dsimproc [go] reduceFindFunc (findFunc _ _ _) := fun e => do
  let some r ← lookup e | return .continue
  return .done r

open Lean Meta Simp in
/-- Find a constant, a variable, an import, the boxed variables of a function. -/
dsimproc [go] reduceFindPkg (find _ _) := fun e => do
  let_expr find _ _ l := e | return .continue
  unless l.isAppOf ``Pkg.genv || l.isAppOf ``Pkg.imports || l.isAppOf ``Pkg.boxed do return .continue
  let some r ← lookup e | return .continue
  let_expr Option.some t x := r | return .done r
  unless l.isAppOf ``Pkg.imports do return .done r
  let .ok (.lit (.natVal n)) := Kernel.whnf (← Lean.getEnv) (← getLCtx) x | return .done r
  return .done (mkApp2 (mkConst ``Option.some [Level.zero]) t (toExpr n))

open Lean Meta Simp in
/-- The path of a package. -/
dsimproc [go] reducePath (Pkg.path _) := fun e => do
  if e.hasExprMVar then return .continue
  match Kernel.whnf (← Lean.getEnv) (← getLCtx) e with
  | .ok (.lit (.natVal n)) => return .done (toExpr n)
  | .ok r =>
    match Kernel.whnf (← Lean.getEnv) (← getLCtx) r with
    | .ok (.lit (.natVal n)) => return .done (toExpr n)
    | _ => return .continue
  | _ => return .continue

/-- Evaluate with the rules and others. Every step gets a proof of its own: the kernel would find it hard to see that unfolding
programs many times gives the same. -/
macro "eval_go" "[" ts:Lean.Parser.Tactic.simpLemma,* "]" loc:(Lean.Parser.Tactic.location)? : tactic =>
  `(tactic| simp -implicitDefEqProofs only [go, $ts,*] $[$loc]?)
macro "eval_go" : tactic => `(tactic| simp -implicitDefEqProofs only [go])

@[go ↓] theorem bind_apply {α β : Type} (x : M α) (f : α → M β) (s : St) : (x >>= f) s = (x s).bind f := rfl
@[go ↓] theorem pure_apply {α : Type} (a : α) (s : St) : (pure a : M α) s = .ok a s := rfl
@[go] theorem bind_ok {α β : Type} (a : α) (s : St) (f : α → M β) : (Out.ok a s).bind f = f a s := rfl
@[go] theorem bind_panic {α β : Type} (s : List Val) (f : α → M β) : (Out.panic s).bind f = .panic s := rfl
@[go] theorem bind_stuck {α β : Type} (f : α → M β) : (Out.stuck).bind f = .stuck := rfl
@[go] theorem panic_apply {α : Type} (s : St) : (panic : M α) s = .panic s.heap := rfl
@[go] theorem stuck_apply {α : Type} (s : St) : (stuck : M α) s = .stuck := rfl
@[go] theorem lift_some {α : Type} (a : α) : lift (some a) = pure a := rfl
@[go] theorem lift_none {α : Type} : lift (none : Option α) = stuck := rfl
@[go] theorem orPanic_some {α : Type} (a : α) : orPanic (some a) = pure a := rfl
@[go] theorem orPanic_none {α : Type} : orPanic (none : Option α) = panic := rfl
@[go] theorem getEnv_apply (s : St) : getEnv s = .ok s.env s := rfl
@[go ↓] theorem ite_apply {α : Type} (p : Prop) [Decidable p] (x y : M α) (s : St) : (if p then x else y) s = if p then x s else y s := by
  split <;> rfl
@[go ↓] theorem cond_apply {α : Type} (b : Bool) (x y : M α) (s : St) : (bif b then x else y) s = bif b then x s else y s := by
  cases b <;> rfl

theorem bind_of_ok {α β : Type} {x : Out α} {a : α} {s : St} (f : α → M β) (h : x = .ok a s) : x.bind f = f a s := by rw [h, bind_ok]
theorem bind_of_panic {α β : Type} {x : Out α} {s : List Val} (f : α → M β) (h : x = .panic s) : x.bind f = .panic s := by rw [h, bind_panic]
theorem bind_of_stuck {α β : Type} {x : Out α} (f : α → M β) (h : x = .stuck) : x.bind f = .stuck := by rw [h, bind_stuck]
theorem bind_of_eq {α β : Type} {x y : Out α} (f : α → M β) (h : x = y) : x.bind f = y.bind f := by rw [h]

open Lean Meta Simp in
/-- Loops are left as they are. -/
dsimproc ↓ [go] keepLoop (loop _ _ _ _ _) := fun e => do
  let_expr loop _ _ _ n s := e | return .continue
  return .done (mkApp2 e.appFn!.appFn! (← dsimp n) (← dsimp s))

open Lean Meta Simp in
/-- Loops are left as they are. -/
dsimproc ↓ [go] keepRange (rangeLoop _ _ _ _) := fun e => do
  let_expr rangeLoop _ i n s := e | return .continue
  return .done (mkApp3 e.appFn!.appFn!.appFn! (← dsimp i) (← dsimp n) (← dsimp s))

open Lean Meta Simp in
/-- Simplify what is done first, and then what follows. -/
simproc ↓ [go] reduceBind (Out.bind _ _) := fun e => do
  let_expr Out.bind _ _ x f := e | return .continue
  let r ← simp x
  match_expr r.expr with
  | Out.ok _ a s => return .visit { expr := (mkApp2 f a s).headBeta, proof? := ← mkAppM ``bind_of_ok #[f, ← r.getProof] }
  | Out.panic _ s =>
    let_expr Out.bind _ β _ _ := e | return .continue
    return .done { expr := ← mkAppOptM ``Out.panic #[β, s], proof? := ← mkAppM ``bind_of_panic #[f, ← r.getProof] }
  | Out.stuck _ =>
    let_expr Out.bind _ β _ _ := e | return .continue
    return .done { expr := ← mkAppOptM ``Out.stuck #[β], proof? := ← mkAppM ``bind_of_stuck #[f, ← r.getProof] }
  | _ => return .done { expr := ← mkAppM ``Out.bind #[r.expr, f], proof? := ← mkAppM ``bind_of_eq #[f, ← r.getProof] }

@[congr] theorem cond_congr' {α : Type} {a b : Bool} (x y : α) (h : a = b) : cond a x y = cond b x y := by rw [h]

attribute [go] Nat.reduceAdd Nat.reduceSub Nat.reduceMul Nat.reduceLeDiff reduceIte reduceDIte Int.reduceEq Int.reduceTDiv Int.reduceTMod Int.reduceToNat Int.reduceAdd Int.reduceSub Int.reduceMul BitVec.reduceOfInt BitVec.reduceEq reduceCtorEq List.reduceReplicate

section ctx
variable (P : Prog) (n : Nat) (k : Pkg) (f : Name) (rs : Params) (call : Name → Name → Name → List Val → List Val → Out (List Val))
@[go] theorem ctx_W : (P.ctx n k f rs call).W = P.W := rfl
@[go] theorem ctx_fuel : (P.ctx n k f rs call).fuel = n := rfl
@[go] theorem ctx_pkg : (P.ctx n k f rs call).pkg = k := rfl
@[go] theorem ctx_boxed : (P.ctx n k f rs call).boxed = (find f k.boxed).getD [] := rfl
@[go] theorem ctx_results : (P.ctx n k f rs call).results = rs := rfl
@[go] theorem ctx_repo : (P.ctx n k f rs call).repo = P.pkgs.map Pkg.path := rfl
@[go] theorem ctx_methods : (P.ctx n k f rs call).methods = P.methods := rfl
@[go] theorem ctx_other : (P.ctx n k f rs call).other = P.other := rfl
@[go] theorem ctx_call : (P.ctx n k f rs call).call = call := rfl
@[go] theorem ctx_std : (P.ctx n k f rs call).std = P.std := rfl
@[go] theorem ctx_native : (P.ctx n k f rs call).native = P.native := rfl
@[go] theorem ctx_grow : (P.ctx n k f rs call).grow = P.grow := rfl
end ctx

attribute [go] Bool.not_eq_eq_eq_not beq_eq_false_iff_ne ne_eq beq_iff_eq not_true_eq_false decide_eq_true_eq decide_eq_false_iff_not beq_self_eq_true true_and and_true and_self Int.natCast_nonneg Int.toNat_natCast
@[go] theorem cast_lt_cast {a b : Nat} : (a : Int) < b ↔ a < b := Int.ofNat_lt
attribute [go] cond_true cond_false Bool.or_true Bool.or_false Bool.true_or Bool.false_or Bool.and_true Bool.and_false Bool.true_and
  Bool.false_and Bool.not_true Bool.not_false Option.isSome_some Option.isSome_none Option.getD_some Option.getD_none Option.map_some Option.map_none
  List.length_cons List.length_nil if_true if_false Bool.false_eq_true eq_self implies_true forall_const imp_false not_false_eq_true decide_true decide_false BitVec.setWidth_eq Int.cast_ofNat_Int List.drop_zero List.drop_succ_cons Nat.sub_self List.map_cons List.map_nil List.cons_append List.nil_append

go_eqns getPath setPath setField find elemN
go_eqns like deflt arithU arithI arithC exact tyDepth ofResults typeName isAbsent compType isBox single noBrk isDefault isLast placeOf Loc.sub
  Params.length Exprs.length resolve constNat zero zero.zeros isVar callee asPkg hasType recvPtr? method? isType basicTypes allParams
go_eqns ↓ load store alloc elems storeElems elemsIn bytesIn arith count shift equal less binary unary toBits lenOf rangeLen index
go_eqns ↓ unbox getVar declare scope loadLoc storeLoc storeAll declareAll convert coerce
  coerceAll bindParams bindResults namedResults builtin optional sliceable fromCall callLen callAppend callAppendDots callCopy
  callMake callNew andThen orElse binOp address loadHeap unOp callConv callAs select globalLoc varLoc fieldLoc elemLoc unLoc typeTest ofTuple
  evalMulti caseIs varValues retValues declareIf caseOf andNext pushVar afterBody bound slicing fieldValue appendTo copyTo makeLen makeSlice
  callPkg callVal globalId evalId otherVar field elemAt fillFields fillByPos coerceElems compLit callMethod derefLoc addrOf
  eval evalRecv recvPlace evals evalElts lval lvals evalRhs evalBool caseMatches exec execs execCases result leave callBody

/-- Values that are neither constants nor references to variables in memory. -/
def Plain : Val → Prop
  | .const _ => False
  | .box _ => False
  | _ => True

go_eqns Plain

@[go ↓] theorem unbox_plain {v : Val} (h : Plain v) : unbox v = pure v := by
  cases v <;> first | rfl | exact h.elim

@[go ↓] theorem placeOf_plain (n : Name) {v : Val} (h : Plain v) : placeOf n v = .var n [] := by
  cases v <;> first | rfl | exact h.elim

@[go ↓] theorem like_plain (v : Val) {w : Val} (h : Plain w) : like v w = w := by
  cases w <;> first | rfl | exact h.elim

@[go ↓] theorem deflt_plain {w : Val} (h : Plain w) : deflt w = w := by
  cases w <;> first | rfl | exact h.elim

@[go ↓] theorem coerce_plain (c : Ctx) (t : Ty) {w : Val} (h : Plain w) : coerce c t w = pure w := by
  cases w <;> first | rfl | exact h.elim

/-- A loop that runs `k` times through the states `S 0`, …, `S k`. -/
theorem loop_count {cond : M Bool} {body : M Ctl} {post : M Unit} (S : Nat → St) (k : Nat)
    (h : ∀ i, i < k → cond (S i) = .ok true (S i) ∧ ∃ s, body (S i) = .ok .next s ∧ post s = .ok () (S (i + 1)))
    (hend : cond (S k) = .ok false (S k)) {n : Nat} (hn : k < n) {s : St} (hs : s = S 0) :
    loop cond body post n s = .ok .next (S k) := by
  subst hs
  induction n generalizing S k with
  | zero => omega
  | succ n ih =>
    cases k with
    | zero =>
      rw [loop]
      simp [go, hend]
    | succ k =>
      obtain ⟨hc, s, hb, hp⟩ := h 0 (by omega)
      rw [loop]
      simp only [go, hc, hb, hp, if_true]
      exact ih (fun i => S (i + 1)) k (fun i hi => h (i + 1) (by omega)) hend (by omega)

section loop
variable {cond : M Bool} {body : M Ctl} {post : M Unit} {n : Nat} {s s₁ s₂ s₃ : St}

theorem loop_false (h : cond s = .ok false s₁) : loop cond body post (n + 1) s = .ok .next s₁ := by
  rw [loop]
  simp [go, h]

theorem loop_next (h : cond s = .ok true s₁) (hb : body s₁ = .ok .next s₂) (hp : post s₂ = .ok () s₃) :
    loop cond body post (n + 1) s = loop cond body post n s₃ := by
  rw [loop]
  simp [go, h, hb, hp]

theorem loop_ret {vs : List Val} (h : cond s = .ok true s₁) (hb : body s₁ = .ok (.ret vs) s₂) :
    loop cond body post (n + 1) s = .ok (.ret vs) s₂ := by
  rw [loop]
  simp [go, h, hb]

theorem loop_brk (h : cond s = .ok true s₁) (hb : body s₁ = .ok .brk s₂) : loop cond body post (n + 1) s = .ok .next s₂ := by
  rw [loop]
  simp [go, h, hb]

theorem loop_panic {m : List Val} (h : cond s = .ok true s₁) (hb : body s₁ = .panic m) : loop cond body post (n + 1) s = .panic m := by
  rw [loop]
  simp [go, h, hb]

/-- Induction over a measure of the states `S x`, which bounds the iterations that are left. -/
theorem loop_wf {α : Type} {cond : M Bool} {body : M Ctl} {post : M Unit} (I : α → Prop) (S : α → St) (fin : α → Out Ctl) (m : α → Nat)
    (h : ∀ x n, I x → m x ≤ n → (∀ y, I y → m y < m x → loop cond body post n (S y) = fin y) → loop cond body post (n + 1) (S x) = fin x)
    (x : α) {n : Nat} (hI : I x) (hn : m x < n) {s : St} (hs : s = S x) : loop cond body post n s = fin x := by
  subst hs
  induction n generalizing x with
  | zero => omega
  | succ n ih => exact h x n hI (by omega) fun y hI hy => ih y hI (by omega)

end loop

theorem run_func {P : Prog} {path t f : Name} {k : Pkg} {r : Name} {b : Bool} {u g : Name} {ps rs : Params} {body : Stmts}
    (hP : findPkg path P.pkgs = some k) (hf : findFunc t f k.decls = some (.func r b u g ps rs body)) (n : Nat) (args h : List Val) :
    run P (n + 1) path t f args h = callBody (P.ctx n k f rs (run P n)) (allParams r t ps) rs body args h := by
  rw [run]
  simp only [hP, hf]

/-- A package of the program is not one of the standard library. -/
theorem elem_repo {path : Name} {l : List Pkg} {k : Pkg} (hP : findPkg path l = some k) : elemN path (l.map Pkg.path) = true := by
  induction l with
  | nil => simp [findPkg] at hP
  | cons p l ih =>
    rw [findPkg] at hP
    cases hb : Nat.beq path p.path with
    | true => simp [elemN, hb]
    | false =>
      rw [hb] at hP
      simp [elemN, ih hP]

theorem loop_ex {α β : Type} {cond : M Bool} {body : M Ctl} {post : M Unit} (I : α → Prop) (S : α → St) (fin : α → β → Out Ctl) (m : α → Nat)
    (h : ∀ x n, I x → m x ≤ n → (∀ y, I y → m y < m x → ∃ b, loop cond body post n (S y) = fin y b) →
      ∃ b, loop cond body post (n + 1) (S x) = fin x b)
    (x : α) {n : Nat} (hI : I x) (hn : m x < n) {s : St} (hs : s = S x) {r : Out Ctl} (hr : loop cond body post n s = r) : ∃ b, r = fin x b := by
  subst hs hr
  induction n generalizing x with
  | zero => omega
  | succ n ih => exact h x n hI (by omega) fun y hI hy => ih y hI (by omega)

/-- Induction over a measure, for what is known of the outcome. -/
theorem loop_post {α : Type} {cond : M Bool} {body : M Ctl} {post : M Unit} (Q : Out Ctl → Prop) (I : α → Prop) (S : α → St) (m : α → Nat)
    (h : ∀ x n, I x → m x ≤ n → (∀ y, I y → m y < m x → Q (loop cond body post n (S y))) → Q (loop cond body post (n + 1) (S x)))
    (x : α) {n : Nat} (hI : I x) (hn : m x < n) {s : St} (hs : s = S x) {r : Out Ctl} (hr : loop cond body post n s = r) : Q r := by
  subst hs hr
  induction n generalizing x with
  | zero => omega
  | succ n ih => exact h x n hI (by omega) fun y hI hy => ih y hI (by omega)

theorem range_post {α : Type} {body : Nat → M Ctl} (Q : Out Ctl → Prop) (I : Nat → α → Prop) (S : Nat → α → St)
    (N : Nat) (h : ∀ i k x, i < N → I i x → (∀ y, I (i + 1) y → Q (rangeLoop body (i + 1) k (S (i + 1) y))) → Q (rangeLoop body i (k + 1) (S i x)))
    (h0 : ∀ x, I N x → Q (.ok .next (S N x))) (i : Nat) {k : Nat} (hk : i + k = N) (x : α) (hI : I i x) {s : St} (hs : s = S i x)
    {r : Out Ctl} (hr : rangeLoop body i k s = r) : Q r := by
  subst hs hr
  induction k generalizing i x with
  | zero =>
    obtain rfl : i = N := by omega
    exact h0 x hI
  | succ k ih => exact h i k x (by omega) hI fun y hy => ih (i + 1) (by omega) y hy

theorem wrap_eq {W : Nat} {i : Int} (h : -(2 : Int) ^ (W - 1) ≤ i) (h' : i < (2 : Int) ^ (W - 1)) (hW : 0 < W) : wrap W i = i := by
  obtain ⟨w, rfl⟩ : ∃ w, W = w + 1 := ⟨W - 1, by omega⟩
  simp only [Nat.add_sub_cancel] at h h'
  unfold wrap
  apply Int.bmod_eq_of_le
  · push_cast; rw [Int.pow_succ]; omega
  · push_cast; rw [Int.pow_succ]; omega

theorem wrap_nat {W i : Nat} (h : (i : Int) < 2 ^ (W - 1)) (hW : 0 < W) : wrap W i = i := by
  apply wrap_eq _ h hW
  have : (0 : Int) ≤ 2 ^ (W - 1) := Int.pow_nonneg (by decide)
  omega

theorem wrap_succ {W i n : Nat} (h : i < n) (hn : (n : Int) < 2 ^ (W - 1)) (hW : 0 < W) : wrap W ((i : Int) + 1) = (i + 1 : Nat) := by
  rw [← wrap_nat (W := W) (i := i + 1) (by omega) hW]
  simp

theorem wrap_add {W i k : Nat} (h : ((i + k : Nat) : Int) < 2 ^ (W - 1)) (hW : 0 < W) : wrap W ((i : Int) + k) = (i + k : Nat) := by
  rw [← wrap_nat h hW]
  simp

theorem wrap_sub {W i k : Nat} (h : (i : Int) < 2 ^ (W - 1)) (hk : k ≤ i) (hW : 0 < W) : wrap W ((i : Int) - k) = (i - k : Nat) := by
  rw [← wrap_nat (W := W) (i := i - k) (by omega) hW, Int.ofNat_sub hk]

end GoLang
