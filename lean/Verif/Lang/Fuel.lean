import Verif.Lang.Rules

/-!
# More fuel changes nothing

A run that is not stuck has the same outcome with any larger amount of fuel.
-/
namespace GoLang

/-- Stuck, or the same. -/
def Out.Le {α : Type} (x y : Out α) : Prop := x = .stuck ∨ x = y

/-- Stuck, or the same, in every state. -/
def M.Le {α : Type} (x y : M α) : Prop := ∀ s, (x s).Le (y s)

theorem Out.Le.rfl {α : Type} {x : Out α} : x.Le x := .inr _root_.rfl
theorem M.Le.rfl {α : Type} {x : M α} : x.Le x := fun _ => .rfl

theorem Out.Le.bind {α β : Type} {x y : Out α} {f g : α → M β} (h : x.Le y) (hf : ∀ a, (f a).Le (g a)) : (x.bind f).Le (y.bind g) := by
  rcases h with rfl | rfl
  · exact .inl _root_.rfl
  · cases x with
    | ok a s => exact hf a s
    | panic => exact .rfl
    | stuck => exact .rfl

theorem M.Le.bind {α β : Type} {x y : M α} {f g : α → M β} (h : x.Le y) (hf : ∀ a, (f a).Le (g a)) : (x >>= f).Le (y >>= g) :=
  fun s => (h s).bind hf

theorem M.Le.scope {α : Type} {x y : M α} (h : x.Le y) : (scope x).Le (scope y) := by
  intro s
  unfold GoLang.scope
  rcases h s with e | e <;> rw [e]
  · exact .inl _root_.rfl
  · exact .rfl

theorem M.Le.ite {α : Type} {p : Prop} [Decidable p] {x y x' y' : M α} (h : x.Le x') (h' : y.Le y') : (if p then x else y).Le (if p then x' else y') := by
  split <;> assumption

theorem M.Le.cond {α : Type} {b : Bool} {x y x' y' : M α} (h : x.Le x') (h' : y.Le y') : (bif b then x else y).Le (bif b then x' else y') := by
  cases b <;> assumption

theorem loop_le {cond cond' : M Bool} {body body' : M Ctl} {post post' : M Unit} (hc : cond.Le cond') (hb : body.Le body') (hp : post.Le post')
    {n m : Nat} (h : n ≤ m) : (loop cond body post n).Le (loop cond' body' post' m) := by
  induction n generalizing m with
  | zero => exact fun s => .inl rfl
  | succ n ih =>
    obtain ⟨m, rfl⟩ : ∃ k, m = k + 1 := ⟨m - 1, by omega⟩
    rw [loop, loop]
    refine hc.bind fun b => .ite (hb.bind fun r => ?_) .rfl
    cases r <;> first | exact .rfl | exact hp.bind fun _ => ih (by omega)

theorem rangeLoop_le {body body' : Nat → M Ctl} (hb : ∀ i, (body i).Le (body' i)) (i n : Nat) : (rangeLoop body i n).Le (rangeLoop body' i n) := by
  induction n generalizing i with
  | zero => exact .rfl
  | succ n ih =>
    rw [rangeLoop, rangeLoop]
    refine (hb i).bind fun r => ?_
    cases r <;> first | exact .rfl | exact ih _

/-- The context with more fuel, and calls that are stuck less often. -/
def Ctx.more (c : Ctx) (fuel : Nat) (call : Name → Name → Name → List Val → List Val → Out (List Val))
    (clo : Params → Params → Stmts → List (Name × Val) → List Val → List Val → Out (List Val)) : Ctx :=
  { c with fuel := fuel, call := call, clo := clo }

section
variable {c : Ctx} {fuel : Nat} {call : Name → Name → Name → List Val → List Val → Out (List Val)}
  {clo : Params → Params → Stmts → List (Name × Val) → List Val → List Val → Out (List Val)}

local notation "c'" => Ctx.more c fuel call clo

theorem declareAll_more (ns : List Name) (vs : List Val) : declareAll c' ns vs = declareAll c ns vs := by kernel_rfl
theorem zero_more (n : Nat) (t : Ty) : zero c' n t = zero c n t := by kernel_rfl
theorem coerceAll_more (ps : Params) (vs : List Val) : coerceAll c' ps vs = coerceAll c ps vs := by kernel_rfl
theorem coerce_more (t : Ty) (v : Val) : coerce c' t v = coerce c t v := by kernel_rfl
theorem bindParams_more (ps : Params) (vs : List Val) : bindParams c' ps vs = bindParams c ps vs := by kernel_rfl
theorem bindResults_more (ps : Params) : bindResults c' ps = bindResults c ps := by kernel_rfl
theorem builtin_more (n : Name) (args : List Val) (d : Bool) : builtin c' n args d = builtin c n args d := by kernel_rfl
theorem callee_more (env : List (Name × Val)) (e : Expr) : callee c' env e = callee c env e := by kernel_rfl
theorem evalId_more (n : Name) : evalId c' n = evalId c n := by kernel_rfl
theorem asPkg_more (env : List (Name × Val)) (e : Expr) : asPkg c' env e = asPkg c env e := by kernel_rfl
theorem compLit_more (t : Ty) (l : List (Name × Val)) : compLit c' t l = compLit c t l := by kernel_rfl
theorem callConv_more (t : Ty) (l : List Val) : callConv c' t l = callConv c t l := by kernel_rfl
theorem method_more (k t m : Name) : method? c' k t m = method? c k t m := by kernel_rfl
theorem otherVar_more (p n : Name) : otherVar c' p n = otherVar c p n := by kernel_rfl
theorem typeName_more (t : Ty) : typeName c' t = typeName c t := by kernel_rfl
theorem typeTest_more (t : Ty) (v : Val) : typeTest c' t v = typeTest c t v := by kernel_rfl
theorem declare_more (n : Name) (v : Val) : declare c' n v = declare c n v := by kernel_rfl

/-- The calls are stuck less often. -/
structure Ctx.Up (c : Ctx) (fuel : Nat) (call : Name → Name → Name → List Val → List Val → Out (List Val))
    (clo : Params → Params → Stmts → List (Name × Val) → List Val → List Val → Out (List Val)) : Prop where
  fuel : c.fuel ≤ fuel
  call : ∀ p t f args h, (c.call p t f args h).Le (call p t f args h)
  clo : ∀ ps rs b env args h, (c.clo ps rs b env args h).Le (clo ps rs b env args h)

theorem fromCall_le {x y : List Val → Out (List Val)} (h : ∀ l, (x l).Le (y l)) : (fromCall x).Le (fromCall y) := by
  intro s
  unfold fromCall
  rcases h s.heap with e | e <;> rw [e]
  · exact .inl rfl
  · exact .rfl

theorem callPkg_le (H : c.Up fuel call clo) (p f : Name) (args : List Val) : (callPkg c p f args).Le (callPkg c' p f args) :=
  .cond (fromCall_le (H.call _ _ _ _)) .rfl

theorem callVal_le (H : c.Up fuel call clo) (v : Val) (args : List Val) : (callVal c v args).Le (callVal c' v args) := by
  cases v <;> first | exact .rfl | exact callPkg_le H _ _ _ | exact fromCall_le (H.clo _ _ _ _ _)

theorem callMethod_le (H : c.Up fuel call clo) (v : Val) {place place' : M Loc} (hp : place.Le place') (m : Name) (args : List Val) :
    (callMethod c v place m args).Le (callMethod c' v place' m args) := by
  have hf : ∀ a b d l, (fromCall (c.call a b d l)).Le (fromCall ((c').call a b d l)) := fun a b d l => fromCall_le (H.call a b d l)
  cases v <;> first
    | exact .rfl
    | (simp only [callMethod, method_more]
       split
       · first | exact hf _ _ _ _ | (refine hp.bind fun l => ?_; cases l <;> first | exact .rfl | exact hf _ _ _ _)
       · first | exact hf _ _ _ _ | exact M.Le.rfl.bind fun l => hf _ _ _ _
       · exact M.Le.rfl.bind fun l => callVal_le H _ _)

theorem callAs_le (H : c.Up fuel call clo) (f : Callee) {val val' recv recv' : M Val} {place place' : M Loc} {args args' : M (List Val)}
    (hv : val.Le val') (hr : recv.Le recv') (hp : place.Le place') (ha : args.Le args') (d : Bool) :
    (callAs c f val recv place args d).Le (callAs c' f val' recv' place' args' d) := by
  cases f with
  | conv t => exact ha.bind fun _ => by rw [callConv_more]; exact .rfl
  | func p g => exact ha.bind fun _ => callPkg_le H _ _ _
  | builtin n => exact ha.bind fun _ => by rw [builtin_more]; exact .rfl
  | method m => exact hr.bind fun _ => ha.bind fun _ => callMethod_le H _ hp _ _
  | value => exact hv.bind fun _ => ha.bind fun _ => callVal_le H _ _

theorem binOp_le (W : Nat) (op : BinOp) {x x' y y' : M Val} (hx : x.Le x') (hy : y.Le y') : (binOp W op x y).Le (binOp W op x' y') := by
  have h : (do let a ← x; let b ← y; binary W op a b : M Val).Le (do let a ← x'; let b ← y'; binary W op a b) :=
    hx.bind fun _ => hy.bind fun _ => .rfl
  cases op <;> first
    | exact h
    | exact hx.bind fun v => by cases v <;> first | exact .rfl | exact .cond hy .rfl | exact .cond .rfl hy

theorem unOp_le (op : UnOp) (lit : Option Ty) {v v' : M Val} {p p' : M Loc} (hv : v.Le v') (hp : p.Le p') :
    (unOp c op lit v p).Le (unOp c' op lit v' p') := by
  cases op <;> first
    | exact hv.bind fun _ => .rfl
    | (cases lit with
       | none => exact hp.bind fun _ => .rfl
       | some t => exact hv.bind fun _ => by simp only [typeName_more]; exact .rfl)

theorem select_le (p : Option Name) {v v' : M Val} (hv : v.Le v') (n : Name) : (select c p v n).Le (select c' p v' n) := by
  cases p with
  | none => exact hv.bind fun _ => .rfl
  | some p => simp only [select, otherVar_more]; exact .rfl

theorem optional_le (e : Expr) {v v' : M Val} (hv : v.Le v') : (optional e v).Le (optional e v') := .cond .rfl (hv.bind fun _ => .rfl)

theorem sliceable_le (v : Val) {p p' : M Loc} (hp : p.Le p') : (sliceable v p).Le (sliceable v p') := by
  cases v <;> first | exact .rfl | exact hp.bind fun _ => .rfl

theorem fieldLoc_le (v : Val) {p p' : M Loc} (hp : p.Le p') (n : Name) : (fieldLoc v p n).Le (fieldLoc v p' n) := by
  cases v <;> first | exact .rfl | exact hp.bind fun _ => .rfl

theorem elemLoc_le (v : Val) {p p' : M Loc} {i i' : M Val} (hp : p.Le p') (hi : i.Le i') : (elemLoc v p i).Le (elemLoc v p' i') := by
  cases v <;> first
    | exact .rfl
    | exact hi.bind fun _ => .rfl
    | exact hi.bind fun _ => M.Le.rfl.bind fun _ => hp.bind fun _ => .rfl

theorem unLoc_le (op : UnOp) {v v' : M Val} (hv : v.Le v') : (unLoc op v).Le (unLoc op v') := by
  cases op <;> first | exact .rfl | exact hv.bind fun _ => .rfl

mutual

theorem eval_le (H : c.Up fuel call clo) : (e : Expr) → (eval c e).Le (eval c' e)
  | .int _ => by simp only [eval]; exact .rfl
  | .str _ => by simp only [eval]; exact .rfl
  | .id _ => by simp only [eval, evalId_more]; exact .rfl
  | .bin op a b => by simp only [eval]; exact binOp_le _ _ (eval_le H a) (eval_le H b)
  | .un op e => by simp only [eval]; exact M.Le.rfl.bind fun _ => unOp_le _ _ (eval_le H e) (lval_le H e)
  | .call f args d => by
    simp only [eval, callee_more]
    exact M.Le.rfl.bind fun _ => M.Le.rfl.bind fun _ => callAs_le H _ (eval_le H f) (evalRecv_le H f) (recvPlace_le H f) (evals_le H args) d
  | .sel e n => by
    simp only [eval, asPkg_more]
    exact M.Le.rfl.bind fun _ => M.Le.rfl.bind fun _ => select_le _ (eval_le H e) n
  | .idx e i => by simp only [eval]; exact (eval_le H e).bind fun _ => (eval_le H i).bind fun _ => .rfl
  | .slc e lo hi => by
    simp only [eval]
    exact (eval_le H e).bind fun _ => (sliceable_le _ (lval_le H e)).bind fun _ => (optional_le _ (eval_le H lo)).bind fun _ =>
      (optional_le _ (eval_le H hi)).bind fun _ => .rfl
  | .comp t es => by simp only [eval, compLit_more]; exact (evalElts_le H es).bind fun _ => .rfl
  | .func ps rs b => by simp only [eval]; exact .rfl
  | .ty t => by simp only [eval]; exact .rfl
  | .assert _ _ => by simp only [eval]; exact .rfl
  | .none => by simp only [eval]; exact .rfl

theorem evalRecv_le (H : c.Up fuel call clo) : (e : Expr) → (evalRecv c e).Le (evalRecv c' e)
  | .sel e _ => by simp only [evalRecv]; exact eval_le H e
  | .int _ | .str _ | .id _ | .bin _ _ _ | .un _ _ | .call _ _ _ | .idx _ _ | .slc _ _ _ | .comp _ _ | .func _ _ _ | .ty _ | .assert _ _ | .none => by
    simp only [evalRecv]; exact .rfl

theorem recvPlace_le (H : c.Up fuel call clo) : (e : Expr) → (recvPlace c e).Le (recvPlace c' e)
  | .sel e _ => by simp only [recvPlace]; exact lval_le H e
  | .int _ | .str _ | .id _ | .bin _ _ _ | .un _ _ | .call _ _ _ | .idx _ _ | .slc _ _ _ | .comp _ _ | .func _ _ _ | .ty _ | .assert _ _ | .none => by
    simp only [recvPlace]; exact .rfl

theorem evals_le (H : c.Up fuel call clo) : (es : Exprs) → (evals c es).Le (evals c' es)
  | .nil => by simp only [evals]; exact .rfl
  | .cons e r => by simp only [evals]; exact (eval_le H e).bind fun _ => (evals_le H r).bind fun _ => .rfl

theorem evalElts_le (H : c.Up fuel call clo) : (es : Elts) → (evalElts c es).Le (evalElts c' es)
  | .nil => by simp only [evalElts]; exact .rfl
  | .cons _ e r => by simp only [evalElts]; exact (eval_le H e).bind fun _ => (evalElts_le H r).bind fun _ => .rfl

theorem lval_le (H : c.Up fuel call clo) : (e : Expr) → (lval c e).Le (lval c' e)
  | .id _ => by simp only [lval]; exact .rfl
  | .sel e n => by simp only [lval]; exact (eval_le H e).bind fun _ => fieldLoc_le _ (lval_le H e) n
  | .idx e i => by simp only [lval]; exact (eval_le H e).bind fun _ => elemLoc_le _ (lval_le H e) (eval_le H i)
  | .un op e => by simp only [lval]; exact unLoc_le _ (eval_le H e)
  | .int _ | .str _ | .bin _ _ _ | .call _ _ _ | .slc _ _ _ | .comp _ _ | .func _ _ _ | .ty _ | .assert _ _ | .none => by
    simp only [lval]; exact .rfl

end

theorem lvals_le (H : c.Up fuel call clo) : (es : Exprs) → (lvals c es).Le (lvals c' es)
  | .nil => .rfl
  | .cons e r => (lval_le H e).bind fun _ => (lvals_le H r).bind fun _ => .rfl

theorem evalMulti_le (H : c.Up fuel call clo) (e : Expr) : (evalMulti c e).Le (evalMulti c' e) := by
  cases e <;> first
    | exact (eval_le H _).bind fun _ => .rfl
    | (simp only [evalMulti, typeTest_more]; exact (eval_le H _).bind fun _ => .rfl)

theorem evalRhs_le (H : c.Up fuel call clo) (k : Nat) (es : Exprs) : (evalRhs c k es).Le (evalRhs c' k es) := by
  unfold evalRhs
  cases single k es with
  | none => exact evals_le H es
  | some e => exact evalMulti_le H e

theorem evalBool_le (H : c.Up fuel call clo) (e : Expr) : (evalBool c e).Le (evalBool c' e) := (eval_le H e).bind fun _ => .rfl

theorem caseMatches_le (H : c.Up fuel call clo) (tag : Option Val) : (es : Exprs) → (caseMatches c tag es).Le (caseMatches c' tag es)
  | .nil => .rfl
  | .cons e r => (eval_le H e).bind fun _ => M.Le.rfl.bind fun _ => .ite .rfl (caseMatches_le H tag r)

theorem varValues_le (H : c.Up fuel call clo) (k : Nat) (t : Ty) (es : Exprs) : (varValues c k t es).Le (varValues c' k t es) := by
  cases es with
  | nil => simp only [varValues, zero_more]; exact .rfl
  | cons e r => cases t <;> first | exact .rfl | exact evalRhs_le H _ _

theorem retValues_le (H : c.Up fuel call clo) (es : Exprs) : (retValues c es).Le (retValues c' es) := by
  cases es with
  | nil => exact .rfl
  | cons e r => exact (evalRhs_le H _ _).bind fun _ => by rw [coerceAll_more]; exact .rfl

theorem declareIf_le (n : Name) {v v' : M Val} (hv : v.Le v') : (declareIf c n v).Le (declareIf c' n v') :=
  .cond .rfl (hv.bind fun _ => by rw [declare_more]; exact .rfl)

theorem caseOf_le (d l : Bool) {t t' : M Bool} {b b' r r' : M Ctl} (ht : t.Le t') (hb : b.Le b') (hr : r.Le r') : (caseOf d l t b r).Le (caseOf d l t' b' r') :=
  .cond (.cond hb.scope .rfl) (ht.bind fun _ => .ite hb.scope hr)

mutual

theorem exec_le (H : c.Up fuel call clo) : (s : Stmt) → (exec c s).Le (exec c' s)
  | .expr e => by simp only [exec]; exact (eval_le H e).bind fun _ => .rfl
  | .assign ls rs => by
    simp only [exec]
    exact (lvals_le H ls).bind fun _ => (evalRhs_le H _ rs).bind fun _ => .rfl
  | .opAssign op l r => by
    simp only [exec]
    exact (lval_le H l).bind fun _ => M.Le.rfl.bind fun _ => (eval_le H r).bind fun _ => .rfl
  | .define ns rs => by simp only [exec, declareAll_more]; exact (evalRhs_le H _ rs).bind fun _ => .rfl
  | .var ns t rs => by simp only [exec, declareAll_more]; exact (varValues_le H _ t rs).bind fun _ => .rfl
  | .const n e => by simp only [exec]; exact (eval_le H e).bind fun _ => .rfl
  | .ret es => by simp only [exec]; exact (retValues_le H es).bind fun _ => .rfl
  | .ifs i e t f => by
    simp only [exec]
    exact ((exec_le H i).bind fun _ => (evalBool_le H e).bind fun _ => .ite (execs_le H t).scope (execs_le H f).scope).scope
  | .for i e p b => by
    simp only [exec]
    exact ((exec_le H i).bind fun _ => loop_le (evalBool_le H e) (execs_le H b).scope ((exec_le H p).bind fun _ => .rfl) H.fuel).scope
  | .range k v e b => by
    simp only [exec]
    exact (eval_le H e).bind fun x => M.Le.rfl.bind fun n => rangeLoop_le (fun i => M.Le.scope
      ((declareIf_le k .rfl).bind fun _ => (declareIf_le v .rfl).bind fun _ => execs_le H b)) _ _
  | .switch t cs => by
    simp only [exec]
    exact (optional_le _ (eval_le H t)).bind fun _ => (execCases_le H _ cs).bind fun _ => .rfl
  | .brk => by simp only [exec]; exact .rfl
  | .cont => by simp only [exec]; exact .rfl
  | .block b => by simp only [exec]; exact (execs_le H b).scope
  | .skip => by simp only [exec]; exact .rfl

theorem execs_le (H : c.Up fuel call clo) : (s : Stmts) → (execs c s).Le (execs c' s)
  | .nil => by simp only [execs]; exact .rfl
  | .cons s r => by
    simp only [execs]
    exact (exec_le H s).bind fun x => by cases x <;> first | exact .rfl | exact execs_le H r

theorem execCases_le (H : c.Up fuel call clo) (tag : Option Val) : (s : Cases) → (execCases c tag s).Le (execCases c' tag s)
  | .nil => by simp only [execCases]; exact .rfl
  | .cons es b r => by
    simp only [execCases]
    exact caseOf_le _ _ (caseMatches_le H tag es) (execs_le H b) (execCases_le H tag r)

end

end

theorem leave_le {α : Type} {x y : Out α} (h : x.Le y) : (leave x).Le (leave y) := by
  rcases h with rfl | rfl
  · exact .inl rfl
  · exact .rfl

theorem callBody_le {c : Ctx} {fuel : Nat} {call : Name → Name → Name → List Val → List Val → Out (List Val)}
    {clo : Params → Params → Stmts → List (Name × Val) → List Val → List Val → Out (List Val)} (H : c.Up fuel call clo) (ps rs : Params)
    (b : Stmts) (args heap : List Val) : (callBody c ps rs b args heap).Le (callBody (c.more fuel call clo) ps rs b args heap) := by
  unfold callBody
  rw [bindParams_more, bindResults_more]
  exact leave_le ((M.Le.rfl.bind fun _ => M.Le.rfl.bind fun _ => (execs_le H b).bind fun _ => .rfl : M.Le _ _) _)

theorem lit_le {c : Ctx} {fuel : Nat} {call : Name → Name → Name → List Val → List Val → Out (List Val)}
    {clo : Params → Params → Stmts → List (Name × Val) → List Val → List Val → Out (List Val)} (H : c.Up fuel call clo) (ps rs : Params)
    (b : Stmts) (args : List Val) (s : St) :
    (leave ((do bindParams c ps args; result rs (← execs c b)) s)).Le
      (leave ((do bindParams (c.more fuel call clo) ps args; result rs (← execs (c.more fuel call clo) b)) s)) := by
  rw [bindParams_more]
  exact leave_le ((M.Le.rfl.bind fun _ => (execs_le H b).bind fun _ => .rfl : M.Le _ _) _)

theorem ctx_le (P : Prog) {n m : Nat} (h : n ≤ m) (k : Pkg) (f : Name) (rs : Params)
    {call call' : Name → Name → Name → List Val → List Val → Out (List Val)}
    (hc : ∀ p t f args h, (call p t f args h).Le (call' p t f args h)) : (P.ctx n k f rs call).Up m call' (P.ctx m k f rs call').clo where
  fuel := h
  call := hc
  clo := fun ps rs' b env args heap =>
    lit_le (c := { W := P.W, fuel := n, pkg := k, boxed := [], results := rs', repo := P.pkgs.map Pkg.path, methods := P.methods, other := P.other
                   call := call, std := P.std, native := P.native, grow := P.grow, clo := fun _ _ _ _ _ _ => .stuck })
      (fuel := m) (call := call') (clo := fun _ _ _ _ _ _ => .stuck) ⟨h, hc, fun _ _ _ _ _ _ => .rfl⟩ ps rs' b args ⟨heap, env⟩

/-- More fuel: the outcome is the same unless the run was stuck. -/
theorem run_le (P : Prog) {n m : Nat} (h : n ≤ m) (path t f : Name) (args heap : List Val) :
    (run P n path t f args heap).Le (run P m path t f args heap) := by
  induction n generalizing m path t f args heap with
  | zero => exact .inl rfl
  | succ n ih =>
    obtain ⟨m, rfl⟩ : ∃ k, m = k + 1 := ⟨m - 1, by omega⟩
    rw [run, run]
    cases findPkg path P.pkgs with
    | none => exact .rfl
    | some k =>
      dsimp only
      cases findFunc t f k.decls with
      | none => exact .rfl
      | some d =>
        cases d with
        | func r _ _ _ ps rs b =>
          have h' : n ≤ m := by omega
          exact callBody_le (ctx_le P h' k f rs fun p t f args h => ih h' p t f args h) _ rs b args heap
        | _ => exact .rfl

/-- With enough fuel for an outcome, the outcome is the same with more. -/
theorem run_mono {P : Prog} {n m : Nat} (h : n ≤ m) {path t f : Name} {args heap : List Val} {o : Out (List Val)} (ho : o ≠ .stuck)
    (hr : run P n path t f args heap = o) : run P m path t f args heap = o := by
  rcases run_le P h path t f args heap with e | e
  · exact absurd (hr.symm.trans e) ho
  · exact e.symm.trans hr

/-- The outcome does not depend on the fuel. -/
theorem run_unique {P : Prog} {n m : Nat} {path t f : Name} {args heap : List Val} {o o' : Out (List Val)} (ho : o ≠ .stuck) (ho' : o' ≠ .stuck)
    (hr : run P n path t f args heap = o) (hr' : run P m path t f args heap = o') : o = o' := by
  have h1 := run_mono (Nat.le_max_left n m) ho hr
  have h2 := run_mono (Nat.le_max_right n m) ho' hr'
  exact h1.symm.trans h2

end GoLang
