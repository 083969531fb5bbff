import Verif.Code.Net
import Verif.Lemmas.IpCallback

/-!
# The code of package `net`: adding to the tree
-/
namespace Source.Net
open GoLang
open _root_.Net (Node Eff)

set_option linter.unusedSimpArgs false

theorem find_newAll : findFunc 0 (n! "newAll") pkg.decls = some NetIpTree.newAll := by kernel_rfl
theorem find_newTreeNode : findFunc 0 (n! "newTreeNode") pkg.decls = some NetIpTree.newTreeNode := by kernel_rfl
theorem find_add : findFunc 0 (n! "add") pkg.decls = some NetIpTree.add := by kernel_rfl
theorem find_New : findFunc 0 (n! "New") pkg.decls = some NetIpTree.New := by kernel_rfl
theorem find_AddIp : findFunc (n! "Tree") (n! "AddIp") pkg.decls = some NetIpTree.Tree_AddIp := by kernel_rfl
theorem find_AddRange : findFunc (n! "Tree") (n! "AddRange") pkg.decls = some NetIpTree.Tree_AddRange := by kernel_rfl
theorem find_AddCidr : findFunc (n! "Tree") (n! "AddCidr") pkg.decls = some NetIpTree.Tree_AddCidr := by kernel_rfl

/-! ## Nodes -/

/-- `none{}` -/
abbrev noneVal : Val := .struct path (n! "none") []
abbrev allVal (v : Val) : Val := .struct path (n! "all") [(n! "value", v)]
abbrev treeVal (l r : Val) : Val := .struct path (n! "treeNode") [(n! "l", l), (n! "r", r)]

/-- In memory `h`, the value `v` of type `iTreeNode` is this node. -/
inductive IsNode (h : List Val) : Val → Node Val → Prop
  | all {v : Val} (hv : Plain v) : IsNode h (allVal v) (.all v)
  | none : IsNode h noneVal .none
  | ptr {a : Nat} (ha : h[a]? = some noneVal) : IsNode h (.ptr path (n! "none") a []) .none
  | tree {vl vr : Val} {l r : Node Val} (hl : IsNode h vl l) (hr : IsNode h vr r) : IsNode h (treeVal vl vr) (.tree l r)

theorem IsNode.plain {h : List Val} {v : Val} {x : Node Val} (hv : IsNode h v x) : Plain v := by cases hv <;> trivial

theorem IsNode.ne_nil {h : List Val} {v : Val} {x : Node Val} (hv : IsNode h v x) : v ≠ .nil := by cases hv <;> simp

/-- The objects `none{}` are still there: nothing can change them. -/
def Kept (h h' : List Val) : Prop := ∀ a : Nat, h[a]? = some noneVal → h'[a]? = some noneVal

theorem Kept.refl (h : List Val) : Kept h h := fun _ q => q
theorem Kept.trans {a b c : List Val} (p : Kept a b) (q : Kept b c) : Kept a c := fun i r => q i (p i r)
theorem kept_append (h t : List Val) : Kept h (h ++ t) := fun a q => by rw [List.getElem?_append_left (lt_of_get q), q]

theorem kept_set {h : List Val} {t : Nat} {x : Val} (y : Val) (hx : h[t]? = some x) (hn : x ≠ noneVal) : Kept h (h.set t y) := fun a q => by
  rw [List.getElem?_set_ne, q]
  rintro rfl
  rw [hx] at q
  exact hn (Option.some.inj q)

theorem IsNode.kept {h h' : List Val} {v : Val} {x : Node Val} (hv : IsNode h v x) (hk : Kept h h') : IsNode h' v x := by
  induction hv with
  | all hv => exact .all hv
  | none => exact .none
  | ptr ha => exact .ptr (hk _ ha)
  | tree _ _ il ir => exact .tree il ir

/-- The root of a tree: a node, or nil in the zero value of `Tree`. -/
def IsRoot (h : List Val) (v : Val) (x : Node Val) : Prop := IsNode h v x ∨ (v = .nil ∧ x = .none)

theorem IsRoot.plain {h : List Val} {v : Val} {x : Node Val} (hv : IsRoot h v x) : Plain v := by
  rcases hv with hv | ⟨rfl, _⟩
  · exact hv.plain
  · trivial

theorem IsRoot.kept {h h' : List Val} {v : Val} {x : Node Val} (hv : IsRoot h v x) (hk : Kept h h') : IsRoot h' v x := by
  rcases hv with hv | hv
  · exact .inl (hv.kept hk)
  · exact .inr hv

/-- What is no `all` fails the test for one. -/
abbrev NotAll (v : Val) : Prop := ∀ P n f rs call, hasType (Prog.ctx P n pkg f rs call) v (.name (n! "all")) = false
abbrev NotTree (v : Val) : Prop := ∀ P n f rs call, hasType (Prog.ctx P n pkg f rs call) v (.name (n! "treeNode")) = false

theorem notAll_none : NotAll noneVal := fun _ _ _ _ _ => by kernel_rfl
theorem notAll_tree (l r : Val) : NotAll (treeVal l r) := fun _ _ _ _ _ => by kernel_rfl
theorem notTree_none : NotTree noneVal := fun _ _ _ _ _ => by kernel_rfl
theorem notAll_ptr (k t : Name) (a : Nat) (p : List Sel) : NotAll (.ptr k t a p) := fun _ _ _ _ _ => rfl
theorem notTree_ptr (k t : Name) (a : Nat) (p : List Sel) : NotTree (.ptr k t a p) := fun _ _ _ _ _ => rfl
theorem notAll_nil : NotAll .nil := fun _ _ _ _ _ => rfl
theorem notTree_nil : NotTree .nil := fun _ _ _ _ _ => rfl

/-- Nodes are `all` or not. -/
theorem IsNode.cases' {h : List Val} {v : Val} {x : Node Val} (hv : IsNode h v x) :
    (∃ w, x = .all w ∧ v = allVal w ∧ Plain w) ∨ (NotAll v ∧ ∀ w, x ≠ .all w) := by
  cases hv with
  | all hv => exact .inl ⟨_, rfl, rfl, hv⟩
  | none => exact .inr ⟨notAll_none, by simp⟩
  | ptr => exact .inr ⟨notAll_ptr _ _ _ _, by simp⟩
  | tree => exact .inr ⟨notAll_tree _ _, by simp⟩

/-! ## The callback -/

/-- Call a function given by the caller, or nil. -/
def invoke (P : Prog) (f : Val) (args : List Val) : M Val :=
  match f with
  | .native i => P.native i 0 args
  | .nil => panic
  | _ => stuck

abbrev rootName : Name := n! "root"
abbrev mergeName : Name := n! "merge"
/-- A `Tree` -/
abbrev treeObj (root f : Val) : Val := .struct path (n! "Tree") [(rootName, root), (mergeName, f)]

variable {σ : Type}

/-- What the state of the model says about memory: the tree at address `t` has this root and the callback `f`, and `World` holds of the rest. -/
def Holds (t : Nat) (f : Val) (World : List Val → σ → Prop) (h : List Val) (s : Node Val × σ) : Prop :=
  (∃ root, h[t]? = some (treeObj root f) ∧ IsRoot h root s.1) ∧ World h s.2

/-- What `add` returns: neither nil nor an object `none{}`. -/
def Added (v : Val) : Prop := v ≠ .nil ∧ ∀ h, ¬ IsNode h v .none

theorem IsNode.added {h : List Val} {v : Val} {x : Node Val} (hv : IsNode h v x) (hx : x ≠ .none) : Added v := by
  refine ⟨hv.ne_nil, fun h' h2 => ?_⟩
  cases hv with
  | all _ => generalize ha : allVal _ = a at h2; cases h2 <;> cases ha
  | none => exact hx rfl
  | ptr _ => exact hx rfl
  | tree _ _ => generalize ha : treeVal _ _ = a at h2; cases h2 <;> cases ha

/-- `World` does not depend on new objects or on the root of the tree at `t` (except on whether it is nil or `none{}`). -/
structure Apart (t : Nat) (f : Val) (World : List Val → σ → Prop) : Prop where
  alloc : ∀ h x y, World h x → World (h ++ [y]) x
  root : ∀ h x v w, Added w → World h x → h[t]? = some (treeObj v f) → World (h.set t (treeObj w f)) x

/-- The callback `f` does what `merge` does. It may use the tree. It is a function given by the caller, or nil; it cannot change the objects `none{}` of this package. -/
structure Callback (P : Prog) (t : Nat) (f : Val) (World : List Val → σ → Prop) (merge : Val → Val → Eff (Node Val × σ) Val) : Prop where
  fn : f = .nil ∨ ∃ i, f = .native i
  call : ∀ h s a b, Plain a → Plain b → Holds t f World h s →
    match merge a b s with
    | (some v, s') => ∃ h', (∀ e, invoke P f [a, b] ⟨h, e⟩ = .ok v ⟨h', e⟩) ∧ Holds t f World h' s' ∧ Kept h h' ∧ Plain v
    | (none, s') => ∃ h', (∀ e, invoke P f [a, b] ⟨h, e⟩ = .panic h') ∧ Holds t f World h' s'

theorem Callback.plain {P : Prog} {t : Nat} {f : Val} {World : List Val → σ → Prop} {merge : Val → Val → Eff (Node Val × σ) Val}
    (hf : Callback P t f World merge) : Plain f := by
  rcases hf.fn with rfl | ⟨i, rfl⟩ <;> trivial

theorem Callback.val {P : Prog} {t : Nat} {f : Val} {World : List Val → σ → Prop} {merge : Val → Val → Eff (Node Val × σ) Val}
    (hf : Callback P t f World merge) (n : Nat) (k : Pkg) (g : Name) (rs : Params) (call) (args : List Val) :
    callVal (P.ctx n k g rs call) f args = invoke P f args := by
  rcases hf.fn with rfl | ⟨i, rfl⟩ <;> rfl

theorem Holds.alloc {t : Nat} {f : Val} {World : List Val → σ → Prop} {h : List Val} {s : Node Val × σ} (hs : Holds t f World h s)
    (ha : Apart t f World) (y : Val) : Holds t f World (h ++ [y]) s := by
  obtain ⟨⟨root, hr, hi⟩, hw⟩ := hs
  exact ⟨⟨root, by rw [List.getElem?_append_left (lt_of_get hr), hr], hi.kept (kept_append h _)⟩, ha.alloc _ _ _ hw⟩

section
variable {P : Prog} (hP : findPkg path P.pkgs = some pkg) {h : List Val}
include hP

theorem run_newAll {v : Val} (hv : Plain v) (n : Nat) (h : List Val) : run P (n + 1) path 0 (n! "newAll") [v] h = .ok [allVal v] ⟨h, []⟩ := by
  rw [run_func hP find_newAll]
  eval_go [hv]

theorem run_newTreeNode (n : Nat) (h : List Val) : run P (n + 1) path 0 (n! "newTreeNode") [] h =
    .ok [treeVal (.ptr path (n! "none") h.length []) (.ptr path (n! "none") (h.length + 1) [])] ⟨h ++ [noneVal] ++ [noneVal], []⟩ := by
  rw [run_func hP find_newTreeNode]
  eval_go [List.length_append]

/-- What `add` does, as in the model. -/
def AddEnds (t : Nat) (f : Val) (World : List Val → σ → Prop) (h : List Val) (r : Option (Node Val) × (Node Val × σ)) (o : Out (List Val)) : Prop :=
  match r with
  | (some x, s') => ∃ v h', o = .ok [v] ⟨h', []⟩ ∧ IsNode h' v x ∧ Holds t f World h' s' ∧ Kept h h'
  | (none, s') => ∃ h', o = .panic h' ∧ Holds t f World h' s'

omit hP in
theorem mkNodeC_other {merge : Val → Val → Eff (Node Val × σ) Val} {l r : Node Val} (hn : (∀ w, l ≠ .all w) ∨ (∀ w, r ≠ .all w)) (s : Node Val × σ) :
    _root_.Net.mkNodeC merge l r s = (some (.tree l r), s) := by
  cases l <;> cases r <;> first | rfl | simp at hn

set_option maxHeartbeats 4000000 in
theorem run_add {t : Nat} {f : Val} {World : List Val → σ → Prop} {merge : Val → Val → Eff (Node Val × σ) Val}
    (hf : Callback P t f World merge) (hA : Apart t f World) (pos : BitVec 32) (end_ : BitVec 8) {value : Val} (hv : Plain value)
    {n : Nat} {mask : BitVec 8} (hn : mask.toNat + 2 ≤ n) {h : List Val} {s : Node Val × σ} (hs : Holds t f World h s) {vp : Val} {x : Node Val} (hx : IsRoot h vp x) :
    AddEnds t f World h (_root_.Net.addC merge x pos mask end_ value s) (run P (n + 1) path 0 (n! "add") [vp, .u32 pos, .u8 mask, .u8 end_, value, f] h) := by
  induction n generalizing mask h s vp x with
  | zero => omega
  | succ n ih =>
  have hvp := hx.plain
  have hpf := hf.plain
  have hR := elem_repo hP
  by_cases hall : ∃ w, x = .all w
  · obtain ⟨w, rfl⟩ := hall
    rcases hx with hx | ⟨_, hx⟩
    · cases hx with
      | all hw =>
        rw [run_func hP find_add, _root_.Net.addC]
        refine ⟨allVal w, h, ?_, .all hw, hs, .refl _⟩
        eval_go [hv, hpf]
    · cases hx
  · have hna : NotAll vp := by
      rcases hx with hx | ⟨rfl, _⟩
      · rcases hx.cases' with ⟨w, rfl, _⟩ | ⟨q, _⟩
        · exact absurd ⟨w, rfl⟩ hall
        · exact q
      · exact notAll_nil
    by_cases hle : mask ≤ end_
    · have hlt : ¬ end_ < mask := BitVec.not_lt.mpr hle
      have hm : _root_.Net.addC merge x pos mask end_ value s = (some (.all value), s) := by
        cases x <;> rw [_root_.Net.addC]
        · exact absurd ⟨_, rfl⟩ hall
        · rw [dif_pos hle]; rfl
        · rw [dif_pos hle]; rfl
      rw [run_func hP find_add, hm]
      refine ⟨allVal value, h, ?_, .all hv, hs, .refl _⟩
      eval_go [hv, hpf, hvp, hna, hlt, hR, run_newAll hP hv]
    · have hlt : end_ < mask := BitVec.not_le.mp hle
      have hm0 : mask.toNat ≠ 0 := by have := BitVec.lt_def.mp hlt; omega
      have hmask : (mask - 1#8).toNat + 2 ≤ n := by
        have h1 : (mask - 1#8).toNat = mask.toNat - 1 := by
          rw [BitVec.toNat_sub_of_le (by rw [BitVec.le_def]; simp; omega)]; rfl
        omega
      obtain ⟨h1, vl, vr, l, r, hl, hr, hs1, hk1, hm, hK⟩ : ∃ h1 vl vr l r, IsNode h1 vl l ∧ IsNode h1 vr r ∧ Holds t f World h1 s ∧ Kept h h1 ∧
          (_root_.Net.addC merge x pos mask end_ value = if (pos >>> (mask - 1#8).toNat) &&& 1#32 = 1#32 then do
              _root_.Net.mkNodeC merge l (← _root_.Net.addC merge r pos (mask - 1#8) end_ value)
            else do _root_.Net.mkNodeC merge (← _root_.Net.addC merge l pos (mask - 1#8) end_ value) r) ∧
          ((vp = treeVal vl vr ∧ h1 = h) ∨ NotTree vp ∧ run P (n + 1) path 0 (n! "newTreeNode") [] h = .ok [treeVal vl vr] ⟨h1, []⟩) := by
        have hnone : IsNode h vp .none ∨ vp = .nil → NotTree vp := by
          rintro (q | rfl)
          · cases q
            · exact notTree_none
            · exact notTree_ptr _ _ _ _
          · exact notTree_nil
        cases x with
        | all w => exact absurd ⟨w, rfl⟩ hall
        | none =>
          refine ⟨h ++ [noneVal] ++ [noneVal], _, _, .none, .none, .ptr ?_, .ptr ?_, (hs.alloc hA _).alloc hA _, (kept_append h _).trans (kept_append _ _), ?_,
            .inr ⟨hnone ?_, run_newTreeNode hP n h⟩⟩
          · simp
          · simp
          · rw [_root_.Net.addC, dif_neg hle]
          · rcases hx with hx | hx
            · exact .inl hx
            · exact .inr hx.1
        | tree l r =>
          rcases hx with hx | ⟨_, hx⟩
          · cases hx with
            | tree hl hr =>
              refine ⟨h, _, _, l, r, hl, hr, hs, .refl _, ?_, .inl ⟨rfl, rfl⟩⟩
              rw [_root_.Net.addC, dif_neg hle]
          · cases hx
      have hlp := hl.plain
      have hrp := hr.plain
      by_cases hodd : (pos >>> (mask - 1#8).toNat) &&& 1#32 = 1#32
      · have r1 := ih hmask hs1 (.inl hr)
        rw [hm, if_pos hodd, run_func hP find_add]
        rcases hrec : _root_.Net.addC merge r pos (mask - 1#8) end_ value s with ⟨_ | y, s1⟩
        · rw [hrec] at r1
          obtain ⟨h2, hrun, hs2⟩ := r1
          simp only [bind, hrec]
          refine ⟨h2, ?_, hs2⟩
          rcases hK with ⟨rfl, rfl⟩ | ⟨hnt, hN⟩
          · eval_go [hv, hpf, hvp, hna, hlt, hR, hlp, hrp, hodd, hrun]
          · eval_go [hv, hpf, hvp, hna, hlt, hR, hlp, hrp, hodd, hrun, hnt, hN]
        · rw [hrec] at r1
          obtain ⟨v2, h2, hrun, hn2, hs2, hk2⟩ := r1
          have hp2 := hn2.plain
          simp only [bind, hrec]
          have hk : Kept h h2 := hk1.trans hk2
          rcases hn2.cases' with ⟨w2, rfl, rfl, hw2⟩ | ⟨q2, c2⟩
          · rcases hl.cases' with ⟨w1, rfl, rfl, hw1⟩ | ⟨q1, c1⟩
            · have hc := hf.call h2 s1 w1 w2 hw1 hw2 hs2
              simp only [_root_.Net.mkNodeC, bind]
              rcases hmr : merge w1 w2 s1 with ⟨_ | w, s2⟩
              · rw [hmr] at hc
                obtain ⟨h3, hcall, hs3⟩ := hc
                refine ⟨h3, ?_, hs3⟩
                rcases hK with ⟨rfl, rfl⟩ | ⟨hnt, hN⟩
                · eval_go [hv, hpf, hvp, hna, hlt, hR, hlp, hrp, hodd, hrun, hf.val, hcall, hw1, hw2]
                · eval_go [hv, hpf, hvp, hna, hlt, hR, hlp, hrp, hodd, hrun, hnt, hN, hf.val, hcall, hw1, hw2]
              · rw [hmr] at hc
                obtain ⟨h3, hcall, hs3, hk3, hpw⟩ := hc
                refine ⟨allVal w, h3, ?_, .all hpw, hs3, hk.trans hk3⟩
                rcases hK with ⟨rfl, rfl⟩ | ⟨hnt, hN⟩
                · eval_go [hv, hpf, hvp, hna, hlt, hR, hlp, hrp, hodd, hrun, hf.val, hcall, hw1, hw2, hpw, run_newAll hP hpw]
                · eval_go [hv, hpf, hvp, hna, hlt, hR, hlp, hrp, hodd, hrun, hnt, hN, hf.val, hcall, hw1, hw2, hpw, run_newAll hP hpw]
            · rw [mkNodeC_other (.inl c1)]
              refine ⟨treeVal vl (allVal w2), h2, ?_, .tree (hl.kept hk2) hn2, hs2, hk⟩
              rcases hK with ⟨rfl, rfl⟩ | ⟨hnt, hN⟩
              · eval_go [hv, hpf, hvp, hna, hlt, hR, hlp, hrp, hodd, hrun, q1, hw2]
              · eval_go [hv, hpf, hvp, hna, hlt, hR, hlp, hrp, hodd, hrun, hnt, hN, q1, hw2]
          · rw [mkNodeC_other (.inr c2)]
            refine ⟨treeVal vl v2, h2, ?_, .tree (hl.kept hk2) hn2, hs2, hk⟩
            rcases hl.cases' with ⟨w1, rfl, rfl, hw1⟩ | ⟨q1, c1⟩
            · rcases hK with ⟨rfl, rfl⟩ | ⟨hnt, hN⟩
              · eval_go [hv, hpf, hvp, hna, hlt, hR, hlp, hrp, hodd, hrun, q2, hp2, hw1]
              · eval_go [hv, hpf, hvp, hna, hlt, hR, hlp, hrp, hodd, hrun, hnt, hN, q2, hp2, hw1]
            · rcases hK with ⟨rfl, rfl⟩ | ⟨hnt, hN⟩
              · eval_go [hv, hpf, hvp, hna, hlt, hR, hlp, hrp, hodd, hrun, q2, hp2, q1]
              · eval_go [hv, hpf, hvp, hna, hlt, hR, hlp, hrp, hodd, hrun, hnt, hN, q2, hp2, q1]
      · have r1 := ih hmask hs1 (.inl hl)
        rw [hm, if_neg hodd, run_func hP find_add]
        rcases hrec : _root_.Net.addC merge l pos (mask - 1#8) end_ value s with ⟨_ | y, s1⟩
        · rw [hrec] at r1
          obtain ⟨h2, hrun, hs2⟩ := r1
          simp only [bind, hrec]
          refine ⟨h2, ?_, hs2⟩
          rcases hK with ⟨rfl, rfl⟩ | ⟨hnt, hN⟩
          · eval_go [hv, hpf, hvp, hna, hlt, hR, hlp, hrp, hodd, hrun]
          · eval_go [hv, hpf, hvp, hna, hlt, hR, hlp, hrp, hodd, hrun, hnt, hN]
        · rw [hrec] at r1
          obtain ⟨v2, h2, hrun, hn2, hs2, hk2⟩ := r1
          have hp2 := hn2.plain
          simp only [bind, hrec]
          have hk : Kept h h2 := hk1.trans hk2
          rcases hn2.cases' with ⟨w2, rfl, rfl, hw2⟩ | ⟨q2, c2⟩
          · rcases hr.cases' with ⟨w1, rfl, rfl, hw1⟩ | ⟨q1, c1⟩
            · have hc := hf.call h2 s1 w2 w1 hw2 hw1 hs2
              simp only [_root_.Net.mkNodeC, bind]
              rcases hmr : merge w2 w1 s1 with ⟨_ | w, s2⟩
              · rw [hmr] at hc
                obtain ⟨h3, hcall, hs3⟩ := hc
                refine ⟨h3, ?_, hs3⟩
                rcases hK with ⟨rfl, rfl⟩ | ⟨hnt, hN⟩
                · eval_go [hv, hpf, hvp, hna, hlt, hR, hlp, hrp, hodd, hrun, hf.val, hcall, hw1, hw2]
                · eval_go [hv, hpf, hvp, hna, hlt, hR, hlp, hrp, hodd, hrun, hnt, hN, hf.val, hcall, hw1, hw2]
              · rw [hmr] at hc
                obtain ⟨h3, hcall, hs3, hk3, hpw⟩ := hc
                refine ⟨allVal w, h3, ?_, .all hpw, hs3, hk.trans hk3⟩
                rcases hK with ⟨rfl, rfl⟩ | ⟨hnt, hN⟩
                · eval_go [hv, hpf, hvp, hna, hlt, hR, hlp, hrp, hodd, hrun, hf.val, hcall, hw1, hw2, hpw, run_newAll hP hpw]
                · eval_go [hv, hpf, hvp, hna, hlt, hR, hlp, hrp, hodd, hrun, hnt, hN, hf.val, hcall, hw1, hw2, hpw, run_newAll hP hpw]
            · rw [mkNodeC_other (.inr c1)]
              refine ⟨treeVal (allVal w2) vr, h2, ?_, .tree hn2 (hr.kept hk2), hs2, hk⟩
              rcases hK with ⟨rfl, rfl⟩ | ⟨hnt, hN⟩
              · eval_go [hv, hpf, hvp, hna, hlt, hR, hlp, hrp, hodd, hrun, q1, hw2]
              · eval_go [hv, hpf, hvp, hna, hlt, hR, hlp, hrp, hodd, hrun, hnt, hN, q1, hw2]
          · rw [mkNodeC_other (.inl c2)]
            refine ⟨treeVal v2 vr, h2, ?_, .tree hn2 (hr.kept hk2), hs2, hk⟩
            rcases hr.cases' with ⟨w1, rfl, rfl, hw1⟩ | ⟨q1, c1⟩
            · rcases hK with ⟨rfl, rfl⟩ | ⟨hnt, hN⟩
              · eval_go [hv, hpf, hvp, hna, hlt, hR, hlp, hrp, hodd, hrun, q2, hp2, hw1]
              · eval_go [hv, hpf, hvp, hna, hlt, hR, hlp, hrp, hodd, hrun, hnt, hN, q2, hp2, hw1]
            · rcases hK with ⟨rfl, rfl⟩ | ⟨hnt, hN⟩
              · eval_go [hv, hpf, hvp, hna, hlt, hR, hlp, hrp, hodd, hrun, q2, hp2, q1]
              · eval_go [hv, hpf, hvp, hna, hlt, hR, hlp, hrp, hodd, hrun, hnt, hN, q2, hp2, q1]

/-! ## The methods of `Tree` -/

omit hP in
theorem callBody_congr {c : Ctx} {ps rs : Params} {body : Stmts} {args args' h : List Val} (e : bindParams c ps args ⟨h, []⟩ = bindParams c ps args' ⟨h, []⟩) :
    callBody c ps rs body args h = callBody c ps rs body args' h := by
  simp only [callBody, go, e]

theorem const_add {vp value f : Val} (hp : Plain vp) (hv : Plain value) (hf : Plain f) (pos : BitVec 32) (end_ : BitVec 8) (n : Nat) (h : List Val) :
    run P (n + 1) path 0 (n! "add") [vp, .u32 pos, .const 32, .u8 end_, value, f] h =
      run P (n + 1) path 0 (n! "add") [vp, .u32 pos, .u8 32#8, .u8 end_, value, f] h := by
  rw [run_func hP find_add, run_func hP find_add]
  refine callBody_congr ?_
  eval_go [hp, hv, hf]

theorem const_add0 {vp value f : Val} (hp : Plain vp) (hv : Plain value) (hf : Plain f) (pos : BitVec 32) (n : Nat) (h : List Val) :
    run P (n + 1) path 0 (n! "add") [vp, .u32 pos, .const 32, .const 0, value, f] h =
      run P (n + 1) path 0 (n! "add") [vp, .u32 pos, .u8 32#8, .u8 0#8, value, f] h := by
  rw [run_func hP find_add, run_func hP find_add]
  refine callBody_congr ?_
  eval_go [hp, hv, hf]

/-- What a method does, as in the model: it returns or panics, and leaves memory that is like the state of the model. -/
def Ends (t : Nat) (f : Val) (World : List Val → σ → Prop) (r : Option Unit × (Node Val × σ)) (o : Out (List Val)) : Prop :=
  match r with
  | (some (), s') => ∃ h', o = .ok [] ⟨h', []⟩ ∧ Holds t f World h' s'
  | (none, s') => ∃ h', o = .panic h' ∧ Holds t f World h' s'

omit hP in
/-- Assigning the root. -/
theorem Holds.assign {t : Nat} {f : Val} {World : List Val → σ → Prop} {h : List Val} {s : Node Val × σ} (hs : Holds t f World h s)
    (hA : Apart t f World) {v : Val} {x : Node Val} (hx : IsNode h v x) (hne : x ≠ .none) :
    (∃ o, h[t]? = some (treeObj o f)) ∧ Holds t f World (h.set t (treeObj v f)) (x, s.2) := by
  obtain ⟨⟨root, hr, hi⟩, hw⟩ := hs
  refine ⟨⟨root, hr⟩, ⟨v, ?_, .inl (hx.kept (kept_set _ hr ?_))⟩, hA.root _ _ _ _ (hx.added hne) hw hr⟩
  · rw [List.getElem?_set_self (lt_of_get hr)]
  · simp [treeObj, noneVal]

/-- The state at an assignment `t.root = add(t.root, pos, 32, end, value, t.merge)`, and what follows from the model. -/
theorem assign_cases {t : Nat} {f : Val} {World : List Val → σ → Prop} {merge : Val → Val → Eff (Node Val × σ) Val}
    (hf : Callback P t f World merge) (hA : Apart t f World) (pos : BitVec 32) (end_ : BitVec 8) {value : Val} (hv : Plain value)
    {n : Nat} (hn : 34 ≤ n) {h : List Val} {s : Node Val × σ} (hs : Holds t f World h s) :
    ∃ root, h[t]? = some (treeObj root f) ∧ Plain root ∧
      ((∃ s' h', _root_.Net.assignC merge pos end_ value s = (none, s') ∧ Holds t f World h' s' ∧
        run P (n + 1) path 0 (n! "add") [root, .u32 pos, .u8 32#8, .u8 end_, value, f] h = .panic h') ∨
       (∃ s' h' v o, _root_.Net.assignC merge pos end_ value s = (some (), s') ∧ h'[t]? = some (treeObj o f) ∧ Plain v ∧ Holds t f World (h'.set t (treeObj v f)) s' ∧
        run P (n + 1) path 0 (n! "add") [root, .u32 pos, .u8 32#8, .u8 end_, value, f] h = .ok [v] ⟨h', []⟩)) := by
  obtain ⟨⟨root, hr, hi⟩, hw⟩ := id hs
  refine ⟨root, hr, hi.plain, ?_⟩
  have r := run_add hP hf hA pos end_ hv (mask := 32#8) (n := n) hn hs hi
  simp only [_root_.Net.assignC]
  rcases hrec : _root_.Net.addC merge s.1 pos 32#8 end_ value s with ⟨_ | y, s1⟩
  · rw [hrec] at r
    obtain ⟨h2, hrun, hs2⟩ := r
    exact .inl ⟨s1, h2, rfl, hs2, hrun⟩
  · rw [hrec] at r
    obtain ⟨v2, h2, hrun, hn2, hs2, hk2⟩ := r
    obtain ⟨⟨o, ho⟩, hh⟩ := hs2.assign hA hn2 fun e => _root_.Net.addC_not_none merge s.1 pos 32#8 end_ value s s1 (e ▸ hrec)
    exact .inr ⟨(y, s1.2), h2, v2, o, rfl, ho, hn2.plain, hh, hrun⟩

theorem run_New {f : Val} (hf : Plain f) (n : Nat) (h : List Val) :
    run P (n + 1) path 0 (n! "New") [f] h = .ok [.ptr path (n! "Tree") h.length []] ⟨h ++ [treeObj noneVal f], []⟩ := by
  rw [run_func hP find_New]
  eval_go [hf]

variable (hS : P.std = stdlib) (hB : elemN (n! "encoding/binary") (P.pkgs.map Pkg.path) = false)

include hS hB in
theorem run_AddIp {t : Nat} {f : Val} {World : List Val → σ → Prop} {merge : Val → Val → Eff (Node Val × σ) Val}
    (hf : Callback P t f World merge) (hA : Apart t f World) {value : Val} (hv : Plain value) {n : Nat} (hn : 34 ≤ n)
    {h : List Val} {s : Node Val × σ} (hs : Holds t f World h s) {vi : Val} {ip : List (BitVec 8)} (hi : IsBytes h vi ip) :
    Ends t f World (_root_.Net.AddIpC merge ip value s)
      (run P (n + 2) path (n! "Tree") (n! "AddIp") [.ptr path (n! "Tree") t [], vi, value] h) := by
  have hvi := hi.has.plain
  have hR := elem_repo hP
  have hpf := hf.plain
  obtain ⟨u, hu, hrun⟩ := run_Ipv4ToUint hP hS hB hi n
  rw [run_func hP find_AddIp, _root_.Net.AddIpC, hu]
  obtain ⟨root, hr, hpr, ⟨s', h', hm, hs', hadd⟩ | ⟨s', h', v, o, hm, ho, hpv, hs', hadd⟩⟩ := assign_cases hP hf hA u 0#8 hv hn hs
  · simp only [bind, _root_.Net.Eff.lift, hm]
    refine ⟨h', ?_, hs'⟩
    eval_go [hvi, hv, hR, hrun, hr, hpr, hpf, const_add0 hP hpr hv hpf, hadd]
  · simp only [bind, _root_.Net.Eff.lift, hm]
    refine ⟨_, ?_, hs'⟩
    eval_go [hvi, hv, hR, hrun, hr, hpr, hpf, const_add0 hP hpr hv hpf, hadd, ho, hpv]

include hS hB in
theorem run_AddCidr {t : Nat} {f : Val} {World : List Val → σ → Prop} {merge : Val → Val → Eff (Node Val × σ) Val}
    (hf : Callback P t f World merge) (hA : Apart t f World) {value : Val} (hv : Plain value) {n : Nat} (hn : 34 ≤ n)
    {h : List Val} {s : Node Val × σ} (hs : Holds t f World h s) {vc vi vm : Val} {c : _root_.Net.IPNet} (hc : IsNet h vc vi vm)
    (hi : IsBytes h vi c.ip) (hm : IsBytes h vm c.mask) :
    Ends t f World (_root_.Net.AddCidrC merge (some c) value s)
      (run P (n + 2) path (n! "Tree") (n! "AddCidr") [.ptr path (n! "Tree") t [], vc, value] h) := by
  have hvi := hi.has.plain
  have hvm := hm.has.plain
  have hR := elem_repo hP
  have hpf := hf.plain
  obtain ⟨k₁, t₁, a₁, p₁, x₁, rfl, e₁, f₁, g₁⟩ := hc
  obtain ⟨u, hu, hrun⟩ := run_Ipv4ToUint hP hS hB hi n
  have hrm := run_MaskToByte hP hS hm n
  rw [run_func hP find_AddCidr, _root_.Net.AddCidrC, hu]
  obtain ⟨root, hr, hpr, ⟨s', h', hm, hs', hadd⟩ | ⟨s', h', v, o, hm, ho, hpv, hs', hadd⟩⟩ :=
    assign_cases hP hf hA u (32#8 - _root_.Net.MaskToByte c.mask) hv hn hs
  · simp only [bind, _root_.Net.Eff.lift, hm]
    refine ⟨h', ?_, hs'⟩
    eval_go [hvi, hvm, e₁, f₁, g₁, hv, hR, hrun, hrm, hr, hpr, hpf, const_add hP hpr hv hpf, hadd]
  · simp only [bind, _root_.Net.Eff.lift, hm]
    refine ⟨_, ?_, hs'⟩
    eval_go [hvi, hvm, e₁, f₁, g₁, hv, hR, hrun, hrm, hr, hpr, hpf, const_add hP hpr hv hpf, hadd, ho, hpv]

/-- A nil pointer. -/
theorem run_AddCidr_nil {value : Val} (hv : Plain value) (n t : Nat) (h : List Val) :
    run P (n + 1) path (n! "Tree") (n! "AddCidr") [.ptr path (n! "Tree") t [], .nil, value] h = .panic h := by
  rw [run_func hP find_AddCidr]
  eval_go [hv]

end
end Source.Net
