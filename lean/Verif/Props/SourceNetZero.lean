import Verif.Code.NetNil
import Verif.Props.SourceNet
import Verif.Props.NetZero

/-!
# The source text of package `net`, run on trees that were not made by `New`, and on nil pointers

C103: C85 for the text of the package. The callback is nil in a zero `Tree`.
-/
namespace Source
open GoLang NetSpec
open _root_.Net (Node Eff Op IPNet StepC)

/-- What a program does with the tree at `t`, as in `Session`, but calls may also panic, and the program recovers: `os` tells how they ended. -/
inductive Recovers (P : Prog) (t : Nat) : List Val → List (Op Val) → List (Option Unit) → List Val → Prop
  | done {h : List Val} : Recovers P t h [] [] h
  | own {h h₁ h' : List Val} {ops : List (Op Val)} {os : List (Option Unit)} : h₁[t]? = h[t]? → Net.Kept h h₁ → Recovers P t h₁ ops os h' → Recovers P t h ops os h'
  | call {h h₁ h' : List Val} {op : Op Val} {o : Option Unit} {ops : List (Op Val)} {os : List (Option Unit)} {fn : Name} {args : List Val} :
      Makes h op fn args → Ended P t fn args h o h₁ → Recovers P t h₁ ops os h' → Recovers P t h (op :: ops) (o :: os) h'

/-- The root of the tree at `t` is nil or has something in it. -/
def Unmade (t : Nat) (h : List Val) (_ : Unit) : Prop := ∃ root, h[t]? = some (Net.treeObj root .nil) ∧ (root = .nil ∨ Net.Added root)

theorem unmade_apart (t : Nat) : Net.Apart t .nil (Unmade t) where
  alloc := fun h _ y ⟨root, hr, hn⟩ => ⟨root, by rw [List.getElem?_append_left (lt_of_get hr), hr], hn⟩
  root := fun h _ v w hw _ hr => ⟨w, by rw [List.getElem?_set_self (lt_of_get hr)], .inr hw⟩

theorem nil_callback (P : Prog) (t : Nat) (World : List Val → Unit → Prop) : Net.Callback P t .nil World _root_.Net.nilMerge where
  fn := .inl rfl
  call := fun h _ _ _ _ _ hh => ⟨h, fun _ => rfl, hh⟩

section
variable {P : Prog} (hP : HostsNet P) {t : Nat}
include hP

theorem Recovers.runs {h h' : List Val} {ops : List (Op Val)} {os : List (Option Unit)} (hs : Recovers P t h ops os h') :
    ∀ {r : Node Val}, Net.Holds t .nil (Unmade t) h (r, ()) → ∃ r', _root_.Net.RunsN r ops os r' ∧ Net.Holds t .nil (Unmade t) h' (r', ()) := by
  induction hs with
  | done => exact fun {r} hh => ⟨r, ⟨rfl, rfl⟩, hh⟩
  | own ht hk _ ih =>
    rintro r ⟨⟨root, hr, hi⟩, root', hr', hn⟩
    exact ih ⟨⟨root, ht ▸ hr, hi.kept hk⟩, root', ht ▸ hr', hn⟩
  | call hm he _ ih =>
    intro r hh
    obtain ⟨⟨r₁, ⟨⟩⟩, hstep, hh₁⟩ := (C92_step hP (nil_callback P t _) (unmade_apart t) hh hm _).2 _ he
    obtain ⟨r', hr, hh'⟩ := ih hh₁
    exact ⟨r', ⟨_, r₁, _, hstep, hr, rfl⟩, hh'⟩

/-- **C103** A program that uses a zero `Tree` in any way, recovering from panics: the calls end as those on a tree made by `New(nil)`; afterwards
`ListCidr` returns what it returns for that tree, if that is not the empty list; if it is, `ListCidr` panics. (Full statement: `ListCidr` always returns what it returns
for that tree; false, see `C103_not`.) -/
theorem C103_zero_partial {h h' : List Val} {ops : List (Op Val)} {os : List (Option Unit)} (h0 : h[t]? = some (Net.treeObj .nil .nil)) (hs : Recovers P t h ops os h') :
    ∃ r, _root_.Net.RunsN _root_.Net.New ops os r ∧
      if _root_.Net.ListCidr r = [] then ∃ h'', Panics P Net.path (n! "Tree") (n! "ListCidr") [.ptr Net.path (n! "Tree") t []] h' h'' ∧ ∀ i, i < h'.length → h''[i]? = h'[i]?
      else ∃ v h'', Returns P Net.path (n! "Tree") (n! "ListCidr") [.ptr Net.path (n! "Tree") t []] h' [v] h'' ∧ (∀ i, i < h'.length → h''[i]? = h'[i]?) ∧
        Net.IsList h'' v (_root_.Net.ListCidr r) := by
  have hp := hP.text.find Net.text
  obtain ⟨r, hr, ⟨root, h1, hi⟩, root', h2, hn⟩ := hs.runs hP (r := .none) ⟨⟨.nil, h0, .inr ⟨rfl, rfl⟩⟩, .nil, h0, .inl rfl⟩
  refine ⟨r, hr, ?_⟩
  rw [h1] at h2
  have hroot : root = root' := by simpa using h2
  subst hroot
  rcases hi with hi | ⟨rfl, rfl⟩
  · have hne : r ≠ .none := by
      rintro rfl
      rcases hn with rfl | hn
      · exact hi.ne_nil rfl
      · exact hn.2 _ hi
    have hl : _root_.Net.ListCidr r ≠ [] := by
      have := _root_.Net.each_ne_nil 32 r 0#32 31#8 (_root_.Net.RunsN_norm ops .none _ _ trivial hr) hne
      simpa [_root_.Net.ListCidr] using this
    rw [if_neg hl]
    obtain ⟨v, h'', hl, ho, hil⟩ := Net.run_ListCidr hp hP.std hP.binary h1 hi (le_refl _)
    exact ⟨v, h'', .one hl, ho, hil⟩
  · rw [if_pos (show _root_.Net.ListCidr Node.none = [] from rfl)]
    refine ⟨_, .one (Net.run_ListCidr_nil hp h1 0), fun i hl => ?_⟩
    rw [List.getElem?_append_left (by simp; omega), List.getElem?_append_left hl]

omit hP in
theorem stepC_unique {merge : Val → Val → Eff (Node Val × Unit) Val} {s s₁ s₂ : Node Val × Unit} {op : Op Val} {o₁ o₂ : Option Unit} (a : StepC merge s op o₁ s₁)
    (b : StepC merge s op o₂ s₂) : o₁ = o₂ ∧ s₁ = s₂ := by
  cases op with
  | addIp ip x => exact Prod.mk.inj (a.symm.trans b)
  | addCidr n x => exact Prod.mk.inj (a.symm.trans b)
  | addRange p q x =>
    obtain ⟨ua, ha⟩ := _root_.Net.Ipv4ToUint_total p
    obtain ⟨ue, he⟩ := _root_.Net.Ipv4ToUint_total q
    simp only [StepC, _root_.Net.AddRangeC, ha, he] at a b
    obtain ⟨m, a⟩ := a
    obtain ⟨n, b⟩ := b
    have h1 := Net.outer_mono (Net.outer_of_model a) (Nat.le_max_left (m + 1) (n + 1))
    have h2 := Net.outer_mono (Net.outer_of_model b) (Nat.le_max_right (m + 1) (n + 1))
    rw [h1] at h2
    exact Prod.mk.inj (Option.some.inj h2)

omit hP in
theorem runsN_snoc {op : Op Val} {o : Option Unit} {r₁ r₂ : Node Val} : ∀ {ops : List (Op Val)} {os : List (Option Unit)} {r : Node Val}, _root_.Net.RunsN r ops os r₁ →
    (_root_.Net.RunsN r (ops ++ [op]) (os ++ [o]) r₂ ↔ StepC _root_.Net.nilMerge (r₁, ()) op o (r₂, ()))
  | [], os, r, h => by
    obtain ⟨rfl, rfl⟩ := h
    constructor
    · rintro ⟨o', t', os', h1, ⟨rfl, rfl⟩, e⟩
      cases e
      exact h1
    · exact fun h => ⟨o, r₂, [], h, ⟨rfl, rfl⟩, rfl⟩
  | op' :: ops, os, r, h => by
    obtain ⟨o', t', os', h1, h2, rfl⟩ := h
    rw [← runsN_snoc h2]
    constructor
    · rintro ⟨o'', t'', os'', h3, h4, e⟩
      simp only [List.cons_append, List.cons.injEq] at e
      obtain ⟨rfl, rfl⟩ := e
      have := (stepC_unique h1 h3).2
      cases this
      exact h4
    · exact fun h => ⟨o', t', _, h1, h, rfl⟩

/-- **C103** The next call ends if and only if it ends on the tree made by `New(nil)`, and in the same way. -/
theorem C103_ends {h h' : List Val} {ops : List (Op Val)} {os : List (Option Unit)} (h0 : h[t]? = some (Net.treeObj .nil .nil)) (hs : Recovers P t h ops os h')
    {op : Op Val} {fn : Name} {args : List Val} (hm : Makes h' op fn args) (o : Option Unit) :
    (∃ h'', Ended P t fn args h' o h'') ↔ ∃ r, _root_.Net.RunsN _root_.Net.New (ops ++ [op]) (os ++ [o]) r := by
  obtain ⟨r, hr, hh⟩ := hs.runs hP (r := .none) ⟨⟨.nil, h0, .inr ⟨rfl, rfl⟩⟩, .nil, h0, .inl rfl⟩
  have step := C92_step hP (nil_callback P t _) (unmade_apart t) hh hm o
  constructor
  · rintro ⟨h'', he⟩
    obtain ⟨⟨r₁, ⟨⟩⟩, hst, _⟩ := step.2 _ he
    exact ⟨r₁, (runsN_snoc hr).mpr hst⟩
  · rintro ⟨r₁, hst⟩
    obtain ⟨h'', he, _⟩ := step.1 _ ((runsN_snoc hr).mp hst)
    exact ⟨h'', he⟩

/-- **C103** `ListCidr` of a zero `Tree` that nothing was added to panics, so the zero `Tree` is not like a tree made by `New(nil)`. -/
theorem C103_not : ¬ ∀ (h h' : List Val) (ops : List (Op Val)) (os : List (Option Unit)), h[t]? = some (Net.treeObj .nil .nil) → Recovers P t h ops os h' →
    ∃ r v h'', _root_.Net.RunsN _root_.Net.New ops os r ∧ Returns P Net.path (n! "Tree") (n! "ListCidr") [.ptr Net.path (n! "Tree") t []] h' [v] h'' ∧
      Net.IsList h'' v (_root_.Net.ListCidr r) := by
  intro H
  have h0 : (List.replicate (t + 1) (Net.treeObj .nil .nil))[t]? = some (Net.treeObj .nil .nil) := by simp
  obtain ⟨r, v, h'', _, q, _⟩ := H _ _ [] [] h0 .done
  exact q.not_panics (.one (Net.run_ListCidr_nil (hP.text.find Net.text) h0 0))

/-- **C103** A nil `*Tree`: `ListCidr` panics, and so do the calls that add, except that `AddRange` returns if the range is empty. All memory that was there is as before. -/
theorem C103_nil (h : List Val) : (∃ x, Panics P Net.path (n! "Tree") (n! "ListCidr") [.nil] h (h ++ x)) ∧
    ∀ op fn args, Makes h op fn args →
      ((∀ a e x, op ≠ .addRange a e x) → Panics P Net.path (n! "Tree") fn (.nil :: args) h h) ∧
      ∀ a e x ua ue, op = .addRange a e x → IPv4 a ua → IPv4 e ue →
        if ue < ua then Returns P Net.path (n! "Tree") fn (.nil :: args) h [] h else Panics P Net.path (n! "Tree") fn (.nil :: args) h h := by
  have hp := hP.text.find Net.text
  refine ⟨⟨[.arr []] ++ [.slice h.length [] 0 0 0], ?_⟩, fun op fn args hm => ?_⟩
  · have := Net.run_ListCidr_nilTree hp h 0
    rw [List.append_assoc] at this
    exact .one this
  · cases op with
    | addIp ip x =>
      obtain ⟨v, rfl, rfl, hv, hx⟩ := hm
      exact ⟨fun _ => .one (Net.run_AddIp_nilTree hp hP.std hP.binary hx hv 0), by simp⟩
    | addCidr n x =>
      obtain ⟨v, rfl, rfl, ⟨vi, vm, hn, hi, hmm⟩, hx⟩ := hm
      exact ⟨fun _ => .one (Net.run_AddCidr_nilTree hp hP.std hP.binary hx hn hi hmm 0), by simp⟩
    | addRange a e x =>
      obtain ⟨v, w, rfl, rfl, hv, hw, hx⟩ := hm
      refine ⟨fun q => absurd rfl (q a e x), ?_⟩
      rintro a' e' x' ua ue ⟨rfl, rfl, rfl⟩ ha he
      obtain ⟨ps, hps, rfl⟩ := _root_.Net.Ipv4ToUint_of ha
      obtain ⟨pe, hpe, rfl⟩ := _root_.Net.Ipv4ToUint_of he
      obtain ⟨pa, pb, h1, h2, r⟩ := Net.run_AddRange_nilTree hp hP.std hP.binary hx (le_refl 34) hv hw
      rw [hps] at h1
      rw [hpe] at h2
      cases h1
      cases h2
      have hcase : ps ≤ pe ↔ ¬ pe.toNat < ps.toNat := by rw [BitVec.le_def]; omega
      by_cases hc : pe.toNat < ps.toNat
      · rw [if_pos hc]
        rw [if_neg fun q => hcase.mp q hc] at r
        exact .one r
      · rw [if_neg hc]
        rw [if_pos (hcase.mpr hc)] at r
        exact .one r

/-- **C103** Nil `*net.IPNet`: all functions that take one panic, and nothing that was in memory changes. -/
theorem C103_nets (h : List Val) (v : Val) (n : IPNet) (hv : NetAt h v n) (x : Val) (hx : Plain x) (tree : Val) (ht : tree = .nil ∨ ∃ t, tree = .ptr Net.path (n! "Tree") t []) :
    Panics P Net.path 0 (n! "CidrEqual") [.nil, v] h h ∧ Panics P Net.path 0 (n! "CidrEqual") [v, .nil] h h ∧ Panics P Net.path 0 (n! "CidrEqual") [.nil, .nil] h h ∧
    Panics P Net.path 0 (n! "FirstIpv4") [.nil] h h ∧ (∃ y, Panics P Net.path 0 (n! "LastIpv4") [.nil] h (h ++ [y])) ∧
    Panics P Net.path (n! "Tree") (n! "AddCidr") [tree, .nil, x] h h := by
  have hp := hP.text.find Net.text
  obtain ⟨vi, vm, hn, hi, hm⟩ := hv
  have hpv : Plain v := by obtain ⟨k, t, a, p, x, rfl, _⟩ := hn; trivial
  refine ⟨.one (Net.run_CidrEqual_nil hp v hpv 0), .one (Net.run_CidrEqual_nil' hp hn hm.has.plain 0), .one (Net.run_CidrEqual_nil hp .nil trivial 0),
    .one (Net.run_FirstIpv4_nil hp 0), ⟨_, .one (Net.run_LastIpv4_nil hp 0)⟩, ?_⟩
  rcases ht with rfl | ⟨t, rfl⟩
  · exact .one (Net.run_AddCidr_nilnil hp hx 0)
  · exact .one (Net.run_AddCidr_nil hp hx 0 t h)

/-- **C103** `getValue` of a node: the value of an `all`, nil otherwise. -/
theorem C103_getValue (h : List Val) (v l r : Val) (hv : Plain v) :
    Returns P Net.path (n! "all") (n! "getValue") [Net.allVal v] h [v] h ∧ Returns P Net.path (n! "none") (n! "getValue") [Net.noneVal] h [.nil] h ∧
    Returns P Net.path (n! "treeNode") (n! "getValue") [Net.treeVal l r] h [.nil] h := by
  have hp := hP.text.find Net.text
  exact ⟨.one (Net.run_all_getValue hp hv 0), .one (Net.run_none_getValue hp 0), .one (Net.run_treeNode_getValue hp l r 0)⟩

end

/-! ## Examples -/

/-- Memory with a zero `Tree` at 1, after 10.0.0.4 was added, and after adding 10.0.0.5 panicked (there is no callback to merge the two). -/
def zeroMem : List Val := netMem ++ [Net.treeObj .nil .nil]
def zeroMem₁ : List Val := heapOf (run netProg 40 Net.path (n! "Tree") (n! "AddIp") [.ptr Net.path (n! "Tree") 1 [], .slice 0 [] 0 4 8, .int 1] zeroMem)
def zeroMem₂ : List Val := heapOf (run netProg 40 Net.path (n! "Tree") (n! "AddIp") [.ptr Net.path (n! "Tree") 1 [], .slice 0 [] 4 4 4, .int 2] zeroMem₁)

example : zeroMem[1]? = some (Net.treeObj .nil .nil) ∧ Recovers netProg 1 zeroMem [.addIp [10, 0, 0, 4] (.int 1), .addIp [10, 0, 0, 5] (.int 2)] [some (), none] zeroMem₂ := by
  refine ⟨rfl, .call (h₁ := zeroMem₁) (fn := n! "AddIp") (args := [.slice 0 [] 0 4 8, .int 1]) ⟨_, rfl, rfl, ?_, trivial⟩ (Returns.one (n := 40) (by kernel_rfl)) ?_⟩
  · exact .inr ⟨0, [], 0, 8, _, _, rfl, rfl, rfl, by decide, by decide, rfl⟩
  refine .call (h₁ := zeroMem₂) (fn := n! "AddIp") (args := [.slice 0 [] 4 4 4, .int 2]) ⟨_, rfl, rfl, ?_, trivial⟩ (Panics.one (n := 40) (by kernel_rfl)) .done
  · exact .inr ⟨0, [], 4, 4, .arr ([10, 0, 0, 4, 10, 0, 0, 5].map .u8), _, rfl, by kernel_rfl, rfl, by decide, by decide, rfl⟩

/-- The list is then 10.0.0.4/32 with the value 1. -/
example : ∃ h z, run netProg 40 Net.path (n! "Tree") (n! "ListCidr") [.ptr Net.path (n! "Tree") 1 []] zeroMem₂ = .ok [.slice 71 [] 0 1 2] ⟨h, []⟩ ∧
    h[71]? = some (.arr [Net.cidrVal 70 (.int 1), z]) ∧ h[70]? = some (Net.netObj 68 69) ∧ h[68]? = some (.arr ([10, 0, 0, 4].map .u8)) ∧
    h[69]? = some (.arr ([255, 255, 255, 255].map .u8)) :=
  ⟨heapOf (run netProg 40 Net.path (n! "Tree") (n! "ListCidr") [.ptr Net.path (n! "Tree") 1 []] zeroMem₂), zeroLike [Net.cidrVal 70 (.int 1)],
    by kernel_rfl, by kernel_rfl, by kernel_rfl, by kernel_rfl, by kernel_rfl⟩

end Source
