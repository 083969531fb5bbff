import Verif.Props.SourceNet
import Verif.Props.NetSize

/-!
# Property C108: how deep the calls of package `net` nest, and how often its loops turn, run from its text

The first argument of `run` bounds both the depth of calls and the turns of every loop. So a call that ends with the bound `n` nests calls of this package at most
`n` deep, and no loop in it turns more than `n` times.
-/
namespace Source
open GoLang NetSpec
open _root_.Net (Node Eff Op IPNet StepC Greedy_length_le)

/-- `outer` ends after as many turns as there are blocks in the range. -/
theorem Net.outer_ends {σ : Type} {merge : Val → Val → Eff (Node Val × σ) Val} {e : BitVec 32} (hne : e ≠ 0xffffffff#32) {value : Val} :
    ∀ {u : Nat} {cs : List Cidr}, Greedy e.toNat u cs → ∀ {v : BitVec 32} {s}, v.toNat = u → ∀ {n : Nat}, cs.length < n →
      ∃ r, Net.outer merge e value n v s = some r := by
  intro u cs hg
  induction hg with
  | done hlt =>
    intro v s hv n hn
    obtain ⟨n, rfl⟩ : ∃ m, n = m + 1 := ⟨n - 1, by simp at hn; omega⟩
    refine ⟨_, by rw [Net.outer, if_neg (by rw [BitVec.le_def]; omega)]⟩
  | @next u k cs hk hd hfit hmax _ ih =>
    intro v s hv n hn
    obtain ⟨n, rfl⟩ : ∃ m, n = m + 1 := ⟨n - 1, by simp at hn; omega⟩
    have hp : 0 < 2 ^ k := Nat.pow_pos (by omega)
    have hle : v ≤ e := by rw [BitVec.le_def]; omega
    obtain ⟨i, hi, _, hm0⟩ := _root_.Net.initial_m v
    obtain ⟨m, hm⟩ := _root_.Net.shrink_ends v e hle 32 _ i hi hm0
    obtain ⟨j, hj, hdj, hb, hend, hnext, _⟩ := _root_.Net.range_turn hne hm
    have h1 := _root_.Net.bitCount_max hm k hk (hv ▸ hd) (by omega)
    have h2 := hmax j hj (hv ▸ hdj) (by omega)
    have hjk : j = k := by omega
    subst hjk
    rw [Net.outer, if_pos hle, hm]
    dsimp only
    split
    · exact ⟨_, rfl⟩
    · exact ih (by rw [hnext, hv]) (by simp at hn; omega)

/-- Every range that does not end at 255.255.255.255 is split into at most 62 blocks. -/
theorem Net.greedy_exists {a e : BitVec 32} (hne : e ≠ 0xffffffff#32) : ∃ cs, Greedy e.toNat a.toNat cs ∧ cs.length ≤ 62 := by
  obtain ⟨t, ht⟩ := _root_.Net.rangeLoop_ends (fun _ _ : Unit => ()) e hne () _ a .none (Nat.le_refl _)
  obtain ⟨ns, _, hg, _⟩ := _root_.Net.rangeLoop_greedy _ e hne () _ a _ t ht
  have hlt : e.toNat + 1 < 2 ^ 32 := by
    have := e.isLt
    rcases Nat.lt_or_ge (e.toNat + 1) (2 ^ 32) with h | h
    · exact h
    · exact absurd (BitVec.eq_of_toNat_eq (by show _ = 4294967295; omega)) hne
  exact ⟨_, hg, Greedy_length_le hg hlt⟩

theorem depth_height : ∀ r : Node Val, Net.depth r = _root_.Net.height r
  | .all _ => rfl
  | .none => rfl
  | .tree l r => by rw [Net.depth, _root_.Net.height, depth_height l, depth_height r]

/-- The call ends when calls may nest `n` deep and loops may turn `n` times: it returns or it panics. -/
def EndsWithin (P : Prog) (n t : Nat) (f : Name) (args h : List Val) : Prop :=
  run P n Net.path (n! "Tree") f (.ptr Net.path (n! "Tree") t [] :: args) h ≠ .stuck

/-- The bound for each call. -/
def mostTurns {V : Type} : Op V → Nat
  | .addIp _ _ => 36
  | .addCidr _ _ => 36
  | .addRange _ _ _ => 65

section
variable {P : Prog} (hP : HostsNet P) {σ : Type} {t : Nat} {f : Val} {World : List Val → σ → Prop} {merge : Val → Val → Eff (Node Val × σ) Val}
  (hf : Net.Callback P t f World merge) (hA : Net.Apart t f World)
include hP hf hA

omit hP hf hA in
theorem ends_not_stuck {r : Option Unit × (Node Val × σ)} {o : Out (List Val)} (h : Net.Ends t f World r o) : o ≠ .stuck := by
  obtain ⟨_ | ⟨⟩, s'⟩ := r <;> obtain ⟨h', rfl, _⟩ := h <;> simp

/-- **C108** Whatever is in the tree and whatever the callback does, `AddIp` and `AddCidr` nest calls at most 36 deep; `AddRange` turns its loops at most 65 times each, unless
the range ends at 255.255.255.255. -/
theorem C108_adds {h : List Val} {s : Node Val × σ} (hs : Net.Holds t f World h s) {op : Op Val} {fn : Name} {args : List Val} (hm : Makes h op fn args)
    (he : ∀ a e x, op = .addRange a e x → ¬ IPv4 e 0xffffffff) : EndsWithin P (mostTurns op) t fn args h := by
  have hp := hP.text.find Net.text
  cases op with
  | addIp ip x =>
    obtain ⟨v, rfl, rfl, hv, hx⟩ := hm
    exact ends_not_stuck (Net.run_AddIp hp hP.std hP.binary hf hA hx (le_refl 34) hs hv)
  | addCidr n x =>
    obtain ⟨v, rfl, rfl, ⟨vi, vm, hn, hi, hmm⟩, hx⟩ := hm
    exact ends_not_stuck (Net.run_AddCidr hp hP.std hP.binary hf hA hx (le_refl 34) hs hn hi hmm)
  | addRange a e x =>
    obtain ⟨v, w, rfl, rfl, hv, hw, hx⟩ := hm
    have he := he a e x rfl
    obtain ⟨ua, ue, _, hue, k⟩ := Net.run_AddRange hp hP.std hP.binary hf hA hx (show 34 ≤ 63 by omega) hs hv hw
    have hne : ue ≠ 0xffffffff#32 := by
      rintro rfl
      by_cases h4 : ∃ u, IPv4 e u
      · obtain ⟨u, hu⟩ := h4
        obtain ⟨w, hw', e'⟩ := _root_.Net.Ipv4ToUint_of hu
        rw [hw'] at hue; cases hue
        rw [← e'] at hu
        exact he hu
      · rw [_root_.Net.Ipv4ToUint_not h4] at hue; cases hue
    obtain ⟨cs, hg, hl⟩ := Net.greedy_exists (a := ua) hne
    obtain ⟨r, hr⟩ := Net.outer_ends (merge := merge) (value := x) hne hg (s := s) rfl (show cs.length < 63 + 1 by omega)
    rw [hr] at k
    exact ends_not_stuck k

omit hf hA in
/-- **C108** `ListCidr` nests calls at most three deeper than the tree is high. -/
theorem C108_lists {h : List Val} {root : Val} (ht : h[t]? = some (Net.treeObj root f)) {r : Node Val} (hr : Net.IsNode h root r) :
    EndsWithin P (_root_.Net.height r + 3) t (n! "ListCidr") [] h := by
  obtain ⟨v, h', e, _⟩ := Net.run_ListCidr (hP.text.find Net.text) hP.std hP.binary ht hr (n := _root_.Net.height r + 2) (by rw [depth_height])
  rw [EndsWithin, e]
  simp

end

section
variable {P : Prog} (hP : HostsNet P) {t : Nat} {f : Val} {merge : Val → Val → Val} (hf : Computes P t f merge)
include hP hf

/-- **C108** However long a program has used a tree, the next call on it nests calls at most 36 deep (so the stack does not overflow), and none of its loops turns more than 65
times, unless the range ends at 255.255.255.255. -/
theorem C108_session {h h' : List Val} {ops : List (Op Val)} (ht : t = h.length) (hs : Session P t (h ++ [Net.treeObj Net.noneVal f]) ops h') :
    EndsWithin P 35 t (n! "ListCidr") [] h' ∧
    ∀ {op : Op Val} {fn : Name} {args : List Val}, Makes h' op fn args → (∀ a e x, op = .addRange a e x → ¬ IPv4 e 0xffffffff) →
      EndsWithin P (mostTurns op) t fn args h' := by
  subst ht
  have h0 : (h ++ [Net.treeObj Net.noneVal f])[h.length]? = some (Net.treeObj Net.noneVal f) := by simp
  obtain ⟨r, hr, hh⟩ := hs.runs hP hf (r := .none) ⟨⟨Net.noneVal, h0, .inl .none⟩, Net.noneVal, h0, by simp⟩
  refine ⟨?_, fun hm he => C108_adds hP (computes_callback hf) (rooted_apart _ f) hh hm he⟩
  obtain ⟨⟨root, h1, hi⟩, root', h2, hn⟩ := hh
  rw [h1] at h2
  obtain rfl : root = root' := by simpa using h2
  rcases hi with hi | ⟨rfl, _⟩
  · have hH := (_root_.Net.C107_height ops hr).1
    have e := C108_lists hP h1 hi
    intro hs'
    exact e (by_contra fun hne => hne (by rw [← hs']; exact (run_mono (show _root_.Net.height r + 3 ≤ 35 by omega) hne rfl).symm))
  · exact absurd rfl hn

end

/-- The premises, for the program of C92: after two calls. The bound for `AddIp` is nearly reached: on a new tree it does not end with 34. -/
example : EndsWithin netProg 35 1 (n! "ListCidr") [] netMem₂ ∧ ¬ EndsWithin netProg 34 1 (n! "AddIp") [.slice 0 [] 0 4 8, .int 1] (netMem ++ [Net.treeObj Net.noneVal (.native 0)]) :=
  ⟨(C108_session netProg_hosts (netProg_computes 1) (h := netMem) rfl exampleSession).1, not_not.mpr (by kernel_rfl)⟩

end Source
