import Verif.Lemmas.IpOrder

/-!
# The size of a tree
-/
namespace Net
open NetSpec
variable {V : Type}

/-- The number of objects `treeNode` (net/IpTree.go:42-44) of a tree. Each has two children, so a tree has `2 * branches + 1` nodes. -/
def branches : Node V → Nat
  | .all _ => 0
  | .none => 0
  | .tree l r => branches l + branches r + 1

/-- The number of nodes of a tree, of all three types. -/
def nodes : Node V → Nat
  | .all _ => 1
  | .none => 1
  | .tree l r => nodes l + nodes r + 1

/-- The length of the longest path from the root. -/
def height : Node V → Nat
  | .all _ => 0
  | .none => 0
  | .tree l r => max (height l) (height r) + 1

theorem nodes_eq : ∀ t : Node V, nodes t = 2 * branches t + 1
  | .all _ => rfl
  | .none => rfl
  | .tree l r => by rw [nodes, branches, nodes_eq l, nodes_eq r]; omega

/-- A tree in normal form with no `all` in it is `none`. -/
theorem blocks_nonempty (h : Nat) : ∀ (t : Node V) (p : Nat), Norm t h → t ≠ .none → 1 ≤ (blocks t h p).length := by
  induction h with
  | zero =>
    intro t p hn h0
    cases t with
    | all v => simp [blocks]
    | none => exact absurd rfl h0
    | tree l r => exact hn.elim
  | succ h ih =>
    intro t p hn h0
    cases t with
    | all v => simp [blocks]
    | none => exact absurd rfl h0
    | tree l r =>
      obtain ⟨hl, hr, _, h2⟩ := hn
      rw [blocks, List.length_append]
      by_cases hl0 : l = .none
      · have := ih r (p + 2 ^ h) hr fun hr0 => h2 ⟨hl0, hr0⟩
        omega
      · have := ih l p hl hl0
        omega

/-- Every `treeNode` is above some block, and a block is below as many of them as its prefix is long. -/
theorem branches_le (h : Nat) : ∀ (t : Node V) (p : Nat), Norm t h → branches t ≤ ((blocks t h p).map fun b => h - b.2.1).sum := by
  induction h with
  | zero =>
    intro t p hn
    cases t with
    | all v => simp [branches]
    | none => simp [branches]
    | tree l r => exact hn.elim
  | succ h ih =>
    intro t p hn
    cases t with
    | all v => simp [branches]
    | none => simp [branches]
    | tree l r =>
      have hne := blocks_nonempty (h + 1) (.tree l r) 0 hn (by simp)
      obtain ⟨hl, hr, _, _⟩ := hn
      have up : ∀ (t : Node V) (p : Nat), ((blocks t h p).map fun b => h + 1 - b.2.1).sum = ((blocks t h p).map fun b => h - b.2.1).sum + (blocks t h p).length := by
        intro t p
        have hb : ∀ b ∈ blocks t h p, b.2.1 ≤ h := by
          have : ∀ (h : Nat) (t : Node V) (p : Nat), ∀ b ∈ blocks t h p, b.2.1 ≤ h := by
            intro h
            induction h with
            | zero => intro t p b hb; cases t <;> simp_all [blocks]
            | succ h ih =>
              intro t p b hb
              cases t with
              | all v => simp only [blocks, List.mem_singleton] at hb; subst hb; simp
              | none => simp [blocks] at hb
              | tree l r =>
                rw [blocks, List.mem_append] at hb
                rcases hb with hb | hb <;> exact Nat.le_succ_of_le (ih _ _ _ hb)
          exact this h t p
        generalize blocks t h p = L at hb
        induction L with
        | nil => rfl
        | cons b L ihL =>
          have h1 := ihL fun b hb' => hb b (by simp [hb'])
          have h2 := hb b (by simp)
          simp only [List.map_cons, List.sum_cons, List.length_cons]
          omega
      have h1 := ih l p hl
      have h2 := ih r (p + 2 ^ h) hr
      have hc : ∀ p q : Nat, (blocks l h p).length = (blocks l h q).length ∧ (blocks r h p).length = (blocks r h q).length := by
        have : ∀ (h : Nat) (t : Node V) (p q : Nat), (blocks t h p).length = (blocks t h q).length := by
          intro h
          induction h with
          | zero => intro t p q; cases t <;> rfl
          | succ h ih =>
            intro t p q
            cases t with
            | all v => rfl
            | none => rfl
            | tree l r => rw [blocks, blocks, List.length_append, List.length_append, ih l p q, ih r (p + 2 ^ h) (q + 2 ^ h)]
        exact fun p q => ⟨this h l p q, this h r p q⟩
      rw [blocks, List.length_append, (hc 0 p).1, (hc (0 + 2 ^ h) (p + 2 ^ h)).2] at hne
      rw [blocks, List.map_append, List.sum_append, up, up, branches]
      omega

/-- The tree is as high as the longest prefix in it. -/
theorem height_blocks (h : Nat) : ∀ (t : Node V) (p : Nat), Norm t h → (∀ b ∈ blocks t h p, h - b.2.1 ≤ height t) ∧ height t ≤ h ∧
    (t ≠ .none → ∃ b ∈ blocks t h p, b.2.1 + height t = h) := by
  induction h with
  | zero =>
    intro t p hn
    cases t with
    | all v => exact ⟨by simp [blocks], by simp [height], fun _ => ⟨_, List.mem_singleton.mpr rfl, rfl⟩⟩
    | none => exact ⟨by simp [blocks], by simp [height], fun h => absurd rfl h⟩
    | tree l r => exact hn.elim
  | succ h ih =>
    intro t p hn
    cases t with
    | all v => exact ⟨by simp [blocks], by simp [height], fun _ => ⟨_, List.mem_singleton.mpr rfl, rfl⟩⟩
    | none => exact ⟨by simp [blocks], by simp [height], fun h => absurd rfl h⟩
    | tree l r =>
      obtain ⟨hl, hr, _, h2⟩ := hn
      obtain ⟨l1, l2, l3⟩ := ih l p hl
      obtain ⟨r1, r2, r3⟩ := ih r (p + 2 ^ h) hr
      refine ⟨fun b hb => ?_, by rw [height]; omega, fun _ => ?_⟩
      · rw [blocks, List.mem_append] at hb
        rw [height]
        rcases hb with hb | hb
        · have := l1 b hb; omega
        · have := r1 b hb; omega
      · rw [blocks, height]
        by_cases hl0 : l = .none
        · obtain ⟨b, hb, e⟩ := r3 fun hr0 => h2 ⟨hl0, hr0⟩
          refine ⟨b, List.mem_append_right _ hb, ?_⟩
          rw [hl0, height]; omega
        · by_cases hr0 : r = .none
          · obtain ⟨b, hb, e⟩ := l3 hl0
            refine ⟨b, List.mem_append_left _ hb, ?_⟩
            rw [hr0, height]; omega
          · obtain ⟨b, hb, e⟩ := l3 hl0
            obtain ⟨c, hc, e'⟩ := r3 hr0
            rcases Nat.le_total (height r) (height l) with hle | hle
            · exact ⟨b, List.mem_append_left _ hb, by omega⟩
            · exact ⟨c, List.mem_append_right _ hc, by omega⟩

/-- A block inserted at height `h` makes at most `h` new `treeNode`s. -/
theorem branches_mkNode (merge : V → V → V) (l r : Node V) : branches (mkNode merge l r) ≤ branches l + branches r + 1 := by
  cases l <;> cases r <;> simp [mkNode, branches]

theorem branches_addN (merge : V → V → V) (h : Nat) : ∀ (t : Node V) (p e : Nat) (x : V),
    branches (addN merge t p h e x) ≤ branches t + (h - e) := by
  induction h with
  | zero => intro t p e x; cases t <;> simp [addN, branches]
  | succ h ih =>
    intro t p e x
    cases t with
    | all v => simp [addN, branches]
    | none =>
      rw [addN]
      have h1 := ih .none p e x
      split
      · simp [branches]
      · split
        · exact Nat.le_trans (branches_mkNode merge _ _) (by simp only [branches] at *; omega)
        · exact Nat.le_trans (branches_mkNode merge _ _) (by simp only [branches] at *; omega)
    | tree l r =>
      rw [addN]
      have h1 := ih l p e x
      have h2 := ih r p e x
      split
      · simp [branches]
      · split
        · exact Nat.le_trans (branches_mkNode merge _ _) (by simp only [branches] at *; omega)
        · exact Nat.le_trans (branches_mkNode merge _ _) (by simp only [branches] at *; omega)

end Net
