import Verif.Lemmas.IpOrder

/-! # Adding the blocks of a tree to an empty tree -/
namespace Net
open NetSpec
variable {V : Type}

/-- Adding blocks to a node of height `h`. -/
def addAll (merge : V → V → V) (h : Nat) (D : List (Nat × Nat × V)) (t : Node V) : Node V := D.foldl (fun s b => addN merge s b.1 h b.2.1 b.2.2) t

theorem addAll_append (merge : V → V → V) (h : Nat) (D E : List (Nat × Nat × V)) (t : Node V) :
    addAll merge h (D ++ E) t = addAll merge h E (addAll merge h D t) := List.foldl_append

theorem addAll_all (merge : V → V → V) (h : Nat) (v : V) : ∀ D : List (Nat × Nat × V), addAll merge h D (.all v) = .all v
  | [] => rfl
  | b :: D => by
    rw [addAll, List.foldl_cons, addN]
    exact addAll_all merge h v D

theorem addAll_left (merge : V → V → V) (h : Nat) : ∀ (D : List (Nat × Nat × V)) (x : Node V), (∀ b ∈ D, b.2.1 ≤ h ∧ b.1.testBit h = false) →
    addAll merge (h + 1) D (.tree x .none) = .tree (addAll merge h D x) .none
  | [], _, _ => rfl
  | b :: D, x, hD => by
    obtain ⟨h1, h2⟩ := hD b (.head _)
    rw [addAll, List.foldl_cons, addN, if_neg (by omega), h2, if_neg (by simp), mkNode_tree (by simp)]
    exact addAll_left merge h D _ fun c hc => hD c (.tail _ hc)

theorem addAll_right (merge : V → V → V) (h : Nat) (l : Node V) : ∀ (D : List (Nat × Nat × V)) (x : Node V), (∀ b ∈ D, b.2.1 ≤ h ∧ b.1.testBit h = true) →
    ¬ ((∃ a, l = .all a) ∧ ∃ b, addAll merge h D x = .all b) → addAll merge (h + 1) D (.tree l x) = .tree l (addAll merge h D x)
  | [], _, _, _ => rfl
  | b :: D, x, hD, hn => by
    obtain ⟨h1, h2⟩ := hD b (.head _)
    have hn' : ¬ ((∃ a, l = .all a) ∧ ∃ c, addN merge x b.1 h b.2.1 b.2.2 = .all c) := by
      rintro ⟨ha, c, hc⟩
      exact hn ⟨ha, c, by rw [addAll, List.foldl_cons, hc]; exact addAll_all merge h c D⟩
    rw [addAll, List.foldl_cons, addN, if_neg (by omega), h2, if_pos rfl, mkNode_tree hn']
    exact addAll_right merge h l D _ (fun c hc => hD c (.tail _ hc)) hn

theorem addAll_start (merge : V → V → V) (h : Nat) : ∀ D : List (Nat × Nat × V), D ≠ [] →
    addAll merge (h + 1) D .none = addAll merge (h + 1) D (.tree .none .none)
  | [], hD => absurd rfl hD
  | b :: D, _ => by
    rw [addAll, addAll, List.foldl_cons, List.foldl_cons, addN, addN]

/-- The blocks of a tree, added one after the other to an empty tree, give the tree, whatever the merge function (which is not called). -/
theorem addAll_blocks (merge : V → V → V) : ∀ (h : Nat) (t : Node V) (p : Nat), Norm t h → 2 ^ h ∣ p → addAll merge h (blocks t h p) .none = t
  | h, .none, p, _, _ => rfl
  | 0, .all v, p, _, _ => by simp [blocks, addAll, addN]
  | h + 1, .all v, p, _, _ => by simp [blocks, addAll, addN]
  | 0, .tree l r, p, hn, _ => hn.elim
  | h + 1, .tree l r, p, hn, hd => by
    obtain ⟨nl, nr, na, nn⟩ := hn
    have e : 2 ^ (h + 1) = 2 ^ h * 2 := Nat.pow_succ ..
    obtain ⟨q, hq⟩ := hd
    have dl : 2 ^ h ∣ p := ⟨2 * q, by rw [hq, e, Nat.mul_assoc]⟩
    have dr : 2 ^ h ∣ p + 2 ^ h := Nat.dvd_add dl ⟨1, by simp⟩
    have il := addAll_blocks merge h l p nl dl
    have ir := addAll_blocks merge h r (p + 2 ^ h) nr dr
    have hp : 0 < 2 ^ h := Nat.pow_pos (by omega)
    have bit {a i : Nat} (h1 : p + 2 ^ h * i ≤ a) (h2 : a < p + 2 ^ h * i + 2 ^ h) : a / 2 ^ h = 2 * q + i := by
      rw [Nat.div_eq_iff hp]
      have : p = 2 ^ h * (2 * q) := by rw [hq, e, Nat.mul_assoc]
      have e2 : 2 ^ h * (2 * q + i) = 2 ^ h * (2 * q) + 2 ^ h * i := Nat.mul_add ..
      have e3 : (2 * q + i) * 2 ^ h = 2 ^ h * (2 * q + i) := Nat.mul_comm ..
      omega
    have bl : ∀ b ∈ blocks l h p, b.2.1 ≤ h ∧ b.1.testBit h = false := by
      intro b hb
      obtain ⟨h1, h2, h3, h4⟩ := blocks_bounds h l p dl b hb
      have : 0 < 2 ^ b.2.1 := Nat.pow_pos (by omega)
      refine ⟨h1, ?_⟩
      rw [Nat.testBit_eq_decide_div_mod_eq, bit (i := 0) (by omega) (by omega)]
      simp
    have br : ∀ b ∈ blocks r h (p + 2 ^ h), b.2.1 ≤ h ∧ b.1.testBit h = true := by
      intro b hb
      obtain ⟨h1, h2, h3, h4⟩ := blocks_bounds h r (p + 2 ^ h) dr b hb
      have : 0 < 2 ^ b.2.1 := Nat.pow_pos (by omega)
      refine ⟨h1, ?_⟩
      rw [Nat.testBit_eq_decide_div_mod_eq, bit (i := 1) (by omega) (by omega)]
      simp
    rw [blocks, addAll_start, addAll_append, addAll_left merge h _ _ bl, il, addAll_right merge h l _ _ br (by rw [ir]; exact na), ir]
    intro h0
    rw [List.append_eq_nil_iff] at h0
    rw [h0.1] at il
    rw [h0.2] at ir
    exact nn ⟨il.symm, ir.symm⟩

/-- Calls of `AddCidr` with canonical networks. -/
theorem Runs_entries (merge : V → V → V) : ∀ (L : List (IPNet × V)) (t t' : Node V), (∀ n ∈ L, CanonicalNet n.1) →
    Runs merge t (L.map fun n => .addCidr n.1 n.2) t' → t' = (listed L).foldl (addTo merge) t
  | [], _, _, _, h => h
  | n :: L, t, t', hc, h => by
    obtain ⟨t1, h1, h2⟩ := h
    have e := Runs_cidrs merge n.2 [n.1] t t1 (by intro m hm; rw [List.mem_singleton.mp hm]; exact hc n (.head _)) ⟨t1, h1, rfl⟩
    rw [Runs_entries merge L t1 t' (fun m hm => hc m (.tail _ hm)) h2, e]
    rfl

/-- The entries of the list of a tree, added to a new tree, give the tree again. -/
theorem Runs_copy (merge : V → V → V) {t t' : Node V} (hn : Norm t 32) (hc : ∀ n ∈ ListCidr t, CanonicalNet n.1)
    (h : Runs merge New ((ListCidr t).map fun n => .addCidr n.1 n.2) t') : t' = t := by
  rw [Runs_entries merge _ _ _ hc h, listed_blocks t hn, List.foldl_map]
  refine Eq.trans ?_ (addAll_blocks merge 32 t 0 hn (by simp))
  rw [addAll]
  have step : ∀ (B : List (Nat × Nat × V)), (∀ b ∈ B, b ∈ blocks t 32 0) → ∀ s : Node V,
      B.foldl (fun s b => addTo merge s (toCidr b.1 b.2.1, b.2.2)) s = B.foldl (fun s b => addN merge s b.1 32 b.2.1 b.2.2) s := by
    intro B
    induction B with
    | nil => intros; rfl
    | cons b B ih =>
      intro hB s
      have h1 := block_ok (hB b List.mem_cons_self)
      rw [List.foldl_cons, List.foldl_cons, ← ih fun c hc => hB c (List.mem_cons_of_mem _ hc)]
      congr 1
      show addN merge s b.1 32 (32 - (32 - b.2.1)) b.2.2 = _
      rw [show 32 - (32 - b.2.1) = b.2.1 by omega]
  exact step _ (fun _ hb => hb) _

end Net
