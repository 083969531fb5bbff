import Mathlib.Data.List.Forall2
import Verif.Lemmas.IpSame
import Verif.Lemmas.IpOnce
import Verif.Lemmas.NetHeap
import Verif.Props.Net

/-! # Calls exchanged for others that make the same tree -/
namespace Net
open NetSpec
variable {V : Type} {merge : V → V → V}

/-- Calls that can be made, add no address twice, and make the same tree of the same addresses. -/
structure Alike (merge : V → V → V) (p q : List (Op V)) : Prop where
  runs : ∃ t, Runs merge New p t ∧ Runs merge New q t
  left : ∀ op ∈ p, IPv4Args op
  right : ∀ op ∈ q, IPv4Args op
  once : p.Pairwise fun x y => ∀ a, Adds a x → ¬ Adds a y
  adds : ∀ a, (∃ op ∈ p, Adds a op) ↔ ∃ op ∈ q, Adds a op

theorem Alike.flatten {ps qs : List (List (Op V))} (h : List.Forall₂ (Alike merge) ps qs) (hd : qs.flatten.Pairwise fun x y => ∀ a, Adds a x → ¬ Adds a y) :
    (∀ op ∈ ps.flatten, IPv4Args op) ∧ (∀ op ∈ qs.flatten, IPv4Args op) ∧ (ps.flatten.Pairwise fun x y => ∀ a, Adds a x → ¬ Adds a y) ∧
      (∀ a, (∃ op ∈ ps.flatten, Adds a op) ↔ ∃ op ∈ qs.flatten, Adds a op) ∧ (∀ op ∈ ps.flatten ++ qs.flatten, ∃ s s', Step merge s op s') := by
  induction h with
  | nil => exact ⟨by simp, by simp, .nil, by simp, by simp⟩
  | @cons p q ps qs h _ ih =>
    rw [List.flatten_cons, List.pairwise_append] at hd
    obtain ⟨i1, i2, i3, i4, i5⟩ := ih hd.2.1
    rw [List.flatten_cons, List.flatten_cons]
    refine ⟨fun op ho => ?_, fun op ho => ?_, List.pairwise_append.mpr ⟨h.once, i3, fun x hx y hy a h1 h2 => ?_⟩, fun a => ?_, fun op ho => ?_⟩
    · exact (List.mem_append.mp ho).elim (h.left op) (i1 op)
    · exact (List.mem_append.mp ho).elim (h.right op) (i2 op)
    · obtain ⟨x', hx', h1⟩ := (h.adds a).mp ⟨x, hx, h1⟩
      obtain ⟨y', hy', h2⟩ := (i4 a).mp ⟨y, hy, h2⟩
      exact hd.2.2 x' hx' y' hy' a h1 h2
    · simp only [List.mem_append, or_and_right, exists_or]
      rw [h.adds a, i4 a]
    · obtain ⟨t, r1, r2⟩ := h.runs
      simp only [List.mem_append] at ho i5
      rcases ho with (ho | ho) | ho | ho
      · exact Runs_step _ _ _ r1 op ho
      · exact i5 op (.inl ho)
      · exact Runs_step _ _ _ r2 op ho
      · exact i5 op (.inr ho)

/-- Calls that were made somewhere can be made anywhere. -/
theorem Runs_of_steps {ops : List (Op V)} (h : ∀ op ∈ ops, ∃ s s', Step merge s op s') (t : Node V) : ∃ t', Runs merge t ops t' :=
  C16_runs merge ops (fun op ho s e v he h' => by
    subst he
    obtain ⟨r, r', hr⟩ := h _ ho
    exact (C21_diverges r s v h').2 ⟨r', hr⟩) t

/-- Parts of a history that add no address twice may each be exchanged for others that make the same tree. -/
theorem Runs_exchange {ps qs : List (List (Op V))} (h : List.Forall₂ (Alike merge) ps qs)
    (hd : qs.flatten.Pairwise fun x y => ∀ a, Adds a x → ¬ Adds a y) : ∀ {m t : Node V}, Runs merge New ps.flatten m → Runs merge New qs.flatten t → m = t := by
  induction h with
  | nil => intro m t h1 h2; exact h1.trans h2.symm
  | @cons p q ps qs h hs ih =>
    intro m t hm ht
    obtain ⟨j1, j2, j3, j4, j5⟩ := Alike.flatten (.cons h hs) hd
    rw [List.flatten_cons] at hm ht hd j1 j2 j3
    rw [List.flatten_cons, List.flatten_cons] at j5
    simp only [List.mem_append] at j5
    obtain ⟨s, hs1, hs2⟩ := h.runs
    obtain ⟨_, i2, i3, i4, _⟩ := Alike.flatten hs (List.pairwise_append.mp hd).2.1
    -- first part exchanged
    obtain ⟨s', m1, m2⟩ := Runs_split hm
    cases Runs_once m1 hs1
    have hm := NetHeap.Runs_append _ _ hs2 m2
    have sym : ∀ {x y : Op V}, (∀ a, Adds a x → ¬ Adds a y) → ∀ a, Adds a y → ¬ Adds a x := fun h a h1 h2 => h a h2 h1
    have d1 : (q ++ ps.flatten).Pairwise fun x y => ∀ a, Adds a x → ¬ Adds a y := by
      refine List.pairwise_append.mpr ⟨(List.pairwise_append.mp hd).1, i3, fun x hx y hy a h1 h2 => ?_⟩
      obtain ⟨y', hy', h2⟩ := (i4 a).mp ⟨y, hy, h2⟩
      exact (List.pairwise_append.mp hd).2.2 x hx y' hy' a h1 h2
    -- it comes last
    obtain ⟨m', hm'⟩ := Runs_of_steps (merge := merge) (ops := ps.flatten ++ q) (fun op ho => by
      rcases List.mem_append.mp ho with ho | ho
      · exact j5 op (.inl (.inr ho))
      · exact j5 op (.inr (.inl ho))) New
    obtain ⟨t', ht'⟩ := Runs_of_steps (merge := merge) (ops := qs.flatten ++ q) (fun op ho => by
      rcases List.mem_append.mp ho with ho | ho
      · exact j5 op (.inr (.inr ho))
      · exact j5 op (.inr (.inl ho))) New
    have e1 := Runs_perm merge List.perm_append_comm (fun op ho => by
      rcases List.mem_append.mp ho with ho | ho
      · exact h.right op ho
      · exact j1 op (List.mem_append_right _ ho)) d1 hm hm'
    have e2 := Runs_perm merge List.perm_append_comm j2 hd ht ht'
    obtain ⟨u, u1, u2⟩ := Runs_split hm'
    obtain ⟨v, v1, v2⟩ := Runs_split ht'
    cases ih (List.pairwise_append.mp hd).2.1 u1 v1
    rw [e1, e2]
    exact Runs_once u2 v2

end Net
