import Verif.Lemmas.WhirlpoolMds
import Verif.Lemmas.Whirlpool
import Mathlib.Algebra.BigOperators.Group.Finset.Basic
import Mathlib.Algebra.Order.BigOperators.Group.Finset

/-! # Differences under the rounds of Whirlpool -/
namespace Whirlpool
open WhirlpoolSpec Finset

/-- Number of bytes of row `i` in which two states differ. -/
def rowWt (a b : Mat) (i : Fin 8) : Nat := (univ.filter fun j => a.at i j ≠ b.at i j).card

/-- Number of the eight bytes selected for row `i` of the next state in which two states differ. -/
def diagWt (a b : Mat) (i : Fin 8) : Nat := (univ.filter fun j => a.at (i - j) j ≠ b.at (i - j) j).card

/-- Number of bytes in which two states differ. -/
def dist (a b : Mat) : Nat := (univ.filter fun p : Fin 8 × Fin 8 => a.at p.1 p.2 ≠ b.at p.1 p.2).card

/-- Number of rows in which two states differ. -/
def rows (a b : Mat) : Nat := (univ.filter fun i => rowWt a b i ≠ 0).card

theorem S_inj {x y : U8} (h : S x = S y) : x = y := by rw [← Sinv_S x, h, Sinv_S]

theorem xor_ne_zero {x y : U8} : x ^^^ y ≠ 0#8 ↔ x ≠ y := by
  rw [ne_eq, BitVec.xor_eq_zero_iff]

/-- The difference that enters the matrix multiplication in row `i`. -/
def sdiff (a b : Mat) (i j : Fin 8) : U8 := S (a.at (i - j) j) ^^^ S (b.at (i - j) j)

theorem weight_sdiff (a b : Mat) (i : Fin 8) : weight (sdiff a b i) = diagWt a b i := by
  unfold weight diagWt sdiff
  congr 1
  ext j
  simp only [mem_filter, mem_univ, true_and, xor_ne_zero]
  exact ⟨fun h e => h (by rw [e]), fun h e => h (S_inj e)⟩

theorem mulRow_xor (c v w : Fin 8 → U8) (j : Fin 8) : mulRow c v j ^^^ mulRow c w j = mulRow c (fun k => v k ^^^ w k) j := by
  unfold mulRow
  rw [← xorSum_xor]
  congr 1
  funext k
  rw [gfMul_xor]

theorem roundFn_at (k a : Mat) (i j : Fin 8) :
    (roundFn k a).at i j = mulRow cir (fun l => S (a.at (i - l) l)) j ^^^ k.at i j := by
  unfold roundFn addKey mixRows shiftColumns subBytes mulRow
  simp only [Mat.at_of]

theorem rowWt_round (k a b : Mat) (i : Fin 8) : rowWt (roundFn k a) (roundFn k b) i = weight (mulRow cir (sdiff a b i)) := by
  unfold rowWt weight
  congr 1
  ext j
  simp only [mem_filter, mem_univ, true_and, roundFn_at]
  rw [show mulRow cir (sdiff a b i) j = _ from (mulRow_xor cir _ _ j).symm, xor_ne_zero]
  constructor
  · exact fun h e => h (by rw [e])
  · exact fun h e => h (by
      have := congrArg (· ^^^ k.at i j) e
      simpa [BitVec.xor_assoc] using this)

/-- A row of the next state whose selected bytes differ. -/
theorem row_branch (k a b : Mat) (i : Fin 8) (h : diagWt a b i ≠ 0) :
    9 ≤ diagWt a b i + rowWt (roundFn k a) (roundFn k b) i := by
  rw [rowWt_round, ← weight_sdiff]
  exact branch _ (by rwa [weight_sdiff])

theorem weight_zero {v : Fin 8 → U8} (h : weight v = 0) : v = fun _ => 0#8 := by
  funext j
  by_contra hj
  have : j ∈ univ.filter fun j => v j ≠ 0#8 := by simp [hj]
  rw [card_eq_zero.mp h] at this
  simp at this

theorem mulRow_zero (c : Fin 8 → U8) (j : Fin 8) : mulRow c (fun _ => 0#8) j = 0#8 := by
  simp only [mulRow, gfMul_zero]
  exact xorSum_zero

/-- A row of the next state whose selected bytes agree. -/
theorem row_same (k a b : Mat) (i : Fin 8) (h : diagWt a b i = 0) : rowWt (roundFn k a) (roundFn k b) i = 0 := by
  rw [rowWt_round, weight_zero (v := sdiff a b i) (by rw [weight_sdiff, h])]
  simp [weight, mulRow_zero]

theorem rowWt_le (a b : Mat) (i : Fin 8) : rowWt a b i ≤ 8 := (card_filter_le _ _).trans (by simp)
theorem diagWt_le (a b : Mat) (i : Fin 8) : diagWt a b i ≤ 8 := (card_filter_le _ _).trans (by simp)

theorem diag_active (k a b : Mat) (i : Fin 8) : diagWt a b i ≠ 0 ↔ rowWt (roundFn k a) (roundFn k b) i ≠ 0 := by
  constructor
  · intro h
    have := row_branch k a b i h
    have := diagWt_le a b i
    omega
  · exact fun h e => h (row_same k a b i e)

theorem dist_rows (a b : Mat) : dist a b = ∑ i, rowWt a b i := by
  unfold dist rowWt
  simp only [card_filter, Fintype.sum_prod_type]

theorem dist_diags (a b : Mat) : dist a b = ∑ i, diagWt a b i := by
  unfold dist diagWt
  simp only [card_filter]
  rw [Fintype.sum_prod_type_right]
  refine Eq.trans ?_ sum_comm
  refine sum_congr rfl fun j _ => ?_
  exact (Equiv.sum_comp (Equiv.subRight j) fun x => if a.at x j ≠ b.at x j then 1 else 0).symm

/-- Nine per active row. -/
theorem dist_two (k a b : Mat) : 9 * rows (roundFn k a) (roundFn k b) ≤ dist a b + dist (roundFn k a) (roundFn k b) := by
  rw [dist_diags a b, dist_rows, ← sum_add_distrib]
  unfold rows
  rw [card_filter, mul_sum]
  refine sum_le_sum fun i _ => ?_
  split
  · rename_i h
    have := row_branch k a b i ((diag_active k a b i).mpr h)
    omega
  · omega

/-- The active rows of the states before and after two rounds. -/
theorem rows_branch (k k' a b : Mat) (h : a ≠ b) :
    9 ≤ rows a b + rows (roundFn k' (roundFn k a)) (roundFn k' (roundFn k b)) := by
  have : ∃ i j, a.at i j ≠ b.at i j := by
    by_contra hc
    simp only [not_exists, not_not] at hc
    exact h (Mat.ext hc)
  obtain ⟨i0, j0, h0⟩ := this
  set i := i0 + j0 with hi
  have hd : diagWt a b i ≠ 0 := by
    apply card_ne_zero_of_mem (a := j0)
    simp only [mem_filter, mem_univ, true_and]
    rwa [hi, fin_cancel]
  have hb := row_branch k a b i hd
  have h1 : diagWt a b i ≤ rows a b := by
    unfold diagWt rows
    apply card_le_card_of_injOn (fun j => i - j)
    · intro j hj
      simp only [coe_filter, mem_univ, true_and, Set.mem_setOf_eq] at hj ⊢
      apply card_ne_zero_of_mem (a := j)
      simpa using hj
    · intro x _ y _ e
      exact sub_right_injective e
  have h2 : rowWt (roundFn k a) (roundFn k b) i ≤ rows (roundFn k' (roundFn k a)) (roundFn k' (roundFn k b)) := by
    unfold rows
    conv => lhs; unfold rowWt
    apply card_le_card_of_injOn (fun j => i + j)
    · intro j hj
      simp only [coe_filter, mem_univ, true_and, Set.mem_setOf_eq] at hj ⊢
      rw [← diag_active k']
      apply card_ne_zero_of_mem (a := j)
      simp only [mem_filter, mem_univ, true_and]
      rwa [fin_cancel]
    · intro x _ y _ e
      exact add_right_injective i e
  omega

theorem roundFn_inj {k a b : Mat} (h : roundFn k a = roundFn k b) : a = b := by
  rw [← unround_round k a, h, unround_round]

/-- Four rounds: at least 81 bytes that differ. -/
theorem dist_four (k1 k2 k3 a b : Mat) (h : a ≠ b) :
    81 ≤ dist a b + dist (roundFn k1 a) (roundFn k1 b) + dist (roundFn k2 (roundFn k1 a)) (roundFn k2 (roundFn k1 b)) +
      dist (roundFn k3 (roundFn k2 (roundFn k1 a))) (roundFn k3 (roundFn k2 (roundFn k1 b))) := by
  have h1 := dist_two k1 a b
  have h2 := dist_two k3 (roundFn k2 (roundFn k1 a)) (roundFn k2 (roundFn k1 b))
  have h3 := rows_branch k2 k3 (roundFn k1 a) (roundFn k1 b) fun e => h (roundFn_inj e)
  omega

/-- One byte reaches every byte in two rounds. -/
theorem dist_full (k k' a b : Mat) (h : dist a b = 1) :
    dist (roundFn k' (roundFn k a)) (roundFn k' (roundFn k b)) = 64 := by
  obtain ⟨⟨i0, j0⟩, hp⟩ := card_eq_one.mp h
  have hiff : ∀ i j, a.at i j ≠ b.at i j ↔ i = i0 ∧ j = j0 := by
    intro i j
    have : (i, j) ∈ (univ.filter fun p : Fin 8 × Fin 8 => a.at p.1 p.2 ≠ b.at p.1 p.2) ↔ (i, j) ∈ ({(i0, j0)} : Finset _) := by
      rw [hp]
    simpa using this
  have hd : ∀ i, diagWt a b i = if i = i0 + j0 then 1 else 0 := by
    intro i
    unfold diagWt
    simp only [hiff]
    split
    · rename_i e
      rw [card_eq_one]
      refine ⟨j0, ?_⟩
      ext j
      simp only [mem_filter, mem_univ, true_and, mem_singleton]
      constructor
      · exact fun h => h.2
      · rintro rfl
        exact ⟨by rw [e, fin_cancel], rfl⟩
    · rename_i e
      rw [card_eq_zero]
      ext j
      simp only [mem_filter, mem_univ, true_and, notMem_empty, iff_false]
      rintro ⟨h1, rfl⟩
      exact e (by rw [← h1, fin_cancel'])
  set a1 := roundFn k a with ha1
  set b1 := roundFn k b with hb1
  have hr : ∀ i, rowWt a1 b1 i = if i = i0 + j0 then 8 else 0 := by
    intro i
    have := hd i
    split at this
    · rename_i e
      have h1 := row_branch k a b i (by omega)
      have h2 := rowWt_le a1 b1 i
      rw [← ha1, ← hb1] at h1
      rw [if_pos e]
      omega
    · rename_i e
      rw [if_neg e]
      exact row_same k a b i this
  have hcell : ∀ j, a1.at (i0 + j0) j ≠ b1.at (i0 + j0) j := by
    have h8 := hr (i0 + j0)
    rw [if_pos rfl] at h8
    unfold rowWt at h8
    have : (univ.filter fun j => a1.at (i0 + j0) j ≠ b1.at (i0 + j0) j) = univ := by
      apply eq_univ_of_card
      rw [h8]; rfl
    intro j
    have hj : j ∈ (univ.filter fun j => a1.at (i0 + j0) j ≠ b1.at (i0 + j0) j) := by rw [this]; exact mem_univ j
    exact (mem_filter.mp hj).2
  have hcell0 : ∀ i j, i ≠ i0 + j0 → a1.at i j = b1.at i j := by
    intro i j hi
    by_contra hne
    have h0 := hr i
    rw [if_neg hi] at h0
    exact card_ne_zero_of_mem (a := j) (by simpa using hne) h0
  have hd1 : ∀ i, diagWt a1 b1 i = 1 := by
    intro i
    unfold diagWt
    rw [card_eq_one]
    refine ⟨i - (i0 + j0), ?_⟩
    ext j
    simp only [mem_filter, mem_univ, true_and, mem_singleton]
    constructor
    · intro hj
      by_contra hc
      exact hj (hcell0 _ _ fun e => hc (by rw [← e]; simp))
    · rintro rfl
      rw [sub_sub_cancel]
      exact hcell _
  have hr2 : ∀ i, rowWt (roundFn k' a1) (roundFn k' b1) i = 8 := by
    intro i
    have h1 := row_branch k' a1 b1 i (by rw [hd1]; omega)
    have h2 := rowWt_le (roundFn k' a1) (roundFn k' b1) i
    rw [hd1] at h1
    omega
  rw [dist_rows]
  simp only [hr2]
  rfl

end Whirlpool
