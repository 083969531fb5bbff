import Verif.Props.WhirlpoolLinear
import Mathlib.Algebra.Order.BigOperators.Group.Finset
import Mathlib.Algebra.CharP.Two
import Mathlib.Data.ZMod.Basic

/-!
# C116: the degree of Whirlpool's S-box

A function of eight bits to one bit is a polynomial modulo 2. A monomial is the set of its variables, given as a number below 256; a
polynomial is a set of monomials; its value at `x` is the parity of the number of its monomials all of whose variables are 1 in `x`.
-/
namespace Whirlpool
open WhirlpoolSpec BlockHash Finset

/-- The polynomial `A` is a sum of the output bits of the S-box: of those under the mask `b`. -/
def Represents (A : Finset Nat) (b : Nat) : Prop := (∀ u ∈ A, u < 256) ∧
  ∀ x < 256, ((A.filter fun u => u &&& x = u).card % 2 = 1 ↔ oddBits 8 (b &&& (sBox.getD x 0).toNat) = true)

/-- The number of variables of a monomial. -/
def varCount (u : Nat) : Nat := ((List.range 8).filter u.testBit).length

/-! ## Summing over the inputs below a monomial -/

/-- How many `x < n` below the monomial `u` have the sum of bits 1. -/
def below (b u : Nat) : Nat → Nat
  | 0 => 0
  | n + 1 => below b u n + cond (Nat.beq (Nat.land n u) n) (parAt (Nat.land b (sAt n))) 0

def okD : Bool := (List.range 255).all fun b => Nat.beq (below (b + 1) 255 256 % 2) 0 &&
  ([254, 253, 251, 247, 239, 223, 191, 127] : List Nat).any fun u => Nat.beq (below (b + 1) u 256 % 2) 1

theorem okD_true : okD = true := by decide +kernel

theorem beq_ne {a b : Nat} (h : a ≠ b) : Nat.beq a b = false := by
  rw [← Bool.not_eq_true, Nat.beq_eq]; exact h

/-- How many `x` lie between the monomials `v` and `u`. -/
def between (u v : Nat) : Nat := ∑ x ∈ range 256, if x &&& u = x then (if v &&& x = v then 1 else 0) else 0

theorem and_eq_iff (v x : Nat) : v &&& x = v ↔ ∀ k, v.testBit k = true → x.testBit k = true := by
  constructor
  · intro h k hk
    rw [← h, Nat.testBit_and, Bool.and_eq_true] at hk
    exact hk.2
  · intro h
    apply Nat.eq_of_testBit_eq
    intro k
    rw [Nat.testBit_and]
    cases hv : v.testBit k with
    | false => rfl
    | true => rw [h k hv]; rfl

theorem flip_below (u x i : Nat) (hi : u.testBit i = true) : (x ^^^ 2 ^ i) &&& u = x ^^^ 2 ^ i ↔ x &&& u = x := by
  rw [and_eq_iff, and_eq_iff]
  refine forall_congr' fun k => ?_
  rw [Nat.testBit_xor, Nat.testBit_two_pow]
  by_cases e : i = k
  · subst e; simp [hi]
  · simp [e]

theorem flip_above (v x i : Nat) (hi : v.testBit i = false) : v &&& (x ^^^ 2 ^ i) = v ↔ v &&& x = v := by
  rw [and_eq_iff, and_eq_iff]
  refine forall_congr' fun k => ?_
  rw [Nat.testBit_xor, Nat.testBit_two_pow]
  by_cases e : i = k
  · subst e; simp [hi]
  · simp [e]

theorem between_odd (u v : Nat) (hu : u < 256) : between u v % 2 = if u = v then 1 else 0 := by
  by_cases e : u = v
  · subst e
    rw [if_pos rfl, between, sum_eq_single_of_mem u (mem_range.mpr hu)]
    · simp
    · intro x _ hne
      split
      · next h =>
        rw [if_neg]
        intro h'
        rw [Nat.and_comm, h] at h'
        exact hne h'
      · rfl
  · rw [if_neg e]
    by_cases hs : v &&& u = v
    · obtain ⟨i, hi⟩ : ∃ i, u.testBit i ≠ v.testBit i := by
        by_contra h
        exact e (Nat.eq_of_testBit_eq fun k => by by_contra c; exact h ⟨k, c⟩)
      have hv : v.testBit i = false := by
        by_contra c
        rw [Bool.not_eq_false] at c
        exact hi (by rw [c, (and_eq_iff v u).mp hs i c])
      have hu' : u.testBit i = true := by
        rw [hv] at hi
        simpa using hi
      have h8 : i < 8 := by
        by_contra c
        rw [Nat.testBit_lt_two_pow (Nat.lt_of_lt_of_le hu (Nat.pow_le_pow_right (n := 2) (by omega) (show 8 ≤ i by omega)))] at hu'
        exact absurd hu' (by decide)
      rw [← Nat.even_iff, ← ZMod.natCast_eq_zero_iff_even, between, Nat.cast_sum]
      refine sum_involution (fun x _ => x ^^^ 2 ^ i) ?_ ?_ ?_ ?_
      · intro x _
        simp only [flip_below u x i hu', flip_above v x i hv]
        exact CharTwo.add_self_eq_zero _
      · intro x _ _ h
        have := congrArg (Nat.testBit · i) h
        simp [Nat.testBit_xor] at this
      · intro x hx
        exact mem_range.mpr (Nat.xor_lt_two_pow (n := 8) (mem_range.mp hx) (Nat.pow_lt_pow_right (by omega) h8))
      · intro x _
        simp [Nat.xor_assoc]
    · suffices h : between u v = 0 by rw [h]
      refine sum_eq_zero fun x _ => ?_
      split
      · next h =>
        rw [if_neg]
        intro h'
        apply hs
        rw [and_eq_iff] at h h' ⊢
        exact fun k hk => h k (h' k hk)
      · rfl

theorem below_eq (b u : Nat) : ∀ n, below b u n = ∑ x ∈ range n, if x &&& u = x then parAt (Nat.land b (sAt x)) else 0
  | 0 => rfl
  | n + 1 => by
    rw [below, below_eq b u n, sum_range_succ]
    congr 1
    show cond (Nat.beq (n &&& u) n) _ 0 = _
    by_cases h1 : n &&& u = n <;> simp [h1, beq_ne]

theorem sum_mod (X : Finset Nat) (f g : Nat → Nat) (h : ∀ x ∈ X, f x % 2 = g x % 2) : (∑ x ∈ X, f x) % 2 = (∑ x ∈ X, g x) % 2 := by
  rw [sum_nat_mod, sum_nat_mod X 2 g, sum_congr rfl h]

theorem sBox_at (x : Nat) (hx : x < 256) : (sBox.getD x 0).toNat = sAt x := by
  rw [C51_sbox, List.getD_eq_getElem?_getD, List.getElem?_map, List.getElem?_range hx]
  exact (S_at x hx).symm

/-- The coefficient of `u` is the sum of the values below `u`. -/
theorem coefficient (A : Finset Nat) (b : Nat) (h : Represents A b) (u : Nat) (hu : u < 256) :
    (if u ∈ A then 1 else 0) = below b u 256 % 2 := by
  have swap : ∑ x ∈ range 256, (if x &&& u = x then (A.filter fun v => v &&& x = v).card else 0) = ∑ v ∈ A, between u v := by
    simp only [between, card_filter]
    rw [sum_comm]
    apply sum_congr rfl
    intro x _
    split
    · rfl
    · simp
  have e1 : (∑ v ∈ A, between u v) % 2 = if u ∈ A then 1 else 0 := by
    rw [sum_nat_mod, sum_congr rfl fun v _ => between_odd u v hu, sum_ite_eq]
    split <;> rfl
  rw [← e1, ← swap, below_eq]
  apply sum_mod
  intro x hx
  have hx := mem_range.mp hx
  split
  · have get := sBox_at x hx
    have h2 : b &&& sAt x < 256 := by
      rw [← get]
      exact Nat.and_lt_two_pow (n := 8) _ (sBox.getD x 0).isLt
    have := h.2 x hx
    rw [get] at this
    show _ = parAt (b &&& sAt x) % 2
    rw [parAt_eq _ h2]
    cases ho : oddBits 8 (b &&& sAt x) with
    | true => exact this.mpr ho
    | false =>
      rw [ho] at this
      have : ¬ _ := fun c => absurd (this.mp c) (by decide)
      simp only [cond_false, Nat.zero_mod]
      omega
  · rfl

/-- **C116** Every sum of output bits of the S-box is exactly one polynomial. -/
theorem C116_polynomial (b : Nat) : ∃ A, Represents A b ∧ ∀ A', Represents A' b → A' = A := by
  have bit : ∀ x, parAt x = 0 ∨ parAt x = 1 := fun x => Nat.mod_two_eq_zero_or_one _
  have hA : Represents ((range 256).filter fun u => below b u 256 % 2 = 1) b := by
    refine ⟨fun u hu => mem_range.mp (mem_filter.mp hu).1, fun x hx => ?_⟩
    have e : (((range 256).filter fun u => below b u 256 % 2 = 1).filter fun u => u &&& x = u).card % 2 =
        (∑ y ∈ range 256, parAt (Nat.land b (sAt y)) * between x y) % 2 := by
      have s1 : ∑ y ∈ range 256, parAt (Nat.land b (sAt y)) * between x y =
          ∑ u ∈ range 256, if u &&& x = u then below b u 256 else 0 := by
        simp only [between, below_eq, mul_sum]
        rw [sum_comm]
        apply sum_congr rfl
        intro u _
        split
        · apply sum_congr rfl
          intro y _
          split <;> simp
        · simp
      rw [s1, filter_filter, card_filter]
      apply sum_mod
      intro u _
      by_cases h1 : u &&& x = u
      · rcases Nat.mod_two_eq_zero_or_one (below b u 256) with h | h <;> simp [h1, h]
      · simp [h1]
    rw [e, sum_mod _ _ (fun y => if x = y then parAt (Nat.land b (sAt y)) else 0), sum_ite_eq, if_pos (mem_range.mpr hx), sBox_at x hx]
    · have h2 : b &&& sAt x < 256 := by
        rw [← sBox_at x hx]
        exact Nat.and_lt_two_pow (n := 8) _ (sBox.getD x 0).isLt
      show parAt (b &&& sAt x) % 2 = 1 ↔ _
      rw [parAt_eq _ h2]
      cases oddBits 8 (b &&& sAt x) <;> simp
    · intro y _
      rw [Nat.mul_mod, between_odd x y hx]
      split <;> simp
  refine ⟨_, hA, fun A' h => ?_⟩
  ext u
  rw [mem_filter, mem_range]
  constructor
  · intro hu
    have := coefficient A' b h u (h.1 u hu)
    rw [if_pos hu] at this
    exact ⟨h.1 u hu, this.symm⟩
  · rintro ⟨h1, h2⟩
    by_contra c
    have := coefficient A' b h u h1
    rw [if_neg c, h2] at this
    exact absurd this (by decide)

/-- **C116** Every sum of output bits of the S-box has degree exactly 7 as a polynomial of the input bits, the largest degree that a
permutation of the bytes can have. -/
theorem C116_degree (A : Finset Nat) (b : Nat) (hb : 0 < b) (hb' : b < 256) (h : Represents A b) :
    (∃ u ∈ A, varCount u = 7) ∧ ∀ u ∈ A, varCount u ≤ 7 := by
  have hD := okD_true
  simp only [okD, List.all_eq_true, List.mem_range, Bool.and_eq_true, List.any_eq_true] at hD
  have lt : ∀ u ∈ ([254, 253, 251, 247, 239, 223, 191, 127] : List Nat), u < 256 := by decide
  obtain ⟨h0, u, hu, h1⟩ := hD (b - 1) (by omega)
  rw [Nat.sub_add_cancel hb] at h0 h1
  have c0 := coefficient A b h 255 (by decide)
  have c1 := coefficient A b h u (lt u hu)
  rw [Nat.eq_of_beq_eq_true h0] at c0
  rw [Nat.eq_of_beq_eq_true h1] at c1
  have seven : ∀ u ∈ ([254, 253, 251, 247, 239, 223, 191, 127] : List Nat), varCount u = 7 := by decide
  have small : ∀ u : Fin 256, u.1 ≠ 255 → varCount u.1 ≤ 7 := by decide +kernel
  refine ⟨⟨u, ?_, seven u hu⟩, fun w hw => small ⟨w, h.1 w hw⟩ ?_⟩
  · by_contra c
    rw [if_neg c] at c1
    exact absurd c1 (by decide)
  · rintro rfl
    rw [if_pos hw] at c0
    exact absurd c0 (by decide)

/-- **C116** The S-box has no fixed point. -/
theorem C116_fixed (x : Nat) (hx : x < 256) : (sBox.getD x 0).toNat ≠ x := by
  have key : ∀ x : Fin 256, (sBox.getD x.1 0).toNat ≠ x.1 := by decide +kernel
  exact key ⟨x, hx⟩

/-- The polynomial of the lowest output bit. -/
def lowBit : Finset Nat := ⟨([1, 3, 4, 9, 17, 18, 21, 22, 24, 26, 27, 29, 30, 32, 33, 35, 36, 37, 38, 39, 40, 42, 44, 45, 49, 53, 54, 56, 62, 63, 64, 66, 68,
  69, 70, 72, 73, 76, 77, 81, 82, 83, 84, 87, 88, 90, 91, 93, 95, 96, 98, 99, 101, 103, 105, 107, 110, 112, 113, 114, 115, 120,
  121, 122, 123, 124, 125, 128, 133, 138, 139, 140, 141, 143, 147, 148, 149, 153, 156, 158, 163, 166, 169, 172, 174, 175, 178, 181,
  182, 185, 188, 189, 190, 192, 193, 194, 195, 196, 197, 198, 199, 200, 204, 206, 208, 209, 215, 216, 217, 219, 223, 224, 229, 237] : List Nat), by decide +kernel⟩

example : Represents lowBit 1 := by
  unfold Represents
  decide +kernel

end Whirlpool
