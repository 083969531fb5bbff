import Verif.Lemmas.WhirlpoolSbox

/-! # Linear approximations of the S-box of Whirlpool

For each mask `b` of the output, one number holds, in digits to the base 2^16, how many inputs agree with each mask `a` of the input. -/
namespace Whirlpool
open WhirlpoolSpec

/-- Bit `n` is the parity of the bits of `n < 256`. -/
def parT : Nat := 0x6996966996696996966969966996966996696996699696696996966996696996
def parAt (n : Nat) : Nat := (parT >>> n) % 2

/-- For every mask `a`, whether `a` has parity `p` on `x`. -/
def maskRow (x p : Nat) : Nat → Nat
  | 0 => 0
  | n + 1 => maskRow x p n + cond (Nat.beq (parAt (Nat.land n x)) p) 1 0 * 2 ^ (16 * n)

/-- How many inputs below `n` agree, for every mask `a`. -/
def agreeT (b : Nat) : Nat → Nat
  | 0 => 0
  | n + 1 => agreeT b n + cond (Nat.beq (parAt (Nat.land b (sAt n))) 0) (maskRow n 0 256) (maskRow n 1 256)

def okL : Bool := (List.range 255).all fun b => (List.range 256).all fun a =>
  Nat.ble 100 (agreeT (b + 1) 256 / 2 ^ (16 * a) % 65536) && Nat.ble (agreeT (b + 1) 256 / 2 ^ (16 * a) % 65536) 156

theorem okL_true : okL = true := by decide +kernel

/-! ## Reading the tally -/

/-- The number of ones among the low `k` bits is odd. -/
def oddBits (k n : Nat) : Bool := ((List.range k).filter n.testBit).length % 2 == 1

theorem parAt_eq (n : Nat) (h : n < 256) : parAt n = cond (oddBits 8 n) 1 0 := by
  have key : ∀ n : Fin 256, parAt n.1 = cond (oddBits 8 n.1) 1 0 := by decide +kernel
  exact key ⟨n, h⟩

theorem maskRow_eq (x p : Nat) : ∀ n, maskRow x p n = num (fun a => cond (Nat.beq (parAt (Nat.land a x)) p) 1 0) n
  | 0 => rfl
  | n + 1 => by rw [maskRow, maskRow_eq x p n, num]

theorem num_add (c d : Nat → Nat) : ∀ n, num c n + num d n = num (fun y => c y + d y) n
  | 0 => rfl
  | n + 1 => by rw [num, num, num, ← num_add c d n, Nat.add_mul]; omega

/-- How many inputs below `n` agree with mask `a`. -/
def agree (b n a : Nat) : Nat := ((List.range n).filter fun x => parAt (Nat.land a x) = parAt (Nat.land b (sAt x))).length

theorem agree_succ (b n a : Nat) : agree b (n + 1) a =
    agree b n a + cond (Nat.beq (parAt (Nat.land a n)) (parAt (Nat.land b (sAt n)))) 1 0 := by
  unfold agree
  rw [List.range_succ, List.filter_append, List.length_append]
  congr 1
  by_cases h : parAt (Nat.land a n) = parAt (Nat.land b (sAt n))
  · rw [List.filter_cons_of_pos (by exact decide_eq_true h), h, Nat.beq_refl]; rfl
  · have : Nat.beq (parAt (Nat.land a n)) (parAt (Nat.land b (sAt n))) = false := by
      rw [← Bool.not_eq_true, Nat.beq_eq]; exact h
    rw [List.filter_cons_of_neg (by simpa using h), this]; rfl

theorem agree_le (b n a : Nat) : agree b n a ≤ n := by
  have := List.length_filter_le (fun x => decide (parAt (Nat.land a x) = parAt (Nat.land b (sAt x)))) (List.range n)
  rwa [List.length_range] at this

theorem cond_row (x p m : Nat) (h : p = 0 ∨ p = 1) : cond (Nat.beq p 0) (maskRow x 0 m) (maskRow x 1 m) = maskRow x p m := by
  rcases h with rfl | rfl <;> rfl

theorem num_zero (c : Nat → Nat) (h : ∀ a, c a = 0) : ∀ m, num c m = 0
  | 0 => rfl
  | m + 1 => by rw [num, num_zero c h m, h, Nat.zero_mul]

theorem agreeT_eq (b : Nat) : ∀ n, agreeT b n = num (agree b n) 256
  | 0 => by rw [num_zero _ fun _ => Nat.le_zero.mp (agree_le b 0 _), agreeT]
  | n + 1 => by
    rw [agreeT, agreeT_eq b n, cond_row n (parAt (Nat.land b (sAt n))) 256 (Nat.mod_two_eq_zero_or_one _), maskRow_eq, num_add]
    exact congrArg (num · 256) (funext fun a => (agree_succ b n a).symm)

/-- No linear function of the input agrees with a linear function of the output of the S-box on more than 156 of the 256 inputs, nor on fewer
than 100. -/
theorem sbox_linear (a b : Nat) (ha : a < 256) (hb : 0 < b) (hb' : b < 256) : 100 ≤ agree b 256 a ∧ agree b 256 a ≤ 156 := by
  have h := okL_true
  simp only [okL, List.all_eq_true, List.mem_range, Bool.and_eq_true] at h
  have h1 := h (b - 1) (by omega) a ha
  rw [show b - 1 + 1 = b by omega, agreeT_eq, num_digit (fun y => Nat.lt_of_le_of_lt (agree_le _ _ y) (by omega)) _ _ ha] at h1
  exact ⟨Nat.le_of_ble_eq_true h1.1, Nat.le_of_ble_eq_true h1.2⟩

end Whirlpool
