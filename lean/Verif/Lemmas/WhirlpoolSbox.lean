import Verif.Spec.Whirlpool

/-! # Differences through the S-box of Whirlpool -/
namespace Whirlpool
open WhirlpoolSpec

/-- The S-box as one number, entry `x` at bit `8x`. -/
def sboxT : Nat := 0x86f85c28a49842ccedd0b67009693a16e11489ac46f674316c9d0bdc53c1bb2aa97f445603c46ee7d32c13b9f794813cebb74e8f11ceab3b247edffa0d6d995104fcc7431e9c21b361e2a5d18c38785e4c3972845925c5f996a8d4621f0ee6b28a0675924dfd1cdec02fba65eaa2553fef30f345506aafb51bd682762bcf00973d8da1dbecc308401273f164229354b4ae1a68205f907aff4834cdbe80d50fe9b032269a885be3f2d94919c871aa026333835aad07bf2dca9e4717dd667ceefbd8957da78b4127e467053ecbf4105dbd856ba0b10a29c958da4af09fe537771557fe4b2ec2d7e01d357b0ca38e9bbc6052916f79f5d2a6364f01b887e8c62318
def sAt (x : Nat) : Nat := (sboxT >>> (8 * x)) % 256

theorem sAt_eq : ∀ x : U8, sAt x.toNat = (S x).toNat := by decide +kernel

/-- A number with 16 bits for every difference: how often each occurs for the inputs below `n`. -/
def tally (a : Nat) : Nat → Nat
  | 0 => 0
  | n + 1 => tally a n + 2 ^ (16 * (sAt (n ^^^ a) ^^^ sAt n))

/-- All occur at most eight times. -/
def okS : Bool := (List.range 255).all fun a => (List.range 256).all fun y => Nat.ble (tally (a + 1) 256 / 2 ^ (16 * y) % 65536) 8

theorem okS_true : okS = true := by decide +kernel

/-! ## Reading the tally -/

/-- The number with digits `c 0 … c (n-1)` to the base 2^16. -/
def num (c : Nat → Nat) : Nat → Nat
  | 0 => 0
  | n + 1 => num c n + c n * 2 ^ (16 * n)

theorem num_lt {c : Nat → Nat} (hc : ∀ y, c y < 65536) : ∀ n, num c n < 2 ^ (16 * n)
  | 0 => by simp [num]
  | n + 1 => by
    have ih := num_lt hc n
    have := hc n
    have e : 2 ^ (16 * (n + 1)) = 65536 * 2 ^ (16 * n) := by rw [Nat.mul_add, Nat.pow_add]; omega
    have h2 : c n * 2 ^ (16 * n) ≤ 65535 * 2 ^ (16 * n) := Nat.mul_le_mul_right _ (by omega)
    rw [num, e]
    omega

theorem num_digit {c : Nat → Nat} (hc : ∀ y, c y < 65536) (y : Nat) : ∀ n, y < n → num c n / 2 ^ (16 * y) % 65536 = c y
  | n + 1, h => by
    rw [num]
    rcases Nat.lt_or_ge y n with hy | hy
    · have e : c n * 2 ^ (16 * n) = 65536 * (c n * 2 ^ (16 * (n - y - 1))) * 2 ^ (16 * y) := by
        have : 16 * n = 16 + 16 * (n - y - 1) + 16 * y := by omega
        rw [this, Nat.pow_add, Nat.pow_add]
        rw [show (2 : Nat) ^ 16 = 65536 from rfl]
        simp only [Nat.mul_assoc, Nat.mul_left_comm]
      rw [e, Nat.add_mul_div_right _ _ (Nat.two_pow_pos _), Nat.add_mul_mod_self_left]
      exact num_digit hc y n hy
    · have : y = n := by omega
      subst this
      rw [Nat.add_mul_div_right _ _ (Nat.two_pow_pos _), Nat.div_eq_of_lt (num_lt hc y), Nat.zero_add]
      exact Nat.mod_eq_of_lt (hc y)

theorem num_inc (c : Nat → Nat) (y : Nat) : ∀ n, y < n → num (fun x => if x = y then c x + 1 else c x) n = num c n + 2 ^ (16 * y)
  | n + 1, h => by
    simp only [num]
    rcases Nat.lt_or_ge y n with hy | hy
    · rw [num_inc c y n hy, if_neg (by omega)]
      omega
    · have : y = n := by omega
      subst this
      rw [if_pos rfl, Nat.add_mul, Nat.one_mul]
      have : ∀ m, m ≤ y → num (fun x => if x = y then c x + 1 else c x) m = num c m := by
        intro m
        induction m with
        | zero => intro _; rfl
        | succ m ih => intro h; rw [num, num, ih (by omega), if_neg (by omega)]
      rw [this y (Nat.le_refl _)]
      omega

/-- How many inputs below `n` have difference `y`. -/
def occ (a n y : Nat) : Nat := ((List.range n).filter fun x => sAt (x ^^^ a) ^^^ sAt x = y).length

theorem occ_succ (a n y : Nat) : occ a (n + 1) y = if y = sAt (n ^^^ a) ^^^ sAt n then occ a n y + 1 else occ a n y := by
  unfold occ
  rw [List.range_succ, List.filter_append, List.length_append]
  by_cases h : sAt (n ^^^ a) ^^^ sAt n = y
  · simp [h]
  · simp [h, Ne.symm h]

theorem occ_le (a n y : Nat) : occ a n y ≤ n := by
  have := List.length_filter_le (fun x => decide (sAt (x ^^^ a) ^^^ sAt x = y)) (List.range n)
  rw [List.length_range] at this
  exact this

theorem sAt_lt (x : Nat) : sAt x < 256 := Nat.mod_lt _ (by omega)

theorem tally_eq (a : Nat) : ∀ n, tally a n = num (occ a n) 256
  | 0 => by
    have : ∀ m, num (occ a 0) m = 0 := by
      intro m
      induction m with
      | zero => rfl
      | succ m ih => rw [num, ih]; simp [occ]
    rw [this]; rfl
  | n + 1 => by
    rw [tally, tally_eq a n, show occ a (n + 1) = _ from funext fun y => occ_succ a n y]
    rw [num_inc _ _ _ (Nat.xor_lt_two_pow (n := 8) (sAt_lt _) (sAt_lt _))]

/-- At most eight inputs of the S-box turn one difference of inputs into one difference of outputs. -/
theorem sbox_diff (a b : U8) (ha : a ≠ 0#8) :
    ((List.range 256).filter fun x => S (BitVec.ofNat 8 x ^^^ a) ^^^ S (BitVec.ofNat 8 x) = b).length ≤ 8 := by
  have ha0 : a.toNat ≠ 0 := fun h => ha (BitVec.eq_of_toNat_eq h)
  have hk : occ a.toNat 256 b.toNat ≤ 8 := by
    have h := okS_true
    simp only [okS, List.all_eq_true, List.mem_range] at h
    have h1 := h (a.toNat - 1) (by have := a.isLt; omega) b.toNat b.isLt
    rw [show a.toNat - 1 + 1 = a.toNat by omega, tally_eq,
      num_digit (fun y => Nat.lt_of_le_of_lt (occ_le _ _ y) (by omega)) _ _ b.isLt] at h1
    exact Nat.le_of_ble_eq_true h1
  refine Nat.le_trans (Nat.le_of_eq ?_) hk
  unfold occ
  congr 1
  apply List.filter_congr
  intro x hx
  have e : (BitVec.ofNat 8 x).toNat = x := by
    rw [BitVec.toNat_ofNat]; exact Nat.mod_eq_of_lt (List.mem_range.mp hx)
  have h2 := sAt_eq (BitVec.ofNat 8 x ^^^ a)
  have h3 := sAt_eq (BitVec.ofNat 8 x)
  rw [BitVec.toNat_xor, e] at h2
  rw [e] at h3
  rw [h2, h3, ← BitVec.toNat_xor]
  simp only [BitVec.toNat_inj]

end Whirlpool
