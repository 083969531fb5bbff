import Verif.Lemmas.Checksum

namespace Luhn
open ChecksumSpec

theorem total_eq (dbl : Bool) (n : Nat) : luhnTotal dbl n = luhnDigit dbl (n % 10) + luhnTotal (!dbl) (n / 10) := by
  by_cases h : n = 0
  · subst h
    rw [luhnTotal, if_pos rfl, luhnTotal, if_pos rfl]
    cases dbl <;> rfl
  · rw [luhnTotal, if_neg h]

theorem luhnDigit_le (dbl : Bool) (d : Nat) (h : d < 10) : luhnDigit dbl d ≤ 9 ∧ luhnDigit dbl d ≤ 2 * d := by
  cases dbl <;> simp [luhnDigit] <;> omega

theorem total_le : ∀ (n : Nat) (dbl : Bool), luhnTotal dbl n ≤ 2 * n := by
  intro n
  induction n using Nat.strongRecOn with
  | _ n ih =>
    intro dbl
    by_cases h : n = 0
    · subst h; simp [luhnTotal]
    · rw [total_eq]
      have h1 := ih (n / 10) (by omega) (!dbl)
      have h2 := (luhnDigit_le dbl (n % 10) (by omega)).2
      omega

theorem loop_toNat : ∀ (n : Nat) (i ret : U64) (dbl : Bool), i.toNat = n →
    (loop i ret (if dbl then 2#64 else 1#64)).toNat = (ret.toNat + luhnTotal dbl n) % 2 ^ 64 := by
  intro n
  induction n using Nat.strongRecOn with
  | _ n ih =>
    intro i ret dbl hi
    rw [loop]
    by_cases h : i > 0#64
    · rw [dif_pos h]
      have h0 : 0 < i.toNat := by simpa [BitVec.lt_def] using h
      have hv : (i % 10#64).toNat = n % 10 := by rw [BitVec.toNat_umod, hi]; rfl
      have hi' : ((i - i % 10#64) / 10#64).toNat = n / 10 := by
        have hle : i % 10#64 ≤ i := by rw [BitVec.le_def, hv, hi]; exact Nat.mod_le _ _
        rw [BitVec.toNat_udiv, BitVec.toNat_sub_of_le hle, hv, hi, show (10#64).toNat = 10 from rfl]
        omega
      have hmul : 1#64 + (if dbl then 2#64 else 1#64) % 2#64 = (if (!dbl) then 2#64 else 1#64) := by
        cases dbl <;> rfl
      dsimp only
      rw [hmul, ih (n / 10) (by omega) _ _ (!dbl) hi', total_eq dbl n]
      have hd : ((i % 10#64 * if dbl then 2#64 else 1#64) % 10#64 + (i % 10#64 * if dbl then 2#64 else 1#64) / 10#64).toNat
          = luhnDigit dbl (n % 10) := by
        have hm : (i % 10#64 * if dbl then 2#64 else 1#64).toNat = (n % 10) * (if dbl then 2 else 1) := by
          rw [BitVec.toNat_mul, hv]
          cases dbl
          · simp; omega
          · simp; omega
        rw [BitVec.toNat_add, BitVec.toNat_umod, BitVec.toNat_udiv, hm, show (10#64).toNat = 10 from rfl]
        have hlt : n % 10 < 10 := by omega
        generalize n % 10 = d at hlt
        have key : ∀ d, d < 10 → (d * (if dbl then 2 else 1) % 10 + d * (if dbl then 2 else 1) / 10) % 2 ^ 64 =
          luhnDigit dbl d := by cases dbl <;> decide
        exact key d hlt
      rw [BitVec.toNat_add, hd]
      simp [Nat.add_assoc]
    · rw [dif_neg h]
      have h0 : n = 0 := by
        have : ¬ 0 < i.toNat := by simpa [BitVec.lt_def] using h
        omega
      subst h0
      rw [luhnTotal, if_pos rfl, Nat.add_zero, Nat.mod_eq_of_lt ret.isLt]

theorem Checksum_toNat (i : U64) : (Checksum i).toNat = (10 - luhnTotal true i.toNat % 10) % 10 := by
  have h := loop_toNat i.toNat i 0#64 true rfl
  have hb : luhnTotal true i.toNat < 2 ^ 64 := by
    rw [total_eq]
    have h1 := total_le (i.toNat / 10) (!true)
    have h2 := (luhnDigit_le true (i.toNat % 10) (by omega)).1
    have := i.isLt
    omega
  have h' : (loop i 0#64 2#64).toNat = luhnTotal true i.toNat := by
    have h2 := h
    simp only [if_true] at h2
    rw [h2]; simp; omega
  have hle : loop i 0#64 2#64 % 10#64 ≤ 10#64 := by
    rw [BitVec.le_def, BitVec.toNat_umod]
    exact Nat.le_of_lt (Nat.mod_lt _ (by decide))
  rw [Checksum, BitVec.toNat_setWidth, BitVec.toNat_umod, BitVec.toNat_sub_of_le hle, BitVec.toNat_umod, h',
    show (10#64).toNat = 10 from rfl]
  omega

theorem total_append (n c : Nat) (hc : c < 10) : luhnTotal false (10 * n + c) = c + luhnTotal true n := by
  rw [total_eq, show (10 * n + c) % 10 = c by omega, show (10 * n + c) / 10 = n by omega]
  rfl

theorem decDigit_zero (n : Nat) : decDigit n 0 = n % 10 := by simp [decDigit]

theorem decDigit_succ (n k : Nat) : decDigit n (k + 1) = decDigit (n / 10) k := by
  unfold decDigit
  rw [Nat.pow_succ, Nat.mul_comm, Nat.div_div_eq_div_mul]

theorem eq_of_digits : ∀ i j : Nat, (∀ m, decDigit i m = decDigit j m) → i = j := by
  intro i
  induction i using Nat.strongRecOn with
  | _ i ih =>
    intro j h
    have h0 := h 0
    rw [decDigit_zero, decDigit_zero] at h0
    by_cases hi : i = 0
    · subst hi
      clear ih h0
      have : ∀ (j : Nat), (∀ m, decDigit j m = 0) → j = 0 := by
        intro j
        induction j using Nat.strongRecOn with
        | _ j ih =>
          intro h
          by_cases hj : j = 0
          · exact hj
          · have h0 := h 0
            rw [decDigit_zero] at h0
            have := ih (j / 10) (by omega) (fun m => by rw [← decDigit_succ]; exact h _)
            omega
      exact (this j (fun m => by rw [← h m]; simp [decDigit])).symm
    · have := ih (i / 10) (by omega) (j / 10) (fun m => by rw [← decDigit_succ, ← decDigit_succ]; exact h _)
      omega

theorem luhnDigit_inj (dbl : Bool) (x y : Nat) (hx : x < 10) (hy : y < 10) (h : x ≠ y) (t : Nat) :
    (luhnDigit dbl x + t) % 10 ≠ (luhnDigit dbl y + t) % 10 := by
  cases dbl <;> simp [luhnDigit] <;> omega

theorem single_ne : ∀ (k i j : Nat) (dbl : Bool), decDigit i k ≠ decDigit j k →
    (∀ m, m ≠ k → decDigit i m = decDigit j m) → luhnTotal dbl i % 10 ≠ luhnTotal dbl j % 10
  | 0, i, j, dbl, h, hs => by
    rw [decDigit_zero, decDigit_zero] at h
    have e : i / 10 = j / 10 := eq_of_digits _ _ (fun m => by
      rw [← decDigit_succ, ← decDigit_succ]; exact hs _ (by omega))
    rw [total_eq, total_eq dbl j, e]
    exact luhnDigit_inj _ _ _ (by omega) (by omega) h _
  | k + 1, i, j, dbl, h, hs => by
    have e := hs 0 (by omega)
    rw [decDigit_zero, decDigit_zero] at e
    rw [decDigit_succ, decDigit_succ] at h
    have := single_ne k (i / 10) (j / 10) (!dbl) h (fun m hm => by
      rw [← decDigit_succ, ← decDigit_succ]; exact hs _ (by omega))
    rw [total_eq, total_eq dbl j, e]
    omega

theorem swap_digits (dbl : Bool) : ∀ x, x < 10 → ∀ y, y < 10 → x ≠ y → ¬ (x = 0 ∧ y = 9) → ¬ (x = 9 ∧ y = 0) →
    (luhnDigit dbl x + luhnDigit (!dbl) y) % 10 ≠ (luhnDigit dbl y + luhnDigit (!dbl) x) % 10 := by
  have key : ∀ x y : Fin 10, x.1 = y.1 ∨ (x.1 = 0 ∧ y.1 = 9) ∨ (x.1 = 9 ∧ y.1 = 0) ∨
      (luhnDigit dbl x.1 + luhnDigit (!dbl) y.1) % 10 ≠ (luhnDigit dbl y.1 + luhnDigit (!dbl) x.1) % 10 := by
    cases dbl <;> decide
  intro x hx y hy h1 h2 h3
  rcases key ⟨x, hx⟩ ⟨y, hy⟩ with h | h | h | h
  · exact absurd h h1
  · exact absurd h h2
  · exact absurd h h3
  · exact h

theorem swap_ne : ∀ (k i j : Nat) (dbl : Bool), decDigit i k = decDigit j (k + 1) → decDigit i (k + 1) = decDigit j k →
    decDigit i k ≠ decDigit j k → ¬ (decDigit i k = 0 ∧ decDigit j k = 9) → ¬ (decDigit i k = 9 ∧ decDigit j k = 0) →
    (∀ m, m ≠ k → m ≠ k + 1 → decDigit i m = decDigit j m) → luhnTotal dbl i % 10 ≠ luhnTotal dbl j % 10
  | 0, i, j, dbl, h1, h2, h3, h4, h5, hs => by
    simp only [decDigit_succ, decDigit_zero] at h1 h2 h3 h4 h5
    have e : i / 10 / 10 = j / 10 / 10 := eq_of_digits _ _ (fun m => by
      rw [← decDigit_succ, ← decDigit_succ, ← decDigit_succ, ← decDigit_succ]; exact hs _ (by omega) (by omega))
    rw [total_eq, total_eq dbl j, total_eq (!dbl) (i / 10), total_eq (!dbl) (j / 10), e, h2, ← h1]
    generalize i % 10 = x at *
    have : j % 10 < 10 := by omega
    have hx : x < 10 := by omega
    generalize j % 10 = y at *
    generalize luhnTotal (!!dbl) (j / 10 / 10) = t
    have key := swap_digits dbl x hx y this h3 h4 h5
    omega
  | k + 1, i, j, dbl, h1, h2, h3, h4, h5, hs => by
    have e := hs 0 (by omega) (by omega)
    rw [decDigit_zero, decDigit_zero] at e
    simp only [decDigit_succ i, decDigit_succ j] at h1 h2 h3 h4 h5
    have := swap_ne k (i / 10) (j / 10) (!dbl) h1 h2 h3 h4 h5 (fun m hm hm' => by
      rw [← decDigit_succ, ← decDigit_succ]; exact hs _ (by omega) (by omega))
    rw [total_eq, total_eq dbl j, e]
    omega

/-- Swapping adjacent digits 0 and 9 does not change the total modulo ten. -/
theorem swap09_eq : ∀ (k i j : Nat) (dbl : Bool), decDigit i k = decDigit j (k + 1) → decDigit i (k + 1) = decDigit j k →
    (decDigit i k = 0 ∧ decDigit j k = 9) ∨ (decDigit i k = 9 ∧ decDigit j k = 0) →
    (∀ m, m ≠ k → m ≠ k + 1 → decDigit i m = decDigit j m) → luhnTotal dbl i % 10 = luhnTotal dbl j % 10
  | 0, i, j, dbl, h1, h2, h3, hs => by
    simp only [decDigit_succ, decDigit_zero] at h1 h2 h3
    have e : i / 10 / 10 = j / 10 / 10 := eq_of_digits _ _ (fun m => by
      rw [← decDigit_succ, ← decDigit_succ, ← decDigit_succ, ← decDigit_succ]; exact hs _ (by omega) (by omega))
    rw [total_eq, total_eq dbl j, total_eq (!dbl) (i / 10), total_eq (!dbl) (j / 10), e, h2, ← h1]
    generalize luhnTotal (!!dbl) (j / 10 / 10) = t
    have key : (luhnDigit dbl 0 + luhnDigit (!dbl) 9) % 10 = (luhnDigit dbl 9 + luhnDigit (!dbl) 0) % 10 := by
      cases dbl <;> decide
    rcases h3 with ⟨a, b⟩ | ⟨a, b⟩ <;> rw [a, b] <;> omega
  | k + 1, i, j, dbl, h1, h2, h3, hs => by
    have e := hs 0 (by omega) (by omega)
    rw [decDigit_zero, decDigit_zero] at e
    simp only [decDigit_succ i, decDigit_succ j] at h1 h2 h3
    have := swap09_eq k (i / 10) (j / 10) (!dbl) h1 h2 h3 (fun m hm hm' => by
      rw [← decDigit_succ, ← decDigit_succ]; exact hs _ (by omega) (by omega))
    rw [total_eq, total_eq dbl j, e]
    omega

end Luhn
