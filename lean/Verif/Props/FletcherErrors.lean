import Verif.Props.ChecksumErrors
import Mathlib.Data.Int.ModEq
import Mathlib.Data.Nat.Bitwise
import Mathlib.Data.Nat.Prime.Basic

/-!
# Property C75: Fletcher checksums, errors in two words
-/
namespace Checksum
open ChecksumSpec HashSpec GoHash

theorem fletcher_run32 (p q : List U8) (h : p.length = q.length) :
    run Fletcher.impl32 [.write p, .sumN] = run Fletcher.impl32 [.write q, .sumN] ↔
      fletcher 2 (words 2 p) = fletcher 2 (words 2 q) := by
  rw [refines32.run [.write p, .sumN] ⟨.inl ⟨0, rfl⟩, trivial⟩, refines32.run [.write q, .sumN] ⟨.inl ⟨0, rfl⟩, trivial⟩]
  simp only [expect, expectFrom, fletcherAlgo, List.nil_append]
  simp [h]

theorem fletcher_run64 (p q : List U8) (h : p.length = q.length) :
    run Fletcher.impl64 [.write p, .sumN] = run Fletcher.impl64 [.write q, .sumN] ↔
      fletcher 4 (words 4 p) = fletcher 4 (words 4 q) := by
  rw [refines64.run [.write p, .sumN] ⟨.inl ⟨0, rfl⟩, trivial⟩, refines64.run [.write q, .sumN] ⟨.inl ⟨0, rfl⟩, trivial⟩]
  simp only [expect, expectFrom, fletcherAlgo, List.nil_append]
  simp [h]

theorem fletcher_run16 (p q : List U8) (h : p.length = q.length) (h1 : p.length ≤ 5803) :
    run Fletcher.impl16 [.write p, .sumN] = run Fletcher.impl16 [.write q, .sumN] ↔
      fletcher 1 (words 1 p) = fletcher 1 (words 1 q) := by
  have ok : ∀ p : List U8, p.length ≤ 5803 → Ok16 [] p := fun p h => by
    unfold Ok16
    by_cases e : p.length = 5803
    · exact .inr ⟨e, rfl⟩
    · exact .inl (by omega)
  rw [refines16.run [.write p, .sumN] ⟨ok p h1, trivial⟩, refines16.run [.write q, .sumN] ⟨ok q (by omega), trivial⟩]
  simp only [expect, expectFrom, fletcherAlgo, List.nil_append]
  simp [h]

theorem fletcher_two (k : Nat) (hk : 0 < k) (l m r : List Nat) (x y x' y' : Nat) :
    fletcher k (l ++ x :: (m ++ y :: r)) = fletcher k (l ++ x' :: (m ++ y' :: r)) ↔
      x + y ≡ x' + y' [MOD 256 ^ k - 1] ∧ (m.length + 1) * x ≡ (m.length + 1) * x' [MOD 256 ^ k - 1] := by
  have hk : 256 ≤ 256 ^ k := by
    calc 256 = 256 ^ 1 := rfl
      _ ≤ 256 ^ k := Nat.pow_le_pow_right (by omega) hk
  have hs : ∀ x y : Nat, (l ++ x :: (m ++ y :: r)).sum = (l.sum + m.sum + r.sum) + (x + y) := by
    intro x y; simp; ring
  have ht : ∀ x y : Nat, runningTotal (l ++ x :: (m ++ y :: r)) =
      (runningTotal l + (m.length + r.length + 2) * l.sum + runningTotal m + (r.length + 1) * m.sum + runningTotal r) +
        ((r.length + 1) * (x + y) + (m.length + 1) * x) := by
    intro x y
    rw [runningTotal_append, runningTotal_cons, runningTotal_append, runningTotal_cons]
    simp; ring
  unfold fletcher
  rw [hs, hs, ht, ht]
  generalize l.sum + m.sum + r.sum = A
  generalize (runningTotal l + (m.length + r.length + 2) * l.sum + runningTotal m + (r.length + 1) * m.sum + runningTotal r) = B
  have hA : ∀ z, (A + z) % (256 ^ k - 1) < 256 ^ k := fun z => Nat.lt_of_lt_of_le (Nat.mod_lt _ (by omega)) (by omega)
  constructor
  · intro h
    have e1 := congrArg (· % 256 ^ k) h
    have e2 := congrArg (· / 256 ^ k) h
    simp only [Nat.mul_comm _ (256 ^ k), Nat.mul_add_mod, Nat.mod_eq_of_lt (hA _),
      Nat.mul_add_div (show 256 ^ k > 0 by omega), Nat.div_eq_of_lt (hA _), Nat.add_zero] at e1 e2
    have e1 : x + y ≡ x' + y' [MOD 256 ^ k - 1] := Nat.ModEq.add_left_cancel' _ e1
    refine ⟨e1, ?_⟩
    have e2 := Nat.ModEq.add_left_cancel' _ e2
    exact Nat.ModEq.add_left_cancel (e1.mul_left _) e2
  · rintro ⟨e1, e2⟩
    have h1 : (A + (x + y)) % (256 ^ k - 1) = (A + (x' + y')) % (256 ^ k - 1) := Nat.ModEq.add_left _ e1
    have h2 : (B + ((r.length + 1) * (x + y) + (m.length + 1) * x)) % (256 ^ k - 1) =
        (B + ((r.length + 1) * (x' + y') + (m.length + 1) * x')) % (256 ^ k - 1) :=
      Nat.ModEq.add_left _ ((e1.mul_left _).add e2)
    rw [h1, h2]

/-- **C75** Data that differs in two words at distance `n`, `x` and `y` becoming `x'` and `y'`: the Fletcher checksum is the same
exactly when `x + y ≡ x' + y'` and `n·x ≡ n·x'` modulo 2^k-1. -/
theorem C75_two_words (p q : List U8) (hl : p.length = q.length) (l m r : List Nat) (x y x' y' : Nat) :
    (words 2 p = l ++ x :: (m ++ y :: r) → words 2 q = l ++ x' :: (m ++ y' :: r) →
      (run Fletcher.impl32 [.write p, .sumN] = run Fletcher.impl32 [.write q, .sumN] ↔
        x + y ≡ x' + y' [MOD 65535] ∧ (m.length + 1) * x ≡ (m.length + 1) * x' [MOD 65535])) ∧
    (words 4 p = l ++ x :: (m ++ y :: r) → words 4 q = l ++ x' :: (m ++ y' :: r) →
      (run Fletcher.impl64 [.write p, .sumN] = run Fletcher.impl64 [.write q, .sumN] ↔
        x + y ≡ x' + y' [MOD 4294967295] ∧ (m.length + 1) * x ≡ (m.length + 1) * x' [MOD 4294967295])) ∧
    (words 1 p = l ++ x :: (m ++ y :: r) → words 1 q = l ++ x' :: (m ++ y' :: r) → p.length ≤ 5803 →
      (run Fletcher.impl16 [.write p, .sumN] = run Fletcher.impl16 [.write q, .sumN] ↔
        x + y ≡ x' + y' [MOD 255] ∧ (m.length + 1) * x ≡ (m.length + 1) * x' [MOD 255])) := by
  refine ⟨fun hp hq => ?_, fun hp hq => ?_, fun hp hq h => ?_⟩
  · rw [fletcher_run32 p q hl, hp, hq]; exact fletcher_two 2 (by omega) l m r x y x' y'
  · rw [fletcher_run64 p q hl, hp, hq]; exact fletcher_two 4 (by omega) l m r x y x' y'
  · rw [fletcher_run16 p q hl h, hp, hq]; exact fletcher_two 1 (by omega) l m r x y x' y'

/-- **C75** An error confined to two neighbouring words goes unnoticed exactly when both are congruent to what they were. (Words that
differ and are congruent are all zeros and all ones.) -/
theorem C75_neighbours (p q : List U8) (hl : p.length = q.length) (l r : List Nat) (x y x' y' : Nat) :
    (words 2 p = l ++ x :: y :: r → words 2 q = l ++ x' :: y' :: r →
      (run Fletcher.impl32 [.write p, .sumN] = run Fletcher.impl32 [.write q, .sumN] ↔
        x ≡ x' [MOD 65535] ∧ y ≡ y' [MOD 65535])) ∧
    (words 4 p = l ++ x :: y :: r → words 4 q = l ++ x' :: y' :: r →
      (run Fletcher.impl64 [.write p, .sumN] = run Fletcher.impl64 [.write q, .sumN] ↔
        x ≡ x' [MOD 4294967295] ∧ y ≡ y' [MOD 4294967295])) ∧
    (words 1 p = l ++ x :: y :: r → words 1 q = l ++ x' :: y' :: r → p.length ≤ 5803 →
      (run Fletcher.impl16 [.write p, .sumN] = run Fletcher.impl16 [.write q, .sumN] ↔
        x ≡ x' [MOD 255] ∧ y ≡ y' [MOD 255])) := by
  have key : ∀ n : Nat, (x + y ≡ x' + y' [MOD n] ∧ (([] : List Nat).length + 1) * x ≡ (([] : List Nat).length + 1) * x' [MOD n]) ↔
      (x ≡ x' [MOD n] ∧ y ≡ y' [MOD n]) := by
    intro n
    simp only [List.length_nil, Nat.zero_add, Nat.one_mul]
    exact ⟨fun h => ⟨h.2, h.2.add_left_cancel h.1⟩, fun h => ⟨h.1.add h.2, h.1⟩⟩
  obtain ⟨h2, h4, h1⟩ := C75_two_words p q hl l [] r x y x' y'
  refine ⟨fun hp hq => ?_, fun hp hq => ?_, fun hp hq h => ?_⟩
  · rw [← key]; exact h2 hp hq
  · rw [← key]; exact h4 hp hq
  · rw [← key]; exact h1 hp hq h

/-! ## Two flipped bits -/

/-- Flipping bit `a` adds or subtracts `2^a`. -/
theorem flip_bit (x a : Nat) : (x.testBit a = false ∧ x ^^^ 2 ^ a = x + 2 ^ a) ∨
    (x.testBit a = true ∧ (x ^^^ 2 ^ a) + 2 ^ a = x) := by
  induction a generalizing x with
  | zero =>
    have h2 : (x ^^^ 1) / 2 = x / 2 := by have := Nat.xor_div_two_pow (a := x) (b := 1) (n := 1); simpa using this
    have h3 : (x ^^^ 1) % 2 = (x % 2 + 1) % 2 := by
      have := Nat.xor_mod_two_pow (a := x) (b := 1) (n := 1)
      rw [Nat.pow_one] at this
      rw [this]
      rcases Nat.mod_two_eq_zero_or_one x with h | h <;> rw [h] <;> rfl
    rw [Nat.testBit_zero, Nat.pow_zero]
    rcases Nat.mod_two_eq_zero_or_one x with h | h
    · left; exact ⟨by simp [h], by omega⟩
    · right; exact ⟨by simp [h], by omega⟩
  | succ a ih =>
    have h2 : (x ^^^ 2 ^ (a + 1)) / 2 = x / 2 ^^^ 2 ^ a := by
      have := Nat.xor_div_two_pow (a := x) (b := 2 ^ (a + 1)) (n := 1)
      rw [Nat.pow_one] at this
      rw [this, Nat.pow_succ, Nat.mul_div_cancel _ (by omega)]
    have h3 : (x ^^^ 2 ^ (a + 1)) % 2 = x % 2 := by
      have := Nat.xor_mod_two_pow (a := x) (b := 2 ^ (a + 1)) (n := 1)
      rw [Nat.pow_one] at this
      rw [this, Nat.pow_succ, Nat.mul_mod_left, Nat.xor_zero]
    rw [Nat.testBit_succ, Nat.pow_succ]
    rw [Nat.pow_succ] at h2 h3
    rcases ih (x / 2) with ⟨g1, g2⟩ | ⟨g1, g2⟩
    · left; exact ⟨g1, by omega⟩
    · right; exact ⟨g1, by omega⟩

/-- Two flipped bits of words of `w` bits at distance `n`. -/
theorem two_flips (w : Nat) (hw : 3 ≤ w) (n x y a b : Nat) (ha : a < w) (hb : b < w) :
    (x + y ≡ (x ^^^ 2 ^ a) + (y ^^^ 2 ^ b) [MOD 2 ^ w - 1] ∧ n * x ≡ n * (x ^^^ 2 ^ a) [MOD 2 ^ w - 1]) ↔
      a = b ∧ x.testBit a ≠ y.testBit a ∧ 2 ^ w - 1 ∣ n := by
  have hpw : 8 ≤ 2 ^ w := by calc 8 = 2 ^ 3 := rfl
    _ ≤ 2 ^ w := Nat.pow_le_pow_right (by omega) hw
  have half : ∀ a, a < w → 0 < 2 ^ a ∧ 2 * 2 ^ a ≤ 2 ^ w := by
    intro a ha
    refine ⟨Nat.pow_pos (by omega), ?_⟩
    rw [← Nat.pow_succ']; exact Nat.pow_le_pow_right (by omega) ha
  obtain ⟨pa, qa⟩ := half a ha
  obtain ⟨pb, qb⟩ := half b hb
  have hinj : 2 ^ a = 2 ^ b → a = b := fun h => Nat.pow_right_injective (Nat.le_refl 2) h
  have hcop : Nat.Coprime (2 ^ w - 1) (2 ^ a) := by
    apply Nat.Coprime.pow_right
    rw [Nat.coprime_two_right]
    have : 2 ^ w = 2 * 2 ^ (w - 1) := by rw [← Nat.pow_succ']; congr 1; omega
    exact ⟨2 ^ (w - 1) - 1, by omega⟩
  -- the second condition
  have second : n * x ≡ n * (x ^^^ 2 ^ a) [MOD 2 ^ w - 1] ↔ 2 ^ w - 1 ∣ n := by
    have e : ∀ u, n * u ≡ n * (u + 2 ^ a) [MOD 2 ^ w - 1] ↔ 2 ^ w - 1 ∣ n := by
      intro u
      rw [Nat.modEq_iff_dvd' (Nat.mul_le_mul_left _ (by omega)), ← Nat.mul_sub, Nat.add_sub_cancel_left]
      exact ⟨hcop.dvd_of_dvd_mul_right, fun h => Dvd.dvd.mul_right h _⟩
    rcases flip_bit x a with ⟨_, h⟩ | ⟨_, h⟩
    · rw [h]; exact e x
    · have := e (x ^^^ 2 ^ a)
      rw [h] at this
      rw [← this]
      exact ⟨Nat.ModEq.symm, Nat.ModEq.symm⟩
  rw [second, ← and_assoc]
  refine and_congr_left fun _ => ?_
  have odd : ∀ a b, a < w → b < w → ¬ 2 ^ w - 1 ∣ 2 ^ a + 2 ^ b := by
    intro a b ha hb hd
    obtain ⟨pa, qa⟩ := half a ha
    obtain ⟨pb, qb⟩ := half b hb
    obtain ⟨c, hc⟩ := hd
    have hc1 : c = 1 := by
      rcases c with _ | _ | c
      · omega
      · rfl
      · exfalso
        have : (2 ^ w - 1) * 2 ≤ (2 ^ w - 1) * (c + 1 + 1) := Nat.mul_le_mul_left _ (by omega)
        omega
    rw [hc1, Nat.mul_one] at hc
    have hev : ∀ a, a ≠ 0 → 2 ^ a % 2 = 0 := by
      intro a ha
      obtain ⟨a, rfl⟩ := Nat.exists_eq_succ_of_ne_zero ha
      rw [Nat.pow_succ]; omega
    have hew := hev w (by omega)
    have big : ∀ b, b < w → 1 + 2 ^ b ≠ 2 ^ w - 1 := by
      intro b hb
      obtain ⟨_, h⟩ := half b hb
      omega
    by_cases h0 : a = 0
    · rw [h0] at hc; exact big b hb hc
    · by_cases h1 : b = 0
      · rw [h1] at hc; exact big a ha (by omega)
      · have := hev a h0; have := hev b h1; omega
  have diff : ∀ a b, a < w → b < w → 2 ^ a ≤ 2 ^ b → 2 ^ w - 1 ∣ 2 ^ b - 2 ^ a → 2 ^ a = 2 ^ b := by
    intro a b ha hb hle hd
    obtain ⟨pa, qa⟩ := half a ha
    obtain ⟨pb, qb⟩ := half b hb
    have := Nat.eq_zero_of_dvd_of_lt hd (by omega)
    omega
  rcases flip_bit x a with ⟨g1, g2⟩ | ⟨g1, g2⟩ <;> rcases flip_bit y b with ⟨h1, h2⟩ | ⟨h1, h2⟩
  · rw [g2, h2, Nat.modEq_iff_dvd' (by omega)]
    constructor
    · intro h
      exact absurd (by convert h using 1; omega) (odd a b ha hb)
    · rintro ⟨rfl, h⟩
      rw [g1, h1] at h; exact absurd rfl h
  · rw [g2]
    generalize y ^^^ 2 ^ b = y' at h2 ⊢
    subst h2
    constructor
    · intro h
      have key : 2 ^ a = 2 ^ b := by
        rcases Nat.le_total (2 ^ a) (2 ^ b) with hle | hle
        · have h := (Nat.modEq_iff_dvd' (by omega)).mp h.symm
          exact diff a b ha hb hle (by convert h using 1; omega)
        · have h := (Nat.modEq_iff_dvd' (by omega)).mp h
          exact (diff b a hb ha hle (by convert h using 1; omega)).symm
      obtain rfl := hinj key
      exact ⟨rfl, by rw [g1, h1]; simp⟩
    · rintro ⟨rfl, _⟩
      rw [show x + (y' + 2 ^ a) = x + 2 ^ a + y' by omega]
  · rw [h2]
    generalize x ^^^ 2 ^ a = x' at g2 ⊢
    subst g2
    constructor
    · intro h
      have key : 2 ^ a = 2 ^ b := by
        rcases Nat.le_total (2 ^ a) (2 ^ b) with hle | hle
        · have h := (Nat.modEq_iff_dvd' (by omega)).mp h
          exact diff a b ha hb hle (by convert h using 1; omega)
        · have h := (Nat.modEq_iff_dvd' (by omega)).mp h.symm
          exact (diff b a hb ha hle (by convert h using 1; omega)).symm
      obtain rfl := hinj key
      exact ⟨rfl, by rw [g1, h1]; simp⟩
    · rintro ⟨rfl, _⟩
      rw [show x' + 2 ^ a + y = x' + (y + 2 ^ a) by omega]
  · constructor
    · intro h
      have h := (Nat.modEq_iff_dvd' (by omega)).mp h.symm
      exact absurd (by convert h using 1; omega) (odd a b ha hb)
    · rintro ⟨rfl, h⟩
      rw [g1, h1] at h; exact absurd rfl h

/-- **C75** Two flipped bits in different words, bit `a` of one and bit `b` of the other: the Fletcher checksum is the same exactly
when it is the same bit in both words, flipped in opposite directions, and the distance of the words is a multiple of 2^k-1. -/
theorem C75_two_bits (p q : List U8) (hl : p.length = q.length) (l m r : List Nat) (x y a b : Nat) :
    (words 2 p = l ++ x :: (m ++ y :: r) → words 2 q = l ++ (x ^^^ 2 ^ a) :: (m ++ (y ^^^ 2 ^ b) :: r) → a < 16 → b < 16 →
      (run Fletcher.impl32 [.write p, .sumN] = run Fletcher.impl32 [.write q, .sumN] ↔
        a = b ∧ x.testBit a ≠ y.testBit a ∧ 65535 ∣ m.length + 1)) ∧
    (words 4 p = l ++ x :: (m ++ y :: r) → words 4 q = l ++ (x ^^^ 2 ^ a) :: (m ++ (y ^^^ 2 ^ b) :: r) → a < 32 → b < 32 →
      (run Fletcher.impl64 [.write p, .sumN] = run Fletcher.impl64 [.write q, .sumN] ↔
        a = b ∧ x.testBit a ≠ y.testBit a ∧ 4294967295 ∣ m.length + 1)) ∧
    (words 1 p = l ++ x :: (m ++ y :: r) → words 1 q = l ++ (x ^^^ 2 ^ a) :: (m ++ (y ^^^ 2 ^ b) :: r) → a < 8 → b < 8 →
      p.length ≤ 5803 →
      (run Fletcher.impl16 [.write p, .sumN] = run Fletcher.impl16 [.write q, .sumN] ↔
        a = b ∧ x.testBit a ≠ y.testBit a ∧ 255 ∣ m.length + 1)) := by
  obtain ⟨h2, h4, h1⟩ := C75_two_words p q hl l m r x y (x ^^^ 2 ^ a) (y ^^^ 2 ^ b)
  refine ⟨fun hp hq ha hb => ?_, fun hp hq ha hb => ?_, fun hp hq ha hb h => ?_⟩
  · rw [h2 hp hq]; exact two_flips 16 (by omega) _ x y a b ha hb
  · rw [h4 hp hq]; exact two_flips 32 (by omega) _ x y a b ha hb
  · rw [h1 hp hq h]; exact two_flips 8 (by omega) _ x y a b ha hb

/-- Two flipped bits that are noticed, and two that are not. -/
example : words 1 [1#8, 2#8, 4#8] = [] ++ 1 :: ([2] ++ 4 :: []) ∧
    words 1 [3#8, 2#8, 6#8] = [] ++ (1 ^^^ 2 ^ 1) :: ([2] ++ (4 ^^^ 2 ^ 1) :: []) ∧
    ¬ (1 = 1 ∧ Nat.testBit 1 1 ≠ Nat.testBit 4 1 ∧ 255 ∣ [2].length + 1) := by decide

example (n : Nat) (hn : n = 254) : words 1 (1#8 :: (List.replicate n 0#8 ++ [0#8])) = [] ++ 1 :: (List.replicate n 0 ++ 0 :: []) ∧
    words 1 (0#8 :: (List.replicate n 0#8 ++ [1#8])) = [] ++ (1 ^^^ 2 ^ 0) :: (List.replicate n 0 ++ (0 ^^^ 2 ^ 0) :: []) ∧
    Nat.testBit 1 0 ≠ Nat.testBit 0 0 ∧ 255 ∣ (List.replicate n 0).length + 1 := by
  refine ⟨?_, ?_, by decide, by rw [List.length_replicate, hn]⟩ <;> rw [Fletcher.words_one] <;> simp

example : words 2 [1#8, 2#8, 3#8, 4#8] = [] ++ 513 :: 1027 :: [] ∧ ¬ (513 ≡ 514 [MOD 65535] ∧ 1027 ≡ 1026 [MOD 65535]) := by decide

end Checksum
