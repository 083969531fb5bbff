import Verif.Props.ChecksumErrors

/-!
# C111: which errors of several bits, and of two digits, the checksums notice

Bits, bursts and digits are spoken of in their own terms here: the bits of a byte by `getLsbD`, decimal digits by `decDigit`.
-/
namespace Checksum
open GoHash HashSpec ChecksumSpec

/-- How many bits two bytes differ in. -/
def bitDiff (x y : U8) : Nat := ((List.range 8).filter fun i => x.getLsbD i != y.getLsbD i).length

/-- How many bits two strings of the same length differ in. -/
def bitsDiff (p q : List U8) : Nat := (List.zipWith bitDiff p q).sum

/-- The byte with bit `a` turned over. -/
def toggle (x : U8) (a : Nat) : U8 := x ^^^ BitVec.twoPow 8 a

theorem count_xor (l : List Nat) (f g : Nat → Bool) :
    ((l.filter fun i => f i != g i).length) % 2 = ((l.filter f).length + (l.filter g).length) % 2 := by
  induction l with
  | nil => rfl
  | cons x l ih =>
    simp only [List.filter_cons]
    cases f x <;> cases g x <;> simp <;> omega

def ones (x : U8) : Nat := ((List.range 8).filter x.getLsbD).length

theorem ones_xor (x y : U8) : ones (x ^^^ y) % 2 = (ones x + ones y) % 2 := by
  unfold ones
  rw [← count_xor, show (x ^^^ y).getLsbD = fun i => x.getLsbD i != y.getLsbD i by
    funext i; rw [BitVec.getLsbD_xor]]

theorem ones_xorAll (p : List U8) : ones (xorAll p) % 2 = (p.map ones).sum % 2 := by
  induction p with
  | nil => rfl
  | cons x p ih => rw [xorAll, ones_xor, List.map_cons, List.sum_cons]; omega

theorem bitsDiff_mod (p q : List U8) (h : p.length = q.length) :
    bitsDiff p q % 2 = ((p.map ones).sum + (q.map ones).sum) % 2 := by
  induction p generalizing q with
  | nil => cases q <;> simp_all [bitsDiff]
  | cons x p ih =>
    cases q with
    | nil => simp at h
    | cons y q =>
      have := ih q (by simpa using h)
      have e : bitDiff x y % 2 = (ones x + ones y) % 2 := count_xor _ _ _
      simp only [bitsDiff, List.zipWith_cons_cons, List.sum_cons, List.map_cons] at this ⊢
      omega

theorem bcc_eq (p q : List U8) (h : p.length = q.length) :
    run Bcc.impl [.write p, .sumN] = run Bcc.impl [.write q, .sumN] ↔ xorAll p = xorAll q := by
  rw [C34_bcc_stream, C34_bcc_stream]
  simp [expect, expectFrom, bcc, h, BitVec.toNat_inj]

theorem lrc_eq (p q : List U8) (h : p.length = q.length) :
    run Lrc.impl [.write p, .sumN] = run Lrc.impl [.write q, .sumN] ↔ byteSum p % 256 = byteSum q % 256 := by
  rw [lrc_once _ _ (.inl rfl), lrc_once _ _ (.inl rfl)]
  simp only [expect, expectFrom, lrc, List.nil_append, h, Res.ok.injEq, List.cons.injEq, Out.num.injEq, and_true, true_and]
  omega

theorem toggle_toNat (x : U8) (a : Nat) (ha : a < 8) :
    (toggle x a).toNat = if x.getLsbD a then x.toNat - 2 ^ a else x.toNat + 2 ^ a := by
  have key : ∀ (x : U8) (a : Fin 8), (toggle x a).toNat = if x.getLsbD a then x.toNat - 2 ^ a.1 else x.toNat + 2 ^ a.1 := by
    decide +kernel
  exact key x ⟨a, ha⟩

theorem toggle_ge (x : U8) (a : Nat) (ha : a < 8) (h : x.getLsbD a = true) : 2 ^ a ≤ x.toNat := by
  have key : ∀ (x : U8) (a : Fin 8), x.getLsbD a = true → 2 ^ a.1 ≤ x.toNat := by decide +kernel
  exact key x ⟨a, ha⟩ h

theorem pow_byte (a : Nat) (ha : a < 8) : ∃ A, 2 ^ a = A ∧ (a = 0 ∧ A = 1 ∨ a = 1 ∧ A = 2 ∨ a = 2 ∧ A = 4 ∨ a = 3 ∧ A = 8 ∨
    a = 4 ∧ A = 16 ∨ a = 5 ∧ A = 32 ∨ a = 6 ∧ A = 64 ∨ a = 7 ∧ A = 128) := by
  have key : ∀ a : Fin 8, (a.1 = 0 ∧ 2 ^ a.1 = 1 ∨ a.1 = 1 ∧ 2 ^ a.1 = 2 ∨ a.1 = 2 ∧ 2 ^ a.1 = 4 ∨ a.1 = 3 ∧ 2 ^ a.1 = 8 ∨
    a.1 = 4 ∧ 2 ^ a.1 = 16 ∨ a.1 = 5 ∧ 2 ^ a.1 = 32 ∨ a.1 = 6 ∧ 2 ^ a.1 = 64 ∨ a.1 = 7 ∧ 2 ^ a.1 = 128) := by decide
  exact ⟨_, rfl, key ⟨a, ha⟩⟩

/-! ## The block check character -/

/-- **C111** The BCC notices every change of an odd number of bits. -/
theorem C111_bcc_odd (p q : List U8) (h : p.length = q.length) (hodd : bitsDiff p q % 2 = 1) :
    run Bcc.impl [.write p, .sumN] ≠ run Bcc.impl [.write q, .sumN] := by
  rw [ne_eq, bcc_eq p q h]
  intro e
  have h1 := ones_xorAll p
  have h2 := ones_xorAll q
  rw [e] at h1
  rw [bitsDiff_mod p q h] at hodd
  omega

example : bitsDiff [0b1011#8, 7#8] [0b1000#8, 6#8] % 2 = 1 := by decide

/-- **C111** The BCC notices every burst of at most eight bits: two neighbouring bytes changed, the first in its last `8-k` bits and
the second in its first `k` bits only (bytes being sent with the greatest bit first). -/
theorem C111_bcc_burst (l r : List U8) (x x' y y' : U8) (k : Nat) (hk : k ≤ 8) (hne : x ≠ y ∨ x' ≠ y')
    (h1 : x.toNat / 2 ^ (8 - k) = y.toNat / 2 ^ (8 - k)) (h2 : x'.toNat % 2 ^ (8 - k) = y'.toNat % 2 ^ (8 - k)) :
    run Bcc.impl [.write (l ++ x :: x' :: r), .sumN] ≠ run Bcc.impl [.write (l ++ y :: y' :: r), .sumN] := by
  rw [ne_eq, bcc_eq _ _ (by simp)]
  intro e
  rw [xorAll_append, xorAll_append, BitVec.xor_right_inj] at e
  simp only [xorAll, ← BitVec.xor_assoc] at e
  rw [BitVec.xor_left_inj] at e
  have b1 : ∀ i, 8 - k ≤ i → x.getLsbD i = y.getLsbD i := by
    intro i hi
    have := congrArg (fun n => Nat.testBit n (i - (8 - k))) h1
    simpa [Nat.testBit_div_two_pow, BitVec.getLsbD, show i - (8 - k) + (8 - k) = i by omega] using this
  have b2 : ∀ i, i < 8 - k → x'.getLsbD i = y'.getLsbD i := by
    intro i hi
    have := congrArg (fun n => Nat.testBit n i) h2
    simpa [Nat.testBit_mod_two_pow, BitVec.getLsbD, hi] using this
  have b3 : ∀ i, (x.getLsbD i ^^ x'.getLsbD i) = (y.getLsbD i ^^ y'.getLsbD i) := by
    intro i
    have := congrArg (fun n => BitVec.getLsbD n i) e
    simpa using this
  have c : ∀ i, x.getLsbD i = y.getLsbD i ∧ x'.getLsbD i = y'.getLsbD i := by
    intro i
    have d := b3 i
    rcases Nat.lt_or_ge i (8 - k) with hi | hi
    · have f := b2 i hi
      rw [f] at d
      exact ⟨by simpa using d, f⟩
    · have f := b1 i hi
      rw [f] at d
      exact ⟨f, by simpa using d⟩
  rcases hne with hne | hne
  · exact hne (BitVec.eq_of_getLsbD_eq fun i _ => (c i).1)
  · exact hne (BitVec.eq_of_getLsbD_eq fun i _ => (c i).2)

example : ((0x13#8 : U8) ≠ 0x1C#8 ∨ (0x57#8 : U8) ≠ 0xA7#8) ∧ (0x13#8 : U8).toNat / 2 ^ (8 - 4) = (0x1C#8 : U8).toNat / 2 ^ (8 - 4) ∧
    (0x57#8 : U8).toNat % 2 ^ (8 - 4) = (0xA7#8 : U8).toNat % 2 ^ (8 - 4) := by decide

/-- **C111** A burst of nine bits can pass it: the same bit of two neighbouring bytes turned over. -/
theorem C111_bcc_nine (l r : List U8) (x x' : U8) (a : Nat) :
    run Bcc.impl [.write (l ++ x :: x' :: r), .sumN] = run Bcc.impl [.write (l ++ toggle x a :: toggle x' a :: r), .sumN] := by
  rw [bcc_eq _ _ (by simp)]
  simp only [xorAll_append, xorAll, toggle]
  rw [BitVec.xor_right_inj, ← BitVec.xor_assoc, ← BitVec.xor_assoc, BitVec.xor_left_inj]
  apply BitVec.eq_of_getLsbD_eq
  intro i _
  simp only [BitVec.getLsbD_xor]
  cases x.getLsbD i <;> cases x'.getLsbD i <;> cases (BitVec.twoPow 8 a).getLsbD i <;> rfl

/-- **C111** Two bits of different bytes turned over pass the BCC exactly if they stand at the same place of their bytes. -/
theorem C111_bcc_two_bits (l m r : List U8) (x y : U8) (a b : Nat) (ha : a < 8) (hb : b < 8) :
    run Bcc.impl [.write (l ++ x :: (m ++ y :: r)), .sumN] = run Bcc.impl [.write (l ++ toggle x a :: (m ++ toggle y b :: r)), .sumN] ↔
      a = b := by
  rw [bcc_eq _ _ (by simp)]
  simp only [xorAll_append, xorAll, toggle]
  rw [BitVec.xor_right_inj]
  constructor
  · intro e
    have := congrArg (fun n => BitVec.getLsbD n a) e
    simp only [BitVec.getLsbD_xor, BitVec.getLsbD_twoPow, ha] at this
    by_contra hne
    revert this
    have : ¬ b = a := fun h => hne h.symm
    cases x.getLsbD a <;> cases (xorAll m).getLsbD a <;> cases y.getLsbD a <;> cases (xorAll r).getLsbD a <;> simp [this]
  · rintro rfl
    apply BitVec.eq_of_getLsbD_eq
    intro i _
    simp only [BitVec.getLsbD_xor]
    cases x.getLsbD i <;> cases (xorAll m).getLsbD i <;> cases y.getLsbD i <;> cases (xorAll r).getLsbD i <;>
      cases (BitVec.twoPow 8 a).getLsbD i <;> rfl

/-! ## The longitudinal redundancy check -/

/-- **C111** Two bits of different bytes turned over pass the LRC exactly if they stand at the same place of their bytes and either
were different or are the greatest bits. -/
theorem C111_lrc_two_bits (l m r : List U8) (x y : U8) (a b : Nat) (ha : a < 8) (hb : b < 8) :
    run Lrc.impl [.write (l ++ x :: (m ++ y :: r)), .sumN] = run Lrc.impl [.write (l ++ toggle x a :: (m ++ toggle y b :: r)), .sumN] ↔
      a = b ∧ (a = 7 ∨ x.getLsbD a ≠ y.getLsbD a) := by
  rw [lrc_eq _ _ (by simp)]
  have e : ∀ z w : U8, byteSum (l ++ z :: (m ++ w :: r)) = byteSum l + byteSum m + byteSum r + z.toNat + w.toNat := by
    intro z w; simp [byteSum]; omega
  rw [e, e, toggle_toNat x a ha, toggle_toNat y b hb]
  have hx := toggle_ge x a ha
  have hy := toggle_ge y b hb
  generalize byteSum l + byteSum m + byteSum r = t
  generalize x.toNat = X at *
  generalize y.toNat = Y at *
  have A := pow_byte a ha
  have B := pow_byte b hb
  by_cases hab : a = b
  · subst hab
    obtain ⟨A, hA, hA'⟩ := A
    rw [hA] at hx hy ⊢
    have hA'' : (a = 7 ∧ A = 128) ∨ (a ≠ 7 ∧ 0 < A ∧ A < 128) := by omega
    clear hA' B hA
    cases hx' : x.getLsbD a <;> cases hy' : y.getLsbD a <;> simp only [hx', hy', forall_const, if_true, if_false, Bool.false_eq_true,
      ne_eq, not_true_eq_false, or_false, reduceCtorEq, not_false_eq_true, or_true, true_and, iff_true, false_implies] at hx hy ⊢ <;> omega
  · simp only [hab, false_and, iff_false]
    obtain ⟨A, hA, hA'⟩ := A
    obtain ⟨B, hB, hB'⟩ := B
    rw [hA] at hx ⊢
    rw [hB] at hy ⊢
    have c : (A + B) % 256 ≠ 0 ∧ A % 256 ≠ B % 256 := by
      clear hx hy
      omega
    have : A ≤ 128 ∧ B ≤ 128 := by clear hx hy; omega
    clear hA' hB' hA hB
    split <;> split <;> rename_i hx' hy' <;> simp only [hx', hy', forall_const] at hx hy <;> omega

example : toggle 0x85#8 7 = 0x05#8 ∧ toggle 0x81#8 7 = 0x01#8 ∧ toggle 5#8 2 = 1#8 ∧ toggle 1#8 2 = 5#8 := by decide

/-! ## The Luhn digit -/

/-- What digit `d` at place `k` adds to the total of a number whose last digit is doubled (`dbl`) or not. -/
def place (dbl : Bool) (k d : Nat) : Nat := luhnDigit (dbl == (k % 2 == 0)) d

theorem place_succ (dbl : Bool) (k d : Nat) : place dbl (k + 1) d = place (!dbl) k d := by
  unfold place
  congr 1
  rcases Nat.mod_two_eq_zero_or_one k with h | h <;> cases dbl <;> simp [Nat.add_mod, h]

/-- The total is the sum over the places. -/
theorem total_places (N : Nat) : ∀ (n : Nat) (dbl : Bool), n < 10 ^ N →
    luhnTotal dbl n = ((List.range N).map fun k => place dbl k (decDigit n k)).sum := by
  induction N with
  | zero => intro n dbl h; rw [show n = 0 by simpa using h, luhnTotal]; rfl
  | succ N ih =>
    intro n dbl h
    rw [Luhn.total_eq, List.range_succ_eq_map, List.map_cons, List.sum_cons, List.map_map,
      ih (n / 10) (!dbl) (by rw [Nat.pow_succ] at h; omega)]
    congr 1
    · rw [Luhn.decDigit_zero, place]; simp
    · refine congrArg List.sum (List.map_congr_left fun k _ => ?_)
      simp only [Function.comp, Nat.succ_eq_add_one]
      rw [place_succ, Luhn.decDigit_succ]

theorem sum_two (N k l : Nat) (f g : Nat → Nat) (hk : k < N) (hl : l < N) (hne : k ≠ l) (h : ∀ m, m ≠ k → m ≠ l → f m = g m) :
    ((List.range N).map f).sum + (g k + g l) = ((List.range N).map g).sum + (f k + f l) := by
  have key : ∀ (N : Nat), ((List.range N).map f).sum + ((if k < N then g k else 0) + (if l < N then g l else 0)) =
      ((List.range N).map g).sum + ((if k < N then f k else 0) + (if l < N then f l else 0)) := by
    intro N
    induction N with
    | zero => simp
    | succ N ih =>
      rw [List.range_succ, List.map_append, List.map_append, List.sum_append, List.sum_append]
      simp only [List.map_cons, List.map_nil, List.sum_cons, List.sum_nil]
      by_cases hk : k = N
      · subst hk
        simp only [Nat.lt_irrefl, if_false, Nat.lt_succ_self, if_true, show (l < k + 1) = (l < k) by simp; omega] at ih ⊢
        omega
      · by_cases hl : l = N
        · subst hl
          simp only [Nat.lt_irrefl, if_false, Nat.lt_succ_self, if_true, show (k < l + 1) = (k < l) by simp; omega] at ih ⊢
          omega
        · have := h N (Ne.symm hk) (Ne.symm hl)
          simp only [show (k < N + 1) = (k < N) by simp; omega, show (l < N + 1) = (l < N) by simp; omega]
          omega
  simpa [hk, hl] using key N

/-- The two numbers have the same decimal digits except at the places `k` and `l`. -/
def SameBut (k l i j : Nat) : Prop := ∀ m, m ≠ k → m ≠ l → decDigit i m = decDigit j m

/-- **C111** Which changes of two digits the Luhn digit misses: those which change the sum of what the two digits count by a multiple
of ten. A digit at an even place (the last is at place 0) counts its double's digits, a digit at an odd place itself. -/
theorem C111_luhn_two (i j : U64) (k l : Nat) (hkl : k ≠ l) (h : SameBut k l i.toNat j.toNat) :
    Luhn.Checksum i = Luhn.Checksum j ↔
      (luhnDigit (k % 2 == 0) (decDigit i.toNat k) + luhnDigit (l % 2 == 0) (decDigit i.toNat l)) % 10 =
      (luhnDigit (k % 2 == 0) (decDigit j.toNat k) + luhnDigit (l % 2 == 0) (decDigit j.toNat l)) % 10 := by
  have e : Luhn.Checksum i = Luhn.Checksum j ↔ luhnTotal true i.toNat % 10 = luhnTotal true j.toNat % 10 := by
    rw [← BitVec.toNat_inj, Luhn.Checksum_toNat, Luhn.Checksum_toNat]; omega
  have lt (x : U64) : x.toNat < 10 ^ (20 + k + l) := by
    have h1 := x.isLt
    have h2 : 10 ^ 20 ≤ 10 ^ (20 + k + l) := Nat.pow_le_pow_right (by omega) (by omega)
    omega
  have s := sum_two (20 + k + l) k l (fun m => place true m (decDigit i.toNat m)) (fun m => place true m (decDigit j.toNat m))
    (by omega) (by omega) hkl (fun m h1 h2 => by simp only [h m h1 h2])
  rw [← total_places _ _ _ (lt i), ← total_places _ _ _ (lt j)] at s
  have pl (m d : Nat) : place true m d = luhnDigit (m % 2 == 0) d := by simp [place]
  simp only [pl] at s
  rw [e]
  omega

/-- **C111** Two digits changing places pass if they stand an even number of places apart, or are equal, or are 0 and 9; all other
transpositions are noticed, at any distance. -/
theorem C111_luhn_transposition (i j : U64) (k l : Nat) (hkl : k ≠ l) (h : SameBut k l i.toNat j.toNat)
    (h1 : decDigit i.toNat k = decDigit j.toNat l) (h2 : decDigit i.toNat l = decDigit j.toNat k) :
    Luhn.Checksum i = Luhn.Checksum j ↔
      k % 2 = l % 2 ∨ decDigit i.toNat k = decDigit i.toNat l ∨
      (decDigit i.toNat k = 0 ∧ decDigit i.toNat l = 9) ∨ (decDigit i.toNat k = 9 ∧ decDigit i.toNat l = 0) := by
  rw [C111_luhn_two i j k l hkl h, ← h1, ← h2]
  have hx : decDigit i.toNat k < 10 := Nat.mod_lt _ (by omega)
  have hy : decDigit i.toNat l < 10 := Nat.mod_lt _ (by omega)
  generalize decDigit i.toNat k = x at *
  generalize decDigit i.toNat l = y at *
  rcases Nat.mod_two_eq_zero_or_one k with hk | hk <;> rcases Nat.mod_two_eq_zero_or_one l with hl | hl <;> rw [hk, hl]
  · simp; omega
  · have key : ∀ x y : Fin 10, ((luhnDigit true x.1 + luhnDigit false y.1) % 10 = (luhnDigit true y.1 + luhnDigit false x.1) % 10 ↔
      x.1 = y.1 ∨ (x.1 = 0 ∧ y.1 = 9) ∨ (x.1 = 9 ∧ y.1 = 0)) := by decide
    simpa using key ⟨x, hx⟩ ⟨y, hy⟩
  · have key : ∀ x y : Fin 10, ((luhnDigit false x.1 + luhnDigit true y.1) % 10 = (luhnDigit false y.1 + luhnDigit true x.1) % 10 ↔
      x.1 = y.1 ∨ (x.1 = 0 ∧ y.1 = 9) ∨ (x.1 = 9 ∧ y.1 = 0)) := by decide
    simpa using key ⟨x, hx⟩ ⟨y, hy⟩
  · simp; omega

/-- **C111** The phonetic error (`a0` for `1a`, as in "thirty" for "thirteen", `a` from 2 to 9) is noticed except for 20 and 12 where the
second digit stands at an odd place, and for 80 and 18 where it stands at an even place. -/
theorem C111_luhn_phonetic (i j : U64) (k a : Nat) (ha : 2 ≤ a) (ha' : a < 10) (h : SameBut k (k + 1) i.toNat j.toNat)
    (hi : decDigit i.toNat (k + 1) = a ∧ decDigit i.toNat k = 0) (hj : decDigit j.toNat (k + 1) = 1 ∧ decDigit j.toNat k = a) :
    Luhn.Checksum i = Luhn.Checksum j ↔ (k % 2 = 1 ∧ a = 2) ∨ (k % 2 = 0 ∧ a = 8) := by
  rw [C111_luhn_two i j k (k + 1) (by omega) h, hi.1, hi.2, hj.1, hj.2]
  rcases Nat.mod_two_eq_zero_or_one k with hk | hk
  · have hk' : (k + 1) % 2 = 1 := by omega
    rw [hk, hk']
    have key : ∀ a : Fin 10, 2 ≤ a.1 → ((luhnDigit true 0 + luhnDigit false a.1) % 10 = (luhnDigit true a.1 + luhnDigit false 1) % 10 ↔ a.1 = 8) := by decide
    simpa using key ⟨a, ha'⟩ ha
  · have hk' : (k + 1) % 2 = 0 := by omega
    rw [hk, hk']
    have key : ∀ a : Fin 10, 2 ≤ a.1 → ((luhnDigit false 0 + luhnDigit true a.1) % 10 = (luhnDigit false a.1 + luhnDigit true 1) % 10 ↔ a.1 = 2) := by decide
    simpa using key ⟨a, ha'⟩ ha

/-- A transposition over three places, and "thirteen" for "thirty". -/
example : SameBut 0 3 (4731#64 : U64).toNat (1734#64 : U64).toNat ∧ SameBut 2 3 (3004#64 : U64).toNat (1304#64 : U64).toNat := by
  constructor
  all_goals
    intro m h1 h2
    rcases Nat.lt_or_ge m 4 with h | h
    · have : m = 0 ∨ m = 1 ∨ m = 2 ∨ m = 3 := by omega
      rcases this with rfl | rfl | rfl | rfl <;> first | contradiction | decide
    · show decDigit _ m = decDigit _ m
      unfold decDigit
      have : 10 ^ 4 ≤ 10 ^ m := Nat.pow_le_pow_right (by omega) h
      rw [Nat.div_eq_of_lt (Nat.lt_of_lt_of_le (by decide) this), Nat.div_eq_of_lt (Nat.lt_of_lt_of_le (by decide) this)]

end Checksum
