import Verif.Model.Bytes
import Verif.Spec.Bytes
import Verif.Lemmas.Bits
import Mathlib.Tactic.Ring
import Mathlib.Tactic.Linarith

namespace Bytes
open BytesSpec

/-! ## Slices -/

theorem get_lt {m : Mem} {s : Slice} {i : Nat} (h : i < s.len) : s.get m i = .ok (m (s.base + i)) := by
  simp [Slice.get, h]

theorem get_ge {m : Mem} {s : Slice} {i : Nat} (h : s.len ≤ i) : s.get m i = .panic := by
  simp [Slice.get, Nat.not_lt.mpr h]

theorem set_lt {m : Mem} {s : Slice} {i : Nat} {v : U8} (h : i < s.len) :
    s.set m i v = .ok (fun x => if x = s.base + i then v else m x) := by
  simp [Slice.set, h]

theorem drop_le {s : Slice} {i : Nat} (h : i ≤ s.len) : s.drop i = .ok ⟨s.base + i, s.len - i⟩ := by
  simp [Slice.drop, Slice.sub, h]

theorem sub_le {s : Slice} {i j : Nat} (h : i ≤ j) (h' : j ≤ s.len) : s.sub i j = .ok ⟨s.base + i, j - i⟩ := by
  simp [Slice.sub, h, h']

theorem Zero_eq (m : Mem) (t : Slice) : Zero m t = fun x => if t.base ≤ x ∧ x < t.base + t.len then 0#8 else m x := by
  have hz : ∀ i, (List.replicate 8 0#8).getD i 0#8 = 0#8 := by
    intro i; rw [List.getD_eq_getElem?_getD, List.getElem?_replicate]; split <;> rfl
  induction hn : t.len using Nat.strongRecOn generalizing m t with
  | _ n ih =>
    subst hn
    rw [Zero.eq_def]
    split
    · rename_i h
      rw [ih (t.len - 8) (by omega) _ ⟨t.base + 8, t.len - 8⟩ rfl]
      funext x
      simp only [Slice.copyStr, hz, List.length_replicate]
      rw [Nat.min_eq_right (by omega)]
      by_cases h1 : t.base + 8 ≤ x ∧ x < t.base + 8 + (t.len - 8)
      · rw [if_pos h1, if_pos (by omega)]
      · rw [if_neg h1]
        by_cases h2 : t.base ≤ x ∧ x < t.base + 8
        · rw [if_pos h2, if_pos (by omega)]
        · rw [if_neg h2, if_neg (by omega)]
    · rename_i h
      funext x
      simp only [Slice.copyStr, hz, List.length_replicate]
      rw [Nat.min_eq_left (by omega)]

/-! ## Numbers in base 256 -/

/-- The number with digits `f 0 … f (n-1)`. -/
def val (f : Nat → U8) : Nat → Nat
  | 0 => 0
  | n + 1 => val f n + (f n).toNat * 256 ^ n

/-- The digits of a number. -/
def digit (v i : Nat) : U8 := BitVec.ofNat 8 (v / 256 ^ i)

theorem val_lt (f : Nat → U8) (n : Nat) : val f n < 256 ^ n := by
  induction n with
  | zero => simp [val]
  | succ n ih =>
    have h1 := (f n).isLt
    have : (f n).toNat * 256 ^ n ≤ 255 * 256 ^ n := Nat.mul_le_mul_right _ (by omega)
    rw [val, Nat.pow_succ]; omega

theorem val_congr {f g : Nat → U8} {n : Nat} (h : ∀ i, i < n → f i = g i) : val f n = val g n := by
  induction n with
  | zero => rfl
  | succ n ih => rw [val, val, ih (fun i hi => h i (by omega)), h n (by omega)]

theorem val_add (f : Nat → U8) (k j : Nat) : val f (k + j) = val f k + 256 ^ k * val (fun i => f (k + i)) j := by
  induction j with
  | zero => simp [val]
  | succ j ih => rw [← Nat.add_assoc, val, ih, val, Nat.pow_add]; ring

theorem val_succ' (f : Nat → U8) (n : Nat) : val f (n + 1) = (f 0).toNat + 256 * val (fun i => f (i + 1)) n := by
  rw [Nat.add_comm n 1, val_add]
  simp [val, Nat.add_comm]

theorem val_zero_ext (f : Nat → U8) (n k : Nat) (h : ∀ i, n ≤ i → f i = 0#8) (hk : n ≤ k) : val f k = val f n := by
  obtain ⟨j, rfl⟩ := Nat.exists_eq_add_of_le hk
  rw [val_add]
  have : val (fun i => f (n + i)) j = 0 := by
    clear hk
    induction j with
    | zero => rfl
    | succ j ih => rw [val, ih, h _ (by omega)]; simp
  rw [this]; simp

theorem digit_add (v k i : Nat) : digit v (k + i) = digit (v / 256 ^ k) i := by
  rw [digit, digit, Nat.pow_add, Nat.div_div_eq_div_mul]

theorem digit_congr {v w k i : Nat} (h : v % 256 ^ k = w % 256 ^ k) (hi : i < k) : digit v i = digit w i := by
  have key : ∀ u, u / 256 ^ i % 256 = u % 256 ^ k / 256 ^ i % 256 := by
    intro u
    obtain ⟨j, rfl⟩ := Nat.exists_eq_add_of_lt hi
    rw [show i + j + 1 = i + (j + 1) by omega, Nat.pow_add, Nat.mod_mul_right_div_self, Nat.pow_succ, Nat.mul_comm (256 ^ j),
      Nat.mod_mul_right_mod]
  apply BitVec.eq_of_toNat_eq
  rw [digit, digit, BitVec.toNat_ofNat, BitVec.toNat_ofNat]
  show v / 256 ^ i % 256 = w / 256 ^ i % 256
  rw [key v, key w, h]

theorem val_digit (v n : Nat) : val (digit v) n = v % 256 ^ n := by
  induction n with
  | zero => simp [val, Nat.mod_one]
  | succ n ih =>
    rw [val, ih, Nat.pow_succ, Nat.mod_mul, digit, BitVec.toNat_ofNat]
    show _ + v / 256 ^ n % 256 * _ = _
    ring

theorem leVal_take (n : Nat) : ∀ l : List U8, leVal (l.take n) = val (fun i => l.getD i 0#8) n := by
  induction n with
  | zero => intro l; simp [leVal, val]
  | succ n ih =>
    intro l
    rw [val_succ']
    cases l with
    | nil =>
      have := ih []
      simp only [List.take_nil, leVal, List.getD_nil] at this ⊢
      rw [← this]; simp
    | cons b l =>
      rw [List.take_succ_cons, leVal, ih]
      simp [List.getD_cons_succ]

theorem leVal_append (a b : List U8) : leVal (a ++ b) = leVal a + 256 ^ a.length * leVal b := by
  induction a with
  | nil => simp [leVal]
  | cons x a ih => rw [List.cons_append, leVal, leVal, ih, List.length_cons, Nat.pow_succ]; ring

theorem beVal_append (a b : List U8) : beVal (a ++ b) = beVal a * 256 ^ b.length + beVal b := by
  have key : ∀ (b : List U8) (n : Nat), b.foldl (fun n b => 256 * n + b.toNat) n = n * 256 ^ b.length + beVal b := by
    intro b
    induction b with
    | nil => intro n; simp [beVal]
    | cons x b ih =>
      intro n
      have h : beVal (x :: b) = (256 * 0 + x.toNat) * 256 ^ b.length + beVal b := ih _
      rw [List.foldl_cons, ih, h, List.length_cons, Nat.pow_succ]; ring
  rw [beVal, List.foldl_append, key]; rfl

theorem beVal_eq (l : List U8) : beVal l = leVal l.reverse := by
  induction l with
  | nil => rfl
  | cons b l ih =>
    rw [List.reverse_cons, leVal_append, ← ih, show b :: l = [b] ++ l from rfl, beVal_append, List.length_reverse]
    simp [leVal, beVal]; ring

theorem content_getD (m : Mem) (s : Slice) (i : Nat) :
    (s.content m).getD i 0#8 = if i < s.len then m (s.base + i) else 0#8 := by
  rw [List.getD_eq_getElem?_getD, Slice.content, List.getElem?_map]
  by_cases h : i < s.len
  · rw [List.getElem?_range h, if_pos h]; rfl
  · rw [List.getElem?_eq_none (by simp; omega), if_neg h]; rfl

theorem content_length (m : Mem) (s : Slice) : (s.content m).length = s.len := by simp [Slice.content]

theorem content_rev_getD (m : Mem) (s : Slice) (i : Nat) :
    (s.content m).reverse.getD i 0#8 = if i < s.len then m (s.base + (s.len - 1 - i)) else 0#8 := by
  by_cases h : i < s.len
  · rw [if_pos h, List.getD_eq_getElem?_getD, List.getElem?_reverse (by rw [content_length]; exact h), content_length,
      ← List.getD_eq_getElem?_getD, content_getD, if_pos (by omega)]
  · rw [if_neg h, List.getD_eq_getElem?_getD, List.getElem?_eq_none (by rw [List.length_reverse, content_length]; omega)]; rfl

theorem leVal_content (m : Mem) (s : Slice) (n : Nat) : leVal ((s.content m).take n) =
    val (fun i => if i < s.len then m (s.base + i) else 0#8) n := by
  rw [leVal_take]; exact val_congr fun i _ => content_getD m s i

theorem beVal_content (m : Mem) (s : Slice) (n : Nat) (h : s.len ≤ n) : beVal (s.content m) =
    val (fun i => if i < s.len then m (s.base + (s.len - 1 - i)) else 0#8) n := by
  rw [beVal_eq, ← List.take_of_length_le (l := (s.content m).reverse) (i := n) (by rw [List.length_reverse, content_length]; exact h),
    leVal_take]
  exact val_congr fun i _ => content_rev_getD m s i

/-! ## Words -/

/-- `m'` is `m` with the low `n` digits of `v` at `addr 0 … addr (n-1)`. -/
def Wrote (m m' : Mem) (addr : Nat → Nat) (n v : Nat) : Prop :=
  (∀ i, i < n → m' (addr i) = digit v i) ∧ ∀ x, (∀ i, i < n → x ≠ addr i) → m' x = m x

/-- `m'`, `c'` result from adding the `n` digits `g` and the carry `c` to the digits at `addr`. -/
def Word (m m' : Mem) (addr : Nat → Nat) (n : Nat) (g : Nat → U8) (c c' : U8) : Prop :=
  ∃ T, T = val (fun i => m (addr i)) n + val g n + c.toNat % 2 ∧ Wrote m m' addr n T ∧ c'.toNat = T / 256 ^ n

/-- The digits of `b` read forwards. -/
def digLE (m : Mem) (b : Slice) : Nat → U8 := fun i => if i < b.len then m (b.base + i) else 0#8

/-- The digits of `b` read backwards. -/
def digBE (m : Mem) (b : Slice) : Nat → U8 := fun i => if i < b.len then m (b.base + (b.len - 1 - i)) else 0#8

theorem gatherLE_eq {w : Nat} (m : Mem) (b : Slice) (k : Nat) : ∀ (i : Nat) (x : BitVec w), i + k ≤ b.len → 8 * (i + k) ≤ w →
    x.toNat = val (digLE m b) i → ∃ y, gatherLE m b k i x = .ok y ∧ y.toNat = val (digLE m b) (i + k) := by
  induction k with
  | zero => intro i x _ _ hx; exact ⟨x, rfl, hx⟩
  | succ k ih =>
    intro i x hl hw hx
    rw [gatherLE, get_lt (by omega)]
    have hd : digLE m b i = m (b.base + i) := by rw [digLE, if_pos (by omega)]
    have hlt := val_lt (digLE m b) (i + 1)
    have hpw : 256 ^ (i + 1) ≤ 2 ^ w := by
      rw [show (256 : Nat) = 2 ^ 8 from rfl, ← Nat.pow_mul]; exact Nat.pow_le_pow_right (by omega) (by omega)
    have hw8 : 2 ^ 8 ≤ 2 ^ w := Nat.pow_le_pow_right (by omega) (by omega)
    obtain ⟨y, hy, e⟩ := ih (i + 1) (x + (m (b.base + i)).setWidth w <<< (8 * i)) (by omega) (by omega) (by
      rw [val] at hlt
      have h8 : 2 ^ (8 * i) = 256 ^ i := by rw [Nat.pow_mul]
      rw [val, BitVec.toNat_add, BitVec.toNat_shiftLeft, BitVec.toNat_setWidth, Nat.mod_eq_of_lt (a := (m (b.base + i)).toNat)
        (by have := (m (b.base + i)).isLt; omega), Nat.shiftLeft_eq, hx, h8]
      rw [hd] at hlt ⊢
      rw [Nat.mod_eq_of_lt (a := (m (b.base + i)).toNat * 256 ^ i) (by omega), Nat.mod_eq_of_lt (by omega)])
    exact ⟨y, hy, by rw [e]; congr 1; omega⟩

theorem gatherBE_eq {w : Nat} (m : Mem) (b : Slice) (k : Nat) : ∀ (i : Nat) (x : BitVec w), i + k ≤ b.len → 8 * (i + k) ≤ w →
    x.toNat = val (digBE m ⟨b.base, i⟩) i →
    ∃ y, gatherBE m b k i x = .ok y ∧ y.toNat = val (digBE m ⟨b.base, i + k⟩) (i + k) := by
  induction k with
  | zero => intro i x _ _ hx; exact ⟨x, rfl, hx⟩
  | succ k ih =>
    intro i x hl hw hx
    rw [gatherBE, get_lt (by omega)]
    have hlt := val_lt (digBE m ⟨b.base, i + 1⟩) (i + 1)
    have hpw : 256 ^ (i + 1) ≤ 2 ^ w := by
      rw [show (256 : Nat) = 2 ^ 8 from rfl, ← Nat.pow_mul]; exact Nat.pow_le_pow_right (by omega) (by omega)
    have hw8 : 2 ^ 8 ≤ 2 ^ w := Nat.pow_le_pow_right (by omega) (by omega)
    have hstep : val (digBE m ⟨b.base, i + 1⟩) (i + 1) = (m (b.base + i)).toNat + 256 * val (digBE m ⟨b.base, i⟩) i := by
      rw [val_succ']
      have h0 : digBE m ⟨b.base, i + 1⟩ 0 = m (b.base + i) := by simp [digBE]
      rw [h0]
      congr 2
      apply val_congr
      intro j hj
      simp only [digBE]
      rw [if_pos (by omega), if_pos hj]
      congr 2; omega
    have hb := (m (b.base + i)).isLt
    obtain ⟨y, hy, e⟩ := ih (i + 1) (x <<< 8 ||| (m (b.base + i)).setWidth w) (by omega) (by omega) (by
      rw [hstep] at hlt ⊢
      rw [BitVec.toNat_or, BitVec.toNat_shiftLeft, BitVec.toNat_setWidth, Nat.mod_eq_of_lt (a := (m (b.base + i)).toNat)
        (by omega), hx, Nat.shiftLeft_eq, Nat.mod_eq_of_lt (by omega), Nat.mul_comm]
      rw [show (256 : Nat) = 2 ^ 8 from rfl, Nat.add_comm (BitVec.toNat _)]
      exact (Nat.two_pow_add_eq_or_of_lt hb _).symm)
    exact ⟨y, hy, by rw [e, show i + 1 + k = i + (k + 1) by omega]⟩

theorem carry_nat (c : U8) (w : Nat) (h : 8 ≤ w) : ((c &&& 1#8).setWidth w).toNat = c.toNat % 2 := by
  rw [BitVec.toNat_setWidth, BitVec.toNat_and]
  show (_ &&& 1) % _ = _
  rw [Nat.and_one_is_mod, Nat.mod_eq_of_lt]
  have : 2 ^ 8 ≤ 2 ^ w := Nat.pow_le_pow_right (by omega) h
  omega

theorem val4 (f : Nat → U8) : val f 4 = (f 0).toNat + (f 1).toNat * 2 ^ 8 + (f 2).toNat * 2 ^ 16 + (f 3).toNat * 2 ^ 24 := by
  simp [val]

theorem val2 (f : Nat → U8) : val f 2 = (f 0).toNat + (f 1).toNat * 2 ^ 8 := by simp [val]

theorem or4 (a b c d : U8) : (a.setWidth 32 ||| b.setWidth 32 <<< 8 ||| c.setWidth 32 <<< 16 ||| d.setWidth 32 <<< 24 : U32).toNat =
    a.toNat + b.toNat * 2 ^ 8 + c.toNat * 2 ^ 16 + d.toNat * 2 ^ 24 := by
  have ha := a.isLt
  have hb := b.isLt
  have hc := c.isLt
  have hd := d.isLt
  simp only [BitVec.toNat_or, BitVec.toNat_shiftLeft, BitVec.toNat_setWidth]
  rw [Nat.mod_eq_of_lt (a := a.toNat) (by omega), Nat.mod_eq_of_lt (a := b.toNat) (by omega),
    Nat.mod_eq_of_lt (a := c.toNat) (by omega), Nat.mod_eq_of_lt (a := d.toNat) (by omega),
    Nat.mod_eq_of_lt (a := b.toNat <<< 8) (by rw [Nat.shiftLeft_eq]; omega),
    Nat.mod_eq_of_lt (a := c.toNat <<< 16) (by rw [Nat.shiftLeft_eq]; omega),
    Nat.mod_eq_of_lt (a := d.toNat <<< 24) (by rw [Nat.shiftLeft_eq]; omega),
    Bits.or_shift _ _ 8 ha, Bits.or_shift _ _ 16 (by omega), Bits.or_shift _ _ 24 (by omega)]
  omega

theorem or2 (a b : U8) : (a.setWidth 16 ||| b.setWidth 16 <<< 8 : U16).toNat = a.toNat + b.toNat * 2 ^ 8 := by
  have ha := a.isLt
  have hb := b.isLt
  simp only [BitVec.toNat_or, BitVec.toNat_shiftLeft, BitVec.toNat_setWidth]
  rw [Nat.mod_eq_of_lt (a := a.toNat) (by omega), Nat.mod_eq_of_lt (a := b.toNat) (by omega),
    Nat.mod_eq_of_lt (a := b.toNat <<< 8) (by rw [Nat.shiftLeft_eq]; omega), Bits.or_shift _ _ 8 ha]
  omega

theorem byte_digit {w v : Nat} {x : BitVec w} {i : Nat} (h : x.toNat = v % 2 ^ w) (hi : 8 * i + 8 ≤ w) :
    (x >>> (8 * i)).setWidth 8 = digit v i := by
  apply BitVec.eq_of_toNat_eq
  rw [BitVec.toNat_setWidth, BitVec.toNat_ushiftRight, h, digit, BitVec.toNat_ofNat, Nat.shiftRight_eq_div_pow]
  have h8 : 2 ^ (8 * i) = 256 ^ i := by rw [Nat.pow_mul]
  obtain ⟨j, rfl⟩ := Nat.exists_eq_add_of_le hi
  rw [show 8 * i + 8 + j = 8 * i + (8 + j) by omega, Nat.pow_add, Nat.mod_mul_right_div_self, Nat.pow_add 2 8 j,
    Nat.mod_mul_right_mod, h8]

theorem sum3 {w A B C : Nat} {a b c : BitVec w} (ha : a.toNat = A) (hb : b.toNat = B) (hc : c.toNat = C)
    (h : A + B + C < 2 ^ w) : (a + b + c).toNat = A + B + C := by
  rw [BitVec.toNat_add, BitVec.toNat_add, ha, hb, hc, Nat.mod_eq_of_lt (a := A + B) (by omega), Nat.mod_eq_of_lt h]

/-- The arithmetic shared by the two 32-bit steps. -/
theorem word32 {A B : Nat} {a : U32} {b : U64} (c : U8) (ha : a.toNat = A) (hb : b.toNat = B) (hA : A < 256 ^ 4) (hB : B < 256 ^ 4) :
    (a.setWidth 64 + b + (c &&& 1#8).setWidth 64).toNat = A + B + c.toNat % 2 := by
  have ha' := a.isLt
  rw [sum3 (A := A) (B := B) (C := c.toNat % 2) _ hb (carry_nat c 64 (by omega)) (by omega)]
  rw [BitVec.toNat_setWidth, ha, Nat.mod_eq_of_lt (by omega)]

theorem word16 {A B : Nat} {a : U16} {b : U32} (c : U8) (ha : a.toNat = A) (hb : b.toNat = B) (hA : A < 256 ^ 2) (hB : B < 256 ^ 2) :
    (a.setWidth 32 + b + (c &&& 1#8).setWidth 32).toNat = A + B + c.toNat % 2 := by
  have ha' := a.isLt
  rw [sum3 (A := A) (B := B) (C := c.toNat % 2) _ hb (carry_nat c 32 (by omega)) (by omega)]
  rw [BitVec.toNat_setWidth, ha, Nat.mod_eq_of_lt (by omega)]

theorem addEq32LE_eq (m : Mem) (sum b : Slice) (c : U8) (h : 4 ≤ sum.len) : ∃ m' c', addEq32LE m sum b c = .ok (m', c') ∧
    Word m m' (fun i => sum.base + i) 4 (digLE m b) c c' := by
  obtain ⟨y, hy, e⟩ := gatherLE_eq (w := 64) m b (if b.len < 4 then b.len else 4) 0 0#64 (by split <;> omega)
    (by split <;> omega) rfl
  have e' : y.toNat = val (digLE m b) 4 := by
    rw [e, Nat.zero_add]
    split
    · rename_i hlt
      exact (val_zero_ext _ _ _ (fun i hi => by rw [digLE, if_neg (by omega)]) (by omega)).symm
    · rfl
  have ha := or4 (m (sum.base + 0)) (m (sum.base + 1)) (m (sum.base + 2)) (m (sum.base + 3))
  have hlt := val_lt (fun i => m (sum.base + i)) 4
  have hlt' := val_lt (digLE m b) 4
  rw [val4] at hlt
  have hT := word32 c ha e' hlt hlt'
  unfold addEq32LE leUint32
  rw [get_lt (by omega), get_lt (by omega), get_lt (by omega), get_lt (by omega)]
  simp only [Res.ok_bind, Res.pure_eq, hy]
  generalize hX : (_ + y + _ : U64) = X at hT
  unfold lePutUint32
  rw [get_lt (by omega)]
  simp only [set_lt (show 0 < sum.len by omega), set_lt (show 1 < sum.len by omega), set_lt (show 2 < sum.len by omega),
    set_lt (show 3 < sum.len by omega), Res.ok_bind]
  refine ⟨_, _, rfl, _, rfl, ⟨?_, ?_⟩, ?_⟩
  · rw [val4, ← hT]
    have hX' : ((X.setWidth 32 : U32)).toNat = X.toNat % 2 ^ 32 := BitVec.toNat_setWidth ..
    intro i hi
    have hd := byte_digit (i := i) hX' (by omega)
    rw [← hd]
    rcases i with _ | _ | _ | _ | i
    · simp
    · simp
    · simp
    · simp
    · omega
  · intro x hx
    have h0 := hx 0 (by omega)
    have h1 := hx 1 (by omega)
    have h2 := hx 2 (by omega)
    have h3 := hx 3 (by omega)
    simp only [h0, h1, h2, h3, if_false]
  · rw [val4, ← hT, BitVec.toNat_setWidth, BitVec.toNat_ushiftRight, Nat.shiftRight_eq_div_pow]
    rw [Nat.mod_eq_of_lt (by omega)]; rfl

theorem addEq16LE_eq (m : Mem) (sum b : Slice) (c : U8) (h : 2 ≤ sum.len) : ∃ m' c', addEq16LE m sum b c = .ok (m', c') ∧
    Word m m' (fun i => sum.base + i) 2 (digLE m b) c c' := by
  obtain ⟨y, hy, e⟩ := gatherLE_eq (w := 32) m b (if b.len < 2 then b.len else 2) 0 0#32 (by split <;> omega)
    (by split <;> omega) rfl
  have e' : y.toNat = val (digLE m b) 2 := by
    rw [e, Nat.zero_add]
    split
    · rename_i hlt
      exact (val_zero_ext _ _ _ (fun i hi => by rw [digLE, if_neg (by omega)]) (by omega)).symm
    · rfl
  have ha := or2 (m (sum.base + 0)) (m (sum.base + 1))
  have hlt := val_lt (fun i => m (sum.base + i)) 2
  have hlt' := val_lt (digLE m b) 2
  rw [val2] at hlt
  have hT := word16 c ha e' hlt hlt'
  unfold addEq16LE leUint16
  rw [get_lt (by omega), get_lt (by omega)]
  simp only [Res.ok_bind, Res.pure_eq, hy]
  generalize hX : (_ + y + _ : U32) = X at hT
  unfold lePutUint16
  rw [get_lt (by omega)]
  simp only [set_lt (show 0 < sum.len by omega), set_lt (show 1 < sum.len by omega), Res.ok_bind]
  refine ⟨_, _, rfl, _, rfl, ⟨?_, ?_⟩, ?_⟩
  · rw [val2, ← hT]
    have hX' : ((X.setWidth 16 : U16)).toNat = X.toNat % 2 ^ 16 := BitVec.toNat_setWidth ..
    intro i hi
    have hd := byte_digit (i := i) hX' (by omega)
    rw [← hd]
    rcases i with _ | _ | i
    · simp
    · simp
    · omega
  · intro x hx
    have h0 := hx 0 (by omega)
    have h1 := hx 1 (by omega)
    simp only [h0, h1, if_false]
  · rw [val2, ← hT, BitVec.toNat_setWidth, BitVec.toNat_ushiftRight, Nat.shiftRight_eq_div_pow]
    rw [Nat.mod_eq_of_lt (by omega)]; rfl

/-- The last `min 4 b.len`… digits: only the first `k` bytes of `b` are used. -/
theorem addEq32BE_eq (m : Mem) (sum b : Slice) (c : U8) (h : 4 ≤ sum.len) : ∃ m' c', addEq32BE m sum b c = .ok (m', c') ∧
    Word m m' (fun i => sum.base + (3 - i)) 4 (digBE m ⟨b.base, min 4 b.len⟩) c c' := by
  have hmin : (if b.len < 4 then b.len else 4) = min 4 b.len := by split <;> omega
  obtain ⟨y, hy, e⟩ := gatherBE_eq (w := 64) m b (min 4 b.len) 0 0#64 (by omega) (by omega) rfl
  have e' : y.toNat = val (digBE m ⟨b.base, min 4 b.len⟩) 4 := by
    rw [e, Nat.zero_add]
    exact (val_zero_ext _ _ _ (fun i hi => by simp only [digBE]; rw [if_neg (by omega)]) (by omega)).symm
  have ha := or4 (m (sum.base + 3)) (m (sum.base + 2)) (m (sum.base + 1)) (m (sum.base + 0))
  have hlt := val_lt (fun i => m (sum.base + (3 - i))) 4
  have hlt' := val_lt (digBE m ⟨b.base, min 4 b.len⟩) 4
  rw [val4] at hlt
  have hT := word32 c ha e' hlt hlt'
  unfold addEq32BE beUint32
  rw [get_lt (by omega), get_lt (by omega), get_lt (by omega), get_lt (by omega)]
  simp only [Res.ok_bind, Res.pure_eq, hmin, hy]
  generalize hX : (_ + y + _ : U64) = X at hT
  unfold bePutUint32
  rw [get_lt (by omega)]
  simp only [set_lt (show 0 < sum.len by omega), set_lt (show 1 < sum.len by omega), set_lt (show 2 < sum.len by omega),
    set_lt (show 3 < sum.len by omega), Res.ok_bind]
  refine ⟨_, _, rfl, _, rfl, ⟨?_, ?_⟩, ?_⟩
  · rw [val4, ← hT]
    have hX' : ((X.setWidth 32 : U32)).toNat = X.toNat % 2 ^ 32 := BitVec.toNat_setWidth ..
    intro i hi
    have hd := byte_digit (i := i) hX' (by omega)
    rw [← hd]
    rcases i with _ | _ | _ | _ | i
    · simp
    · simp
    · simp
    · simp
    · omega
  · intro x hx
    have h0 := hx 0 (by omega)
    have h1 := hx 1 (by omega)
    have h2 := hx 2 (by omega)
    have h3 := hx 3 (by omega)
    simp only [Nat.reduceSub, Nat.sub_zero] at h0 h1 h2 h3
    simp only [h0, h1, h2, h3, if_false]
  · rw [val4, ← hT, BitVec.toNat_setWidth, BitVec.toNat_ushiftRight, Nat.shiftRight_eq_div_pow]
    rw [Nat.mod_eq_of_lt (by omega)]; rfl

theorem addEq16BE_eq (m : Mem) (sum b : Slice) (c : U8) (h : 2 ≤ sum.len) : ∃ m' c', addEq16BE m sum b c = .ok (m', c') ∧
    Word m m' (fun i => sum.base + (1 - i)) 2 (digBE m ⟨b.base, min 2 b.len⟩) c c' := by
  have hmin : (if b.len < 2 then b.len else 2) = min 2 b.len := by split <;> omega
  obtain ⟨y, hy, e⟩ := gatherBE_eq (w := 32) m b (min 2 b.len) 0 0#32 (by omega) (by omega) rfl
  have e' : y.toNat = val (digBE m ⟨b.base, min 2 b.len⟩) 2 := by
    rw [e, Nat.zero_add]
    exact (val_zero_ext _ _ _ (fun i hi => by simp only [digBE]; rw [if_neg (by omega)]) (by omega)).symm
  have ha := or2 (m (sum.base + 1)) (m (sum.base + 0))
  have hlt := val_lt (fun i => m (sum.base + (1 - i))) 2
  have hlt' := val_lt (digBE m ⟨b.base, min 2 b.len⟩) 2
  rw [val2] at hlt
  have hT := word16 c ha e' hlt hlt'
  unfold addEq16BE beUint16
  rw [get_lt (by omega), get_lt (by omega)]
  simp only [Res.ok_bind, Res.pure_eq, hmin, hy]
  generalize hX : (_ + y + _ : U32) = X at hT
  unfold bePutUint16
  rw [get_lt (by omega)]
  simp only [set_lt (show 0 < sum.len by omega), set_lt (show 1 < sum.len by omega), Res.ok_bind]
  refine ⟨_, _, rfl, _, rfl, ⟨?_, ?_⟩, ?_⟩
  · rw [val2, ← hT]
    have hX' : ((X.setWidth 16 : U16)).toNat = X.toNat % 2 ^ 16 := BitVec.toNat_setWidth ..
    intro i hi
    have hd := byte_digit (i := i) hX' (by omega)
    rw [← hd]
    rcases i with _ | _ | i
    · simp
    · simp
    · omega
  · intro x hx
    have h0 := hx 0 (by omega)
    have h1 := hx 1 (by omega)
    simp only [Nat.reduceSub, Nat.sub_zero] at h0 h1
    simp only [h0, h1, if_false]
  · rw [val2, ← hT, BitVec.toNat_setWidth, BitVec.toNat_ushiftRight, Nat.shiftRight_eq_div_pow]
    rw [Nat.mod_eq_of_lt (by omega)]; rfl

/-- The last digit (addEq8). -/
theorem addEq8_eq (m : Mem) (sum b : Slice) (c : U8) (h : 1 ≤ sum.len) : ∃ m' c', addEq8 m sum b c = .ok (m', c') ∧
    Word m m' (fun i => sum.base + i) 1 (digLE m b) c c' := by
  have hb : ∃ y : U16, head16 m b = .ok y ∧ y.toNat = (digLE m b 0).toNat := by
    unfold head16
    by_cases h0 : b.len > 0
    · rw [if_pos h0, get_lt h0]
      refine ⟨_, rfl, ?_⟩
      rw [digLE, if_pos h0, BitVec.toNat_setWidth, Nat.add_zero, Nat.mod_eq_of_lt]
      have := (m b.base).isLt; omega
    · rw [if_neg h0]; exact ⟨_, rfl, by rw [digLE, if_neg h0]; rfl⟩
  obtain ⟨y, hy, e⟩ := hb
  unfold addEq8
  rw [get_lt (by omega), hy]
  simp only [Res.ok_bind, Res.pure_eq, set_lt (show 0 < sum.len by omega)]
  have hT : ((m (sum.base + 0)).setWidth 16 + y + (c &&& 1#8).setWidth 16 : U16).toNat =
      (m (sum.base + 0)).toNat + (digLE m b 0).toNat + c.toNat % 2 := by
    have h1 := (m (sum.base + 0)).isLt
    have h2 := (digLE m b 0).isLt
    rw [sum3 (A := (m (sum.base + 0)).toNat) (B := (digLE m b 0).toNat) (C := c.toNat % 2) _ e (carry_nat c 16 (by omega)) (by omega)]
    rw [BitVec.toNat_setWidth, Nat.mod_eq_of_lt (by omega)]
  generalize hX : (_ + y + _ : U16) = X at hT
  have h1 := (m (sum.base + 0)).isLt
  have h2 := (digLE m b 0).isLt
  have e1 : val (fun i => m (sum.base + i)) 1 + val (digLE m b) 1 + c.toNat % 2 = X.toNat := by
    rw [hT]; simp [val]
  refine ⟨_, _, rfl, _, rfl, ⟨?_, ?_⟩, ?_⟩
  · rw [e1]
    intro i hi
    obtain rfl : i = 0 := by omega
    simp only [if_true]
    apply BitVec.eq_of_toNat_eq
    rw [BitVec.toNat_setWidth, digit, BitVec.toNat_ofNat]; simp
  · intro x hx
    have h0 := hx 0 (by omega)
    simp only [h0, if_false]
  · rw [e1, BitVec.toNat_setWidth, BitVec.toNat_ushiftRight, Nat.shiftRight_eq_div_pow]
    rw [Nat.mod_eq_of_lt (by omega)]; rfl

/-! ## Ripple -/

/-- After adding the low `p` digits. -/
def Inv (m : Mem) (addr : Nat → Nat) (g : Nat → U8) (p : Nat) (m' : Mem) (c : U8) : Prop :=
  Wrote m m' addr p (val (fun i => m (addr i)) p + val g p) ∧
    c.toNat = (val (fun i => m (addr i)) p + val g p) / 256 ^ p

theorem Inv_zero (m : Mem) (addr : Nat → Nat) (g : Nat → U8) : Inv m addr g 0 m 0#8 :=
  ⟨⟨fun i hi => by omega, fun x _ => rfl⟩, by simp [val]⟩

theorem Inv_step {m m1 m2 : Mem} {addr addr' : Nat → Nat} {g g' : Nat → U8} {p j : Nat} {c1 c2 : U8}
    (h : Inv m addr g p m1 c1) (hw : Word m1 m2 addr' j g' c1 c2) (ha : ∀ i, i < j → addr' i = addr (p + i))
    (hg : ∀ i, i < j → g' i = g (p + i)) (hinj : ∀ i k, i < p → p ≤ k → k < p + j → addr k ≠ addr i) :
    Inv m addr g (p + j) m2 c2 := by
  obtain ⟨⟨w1, w2⟩, hc⟩ := h
  obtain ⟨T, hT, ⟨u1, u2⟩, hc2⟩ := hw
  have hf : ∀ i, i < j → m1 (addr' i) = m (addr (p + i)) := by
    intro i hi
    rw [ha i hi]
    exact w2 _ (fun k hk => hinj k (p + i) hk (by omega) (by omega))
  rw [val_congr (f := fun i => m1 (addr' i)) (g := fun i => m (addr (p + i))) hf, val_congr hg] at hT
  generalize hV : val (fun i => m (addr i)) p + val g p = V at *
  have hVlt : V < 2 * 256 ^ p := by
    have := val_lt (fun i => m (addr i)) p
    have := val_lt g p
    omega
  have hpp : 0 < 256 ^ p := Nat.pow_pos (by omega)
  have hc1 : c1.toNat < 2 := by rw [hc, Nat.div_lt_iff_lt_mul hpp]; omega
  rw [Nat.mod_eq_of_lt hc1, hc] at hT
  have hV2 : val (fun i => m (addr i)) (p + j) + val g (p + j) =
      V + 256 ^ p * (val (fun i => m (addr (p + i))) j + val (fun i => g (p + i)) j) := by
    rw [val_add, val_add, ← hV]; ring
  have hTV : T = (val (fun i => m (addr i)) (p + j) + val g (p + j)) / 256 ^ p := by
    rw [hV2, Nat.add_mul_div_left _ _ hpp, hT]; omega
  refine ⟨⟨?_, ?_⟩, ?_⟩
  · intro i hi
    rcases Nat.lt_or_ge i p with hip | hip
    · rw [u2 _ (fun k hk => by rw [ha k hk]; exact (hinj i (p + k) hip (by omega) (by omega)).symm), w1 i hip]
      apply digit_congr (k := p) _ hip
      rw [hV2, Nat.add_mul_mod_self_left]
    · obtain ⟨k, rfl⟩ := Nat.exists_eq_add_of_le hip
      have := u1 k (by omega)
      rw [ha k (by omega)] at this
      rw [this, hTV, digit_add]
  · intro x hx
    rw [u2 x (fun k hk => by rw [ha k hk]; exact hx _ (by omega)), w2 x (fun k hk => hx k (by omega))]
  · rw [hc2, hTV, Nat.div_div_eq_div_mul, Nat.pow_add]

/-! ## addAnyLE -/

/-- Reading `b` upwards is not disturbed by writing `sum` upwards. -/
def SafeLE (sum b : Slice) (n : Nat) : Prop := ∀ i j, i < j → j < n → j < b.len → b.base + j ≠ sum.base + i

theorem Inv_digLE {m m1 : Mem} {sum b : Slice} {g : Nat → U8} {p j n : Nat} {c : U8} (hs : SafeLE sum b n)
    (h : Inv m (fun i => sum.base + i) g p m1 c) (hn : p + j ≤ n) :
    ∀ i, i < j → digLE m1 ⟨b.base + p, b.len - p⟩ i = digLE m b (p + i) := by
  intro i hi
  simp only [digLE]
  by_cases hl : p + i < b.len
  · rw [if_pos (by omega), if_pos hl, Nat.add_assoc]
    apply h.1.2
    intro k hk
    exact hs k (p + i) (by omega) (by omega) hl
  · rw [if_neg (by omega), if_neg hl]

theorem stepLE32 {m m1 : Mem} {sum b : Slice} {k n : Nat} {c : U8} (hs : SafeLE sum b n)
    (h : Inv m (fun i => sum.base + i) (digLE m b) (4 * k) m1 c) (hn : 4 * k + 4 ≤ n) (hl : n ≤ sum.len) (b' : Slice)
    (hb : b' = ⟨b.base + 4 * k, b.len - 4 * k⟩ ∨ (b'.len = 0 ∧ b.len ≤ 4 * k)) :
    ∃ m2 c2, addEq32LE m1 ⟨sum.base + k * 4, sum.len - k * 4⟩ b' c = .ok (m2, c2) ∧
      Inv m (fun i => sum.base + i) (digLE m b) (4 * (k + 1)) m2 c2 := by
  obtain ⟨m2, c2, e, hw⟩ := addEq32LE_eq m1 ⟨sum.base + k * 4, sum.len - k * 4⟩ b' c (by show 4 ≤ sum.len - k * 4; omega)
  refine ⟨m2, c2, e, ?_⟩
  refine Inv_step (p := 4 * k) (j := 4) h hw (fun i _ => by show sum.base + k * 4 + i = _; omega) ?_ (fun i k _ _ _ => by show _ ≠ _; omega)
  rcases hb with rfl | ⟨h1, h2⟩
  · exact Inv_digLE hs h hn
  · intro i hi
    rw [digLE, if_neg (by omega), digLE, if_neg (by omega)]

theorem loopLE1_eq {m : Mem} {sum b : Slice} {n N : Nat} (hs : SafeLE sum b n) (hN : 4 * N ≤ n) (hl : n ≤ sum.len) (k : Nat) :
    ∀ (num : Nat) (m1 : Mem) (c : U8), num + k = N → 4 * num ≤ b.len → Inv m (fun i => sum.base + i) (digLE m b) (4 * num) m1 c →
    ∃ m2 num2 c2, loopLE1 sum k num m1 ⟨b.base + 4 * num, b.len - 4 * num⟩ c =
        .ok (m2, num2, ⟨b.base + 4 * num2, b.len - 4 * num2⟩, c2) ∧
      Inv m (fun i => sum.base + i) (digLE m b) (4 * num2) m2 c2 ∧ num2 ≤ N ∧ 4 * num2 ≤ b.len ∧
      (num2 = N ∨ b.len ≤ 4 * num2 + 4) := by
  induction k with
  | zero => intro num m1 c hk hb h; exact ⟨m1, num, c, rfl, h, by omega, hb, .inl (by omega)⟩
  | succ k ih =>
    intro num m1 c hk hb h
    rw [loopLE1]
    split
    · rename_i hlen
      have hlen : b.len - 4 * num > 4 := hlen
      rw [drop_le (by omega)]
      obtain ⟨m2, c2, e, h2⟩ := stepLE32 hs h (by omega) hl _ (.inl rfl)
      simp only [Res.ok_bind, e]
      rw [drop_le (by show 4 ≤ b.len - 4 * num; omega)]
      simp only [Res.ok_bind]
      have hbs : (⟨b.base + 4 * num + 4, b.len - 4 * num - 4⟩ : Slice) = ⟨b.base + 4 * (num + 1), b.len - 4 * (num + 1)⟩ := by
        congr 1 <;> omega
      rw [hbs]
      exact ih (num + 1) m2 c2 (by omega) (by omega) h2
    · rename_i hlen
      have hlen : ¬ b.len - 4 * num > 4 := hlen
      exact ⟨m1, num, c, rfl, h, by omega, hb, .inr (by omega)⟩

theorem loopLE2_eq {m : Mem} {sum b : Slice} {n N : Nat} (hs : SafeLE sum b n) (hN : 4 * N ≤ n) (hl : n ≤ sum.len) (k : Nat) :
    ∀ (num : Nat) (m1 : Mem) (c : U8), num + k = N → b.len ≤ 4 * num → Inv m (fun i => sum.base + i) (digLE m b) (4 * num) m1 c →
    ∃ m2 c2, loopLE2 sum k num m1 c = .ok (m2, c2) ∧ Inv m (fun i => sum.base + i) (digLE m b) (4 * N) m2 c2 := by
  induction k with
  | zero => intro num m1 c hk hb h; obtain rfl : num = N := by omega
            exact ⟨m1, c, rfl, h⟩
  | succ k ih =>
    intro num m1 c hk hb h
    rw [loopLE2, drop_le (by omega)]
    obtain ⟨m2, c2, e, h2⟩ := stepLE32 hs h (by omega) hl ⟨0, 0⟩ (.inr ⟨rfl, hb⟩)
    simp only [Res.ok_bind, e]
    exact ih (num + 1) m2 c2 (by omega) (by omega) h2

/-- All of `addAnyLE` after padding. -/
theorem addAnyLE_body {m : Mem} {sum b : Slice} {n : Nat} (hs : SafeLE sum b n) (hl : n ≤ sum.len) :
    ∃ m' c', (do
      let (m, numU32, b, carry) ← loopLE1 sum (n / 4) 0 m b 0#8
      let (m, numU32, b, carry) ← partLE sum (n / 4) numU32 m b carry
      let (m, carry) ← loopLE2 sum (n / 4 - numU32) numU32 m carry
      tailLE sum (n / 4) (n % 4) m b carry) = .ok (m', c', false) ∧
      Inv m (fun i => sum.base + i) (digLE m b) n m' c' := by
  obtain ⟨m1, num1, c1, e1, i1, hle1, hb1, hor⟩ := loopLE1_eq (N := n / 4) hs (by omega) hl (n / 4) 0 m 0#8 (by omega) (by omega)
    (by simpa using Inv_zero m (fun i => sum.base + i) (digLE m b))
  simp only [Nat.mul_zero, Nat.add_zero, Nat.sub_zero] at e1
  rw [e1]
  simp only [Res.ok_bind]
  -- the partial step
  have hpart : ∃ m2 num2 b2 c2, partLE sum (n / 4) num1 m1 ⟨b.base + 4 * num1, b.len - 4 * num1⟩ c1 = .ok (m2, num2, b2, c2) ∧
      Inv m (fun i => sum.base + i) (digLE m b) (4 * num2) m2 c2 ∧ num2 ≤ n / 4 ∧ (num2 = n / 4 ∨ b.len ≤ 4 * num2) ∧
      (b2 = ⟨b.base + 4 * (n / 4), b.len - 4 * (n / 4)⟩ ∨ (b2.len = 0 ∧ b.len ≤ 4 * (n / 4))) := by
    rw [partLE]
    split
    · rename_i hc
      have hc : b.len - 4 * num1 > 0 ∧ num1 < n / 4 := hc
      rw [drop_le (by omega)]
      obtain ⟨m2, c2, e, h2⟩ := stepLE32 hs i1 (by omega) hl _ (.inl rfl)
      simp only [Res.ok_bind, e]
      rw [drop_le (le_refl _)]
      refine ⟨m2, num1 + 1, _, c2, rfl, h2, by omega, .inr (by omega), .inr ⟨?_, by omega⟩⟩
      show b.len - 4 * num1 - (b.len - 4 * num1) = 0
      omega
    · rename_i hc
      have hc : ¬ (b.len - 4 * num1 > 0 ∧ num1 < n / 4) := hc
      refine ⟨m1, num1, _, c1, rfl, i1, hle1, by omega, ?_⟩
      rcases Nat.lt_or_ge num1 (n / 4) with h | h
      · right; exact ⟨by show b.len - 4 * num1 = 0; omega, by omega⟩
      · left; rw [show num1 = n / 4 by omega]
  obtain ⟨m2, num2, b2, c2, e2, i2, hle2, hor2, hb2⟩ := hpart
  rw [e2]
  simp only [Res.ok_bind]
  have h3 : ∃ m3 c3, loopLE2 sum (n / 4 - num2) num2 m2 c2 = .ok (m3, c3) ∧
      Inv m (fun i => sum.base + i) (digLE m b) (4 * (n / 4)) m3 c3 := by
    rcases hor2 with h | h
    · rw [h] at i2 ⊢
      rw [Nat.sub_self]
      exact ⟨m2, c2, rfl, i2⟩
    · exact loopLE2_eq hs (by omega) hl (n / 4 - num2) num2 m2 c2 (by omega) h i2
  obtain ⟨m3, c3, e3, i3⟩ := h3
  rw [e3]
  simp only [Res.ok_bind]
  have hg : ∀ j, 4 * (n / 4) + j ≤ n → ∀ i, i < j → digLE m3 b2 i = digLE m b (4 * (n / 4) + i) := by
    intro j hj i hi
    rcases hb2 with rfl | ⟨h1, h2⟩
    · exact Inv_digLE hs i3 hj i hi
    · rw [digLE, if_neg (by omega), digLE, if_neg (by omega)]
  rw [tailLE]
  split
  · rename_i h8
    rw [drop_le (by omega)]
    obtain ⟨m4, c4, e4, w4⟩ := addEq16LE_eq m3 ⟨sum.base + n / 4 * 4, sum.len - n / 4 * 4⟩ b2 c3
      (by show 2 ≤ sum.len - n / 4 * 4; omega)
    have i4 := Inv_step (p := 4 * (n / 4)) (j := 2) i3 w4 (fun i _ => by show sum.base + n / 4 * 4 + i = _; omega) (hg 2 (by omega))
      (fun i k _ _ _ => by show _ ≠ _; omega)
    simp only [Res.ok_bind, e4]
    have hb3 : ∃ b3 : Slice, dropTwoLE b2 = .ok b3 ∧
        (b3 = ⟨b.base + (4 * (n / 4) + 2), b.len - (4 * (n / 4) + 2)⟩ ∨ (b3.len = 0 ∧ b.len ≤ 4 * (n / 4) + 2)) := by
      unfold dropTwoLE
      rcases hb2 with rfl | ⟨h1, h2⟩
      · simp only
        split
        · rename_i h; rw [drop_le (by show 1 ≤ b.len - _; omega)]
          exact ⟨_, rfl, .inr ⟨by show b.len - _ - 1 = 0; omega, by omega⟩⟩
        · split
          · rename_i h; rw [drop_le (by show 2 ≤ b.len - _; omega)]
            exact ⟨_, rfl, .inl rfl⟩
          · exact ⟨_, rfl, .inr ⟨by show b.len - _ = 0; omega, by omega⟩⟩
      · rw [if_neg (by omega), if_neg (by omega)]
        exact ⟨b2, rfl, .inr ⟨h1, by omega⟩⟩
    obtain ⟨b3, eb3, hb3⟩ := hb3
    rw [eb3]
    simp only [Res.ok_bind]
    split
    · rename_i h1
      rw [drop_le (by omega)]
      obtain ⟨m5, c5, e5, w5⟩ := addEq8_eq m4 ⟨sum.base + (n / 4 * 4 + 1 * 2), sum.len - (n / 4 * 4 + 1 * 2)⟩ b3 c4
        (by show 1 ≤ sum.len - (n / 4 * 4 + 1 * 2); omega)
      have i5 := Inv_step (p := 4 * (n / 4) + 2) (j := 1) i4 w5 (fun i _ => by show sum.base + (n / 4 * 4 + 1 * 2) + i = _; omega) (by
          intro i hi
          rcases hb3 with rfl | ⟨h1, h2⟩
          · exact Inv_digLE (j := 1) hs i4 (by omega) i hi
          · rw [digLE, if_neg (by omega), digLE, if_neg (by omega)])
        (fun i k _ _ _ => by show _ ≠ _; omega)
      simp only [Res.ok_bind, e5]
      exact ⟨m5, c5, rfl, by rwa [show 4 * (n / 4) + 2 + 1 = n by omega] at i5⟩
    · exact ⟨m4, c4, rfl, by rwa [show 4 * (n / 4) + 2 = n by omega] at i4⟩
  · split
    · rw [drop_le (by omega)]
      obtain ⟨m5, c5, e5, w5⟩ := addEq8_eq m3 ⟨sum.base + (n / 4 * 4 + 0 * 2), sum.len - (n / 4 * 4 + 0 * 2)⟩ b2 c3
        (by show 1 ≤ sum.len - (n / 4 * 4 + 0 * 2); omega)
      have i5 := Inv_step (p := 4 * (n / 4)) (j := 1) i3 w5 (fun i _ => by show sum.base + (n / 4 * 4 + 0 * 2) + i = _; omega) (hg 1 (by omega))
        (fun i k _ _ _ => by show _ ≠ _; omega)
      simp only [Res.ok_bind, e5]
      exact ⟨m5, c5, rfl, by rwa [show 4 * (n / 4) + 1 = n by omega] at i5⟩
    · exact ⟨m3, c3, rfl, by rwa [show 4 * (n / 4) = n by omega] at i3⟩

/-! ## addAnyBE, for sizes that are multiples of 4 -/

/-- Reading the last bytes of `b` downwards is not disturbed by writing `sum[0:n]` downwards. -/
def SafeBE (sum b : Slice) (n : Nat) : Prop :=
  ∀ i j, i < j → j < n → j < b.len → b.base + (b.len - 1 - j) ≠ sum.base + (n - 1 - i)

theorem Inv_digBE {m m1 : Mem} {sum b : Slice} {g : Nat → U8} {p j n : Nat} {c : U8} (hs : SafeBE sum b n)
    (h : Inv m (fun i => sum.base + (n - 1 - i)) g p m1 c) (hn : p + j ≤ n) (t : Slice)
    (ht : t = ⟨b.base, b.len - p⟩ ∨ (j ≤ b.len - p ∧ t = ⟨b.base + (b.len - p - j), j⟩)) :
    ∀ i, i < j → digBE m1 t i = digBE m b (p + i) := by
  intro i hi
  simp only [digBE]
  have hrd : p + i < b.len → m1 (b.base + (b.len - 1 - (p + i))) = m (b.base + (b.len - 1 - (p + i))) := by
    intro hl
    apply h.1.2
    intro k hk
    exact hs k (p + i) (by omega) (by omega) hl
  rcases ht with rfl | ⟨hj, rfl⟩
  · simp only
    by_cases hl : p + i < b.len
    · rw [if_pos (by omega), if_pos hl, ← hrd hl]
      congr 2; omega
    · rw [if_neg (by omega), if_neg hl]
  · simp only
    rw [if_pos hi, if_pos (by omega), ← hrd (by omega)]
    congr 1; omega

theorem stepBE32 {m m1 : Mem} {sum b : Slice} {k q n : Nat} {c : U8} (hs : SafeBE sum b n)
    (h : Inv m (fun i => sum.base + (n - 1 - i)) (digBE m b) (4 * q) m1 c) (hn : 4 * (q + k + 1) = n) (hl : n ≤ sum.len) (t : Slice)
    (ht : (4 ≤ b.len - 4 * q ∧ t = ⟨b.base + (b.len - 4 * q - 4), 4⟩) ∨ (b.len - 4 * q ≤ 4 ∧ t = ⟨b.base, b.len - 4 * q⟩) ∨
      (t.len = 0 ∧ b.len ≤ 4 * q)) :
    ∃ m2 c2, addEq32BE m1 ⟨sum.base + k * 4, sum.len - k * 4⟩ t c = .ok (m2, c2) ∧
      Inv m (fun i => sum.base + (n - 1 - i)) (digBE m b) (4 * (q + 1)) m2 c2 := by
  obtain ⟨m2, c2, e, hw⟩ := addEq32BE_eq m1 ⟨sum.base + k * 4, sum.len - k * 4⟩ t c (by show 4 ≤ sum.len - k * 4; omega)
  refine ⟨m2, c2, e, ?_⟩
  refine Inv_step (p := 4 * q) (j := 4) h hw (fun i _ => by show sum.base + k * 4 + _ = _; omega) ?_
    (fun i k _ _ _ => by show sum.base + _ ≠ _; omega)
  rcases ht with ⟨h1, rfl⟩ | ⟨h1, rfl⟩ | ⟨h1, h2⟩
  · exact Inv_digBE hs h (by omega) _ (.inr ⟨h1, rfl⟩)
  · rw [show min 4 (b.len - 4 * q) = b.len - 4 * q by omega]
    exact Inv_digBE hs h (by omega) _ (.inl rfl)
  · intro i hi
    simp only [digBE]
    rw [if_neg (by omega), if_neg (by omega)]

theorem loopBE1_eq {m : Mem} {sum b : Slice} {n : Nat} (hs : SafeBE sum b n) (hl : n ≤ sum.len) (k : Nat) :
    ∀ (q : Nat) (m1 : Mem) (c : U8), 4 * (q + k) = n → 4 * q ≤ b.len →
    Inv m (fun i => sum.base + (n - 1 - i)) (digBE m b) (4 * q) m1 c →
    ∃ m2 k2 q2 c2, loopBE1 sum k m1 ⟨b.base, b.len - 4 * q⟩ c = .ok (m2, k2, ⟨b.base, b.len - 4 * q2⟩, c2) ∧
      Inv m (fun i => sum.base + (n - 1 - i)) (digBE m b) (4 * q2) m2 c2 ∧ 4 * (q2 + k2) = n ∧ 4 * q2 ≤ b.len ∧
      (k2 = 0 ∨ b.len ≤ 4 * q2 + 4) := by
  induction k with
  | zero => intro q m1 c hk hb h; exact ⟨m1, 0, q, c, rfl, h, by omega, hb, .inl rfl⟩
  | succ k ih =>
    intro q m1 c hk hb h
    rw [loopBE1]
    split
    · rename_i hlen
      have hlen : b.len - 4 * q > 4 := hlen
      rw [drop_le (by omega), drop_le (by show b.len - 4 * q - 4 ≤ b.len - 4 * q; omega)]
      obtain ⟨m2, c2, e, h2⟩ := stepBE32 hs h (show 4 * (q + k + 1) = n by omega) hl
        ⟨b.base + (b.len - 4 * q - 4), 4⟩ (.inl ⟨by omega, rfl⟩)
      have h44 : b.len - 4 * q - (b.len - 4 * q - 4) = 4 := by omega
      simp only [Res.ok_bind, h44, e]
      rw [sub_le (by omega) (by show b.len - 4 * q - 4 ≤ b.len - 4 * q; omega)]
      simp only [Res.ok_bind, Nat.add_zero, Nat.sub_zero]
      rw [show b.len - 4 * q - 4 = b.len - 4 * (q + 1) by omega]
      exact ih (q + 1) m2 c2 (by omega) (by omega) h2
    · rename_i hlen
      have hlen : ¬ b.len - 4 * q > 4 := hlen
      exact ⟨m1, k + 1, q, c, rfl, h, by omega, hb, .inr (by omega)⟩

theorem loopBE2_eq {m : Mem} {sum b : Slice} {n : Nat} (hs : SafeBE sum b n) (hl : n ≤ sum.len) (k : Nat) :
    ∀ (q : Nat) (m1 : Mem) (c : U8), 4 * (q + k) = n → b.len ≤ 4 * q →
    Inv m (fun i => sum.base + (n - 1 - i)) (digBE m b) (4 * q) m1 c →
    ∃ m2 c2, loopBE2 sum k m1 c = .ok (m2, c2) ∧ Inv m (fun i => sum.base + (n - 1 - i)) (digBE m b) n m2 c2 := by
  induction k with
  | zero => intro q m1 c hk hb h
            exact ⟨m1, c, rfl, by rwa [show 4 * q = n by omega] at h⟩
  | succ k ih =>
    intro q m1 c hk hb h
    rw [loopBE2, drop_le (by omega)]
    obtain ⟨m2, c2, e, h2⟩ := stepBE32 hs h (show 4 * (q + k + 1) = n by omega) hl ⟨0, 0⟩ (.inr (.inr ⟨rfl, hb⟩))
    simp only [Res.ok_bind, e]
    exact ih (q + 1) m2 c2 (by omega) (by omega) h2

/-- All of `addAnyBE` after padding: adds the last `n` bytes of `b`. -/
theorem addAnyBE_body {m : Mem} {sum b : Slice} {n : Nat} (hs : SafeBE sum b n) (hl : n ≤ sum.len) (h4 : n % 4 = 0) :
    ∃ m' c', (do
      let (m, k, b, carry) ← loopBE1 sum (n / 4) m b 0#8
      let (m, k, b, carry) ← partBE sum k m b carry
      let (m, carry) ← loopBE2 sum k m carry
      tailBE sum (n % 4) m b carry) = .ok (m', c', false) ∧
      Inv m (fun i => sum.base + (n - 1 - i)) (digBE m b) n m' c' := by
  obtain ⟨m1, k1, q1, c1, e1, i1, hq1, hb1, hor⟩ := loopBE1_eq hs hl (n / 4) 0 m 0#8 (by omega) (by omega)
    (by simpa using Inv_zero m (fun i => sum.base + (n - 1 - i)) (digBE m b))
  simp only [Nat.mul_zero, Nat.sub_zero] at e1
  rw [e1]
  simp only [Res.ok_bind]
  have hpart : ∃ m2 k2 q2 b2 c2, partBE sum k1 m1 ⟨b.base, b.len - 4 * q1⟩ c1 = .ok (m2, k2, b2, c2) ∧
      Inv m (fun i => sum.base + (n - 1 - i)) (digBE m b) (4 * q2) m2 c2 ∧ 4 * (q2 + k2) = n ∧ (k2 = 0 ∨ b.len ≤ 4 * q2) := by
    rw [partBE]
    split
    · rename_i hc
      have hc : b.len - 4 * q1 > 0 ∧ k1 > 0 := hc
      rw [drop_le (by omega)]
      obtain ⟨m2, c2, e, h2⟩ := stepBE32 hs i1 (show 4 * (q1 + (k1 - 1) + 1) = n by omega) hl ⟨b.base, b.len - 4 * q1⟩
        (.inr (.inl ⟨by omega, rfl⟩))
      simp only [Res.ok_bind, e]
      rw [sub_le (le_refl _) (by omega)]
      exact ⟨m2, k1 - 1, q1 + 1, _, c2, rfl, h2, by omega, .inr (by omega)⟩
    · rename_i hc
      have hc : ¬ (b.len - 4 * q1 > 0 ∧ k1 > 0) := hc
      exact ⟨m1, k1, q1, _, c1, rfl, i1, hq1, by omega⟩
  obtain ⟨m2, k2, q2, b2, c2, e2, i2, hq2, hor2⟩ := hpart
  rw [e2]
  simp only [Res.ok_bind]
  have h3 : ∃ m3 c3, loopBE2 sum k2 m2 c2 = .ok (m3, c3) ∧ Inv m (fun i => sum.base + (n - 1 - i)) (digBE m b) n m3 c3 := by
    rcases hor2 with h | h
    · subst h
      exact ⟨m2, c2, rfl, by rwa [show 4 * q2 = n by omega] at i2⟩
    · exact loopBE2_eq hs hl k2 q2 m2 c2 hq2 h i2
  obtain ⟨m3, c3, e3, i3⟩ := h3
  rw [e3]
  simp only [Res.ok_bind]
  rw [tailBE, if_neg (by omega), if_neg (by omega)]
  exact ⟨m3, c3, rfl, i3⟩

/-! ## Padding -/

theorem padLE_short (m : Mem) (dst src : Slice) (n : Nat) (h : dst.len < n) : padLE m dst src n = .ok (m, true) := by
  rw [padLE, if_pos h]

theorem padBE_short (m : Mem) (dst src : Slice) (n : Nat) (h : dst.len < n) : padBE m dst src n = .ok (m, true) := by
  rw [padBE, if_pos h]

/-- `padLE` when `src` does not start where `dst` does (or is empty). -/
theorem padLE_ne (m : Mem) (dst src : Slice) (n : Nat) (h : n ≤ dst.len) (hne : src.len = 0 ∨ n = 0 ∨ dst.base ≠ src.base) :
    padLE m dst src n = .ok ((fun x => if dst.base ≤ x ∧ x < dst.base + n then
      (if x - dst.base < src.len then m (src.base + (x - dst.base)) else 0#8) else m x), false) := by
  have hsn : (if src.len < n then src.len else n) = min n src.len := by split <;> omega
  rw [padLE, if_neg (by omega)]
  simp only [hsn]
  rw [if_neg (by omega), if_neg (by omega), sub_le (by omega) (by omega)]
  simp only [Res.ok_bind, Nat.add_zero, Nat.sub_zero]
  split
  · rename_i hlt
    rw [sub_le (by omega) h]
    simp only [Res.ok_bind, Res.pure_eq, Zero_eq]
    congr 2
    funext x
    simp only [Slice.copy]
    rw [show min dst.len (min n src.len) = src.len by omega, show min n src.len = src.len by omega]
    by_cases h1 : dst.base ≤ x ∧ x < dst.base + n
    · rw [if_pos h1]
      by_cases h2 : x - dst.base < src.len
      · rw [if_neg (by omega), if_pos (by omega), if_pos h2]
      · rw [if_pos (by omega), if_neg h2]
    · rw [if_neg h1, if_neg (by omega), if_neg (by omega)]
  · rename_i hlt
    simp only [Res.pure_eq]
    congr 2
    funext x
    simp only [Slice.copy]
    rw [show min dst.len (min n src.len) = n by omega]
    by_cases h1 : dst.base ≤ x ∧ x < dst.base + n
    · rw [if_pos h1, if_pos h1, if_pos (by omega)]
    · rw [if_neg h1, if_neg h1]

/-- `padLE` when `src` starts where `dst` does: nothing. -/
theorem padLE_same (m : Mem) (dst src : Slice) (n : Nat) (h : n ≤ dst.len) (h0 : 0 < src.len) (hn : 0 < n)
    (he : dst.base = src.base) : padLE m dst src n = .ok (m, false) := by
  have hsn : (if src.len < n then src.len else n) = min n src.len := by split <;> omega
  rw [padLE, if_neg (by omega)]
  simp only [hsn]
  rw [if_neg (by omega), if_pos (by omega)]; rfl

/-- `padBE`: zeros in front, then as much of `src` as fits in all of `dst`. -/
theorem padBE_eq (m : Mem) (dst src : Slice) (n : Nat) (h : n ≤ dst.len) :
    padBE m dst src n = .ok (Slice.copy (fun x => if dst.base ≤ x ∧ x < dst.base + (n - min n src.len) then 0#8 else m x)
      ⟨dst.base + (n - min n src.len), dst.len - (n - min n src.len)⟩ src, false) := by
  have hsn : (if src.len < n then src.len else n) = min n src.len := by split <;> omega
  rw [padBE, if_neg (by omega)]
  simp only [hsn]
  rw [sub_le (by omega) (by omega), drop_le (by omega)]
  simp only [Res.ok_bind, Res.pure_eq]
  congr 2
  split
  · rw [Zero_eq]; simp
  · rename_i hlt
    rw [show n - min n src.len = 0 by omega]
    congr 1
    funext x
    rw [if_neg (by omega)]

/-! ## XorEq -/

theorem xorLoop_eq (dst other : Slice) (k : Nat) : ∀ (i : Nat) (m : Mem), i + k ≤ dst.len → i + k ≤ other.len →
    (∀ j l, i ≤ j → j < l → l < i + k → dst.base + j ≠ other.base + l) →
    xorLoop dst other k i m = .ok (fun x => if dst.base + i ≤ x ∧ x < dst.base + i + k then
      m x ^^^ m (other.base + (x - dst.base)) else m x) := by
  induction k with
  | zero =>
    intro i m _ _ _
    rw [xorLoop]; congr 1; funext x; rw [if_neg (by omega)]
  | succ k ih =>
    intro i m h1 h2 hd
    rw [xorLoop, get_lt (by omega), get_lt (by omega)]
    simp only [Res.ok_bind]
    rw [set_lt (by omega)]
    simp only [Res.ok_bind]
    rw [ih (i + 1) _ (by omega) (by omega) (fun j l hj hl hl' => hd j l (by omega) hl (by omega))]
    congr 1
    funext x
    by_cases hx : x = dst.base + i
    · subst hx
      rw [if_neg (by omega), if_pos rfl, if_pos (by omega)]
      congr 2; omega
    · simp only [if_neg hx]
      by_cases hr : dst.base + (i + 1) ≤ x ∧ x < dst.base + (i + 1) + k
      · have := hd i (x - dst.base) (le_refl _) (by omega) (by omega)
        rw [if_pos hr, if_neg (Ne.symm this), if_pos (by omega)]
      · rw [if_neg hr, if_neg (by omega)]

end Bytes
