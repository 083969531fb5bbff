import Verif.Lemmas.BytesAdd

/-! # Addition when `b` overlaps `sum` in any way -/
namespace Bytes
open BytesSpec

/-- The digits `g` as they are read while the digits at `addr` are replaced, four at a time: digit `j` of `b`, at `baddr j`, is read
after the digits below `4 * (j / 4)` have been written. -/
def Reads (m m1 : Mem) (addr baddr : Nat → Nat) (len : Nat) (g : Nat → U8) (p : Nat) : Prop :=
  ∀ j, j < p → (len ≤ j → g j = 0#8) ∧ (j < len →
    ((∃ i, i < 4 * (j / 4) ∧ addr i = baddr j) → g j = m1 (baddr j)) ∧
    ((∀ i, i < 4 * (j / 4) → addr i ≠ baddr j) → g j = m (baddr j)))

/-- After adding the low `p` digits, whatever `b` is. -/
def InvA (m : Mem) (addr baddr : Nat → Nat) (len p : Nat) (m1 : Mem) (c : U8) : Prop :=
  ∃ g, Inv m addr g p m1 c ∧ Reads m m1 addr baddr len g p

theorem InvA_zero (m : Mem) (addr baddr : Nat → Nat) (len : Nat) : InvA m addr baddr len 0 m 0#8 :=
  ⟨fun _ => 0#8, Inv_zero _ _ _, fun j h => by omega⟩

theorem InvA_step {m m1 m2 : Mem} {addr addr' baddr : Nat → Nat} {len k d n : Nat} {g' : Nat → U8} {c1 c2 : U8} (hd : d ≤ 4)
    (hn : 4 * k + d ≤ n) (hinj : ∀ i j, i < n → j < n → addr i = addr j → i = j)
    (h : InvA m addr baddr len (4 * k) m1 c1) (hw : Word m1 m2 addr' d g' c1 c2)
    (ha : ∀ i, i < d → addr' i = addr (4 * k + i))
    (hg : ∀ i, i < d → g' i = if 4 * k + i < len then m1 (baddr (4 * k + i)) else 0#8) :
    InvA m addr baddr len (4 * k + d) m2 c2 := by
  obtain ⟨g, hi, hr⟩ := h
  let G : Nat → U8 := fun j => if j < 4 * k then g j else g' (j - 4 * k)
  have hG1 : ∀ j, j < 4 * k → G j = g j := fun j hj => if_pos hj
  have hG2 : ∀ i, i < d → g' i = G (4 * k + i) := by
    intro i _
    show g' i = if 4 * k + i < 4 * k then _ else g' (4 * k + i - 4 * k)
    rw [if_neg (by omega), Nat.add_sub_cancel_left]
  have hI : Inv m addr G (4 * k) m1 c1 := by
    have : val G (4 * k) = val g (4 * k) := val_congr hG1
    unfold Inv at hi ⊢
    rw [this]
    exact hi
  have hstep := Inv_step hI hw ha hG2 (fun i j h1 h2 h3 e => by have := hinj j i (by omega) (by omega) e; omega)
  have keep : ∀ i, i < 4 * k → m2 (addr i) = m1 (addr i) := by
    intro i hik
    obtain ⟨T, -, ⟨-, u2⟩, -⟩ := hw
    exact u2 _ fun j hj e => by
      rw [ha j hj] at e
      have := hinj i (4 * k + j) (by omega) (by omega) e
      omega
  refine ⟨G, hstep, fun j hj => ?_⟩
  rcases Nat.lt_or_ge j (4 * k) with hjk | hjk
  · obtain ⟨h1, h2⟩ := hr j hjk
    rw [hG1 j hjk]
    refine ⟨h1, fun hl => ⟨?_, (h2 hl).2⟩⟩
    rintro ⟨i, hi1, hi2⟩
    rw [(h2 hl).1 ⟨i, hi1, hi2⟩, ← hi2, keep i (by omega)]
  · have e4 : 4 * (j / 4) = 4 * k := by omega
    have hGj : G j = if j < len then m1 (baddr j) else 0#8 := by
      have := hG2 (j - 4 * k) (by omega)
      rw [show 4 * k + (j - 4 * k) = j by omega] at this
      rw [← this, hg _ (by omega), show 4 * k + (j - 4 * k) = j by omega]
    rw [hGj, e4]
    refine ⟨fun h => by rw [if_neg (by omega)], fun h => ?_⟩
    rw [if_pos h]
    constructor
    · rintro ⟨i, hi1, hi2⟩
      rw [← hi2, keep i hi1]
    · intro hne
      exact hi.1.2 _ fun i hi' e => hne i hi' e.symm

/-! ## addAnyLE -/

theorem alias_stepLE {m m1 : Mem} {sum b : Slice} {k n : Nat} {c : U8}
    (h : InvA m (fun i => sum.base + i) (fun j => b.base + j) b.len (4 * k) m1 c) (hn : 4 * k + 4 ≤ n) (hl : n ≤ sum.len) (b' : Slice)
    (hb : b' = ⟨b.base + 4 * k, b.len - 4 * k⟩ ∨ (b'.len = 0 ∧ b.len ≤ 4 * k)) :
    ∃ m2 c2, addEq32LE m1 ⟨sum.base + k * 4, sum.len - k * 4⟩ b' c = .ok (m2, c2) ∧
      InvA m (fun i => sum.base + i) (fun j => b.base + j) b.len (4 * (k + 1)) m2 c2 := by
  obtain ⟨m2, c2, e, hw⟩ := addEq32LE_eq m1 ⟨sum.base + k * 4, sum.len - k * 4⟩ b' c (by show 4 ≤ sum.len - k * 4; omega)
  refine ⟨m2, c2, e, ?_⟩
  refine InvA_step (d := 4) (n := n) (le_refl _) hn (fun i j _ _ e => by omega) h hw
    (fun i _ => by show sum.base + k * 4 + i = _; omega) fun i hi => ?_
  rcases hb with rfl | ⟨h1, h2⟩
  · simp only [digLE]
    by_cases hh : 4 * k + i < b.len
    · rw [if_pos (by omega), if_pos hh, Nat.add_assoc]
    · rw [if_neg (by omega), if_neg hh]
  · rw [digLE, if_neg (by omega), if_neg (by omega)]

theorem alias_loopLE1 {m : Mem} {sum b : Slice} {n N : Nat} (hN : 4 * N ≤ n) (hl : n ≤ sum.len) (k : Nat) :
    ∀ (num : Nat) (m1 : Mem) (c : U8), num + k = N → 4 * num ≤ b.len →
    InvA m (fun i => sum.base + i) (fun j => b.base + j) b.len (4 * num) m1 c →
    ∃ m2 num2 c2, loopLE1 sum k num m1 ⟨b.base + 4 * num, b.len - 4 * num⟩ c =
        .ok (m2, num2, ⟨b.base + 4 * num2, b.len - 4 * num2⟩, c2) ∧
      InvA m (fun i => sum.base + i) (fun j => b.base + j) b.len (4 * num2) m2 c2 ∧ num2 ≤ N ∧ 4 * num2 ≤ b.len ∧
      (num2 = N ∨ b.len ≤ 4 * num2 + 4) := by
  induction k with
  | zero => intro num m1 c hk hb h; exact ⟨m1, num, c, rfl, h, by omega, hb, .inl (by omega)⟩
  | succ k ih =>
    intro num m1 c hk hb h
    rw [loopLE1]
    split
    · rename_i hlen
      have hlen : b.len - 4 * num > 4 := hlen
      rw [drop_le (by omega)]
      obtain ⟨m2, c2, e, h2⟩ := alias_stepLE h (n := n) (by omega) hl _ (.inl rfl)
      simp only [Res.ok_bind, e]
      rw [drop_le (by show 4 ≤ b.len - 4 * num; omega)]
      simp only [Res.ok_bind]
      have hbs : (⟨b.base + 4 * num + 4, b.len - 4 * num - 4⟩ : Slice) = ⟨b.base + 4 * (num + 1), b.len - 4 * (num + 1)⟩ := by
        congr 1 <;> omega
      rw [hbs]
      exact ih (num + 1) m2 c2 (by omega) (by omega) h2
    · rename_i hlen
      have hlen : ¬ b.len - 4 * num > 4 := hlen
      exact ⟨m1, num, c, rfl, h, by omega, hb, .inr (by omega)⟩

theorem alias_loopLE2 {m : Mem} {sum b : Slice} {n N : Nat} (hN : 4 * N ≤ n) (hl : n ≤ sum.len) (k : Nat) :
    ∀ (num : Nat) (m1 : Mem) (c : U8), num + k = N → b.len ≤ 4 * num →
    InvA m (fun i => sum.base + i) (fun j => b.base + j) b.len (4 * num) m1 c →
    ∃ m2 c2, loopLE2 sum k num m1 c = .ok (m2, c2) ∧
      InvA m (fun i => sum.base + i) (fun j => b.base + j) b.len (4 * N) m2 c2 := by
  induction k with
  | zero => intro num m1 c hk hb h; obtain rfl : num = N := by omega
            exact ⟨m1, c, rfl, h⟩
  | succ k ih =>
    intro num m1 c hk hb h
    rw [loopLE2, drop_le (by omega)]
    obtain ⟨m2, c2, e, h2⟩ := alias_stepLE h (n := n) (by omega) hl ⟨0, 0⟩ (.inr ⟨rfl, hb⟩)
    simp only [Res.ok_bind, e]
    exact ih (num + 1) m2 c2 (by omega) (by omega) h2

theorem alias_addAnyLE {m mp : Mem} {sum a b : Slice} {n : Nat} (hp : padLE m sum a n = .ok (mp, false)) (hl : n ≤ sum.len)
    (h4 : n % 4 = 0) :
    ∃ m' c', addAnyLE m sum a b n = .ok (m', c', false) ∧
      InvA mp (fun i => sum.base + i) (fun j => b.base + j) b.len n m' c' := by
  obtain ⟨m1, num1, c1, e1, i1, hle1, hb1, hor⟩ := alias_loopLE1 (m := mp) (b := b) (n := n) (N := n / 4) (by omega) hl (n / 4) 0 mp 0#8
    (by omega) (by omega) (by simpa using InvA_zero mp (fun i => sum.base + i) _ _)
  simp only [Nat.mul_zero, Nat.add_zero, Nat.sub_zero] at e1
  rw [addAnyLE, hp]
  simp only [Res.ok_bind, Bool.false_eq_true, if_false, e1]
  have hpart : ∃ m2 num2 b2 c2, partLE sum (n / 4) num1 m1 ⟨b.base + 4 * num1, b.len - 4 * num1⟩ c1 = .ok (m2, num2, b2, c2) ∧
      InvA mp (fun i => sum.base + i) (fun j => b.base + j) b.len (4 * num2) m2 c2 ∧ num2 ≤ n / 4 ∧
      (num2 = n / 4 ∨ b.len ≤ 4 * num2) := by
    rw [partLE]
    split
    · rename_i hc
      have hc : b.len - 4 * num1 > 0 ∧ num1 < n / 4 := hc
      rw [drop_le (by omega)]
      obtain ⟨m2, c2, e, h2⟩ := alias_stepLE i1 (n := n) (by omega) hl _ (.inl rfl)
      simp only [Res.ok_bind, e]
      rw [drop_le (le_refl _)]
      exact ⟨m2, num1 + 1, _, c2, rfl, h2, by omega, .inr (by omega)⟩
    · rename_i hc
      have hc : ¬ (b.len - 4 * num1 > 0 ∧ num1 < n / 4) := hc
      exact ⟨m1, num1, _, c1, rfl, i1, hle1, by omega⟩
  obtain ⟨m2, num2, b2, c2, e2, i2, hle2, hor2⟩ := hpart
  rw [e2]
  simp only [Res.ok_bind]
  have h3 : ∃ m3 c3, loopLE2 sum (n / 4 - num2) num2 m2 c2 = .ok (m3, c3) ∧
      InvA mp (fun i => sum.base + i) (fun j => b.base + j) b.len (4 * (n / 4)) m3 c3 := by
    rcases hor2 with h | h
    · rw [h] at i2 ⊢
      rw [Nat.sub_self]
      exact ⟨m2, c2, rfl, i2⟩
    · exact alias_loopLE2 (n := n) (by omega) hl (n / 4 - num2) num2 m2 c2 (by omega) h i2
  obtain ⟨m3, c3, e3, i3⟩ := h3
  rw [e3]
  simp only [Res.ok_bind]
  rw [tailLE, if_neg (by omega), if_neg (by omega)]
  exact ⟨m3, c3, rfl, by rwa [show 4 * (n / 4) = n by omega] at i3⟩

theorem alias_AddLE {m mp : Mem} {sum a b : Slice} (w : Width) (hp : padLE m sum a w.bytes = .ok (mp, false))
    (hl : w.bytes ≤ sum.len) : ∃ m' c, AddLE w m sum a b = .ok (m', c, false) ∧
      InvA mp (fun i => sum.base + i) (fun j => b.base + j) b.len w.bytes m' c := by
  cases w
  · obtain ⟨m', c, e, hw⟩ := addEq16LE_eq mp sum b 0#8 hl
    refine ⟨m', c, ?_, ?_⟩
    · have hp : padLE m sum a 2 = .ok (mp, false) := hp
      simp only [AddLE, Add16LE, hp, Res.ok_bind, e, Res.pure_eq, Bool.false_eq_true, if_false]
    · exact InvA_step (k := 0) (d := 2) (n := 2) (by omega) (by omega) (fun i j _ _ e => by omega)
        (InvA_zero _ _ _ _) hw (fun i _ => by rw [Nat.mul_zero, Nat.zero_add])
        (fun i _ => by rw [Nat.mul_zero, Nat.zero_add]; rfl)
  · obtain ⟨m', c, e, hw⟩ := addEq32LE_eq mp sum b 0#8 hl
    refine ⟨m', c, ?_, ?_⟩
    · have hp : padLE m sum a 4 = .ok (mp, false) := hp
      simp only [AddLE, Add32LE, hp, Res.ok_bind, e, Res.pure_eq, Bool.false_eq_true, if_false]
    · exact InvA_step (k := 0) (d := 4) (n := 4) (by omega) (by omega) (fun i j _ _ e => by omega)
        (InvA_zero _ _ _ _) hw (fun i _ => by rw [Nat.mul_zero, Nat.zero_add])
        (fun i _ => by rw [Nat.mul_zero, Nat.zero_add]; rfl)
  all_goals exact alias_addAnyLE hp hl rfl

/-! ## addAnyBE -/

theorem alias_stepBE {m m1 : Mem} {sum b : Slice} {k q n : Nat} {c : U8}
    (h : InvA m (fun i => sum.base + (n - 1 - i)) (fun j => b.base + (b.len - 1 - j)) b.len (4 * q) m1 c) (hn : 4 * (q + k + 1) = n)
    (hl : n ≤ sum.len) (t : Slice)
    (ht : (4 ≤ b.len - 4 * q ∧ t = ⟨b.base + (b.len - 4 * q - 4), 4⟩) ∨ (b.len - 4 * q ≤ 4 ∧ t = ⟨b.base, b.len - 4 * q⟩) ∨
      (t.len = 0 ∧ b.len ≤ 4 * q)) :
    ∃ m2 c2, addEq32BE m1 ⟨sum.base + k * 4, sum.len - k * 4⟩ t c = .ok (m2, c2) ∧
      InvA m (fun i => sum.base + (n - 1 - i)) (fun j => b.base + (b.len - 1 - j)) b.len (4 * (q + 1)) m2 c2 := by
  obtain ⟨m2, c2, e, hw⟩ := addEq32BE_eq m1 ⟨sum.base + k * 4, sum.len - k * 4⟩ t c (by show 4 ≤ sum.len - k * 4; omega)
  refine ⟨m2, c2, e, ?_⟩
  refine InvA_step (d := 4) (n := n) (le_refl _) (by omega) (fun i j _ _ e => by omega) h hw
    (fun i _ => by show sum.base + k * 4 + _ = _; omega) fun i hi => ?_
  rcases ht with ⟨h1, rfl⟩ | ⟨h1, rfl⟩ | ⟨h1, h2⟩
  · simp only [digBE]
    rw [if_pos (by omega), if_pos (by omega)]
    congr 1; omega
  · simp only [digBE]
    by_cases hh : 4 * q + i < b.len
    · rw [if_pos (by omega), if_pos hh]
      congr 1; omega
    · rw [if_neg (by omega), if_neg hh]
  · simp only [digBE]
    rw [if_neg (by omega), if_neg (by omega)]

theorem alias_loopBE1 {m : Mem} {sum b : Slice} {n : Nat} (hl : n ≤ sum.len) (k : Nat) :
    ∀ (q : Nat) (m1 : Mem) (c : U8), 4 * (q + k) = n → 4 * q ≤ b.len →
    InvA m (fun i => sum.base + (n - 1 - i)) (fun j => b.base + (b.len - 1 - j)) b.len (4 * q) m1 c →
    ∃ m2 k2 q2 c2, loopBE1 sum k m1 ⟨b.base, b.len - 4 * q⟩ c = .ok (m2, k2, ⟨b.base, b.len - 4 * q2⟩, c2) ∧
      InvA m (fun i => sum.base + (n - 1 - i)) (fun j => b.base + (b.len - 1 - j)) b.len (4 * q2) m2 c2 ∧ 4 * (q2 + k2) = n ∧
      4 * q2 ≤ b.len ∧ (k2 = 0 ∨ b.len ≤ 4 * q2 + 4) := by
  induction k with
  | zero => intro q m1 c hk hb h; exact ⟨m1, 0, q, c, rfl, h, by omega, hb, .inl rfl⟩
  | succ k ih =>
    intro q m1 c hk hb h
    rw [loopBE1]
    split
    · rename_i hlen
      have hlen : b.len - 4 * q > 4 := hlen
      rw [drop_le (by omega), drop_le (by show b.len - 4 * q - 4 ≤ b.len - 4 * q; omega)]
      obtain ⟨m2, c2, e, h2⟩ := alias_stepBE h (show 4 * (q + k + 1) = n by omega) hl
        ⟨b.base + (b.len - 4 * q - 4), 4⟩ (.inl ⟨by omega, rfl⟩)
      have h44 : b.len - 4 * q - (b.len - 4 * q - 4) = 4 := by omega
      simp only [Res.ok_bind, h44, e]
      rw [sub_le (by omega) (by show b.len - 4 * q - 4 ≤ b.len - 4 * q; omega)]
      simp only [Res.ok_bind, Nat.add_zero, Nat.sub_zero]
      rw [show b.len - 4 * q - 4 = b.len - 4 * (q + 1) by omega]
      exact ih (q + 1) m2 c2 (by omega) (by omega) h2
    · rename_i hlen
      have hlen : ¬ b.len - 4 * q > 4 := hlen
      exact ⟨m1, k + 1, q, c, rfl, h, by omega, hb, .inr (by omega)⟩

theorem alias_loopBE2 {m : Mem} {sum b : Slice} {n : Nat} (hl : n ≤ sum.len) (k : Nat) :
    ∀ (q : Nat) (m1 : Mem) (c : U8), 4 * (q + k) = n → b.len ≤ 4 * q →
    InvA m (fun i => sum.base + (n - 1 - i)) (fun j => b.base + (b.len - 1 - j)) b.len (4 * q) m1 c →
    ∃ m2 c2, loopBE2 sum k m1 c = .ok (m2, c2) ∧
      InvA m (fun i => sum.base + (n - 1 - i)) (fun j => b.base + (b.len - 1 - j)) b.len n m2 c2 := by
  induction k with
  | zero => intro q m1 c hk hb h
            exact ⟨m1, c, rfl, by rwa [show 4 * q = n by omega] at h⟩
  | succ k ih =>
    intro q m1 c hk hb h
    rw [loopBE2, drop_le (by omega)]
    obtain ⟨m2, c2, e, h2⟩ := alias_stepBE h (show 4 * (q + k + 1) = n by omega) hl ⟨0, 0⟩ (.inr (.inr ⟨rfl, hb⟩))
    simp only [Res.ok_bind, e]
    exact ih (q + 1) m2 c2 (by omega) (by omega) h2

theorem alias_addAnyBE {m mp : Mem} {sum a b : Slice} {n : Nat} (hp : padBE m sum a n = .ok (mp, false)) (hl : n ≤ sum.len)
    (h4 : n % 4 = 0) :
    ∃ m' c', addAnyBE m sum a b n = .ok (m', c', false) ∧
      InvA mp (fun i => sum.base + (n - 1 - i)) (fun j => b.base + (b.len - 1 - j)) b.len n m' c' := by
  obtain ⟨m1, k1, q1, c1, e1, i1, hq1, hb1, hor⟩ := alias_loopBE1 (m := mp) (b := b) hl (n / 4) 0 mp 0#8 (by omega) (by omega)
    (by simpa using InvA_zero mp (fun i => sum.base + (n - 1 - i)) _ _)
  simp only [Nat.mul_zero, Nat.sub_zero] at e1
  rw [addAnyBE, hp]
  simp only [Res.ok_bind, Bool.false_eq_true, if_false, e1]
  have hpart : ∃ m2 k2 q2 b2 c2, partBE sum k1 m1 ⟨b.base, b.len - 4 * q1⟩ c1 = .ok (m2, k2, b2, c2) ∧
      InvA mp (fun i => sum.base + (n - 1 - i)) (fun j => b.base + (b.len - 1 - j)) b.len (4 * q2) m2 c2 ∧ 4 * (q2 + k2) = n ∧
      (k2 = 0 ∨ b.len ≤ 4 * q2) := by
    rw [partBE]
    split
    · rename_i hc
      have hc : b.len - 4 * q1 > 0 ∧ k1 > 0 := hc
      rw [drop_le (by omega)]
      obtain ⟨m2, c2, e, h2⟩ := alias_stepBE i1 (show 4 * (q1 + (k1 - 1) + 1) = n by omega) hl ⟨b.base, b.len - 4 * q1⟩
        (.inr (.inl ⟨by omega, rfl⟩))
      simp only [Res.ok_bind, e]
      rw [sub_le (le_refl _) (by omega)]
      exact ⟨m2, k1 - 1, q1 + 1, _, c2, rfl, h2, by omega, .inr (by omega)⟩
    · rename_i hc
      have hc : ¬ (b.len - 4 * q1 > 0 ∧ k1 > 0) := hc
      exact ⟨m1, k1, q1, _, c1, rfl, i1, hq1, by omega⟩
  obtain ⟨m2, k2, q2, b2, c2, e2, i2, hq2, hor2⟩ := hpart
  rw [e2]
  simp only [Res.ok_bind]
  have h3 : ∃ m3 c3, loopBE2 sum k2 m2 c2 = .ok (m3, c3) ∧
      InvA mp (fun i => sum.base + (n - 1 - i)) (fun j => b.base + (b.len - 1 - j)) b.len n m3 c3 := by
    rcases hor2 with h | h
    · subst h
      exact ⟨m2, c2, rfl, by rwa [show 4 * q2 = n by omega] at i2⟩
    · exact alias_loopBE2 hl k2 q2 m2 c2 hq2 h i2
  obtain ⟨m3, c3, e3, i3⟩ := h3
  rw [e3]
  simp only [Res.ok_bind]
  rw [tailBE, if_neg (by omega), if_neg (by omega)]
  exact ⟨m3, c3, rfl, i3⟩

theorem alias_AddBE {m mp : Mem} {sum a b : Slice} (w : Width) (hp : padBE m sum a w.bytes = .ok (mp, false))
    (hl : w.bytes ≤ sum.len) : ∃ m' c, AddBE w m sum a b = .ok (m', c, false) ∧
      InvA mp (fun i => sum.base + (w.bytes - 1 - i)) (fun j => (effBE w b).base + ((effBE w b).len - 1 - j)) (effBE w b).len
        w.bytes m' c := by
  cases w
  · obtain ⟨m', c, e, hw⟩ := addEq16BE_eq mp sum b 0#8 hl
    refine ⟨m', c, ?_, ?_⟩
    · have hp : padBE m sum a 2 = .ok (mp, false) := hp
      simp only [AddBE, Add16BE, hp, Res.ok_bind, e, Res.pure_eq, Bool.false_eq_true, if_false]
    · exact InvA_step (k := 0) (d := 2) (n := 2) (by omega) (by omega) (fun i j _ _ e => by dsimp only [Width.bytes] at e; omega)
        (InvA_zero _ _ _ _) hw (fun i _ => by rw [Nat.mul_zero, Nat.zero_add]; rfl)
        (fun i _ => by rw [Nat.mul_zero, Nat.zero_add]; rfl)
  · obtain ⟨m', c, e, hw⟩ := addEq32BE_eq mp sum b 0#8 hl
    refine ⟨m', c, ?_, ?_⟩
    · have hp : padBE m sum a 4 = .ok (mp, false) := hp
      simp only [AddBE, Add32BE, hp, Res.ok_bind, e, Res.pure_eq, Bool.false_eq_true, if_false]
    · exact InvA_step (k := 0) (d := 4) (n := 4) (by omega) (by omega) (fun i j _ _ e => by dsimp only [Width.bytes] at e; omega)
        (InvA_zero _ _ _ _) hw (fun i _ => by rw [Nat.mul_zero, Nat.zero_add]; rfl)
        (fun i _ => by rw [Nat.mul_zero, Nat.zero_add]; rfl)
  all_goals exact alias_addAnyBE hp hl rfl

end Bytes
