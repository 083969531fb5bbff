import Verif.Lemmas.Bytes

namespace Bytes
open BytesSpec

/-! ## The functions by width -/

/-- `Add16LE` … `Add512LE`. -/
def AddLE : Width → Mem → (sum a b : Slice) → Res (Mem × U8 × Bool)
  | .w16 => Add16LE | .w32 => Add32LE | .w64 => Add64LE | .w128 => Add128LE | .w256 => Add256LE | .w512 => Add512LE

/-- `Add16BE` … `Add512BE`. -/
def AddBE : Width → Mem → (sum a b : Slice) → Res (Mem × U8 × Bool)
  | .w16 => Add16BE | .w32 => Add32BE | .w64 => Add64BE | .w128 => Add128BE | .w256 => Add256BE | .w512 => Add512BE

/-- `Add16` … `Add512` on a little-endian (`true`) or big-endian (`false`) platform. -/
def Add : Width → (little : Bool) → Mem → (sum a b : Slice) → Res (Mem × U8 × Bool)
  | .w16 => Add16 | .w32 => Add32 | .w64 => Add64 | .w128 => Add128 | .w256 => Add256 | .w512 => Add512

/-- The part of `b` that the big-endian functions look at: the narrow ones cut `b` to its first bytes. -/
def effBE (w : Width) (b : Slice) : Slice :=
  match w with
  | .w16 => firstN b 2
  | .w32 => firstN b 4
  | _ => b

theorem pow256 (n : Nat) : 2 ^ (8 * n) = 256 ^ n := by rw [Nat.pow_mul]

theorem bytes_pos (w : Width) : 0 < w.bytes := by cases w <;> decide

theorem digLE_firstN {m : Mem} {s : Slice} {n i : Nat} (h : i < n) : digLE m (firstN s n) i = digLE m s i := by
  show (if i < min n s.len then m (s.base + i) else 0#8) = if i < s.len then m (s.base + i) else 0#8
  by_cases h' : i < s.len
  · rw [if_pos (by omega), if_pos h']
  · rw [if_neg (by omega), if_neg h']

/-! ## Core -/

theorem AddLE_short (w : Width) (m : Mem) (sum a b : Slice) (h : sum.len < w.bytes) :
    AddLE w m sum a b = .ok (m, 0#8, true) := by
  cases w <;> simp only [AddLE, Add16LE, Add32LE, Add64LE, Add128LE, Add256LE, Add512LE, addAnyLE] <;>
    (simp only [Width.bytes] at h; rw [padLE_short m sum a _ h]; rfl)

theorem AddBE_short (w : Width) (m : Mem) (sum a b : Slice) (h : sum.len < w.bytes) :
    AddBE w m sum a b = .ok (m, 0#8, true) := by
  cases w <;> simp only [AddBE, Add16BE, Add32BE, Add64BE, Add128BE, Add256BE, Add512BE, addAnyBE] <;>
    (simp only [Width.bytes] at h; rw [padBE_short m sum a _ h]; rfl)

theorem addAnyLE_core {m mp : Mem} {sum a b : Slice} {n : Nat} (hp : padLE m sum a n = .ok (mp, false)) (hl : n ≤ sum.len)
    (hs : SafeLE sum b n) : ∃ m' c, addAnyLE m sum a b n = .ok (m', c, false) ∧
      Inv mp (fun i => sum.base + i) (digLE mp b) n m' c := by
  obtain ⟨m', c, e, hi⟩ := addAnyLE_body (m := mp) hs hl
  refine ⟨m', c, ?_, hi⟩
  rw [addAnyLE, hp]
  exact e

theorem AddLE_core {m mp : Mem} {sum a b : Slice} (w : Width) (hp : padLE m sum a w.bytes = .ok (mp, false))
    (hl : w.bytes ≤ sum.len) (hs : SafeLE sum b w.bytes) : ∃ m' c, AddLE w m sum a b = .ok (m', c, false) ∧
      Inv mp (fun i => sum.base + i) (digLE mp b) w.bytes m' c := by
  cases w
  · obtain ⟨m', c, e, hw⟩ := addEq16LE_eq mp sum b 0#8 hl
    refine ⟨m', c, ?_, ?_⟩
    · have hp : padLE m sum a 2 = .ok (mp, false) := hp
      simp only [AddLE, Add16LE, hp, Res.ok_bind, e, Res.pure_eq, Bool.false_eq_true, if_false]
    · exact Inv_step (p := 0) (j := 2) (Inv_zero _ _ _) hw (fun i _ => by rw [Nat.zero_add]) (fun i _ => by rw [Nat.zero_add])
        (fun i k h => by omega)
  · obtain ⟨m', c, e, hw⟩ := addEq32LE_eq mp sum b 0#8 hl
    refine ⟨m', c, ?_, ?_⟩
    · have hp : padLE m sum a 4 = .ok (mp, false) := hp
      simp only [AddLE, Add32LE, hp, Res.ok_bind, e, Res.pure_eq, Bool.false_eq_true, if_false]
    · exact Inv_step (p := 0) (j := 4) (Inv_zero _ _ _) hw (fun i _ => by rw [Nat.zero_add]) (fun i _ => by rw [Nat.zero_add])
        (fun i k h => by omega)
  all_goals exact addAnyLE_core hp hl hs

theorem addAnyBE_core {m mp : Mem} {sum a b : Slice} {n : Nat} (hp : padBE m sum a n = .ok (mp, false)) (hl : n ≤ sum.len)
    (h4 : n % 4 = 0) (hs : SafeBE sum b n) : ∃ m' c, addAnyBE m sum a b n = .ok (m', c, false) ∧
      Inv mp (fun i => sum.base + (n - 1 - i)) (digBE mp b) n m' c := by
  obtain ⟨m', c, e, hi⟩ := addAnyBE_body (m := mp) hs hl h4
  refine ⟨m', c, ?_, hi⟩
  rw [addAnyBE, hp]
  exact e

theorem AddBE_core {m mp : Mem} {sum a b : Slice} (w : Width) (hp : padBE m sum a w.bytes = .ok (mp, false))
    (hl : w.bytes ≤ sum.len) (hs : SafeBE sum (effBE w b) w.bytes) : ∃ m' c, AddBE w m sum a b = .ok (m', c, false) ∧
      Inv mp (fun i => sum.base + (w.bytes - 1 - i)) (digBE mp (effBE w b)) w.bytes m' c := by
  cases w
  · obtain ⟨m', c, e, hw⟩ := addEq16BE_eq mp sum b 0#8 hl
    refine ⟨m', c, ?_, ?_⟩
    · have hp : padBE m sum a 2 = .ok (mp, false) := hp
      simp only [AddBE, Add16BE, hp, Res.ok_bind, e, Res.pure_eq, Bool.false_eq_true, if_false]
    · exact Inv_step (p := 0) (j := 2) (Inv_zero _ _ _) hw (fun i _ => by rw [Nat.zero_add]; rfl)
        (fun i _ => by rw [Nat.zero_add]; rfl) (fun i k h => by omega)
  · obtain ⟨m', c, e, hw⟩ := addEq32BE_eq mp sum b 0#8 hl
    refine ⟨m', c, ?_, ?_⟩
    · have hp : padBE m sum a 4 = .ok (mp, false) := hp
      simp only [AddBE, Add32BE, hp, Res.ok_bind, e, Res.pure_eq, Bool.false_eq_true, if_false]
    · exact Inv_step (p := 0) (j := 4) (Inv_zero _ _ _) hw (fun i _ => by rw [Nat.zero_add]; rfl)
        (fun i _ => by rw [Nat.zero_add]; rfl) (fun i k h => by omega)
  all_goals exact addAnyBE_core hp hl rfl hs

/-! ## From digits to numbers -/

theorem val_of_Wrote {m m' : Mem} {addr : Nat → Nat} {n v : Nat} (h : Wrote m m' addr n v) :
    val (fun i => m' (addr i)) n = v % 256 ^ n := by
  rw [← val_digit]; exact val_congr h.1

theorem finLE {m mp m' : Mem} {sum a b : Slice} {n : Nat} {c : U8} (hl : n ≤ sum.len)
    (hi : Inv mp (fun i => sum.base + i) (digLE mp b) n m' c) (ha : ∀ i, i < n → mp (sum.base + i) = digLE m a i)
    (hb : ∀ i, i < n → digLE mp b i = digLE m b i) :
    leVal ((firstN sum n).content m') = (leVal ((a.content m).take n) + leVal ((b.content m).take n)) % 2 ^ (8 * n) ∧
    c.toNat = (leVal ((a.content m).take n) + leVal ((b.content m).take n)) / 2 ^ (8 * n) := by
  obtain ⟨hw, hc⟩ := hi
  have hv := val_of_Wrote hw
  rw [val_congr (f := fun i => mp (sum.base + i)) ha, val_congr hb] at hv hc
  rw [leVal_content, leVal_content, pow256]
  refine ⟨?_, hc⟩
  rw [← List.take_of_length_le (l := (firstN sum n).content m') (i := n)
    (by rw [content_length]; show min n sum.len ≤ n; omega), leVal_content]
  refine Eq.trans (val_congr ?_) hv
  intro i hi
  rw [if_pos (by show i < min n sum.len; omega)]

theorem finBE {m mp m' : Mem} {sum : Slice} {n A B : Nat} {g : Nat → U8} {c : U8} (hl : n ≤ sum.len)
    (hi : Inv mp (fun i => sum.base + (n - 1 - i)) g n m' c)
    (ha : val (fun i => mp (sum.base + (n - 1 - i))) n = A) (hb : val g n = B) :
    beVal ((firstN sum n).content m') = (A + B) % 2 ^ (8 * n) ∧ c.toNat = (A + B) / 2 ^ (8 * n) := by
  obtain ⟨hw, hc⟩ := hi
  have hv := val_of_Wrote hw
  rw [ha, hb] at hv hc
  rw [pow256]
  refine ⟨?_, hc⟩
  rw [beVal_content _ _ n (by show min n sum.len ≤ n; omega), ← hv]
  apply val_congr
  intro i hi
  have hmin : (firstN sum n).len = n := by show min n sum.len = n; omega
  rw [hmin, if_pos hi]

theorem take_content (m : Mem) (s : Slice) (n : Nat) : (s.content m).take n = (firstN s n).content m := by
  simp only [Slice.content, firstN, ← List.map_take, List.take_range]

theorem Inv_frameLE {mp m' : Mem} {sum : Slice} {g : Nat → U8} {n : Nat} {c : U8} (hl : n ≤ sum.len)
    (hi : Inv mp (fun i => sum.base + i) g n m' c) : OnlyOn (firstN sum n) mp m' := by
  intro x hx
  apply hi.1.2
  intro i hin he
  apply hx
  simp only [firstN, Slice.Has]
  dsimp only at he
  omega

theorem Inv_frameBE {mp m' : Mem} {sum : Slice} {g : Nat → U8} {n : Nat} {c : U8} (hl : n ≤ sum.len)
    (hi : Inv mp (fun i => sum.base + (n - 1 - i)) g n m' c) : OnlyOn (firstN sum n) mp m' := by
  intro x hx
  apply hi.1.2
  intro i hin he
  apply hx
  simp only [firstN, Slice.Has]
  dsimp only at he
  omega

theorem _root_.BytesSpec.OnlyOn.trans {s t : Slice} {m1 m2 m3 : Mem} (h : OnlyOn s m1 m2) (h' : OnlyOn t m2 m3) (hst : ∀ x, t.Has x → s.Has x) :
    OnlyOn s m1 m3 := fun x hx => by rw [h' x (fun hh => hx (hst x hh)), h x hx]

/-! ## What padding leaves -/

theorem padLE_ok (m : Mem) (sum a : Slice) (n : Nat) (hn : 0 < n) (hl : n ≤ sum.len)
    (ha : a.len = 0 ∨ n ≤ a.len ∨ a.base ≠ sum.base) :
    ∃ mp, padLE m sum a n = .ok (mp, false) ∧ (∀ i, i < n → mp (sum.base + i) = digLE m a i) ∧ OnlyOn (firstN sum n) m mp := by
  by_cases hsame : 0 < a.len ∧ sum.base = a.base
  · refine ⟨m, padLE_same m sum a n hl hsame.1 hn hsame.2, fun i hi => ?_, fun x _ => rfl⟩
    rw [digLE, if_pos (by omega), hsame.2]
  · refine ⟨_, padLE_ne m sum a n hl (by omega), fun i hi => ?_, fun x hx => ?_⟩
    · rw [if_pos (by omega), Nat.add_sub_cancel_left]; rfl
    · simp only [firstN, Slice.Has] at hx
      show (if sum.base ≤ x ∧ x < sum.base + n then _ else _) = _
      rw [if_neg (by omega)]

/-- Padding never fails and stays in `sum[0:n]`, whatever `a` is. -/
theorem padLE_total (m : Mem) (sum a : Slice) (n : Nat) (hn : 0 < n) (hl : n ≤ sum.len) :
    ∃ mp, padLE m sum a n = .ok (mp, false) ∧ OnlyOn (firstN sum n) m mp := by
  by_cases hsame : 0 < a.len ∧ sum.base = a.base
  · exact ⟨m, padLE_same m sum a n hl hsame.1 hn hsame.2, fun x _ => rfl⟩
  · refine ⟨_, padLE_ne m sum a n hl (by omega), fun x hx => ?_⟩
    simp only [firstN, Slice.Has] at hx
    show (if sum.base ≤ x ∧ x < sum.base + n then _ else _) = _
    rw [if_neg (by omega)]

theorem padBE_total (m : Mem) (sum a : Slice) (n : Nat) (hl : n ≤ sum.len) :
    ∃ mp, padBE m sum a n = .ok (mp, false) ∧ OnlyOn (firstN sum (max n a.len)) m mp := by
  refine ⟨_, padBE_eq m sum a n hl, fun x hx => ?_⟩
  simp only [firstN, Slice.Has] at hx
  simp only [Slice.copy]
  rw [if_neg (by omega), if_neg (by omega)]

/-- `a` long enough: copied whatever the overlap. -/
theorem padBE_long (m : Mem) (sum a : Slice) (n : Nat) (hl : n ≤ sum.len) (ha : n ≤ a.len) :
    padBE m sum a n = .ok (Slice.copy m sum a, false) := by
  rw [padBE_eq m sum a n hl]
  congr 2
  rw [show n - min n a.len = 0 by omega]
  simp only [Nat.add_zero, Nat.sub_zero]
  congr 1
  funext x
  rw [if_neg (by omega)]

theorem padBE_ok (m : Mem) (sum a : Slice) (n : Nat) (hl : n ≤ sum.len)
    (ha : (firstN sum (n - a.len)).Disjoint a) :
    ∃ mp, padBE m sum a n = .ok (mp, false) ∧
      val (fun i => mp (sum.base + (n - 1 - i))) n = beVal ((a.content m).take n) ∧
      OnlyOn (firstN sum (max n a.len)) m mp := by
  obtain ⟨mp, hmp, hfr⟩ := padBE_total m sum a n hl
  refine ⟨mp, hmp, ?_, hfr⟩
  rw [padBE_eq m sum a n hl] at hmp
  have hmp : Slice.copy _ _ _ = mp := (Prod.mk.inj (Res.ok.inj hmp)).1
  rw [take_content, beVal_content _ _ n (by show min n a.len ≤ n; omega)]
  apply val_congr
  intro i hi
  rw [← hmp]
  simp only [Slice.copy, firstN]
  by_cases h : i < min n a.len
  · rw [if_pos h, if_pos (by omega)]
    have hx : ¬ (sum.base ≤ a.base + (min n a.len - 1 - i) ∧ a.base + (min n a.len - 1 - i) < sum.base + (n - min n a.len)) := by
      intro hh
      apply ha (a.base + (min n a.len - 1 - i))
      simp only [firstN, Slice.Has]
      omega
    rw [show a.base + (sum.base + (n - 1 - i) - (sum.base + (n - min n a.len))) = a.base + (min n a.len - 1 - i) by omega,
      if_neg hx]
  · rw [if_neg h, if_neg (by omega), if_pos (by omega)]

/-! ## Any overlap: no panic, and only `sum` is written -/

theorem word_frame {m m' : Mem} {addr : Nat → Nat} {n : Nat} {g : Nat → U8} {c c' : U8} (h : Word m m' addr n g c c') (s : Slice)
    (hs : ∀ i, i < n → s.Has (addr i)) : OnlyOn s m m' := by
  obtain ⟨T, -, ⟨-, h2⟩, -⟩ := h
  intro x hx
  apply h2
  intro i hi he
  exact hx (he ▸ hs i hi)

theorem any32LE (m : Mem) (sum b : Slice) (c : U8) (k n : Nat) (hk : 4 * k + 4 ≤ n) (hn : n ≤ sum.len) :
    ∃ m' c', addEq32LE m ⟨sum.base + k * 4, sum.len - k * 4⟩ b c = .ok (m', c') ∧ OnlyOn (firstN sum n) m m' := by
  obtain ⟨m', c', e, hw⟩ := addEq32LE_eq m ⟨sum.base + k * 4, sum.len - k * 4⟩ b c (by show 4 ≤ sum.len - k * 4; omega)
  exact ⟨m', c', e, word_frame hw _ (fun i hi => by simp only [firstN, Slice.Has]; omega)⟩

theorem any32BE (m : Mem) (sum b : Slice) (c : U8) (k n : Nat) (hk : 4 * k + 4 ≤ n) (hn : n ≤ sum.len) :
    ∃ m' c', addEq32BE m ⟨sum.base + k * 4, sum.len - k * 4⟩ b c = .ok (m', c') ∧ OnlyOn (firstN sum n) m m' := by
  obtain ⟨m', c', e, hw⟩ := addEq32BE_eq m ⟨sum.base + k * 4, sum.len - k * 4⟩ b c (by show 4 ≤ sum.len - k * 4; omega)
  exact ⟨m', c', e, word_frame hw _ (fun i hi => by simp only [firstN, Slice.Has]; omega)⟩

theorem _root_.BytesSpec.OnlyOn.trans' {s : Slice} {m1 m2 m3 : Mem} (h : OnlyOn s m1 m2) (h' : OnlyOn s m2 m3) : OnlyOn s m1 m3 :=
  h.trans h' fun _ h => h

theorem loopLE1_any {sum : Slice} {n : Nat} (hn : n ≤ sum.len) (k : Nat) : ∀ (num : Nat) (m : Mem) (b : Slice) (c : U8),
    4 * (num + k) ≤ n → ∃ m' num' b' c', loopLE1 sum k num m b c = .ok (m', num', b', c') ∧ num' ≤ num + k ∧
      OnlyOn (firstN sum n) m m' := by
  induction k with
  | zero => intro num m b c _; exact ⟨m, num, b, c, rfl, by omega, fun _ _ => rfl⟩
  | succ k ih =>
    intro num m b c h
    rw [loopLE1]
    split
    · rename_i hb
      rw [drop_le (by omega)]
      obtain ⟨m1, c1, e1, f1⟩ := any32LE m sum b c num n (by omega) hn
      simp only [Res.ok_bind, e1]
      rw [drop_le (by omega)]
      obtain ⟨m2, n2, b2, c2, e2, h2, f2⟩ := ih (num + 1) m1 ⟨b.base + 4, b.len - 4⟩ c1 (by omega)
      exact ⟨m2, n2, b2, c2, e2, by omega, f1.trans' f2⟩
    · exact ⟨m, num, b, c, rfl, by omega, fun _ _ => rfl⟩

theorem loopLE2_any {sum : Slice} {n : Nat} (hn : n ≤ sum.len) (k : Nat) : ∀ (num : Nat) (m : Mem) (c : U8),
    4 * (num + k) ≤ n → ∃ m' c', loopLE2 sum k num m c = .ok (m', c') ∧ OnlyOn (firstN sum n) m m' := by
  induction k with
  | zero => intro num m c _; exact ⟨m, c, rfl, fun _ _ => rfl⟩
  | succ k ih =>
    intro num m c h
    rw [loopLE2, drop_le (by omega)]
    obtain ⟨m1, c1, e1, f1⟩ := any32LE m sum ⟨0, 0⟩ c num n (by omega) hn
    simp only [Res.ok_bind, e1]
    obtain ⟨m2, c2, e2, f2⟩ := ih (num + 1) m1 c1 (by omega)
    exact ⟨m2, c2, e2, f1.trans' f2⟩

theorem addAnyLE_any (m : Mem) (sum a b : Slice) (n : Nat) (hn : n ≤ sum.len) (h0 : 0 < n) (h4 : n % 4 = 0) :
    ∃ m' c, addAnyLE m sum a b n = .ok (m', c, false) ∧ OnlyOn (firstN sum n) m m' := by
  obtain ⟨mp, hp, f0⟩ := padLE_total m sum a n h0 hn
  obtain ⟨m1, n1, b1, c1, e1, h1, f1⟩ := loopLE1_any hn (n / 4) 0 mp b 0#8 (by omega)
  rw [addAnyLE, hp]
  simp only [Res.ok_bind, Bool.false_eq_true, if_false, e1]
  have hpart : ∃ m2 n2 b2 c2, partLE sum (n / 4) n1 m1 b1 c1 = .ok (m2, n2, b2, c2) ∧ n2 ≤ n / 4 ∧ OnlyOn (firstN sum n) m1 m2 := by
    rw [partLE]
    split
    · rw [drop_le (by omega)]
      obtain ⟨m2, c2, e2, f2⟩ := any32LE m1 sum b1 c1 n1 n (by omega) hn
      simp only [Res.ok_bind, e2]
      rw [drop_le (le_refl _)]
      exact ⟨m2, n1 + 1, _, c2, rfl, by omega, f2⟩
    · exact ⟨m1, n1, b1, c1, rfl, by omega, fun _ _ => rfl⟩
  obtain ⟨m2, n2, b2, c2, e2, h2, f2⟩ := hpart
  obtain ⟨m3, c3, e3, f3⟩ := loopLE2_any hn (n / 4 - n2) n2 m2 c2 (by omega)
  simp only [e2, Res.ok_bind, e3]
  rw [tailLE, if_neg (by omega), if_neg (by omega)]
  exact ⟨m3, c3, rfl, ((f0.trans' f1).trans' f2).trans' f3⟩

theorem AddLE_any (w : Width) (m : Mem) (sum a b : Slice) (hn : w.bytes ≤ sum.len) :
    ∃ m' c, AddLE w m sum a b = .ok (m', c, false) ∧ OnlyOn (firstN sum w.bytes) m m' := by
  cases w
  · obtain ⟨mp, hp, f0⟩ := padLE_total m sum a 2 (by omega) hn
    obtain ⟨m', c, e, hw⟩ := addEq16LE_eq mp sum b 0#8 hn
    refine ⟨m', c, ?_, f0.trans' (word_frame hw _ (fun i hi => ?_))⟩
    · simp only [AddLE, Add16LE, hp, Res.ok_bind, e, Res.pure_eq, Bool.false_eq_true, if_false]
    · simp only [Width.bytes] at hn
      simp only [firstN, Slice.Has]; omega
  · obtain ⟨mp, hp, f0⟩ := padLE_total m sum a 4 (by omega) hn
    obtain ⟨m', c, e, hw⟩ := addEq32LE_eq mp sum b 0#8 hn
    refine ⟨m', c, ?_, f0.trans' (word_frame hw _ (fun i hi => ?_))⟩
    · simp only [AddLE, Add32LE, hp, Res.ok_bind, e, Res.pure_eq, Bool.false_eq_true, if_false]
    · simp only [Width.bytes] at hn
      simp only [firstN, Slice.Has]; omega
  all_goals exact addAnyLE_any m sum a b _ hn (by decide) rfl

theorem loopBE1_any {sum : Slice} {n : Nat} (hn : n ≤ sum.len) (k : Nat) : ∀ (m : Mem) (b : Slice) (c : U8),
    4 * k ≤ n → ∃ m' k' b' c', loopBE1 sum k m b c = .ok (m', k', b', c') ∧ k' ≤ k ∧ OnlyOn (firstN sum n) m m' := by
  induction k with
  | zero => intro m b c _; exact ⟨m, 0, b, c, rfl, by omega, fun _ _ => rfl⟩
  | succ k ih =>
    intro m b c h
    rw [loopBE1]
    split
    · rename_i hb
      rw [drop_le (by omega), drop_le (by omega)]
      obtain ⟨m1, c1, e1, f1⟩ := any32BE m sum ⟨b.base + (b.len - 4), b.len - (b.len - 4)⟩ c k n (by omega) hn
      simp only [Res.ok_bind, e1]
      rw [sub_le (by omega) (by omega)]
      obtain ⟨m2, n2, b2, c2, e2, h2, f2⟩ := ih m1 ⟨b.base + 0, b.len - 4 - 0⟩ c1 (by omega)
      exact ⟨m2, n2, b2, c2, e2, by omega, f1.trans' f2⟩
    · exact ⟨m, k + 1, b, c, rfl, by omega, fun _ _ => rfl⟩

theorem loopBE2_any {sum : Slice} {n : Nat} (hn : n ≤ sum.len) (k : Nat) : ∀ (m : Mem) (c : U8),
    4 * k ≤ n → ∃ m' c', loopBE2 sum k m c = .ok (m', c') ∧ OnlyOn (firstN sum n) m m' := by
  induction k with
  | zero => intro m c _; exact ⟨m, c, rfl, fun _ _ => rfl⟩
  | succ k ih =>
    intro m c h
    rw [loopBE2, drop_le (by omega)]
    obtain ⟨m1, c1, e1, f1⟩ := any32BE m sum ⟨0, 0⟩ c k n (by omega) hn
    simp only [Res.ok_bind, e1]
    obtain ⟨m2, c2, e2, f2⟩ := ih m1 c1 (by omega)
    exact ⟨m2, c2, e2, f1.trans' f2⟩

theorem addAnyBE_any (m : Mem) (sum a b : Slice) (n : Nat) (hn : n ≤ sum.len) (h4 : n % 4 = 0) :
    ∃ m' c, addAnyBE m sum a b n = .ok (m', c, false) ∧ OnlyOn (firstN sum (max n a.len)) m m' := by
  obtain ⟨mp, hp, f0⟩ := padBE_total m sum a n hn
  obtain ⟨m1, n1, b1, c1, e1, h1, f1⟩ := loopBE1_any hn (n / 4) mp b 0#8 (by omega)
  rw [addAnyBE, hp]
  simp only [Res.ok_bind, Bool.false_eq_true, if_false, e1]
  have hpart : ∃ m2 n2 b2 c2, partBE sum n1 m1 b1 c1 = .ok (m2, n2, b2, c2) ∧ n2 ≤ n / 4 ∧ OnlyOn (firstN sum n) m1 m2 := by
    rw [partBE]
    split
    · rw [drop_le (by omega)]
      obtain ⟨m2, c2, e2, f2⟩ := any32BE m1 sum b1 c1 (n1 - 1) n (by omega) hn
      simp only [Res.ok_bind, e2]
      rw [sub_le (le_refl _) (by omega)]
      exact ⟨m2, n1 - 1, _, c2, rfl, by omega, f2⟩
    · exact ⟨m1, n1, b1, c1, rfl, by omega, fun _ _ => rfl⟩
  obtain ⟨m2, n2, b2, c2, e2, h2, f2⟩ := hpart
  obtain ⟨m3, c3, e3, f3⟩ := loopBE2_any hn n2 m2 c2 (by omega)
  simp only [e2, Res.ok_bind, e3]
  rw [tailBE, if_neg (by omega), if_neg (by omega)]
  refine ⟨m3, c3, rfl, f0.trans ((f1.trans' f2).trans' f3) fun x hx => ?_⟩
  simp only [firstN, Slice.Has] at hx ⊢
  omega

theorem AddBE_any (w : Width) (m : Mem) (sum a b : Slice) (hn : w.bytes ≤ sum.len) :
    ∃ m' c, AddBE w m sum a b = .ok (m', c, false) ∧ OnlyOn (firstN sum (max w.bytes a.len)) m m' := by
  cases w
  · obtain ⟨mp, hp, f0⟩ := padBE_total m sum a 2 hn
    obtain ⟨m', c, e, hw⟩ := addEq16BE_eq mp sum b 0#8 hn
    refine ⟨m', c, ?_, f0.trans' (word_frame hw _ (fun i hi => ?_))⟩
    · simp only [AddBE, Add16BE, hp, Res.ok_bind, e, Res.pure_eq, Bool.false_eq_true, if_false]
    · simp only [Width.bytes] at hn
      simp only [firstN, Slice.Has]; omega
  · obtain ⟨mp, hp, f0⟩ := padBE_total m sum a 4 hn
    obtain ⟨m', c, e, hw⟩ := addEq32BE_eq mp sum b 0#8 hn
    refine ⟨m', c, ?_, f0.trans' (word_frame hw _ (fun i hi => ?_))⟩
    · simp only [AddBE, Add32BE, hp, Res.ok_bind, e, Res.pure_eq, Bool.false_eq_true, if_false]
    · simp only [Width.bytes] at hn
      simp only [firstN, Slice.Has]; omega
  all_goals exact addAnyBE_any m sum a b _ hn rfl

end Bytes
