import Verif.Lemmas.BytesAlias
import Verif.Spec.BytesAlias

/-! # Addition with overlapping operands (C79, C80) -/
namespace Bytes
open BytesSpec

/-! ## Storing the first operand -/

theorem padLE_stored (m : Mem) (sum a : Slice) (n : Nat) (hn : 0 < n) (hl : n ≤ sum.len) :
    padLE m sum a n = .ok (storedLE m sum a n, false) := by
  by_cases hs : 0 < a.len ∧ a.base = sum.base
  · rw [padLE_same m sum a n hl hs.1 hn hs.2.symm]
    congr 2
    funext x
    simp only [storedLE]
    rw [if_neg (by tauto)]
  · rw [padLE_ne m sum a n hl (by omega)]
    congr 2
    funext x
    show (if sum.base ≤ x ∧ x < sum.base + n then _ else m x) = if _ then _ else m x
    by_cases hx : sum.base ≤ x ∧ x < sum.base + n
    · exact (if_pos hx).trans (if_pos ⟨hx.1, hx.2, hs⟩).symm
    · exact (if_neg hx).trans (if_neg (by tauto)).symm

theorem padBE_stored (m : Mem) (sum a : Slice) (n : Nat) (hl : n ≤ sum.len) :
    padBE m sum a n = .ok (storedBE m sum a n, false) := by
  rw [padBE_eq m sum a n hl, show n - min n a.len = n - a.len by omega]
  congr 2
  funext x
  simp only [Slice.copy, storedBE]
  by_cases h : sum.base + (n - a.len) ≤ x ∧ x < sum.base + (n - a.len) + a.len ∧ x < sum.base + sum.len
  · rw [if_pos h, if_pos (by omega)]
  · rw [if_neg h, if_neg (by omega)]

theorem effBE_used (w : Width) (b : Slice) : effBE w b = usedBE w b := by cases w <;> rfl

theorem leVal_map (g : Nat → U8) (n : Nat) : leVal ((List.range n).map g) = val g n := by
  have h := leVal_take n ((List.range n).map g)
  rw [List.take_of_length_le (by simp)] at h
  rw [h]
  refine val_congr fun i hi => ?_
  simp [List.getD_eq_getElem?_getD, hi]

theorem leVal_first (m : Mem) (s : Slice) (n : Nat) (h : n ≤ s.len) :
    leVal ((firstN s n).content m) = val (fun i => m (s.base + i)) n := by
  rw [← List.take_of_length_le (l := (firstN s n).content m) (i := n) (by rw [content_length]; show min n s.len ≤ n; omega),
    leVal_content]
  refine val_congr fun i hi => ?_
  rw [if_pos (by show i < min n s.len; omega)]

theorem beVal_first (m : Mem) (s : Slice) (n : Nat) (h : n ≤ s.len) :
    beVal ((firstN s n).content m) = val (fun i => m (s.base + (n - 1 - i))) n := by
  rw [beVal_content _ _ n (by show min n s.len ≤ n; omega)]
  refine val_congr fun i hi => ?_
  have : (firstN s n).len = n := by show min n s.len = n; omega
  rw [this, if_pos hi]

/-- **C79** `AddNLE(sum, a, b)` with `sum`, `a`, `b` anywhere in memory, overlapping in any way: no panic, no error; the bytes of
`sum[0:N/8]` become the number they hold once `a` is stored there plus the number made of the bytes of `b` as they are read, the
carry is the rest; a byte of `b` lying in a 32-bit word of `sum` already done is read as the result. Nothing else is written. -/
theorem C79_le (w : Width) (m : Mem) (sum a b : Slice) (hl : w.bytes ≤ sum.len) :
    ∃ m' c, AddLE w m sum a b = .ok (m', c, false) ∧
      leVal ((firstN sum w.bytes).content m') = (leVal ((firstN sum w.bytes).content (storedLE m sum a w.bytes)) +
        leVal ((List.range w.bytes).map (readLE (storedLE m sum a w.bytes) m' sum b))) % 2 ^ (8 * w.bytes) ∧
      c.toNat = (leVal ((firstN sum w.bytes).content (storedLE m sum a w.bytes)) +
        leVal ((List.range w.bytes).map (readLE (storedLE m sum a w.bytes) m' sum b))) / 2 ^ (8 * w.bytes) ∧
      OnlyOn (firstN sum w.bytes) m m' := by
  obtain ⟨m', c, e, g, ⟨hw, hc⟩, hr⟩ := alias_AddLE (b := b) w (padLE_stored m sum a w.bytes (bytes_pos w) hl) hl
  refine ⟨m', c, e, ?_⟩
  have hg : ∀ j, j < w.bytes → g j = readLE (storedLE m sum a w.bytes) m' sum b j := by
    intro j hj
    obtain ⟨h1, h2⟩ := hr j hj
    unfold readLE
    by_cases hb : j < b.len
    · rw [if_pos hb]
      split
      · rename_i h
        exact (h2 hb).1 ⟨b.base + j - sum.base, by omega, by dsimp only; omega⟩
      · rename_i h
        exact (h2 hb).2 fun i hi e => h (by dsimp only at e; omega)
    · rw [if_neg hb, h1 (by omega)]
  rw [leVal_map, leVal_first _ _ _ hl, leVal_first _ _ _ hl, ← val_congr hg, pow256]
  refine ⟨val_of_Wrote hw, hc, fun x hx => ?_⟩
  have hx : ¬ (sum.base ≤ x ∧ x < sum.base + min w.bytes sum.len) := hx
  rw [hw.2 x fun i hi e => hx (by dsimp only at e; omega)]
  show (if _ then _ else m x) = m x
  rw [if_neg (by omega)]

/-- **C79** `AddNBE(sum, a, b)` likewise, with the words of `sum` done from the last to the first. When `a` is longer than N/8
bytes its further bytes are copied into `sum` too. -/
theorem C79_be (w : Width) (m : Mem) (sum a b : Slice) (hl : w.bytes ≤ sum.len) :
    ∃ m' c, AddBE w m sum a b = .ok (m', c, false) ∧
      beVal ((firstN sum w.bytes).content m') = (beVal ((firstN sum w.bytes).content (storedBE m sum a w.bytes)) +
        leVal ((List.range w.bytes).map (readBE (storedBE m sum a w.bytes) m' sum (usedBE w b) w.bytes))) % 2 ^ (8 * w.bytes) ∧
      c.toNat = (beVal ((firstN sum w.bytes).content (storedBE m sum a w.bytes)) +
        leVal ((List.range w.bytes).map (readBE (storedBE m sum a w.bytes) m' sum (usedBE w b) w.bytes))) / 2 ^ (8 * w.bytes) ∧
      OnlyOn (firstN sum w.bytes) (storedBE m sum a w.bytes) m' := by
  obtain ⟨m', c, e, g, ⟨hw, hc⟩, hr⟩ := alias_AddBE (b := b) w (padBE_stored m sum a w.bytes hl) hl
  rw [effBE_used] at hr
  refine ⟨m', c, e, ?_⟩
  have hg : ∀ j, j < w.bytes → g j = readBE (storedBE m sum a w.bytes) m' sum (usedBE w b) w.bytes j := by
    intro j hj
    obtain ⟨h1, h2⟩ := hr j hj
    unfold readBE
    by_cases hb : j < (usedBE w b).len
    · rw [if_pos hb]
      split
      · rename_i h
        exact (h2 hb).1 ⟨sum.base + w.bytes - 1 - ((usedBE w b).base + ((usedBE w b).len - 1 - j)), by omega, by dsimp only; omega⟩
      · rename_i h
        exact (h2 hb).2 fun i hi e => h (by dsimp only at e; omega)
    · rw [if_neg hb, h1 (by omega)]
  rw [leVal_map, beVal_first _ _ _ hl, beVal_first _ _ _ hl, ← val_congr hg, pow256]
  refine ⟨val_of_Wrote hw, hc, fun x hx => ?_⟩
  have hx : ¬ (sum.base ≤ x ∧ x < sum.base + min w.bytes sum.len) := hx
  exact hw.2 x fun i hi e => hx (by dsimp only at e; omega)

/-! ## The equations determine the result -/

theorem val_mod (f : Nat → U8) {k n : Nat} (h : k ≤ n) : val f n % 256 ^ k = val f k := by
  obtain ⟨j, rfl⟩ := Nat.exists_eq_add_of_le h
  rw [val_add, Nat.add_mul_mod_self_left, Nat.mod_eq_of_lt (val_lt f k)]

theorem fix_unique {n : Nat} {A B1 B2 R1 R2 : Nat → U8} (h1 : val R1 n = (val A n + val B1 n) % 256 ^ n)
    (h2 : val R2 n = (val A n + val B2 n) % 256 ^ n)
    (hd : ∀ j, j < n → (∀ i, i < 4 * (j / 4) → R1 i = R2 i) → B1 j = B2 j) : ∀ j, j < n → R1 j = R2 j := by
  intro j
  induction j using Nat.strongRecOn with
  | _ j ih =>
    intro hj
    have hB : ∀ i, i < j + 1 → B1 i = B2 i := fun i hi => hd i (by omega) fun k hk => ih k (by omega) (by omega)
    have hv : val R1 (j + 1) = val R2 (j + 1) := by
      rw [← val_mod R1 (show j + 1 ≤ n by omega), ← val_mod R2 (show j + 1 ≤ n by omega), h1, h2,
        Nat.mod_mod_of_dvd _ (Nat.pow_dvd_pow 256 (by omega)), Nat.mod_mod_of_dvd _ (Nat.pow_dvd_pow 256 (by omega)),
        Nat.add_mod, Nat.add_mod (val A n) (val B2 n), val_mod B1 (by omega), val_mod B2 (by omega), val_congr hB]
    rw [val, val, val_congr (fun i hi => ih i hi (by omega))] at hv
    have := Nat.eq_of_mul_eq_mul_right (Nat.pow_pos (by omega : 0 < 256)) (Nat.add_left_cancel hv)
    exact BitVec.eq_of_toNat_eq this

/-- **C79** The equation for the result, though the result also stands on its right, has one solution only. -/
theorem C79_le_unique (n : Nat) (m st : Mem) (sum b : Slice) (hl : n ≤ sum.len) (m1 m2 : Mem)
    (h1 : leVal ((firstN sum n).content m1) =
      (leVal ((firstN sum n).content st) + leVal ((List.range n).map (readLE st m1 sum b))) % 2 ^ (8 * n))
    (h2 : leVal ((firstN sum n).content m2) =
      (leVal ((firstN sum n).content st) + leVal ((List.range n).map (readLE st m2 sum b))) % 2 ^ (8 * n))
    (f1 : OnlyOn (firstN sum n) m m1) (f2 : OnlyOn (firstN sum n) m m2) : m1 = m2 := by
  rw [leVal_map, leVal_first _ _ _ hl, leVal_first _ _ _ hl, pow256] at h1 h2
  have key := fix_unique h1 h2 fun j hj hR => by
    simp only [readLE]
    split
    · split
      · have := hR (b.base + j - sum.base) (by omega)
        rwa [show sum.base + (b.base + j - sum.base) = b.base + j by omega] at this
      · rfl
    · rfl
  funext x
  by_cases hx : sum.base ≤ x ∧ x < sum.base + n
  · have := key (x - sum.base) (by omega)
    rwa [show sum.base + (x - sum.base) = x by omega] at this
  · have hx : ¬ (firstN sum n).Has x := fun h => hx ⟨h.1, by have := h.2; simp only [firstN] at this; omega⟩
    rw [f1 x hx, f2 x hx]

/-- **C79** Likewise for big-endian. -/
theorem C79_be_unique (n : Nat) (st : Mem) (sum b : Slice) (hl : n ≤ sum.len) (m1 m2 : Mem)
    (h1 : beVal ((firstN sum n).content m1) =
      (beVal ((firstN sum n).content st) + leVal ((List.range n).map (readBE st m1 sum b n))) % 2 ^ (8 * n))
    (h2 : beVal ((firstN sum n).content m2) =
      (beVal ((firstN sum n).content st) + leVal ((List.range n).map (readBE st m2 sum b n))) % 2 ^ (8 * n))
    (f1 : OnlyOn (firstN sum n) st m1) (f2 : OnlyOn (firstN sum n) st m2) : m1 = m2 := by
  rw [leVal_map, beVal_first _ _ _ hl, beVal_first _ _ _ hl, pow256] at h1 h2
  have key := fix_unique h1 h2 fun j hj hR => by
    simp only [readBE]
    split
    · split
      · have := hR (sum.base + n - 1 - (b.base + (b.len - 1 - j))) (by omega)
        rwa [show sum.base + (n - 1 - (sum.base + n - 1 - (b.base + (b.len - 1 - j)))) = b.base + (b.len - 1 - j) by omega] at this
      · rfl
    · rfl
  funext x
  by_cases hx : sum.base ≤ x ∧ x < sum.base + n
  · have := key (sum.base + n - 1 - x) (by omega)
    rwa [show sum.base + (n - 1 - (sum.base + n - 1 - x)) = x by omega] at this
  · have hx : ¬ (firstN sum n).Has x := fun h => hx ⟨h.1, by have := h.2; simp only [firstN] at this; omega⟩
    rw [f1 x hx, f2 x hx]

/-! ## A second operand that is not overtaken -/

/-- **C79** When `b` starts at or after `sum`, or for 16 and 32 bits, no byte of `b` is read as a result byte: the sum is that of `a`
and of what `b` holds once `a` is stored. -/
theorem C79_le_ahead (w : Width) (m : Mem) (sum a b : Slice) (hl : w.bytes ≤ sum.len) (hb : sum.base ≤ b.base ∨ w.bytes ≤ 4) :
    ∃ m' c, AddLE w m sum a b = .ok (m', c, false) ∧
      leVal ((firstN sum w.bytes).content m') = (leVal ((firstN sum w.bytes).content (storedLE m sum a w.bytes)) +
        leVal ((b.content (storedLE m sum a w.bytes)).take w.bytes)) % 2 ^ (8 * w.bytes) ∧
      c.toNat = (leVal ((firstN sum w.bytes).content (storedLE m sum a w.bytes)) +
        leVal ((b.content (storedLE m sum a w.bytes)).take w.bytes)) / 2 ^ (8 * w.bytes) := by
  obtain ⟨m', c, e, h1, h2, -⟩ := C79_le w m sum a b hl
  have hr : leVal ((List.range w.bytes).map (readLE (storedLE m sum a w.bytes) m' sum b)) =
      leVal ((b.content (storedLE m sum a w.bytes)).take w.bytes) := by
    rw [leVal_map, leVal_content]
    refine val_congr fun j hj => ?_
    simp only [readLE]
    split
    · rw [if_neg (by omega)]
    · rfl
  rw [hr] at h1 h2
  exact ⟨m', c, e, h1, h2⟩

/-- **C79** Big-endian, `b` of at most N/8 bytes: `b` must end at or before the end of `sum[0:N/8]`. -/
theorem C79_be_ahead (w : Width) (m : Mem) (sum a b : Slice) (hl : w.bytes ≤ sum.len) (hbl : b.len ≤ w.bytes)
    (hb : b.base + b.len ≤ sum.base + w.bytes ∨ w.bytes ≤ 4) :
    ∃ m' c, AddBE w m sum a b = .ok (m', c, false) ∧
      beVal ((firstN sum w.bytes).content m') = (beVal ((firstN sum w.bytes).content (storedBE m sum a w.bytes)) +
        beVal (b.content (storedBE m sum a w.bytes))) % 2 ^ (8 * w.bytes) ∧
      c.toNat = (beVal ((firstN sum w.bytes).content (storedBE m sum a w.bytes)) +
        beVal (b.content (storedBE m sum a w.bytes))) / 2 ^ (8 * w.bytes) := by
  obtain ⟨m', c, e, h1, h2, -⟩ := C79_be w m sum a b hl
  have hu : usedBE w b = b := by
    simp only [usedBE]
    split
    · show (⟨b.base, min w.bytes b.len⟩ : Slice) = b
      rw [show min w.bytes b.len = b.len by omega]
    · rfl
  rw [hu] at h1 h2
  have hr : leVal ((List.range w.bytes).map (readBE (storedBE m sum a w.bytes) m' sum b w.bytes)) =
      beVal (b.content (storedBE m sum a w.bytes)) := by
    rw [leVal_map, beVal_content _ _ _ hbl]
    refine val_congr fun j hj => ?_
    simp only [readBE]
    split
    · rw [if_neg (by omega)]
    · rfl
  rw [hr] at h1 h2
  exact ⟨m', c, e, h1, h2⟩

/-! ## Adding into the second operand -/

/-- The value of the `n` low bytes of `a` left in `sum` by storing `a`. -/
theorem stored_valLE (m : Mem) (sum a : Slice) (n : Nat) (hl : n ≤ sum.len) (ha : a.len = 0 ∨ n ≤ a.len ∨ a.base ≠ sum.base) :
    leVal ((firstN sum n).content (storedLE m sum a n)) = leVal ((a.content m).take n) := by
  rw [leVal_first _ _ _ hl, leVal_content]
  refine val_congr fun i hi => ?_
  simp only [storedLE]
  by_cases hs : 0 < a.len ∧ a.base = sum.base
  · rw [if_neg (by tauto), if_pos (by omega), hs.2]
  · rw [if_pos ⟨by omega, by omega, hs⟩, Nat.add_sub_cancel_left]

theorem two_mod {A S M : Nat} (hA : A < M) (hS : S < M) : (A + A) % M = (A + S) % M ↔ A = S := by
  have key : ∀ x, x < 2 * M → x % M = if x < M then x else x - M := by
    intro x hx
    split
    · rename_i h; exact Nat.mod_eq_of_lt h
    · rename_i h; rw [Nat.mod_eq_sub_mod (by omega), Nat.mod_eq_of_lt (by omega)]
  rw [key _ (by omega), key _ (by omega)]
  split_ifs <;> omega

theorem stored_valBE (m : Mem) (sum a : Slice) (n : Nat) (hl : n ≤ sum.len) (ha : (firstN sum (n - a.len)).Disjoint a) :
    beVal ((firstN sum n).content (storedBE m sum a n)) = beVal ((a.content m).take n) := by
  obtain ⟨mp, hp, hv, -⟩ := padBE_ok m sum a n hl ha
  rw [padBE_stored m sum a n hl] at hp
  have hp : storedBE m sum a n = mp := (Prod.mk.inj (Res.ok.inj hp)).1
  rw [beVal_first _ _ _ hl, hp, hv]

theorem leVal_take_lt (l : List U8) (n : Nat) : leVal (l.take n) < 2 ^ (8 * n) := by
  rw [leVal_take, pow256]; exact val_lt _ _

theorem beVal_first_lt (m : Mem) (s : Slice) (n : Nat) : beVal ((firstN s n).content m) < 2 ^ (8 * n) := by
  rw [beVal_content _ _ n (by show min n s.len ≤ n; omega), pow256]; exact val_lt _ _

/-- **C80** `AddNLE(sum, a, sum)`, the second operand being the destination: the result is twice `a`, whatever `sum` held. -/
theorem C80_le_exact (w : Width) (m : Mem) (sum a : Slice) (hl : w.bytes ≤ sum.len)
    (ha : a.len = 0 ∨ w.bytes ≤ a.len ∨ a.base ≠ sum.base) :
    ∃ m' c, AddLE w m sum a sum = .ok (m', c, false) ∧
      leVal ((firstN sum w.bytes).content m') = 2 * leVal ((a.content m).take w.bytes) % 2 ^ (8 * w.bytes) ∧
      c.toNat = 2 * leVal ((a.content m).take w.bytes) / 2 ^ (8 * w.bytes) := by
  obtain ⟨m', c, e, h1, h2⟩ := C79_le_ahead w m sum a sum hl (.inl (le_refl _))
  rw [take_content, stored_valLE m sum a _ hl ha] at h1 h2
  rw [Nat.two_mul]
  exact ⟨m', c, e, h1, h2⟩

/-- **C80** `AddNBE(sum, a, sum[0:N/8])` likewise. -/
theorem C80_be_exact (w : Width) (m : Mem) (sum a : Slice) (hl : w.bytes ≤ sum.len)
    (ha : (firstN sum (w.bytes - a.len)).Disjoint a) :
    ∃ m' c, AddBE w m sum a (firstN sum w.bytes) = .ok (m', c, false) ∧
      beVal ((firstN sum w.bytes).content m') = 2 * beVal ((a.content m).take w.bytes) % 2 ^ (8 * w.bytes) ∧
      c.toNat = 2 * beVal ((a.content m).take w.bytes) / 2 ^ (8 * w.bytes) := by
  obtain ⟨m', c, e, h1, h2⟩ := C79_be_ahead w m sum a (firstN sum w.bytes) hl (by show min _ _ ≤ _; omega)
    (.inl (by show sum.base + min _ _ ≤ _; omega))
  rw [stored_valBE m sum a _ hl ha] at h1 h2
  rw [Nat.two_mul]
  exact ⟨m', c, e, h1, h2⟩

/-- **C80** (partial) Adding into the second operand gives the sum of `a` and of what `sum` held exactly when the two were equal;
the property itself, the right sum for all operands, fails (`C80_not`). Little-endian. -/
theorem C80_le_partial (w : Width) (m : Mem) (sum a : Slice) (hl : w.bytes ≤ sum.len)
    (ha : a.len = 0 ∨ w.bytes ≤ a.len ∨ a.base ≠ sum.base) (m' : Mem) (c : U8) (e : AddLE w m sum a sum = .ok (m', c, false)) :
    leVal ((firstN sum w.bytes).content m') =
      (leVal ((a.content m).take w.bytes) + leVal ((firstN sum w.bytes).content m)) % 2 ^ (8 * w.bytes) ↔
    leVal ((a.content m).take w.bytes) = leVal ((firstN sum w.bytes).content m) := by
  obtain ⟨m1, c1, e1, h1, -⟩ := C80_le_exact w m sum a hl ha
  rw [e] at e1
  cases e1
  rw [h1, Nat.two_mul, ← take_content]
  exact two_mod (leVal_take_lt _ _) (leVal_take_lt _ _)

/-- **C80** (partial) The same for big-endian. -/
theorem C80_be_partial (w : Width) (m : Mem) (sum a : Slice) (hl : w.bytes ≤ sum.len)
    (ha : (firstN sum (w.bytes - a.len)).Disjoint a) (m' : Mem) (c : U8)
    (e : AddBE w m sum a (firstN sum w.bytes) = .ok (m', c, false)) :
    beVal ((firstN sum w.bytes).content m') =
      (beVal ((a.content m).take w.bytes) + beVal ((firstN sum w.bytes).content m)) % 2 ^ (8 * w.bytes) ↔
    beVal ((a.content m).take w.bytes) = beVal ((firstN sum w.bytes).content m) := by
  obtain ⟨m1, c1, e1, h1, -⟩ := C80_be_exact w m sum a hl ha
  rw [e] at e1
  cases e1
  rw [h1, Nat.two_mul, take_content]
  exact two_mod (beVal_first_lt _ _ _) (beVal_first_lt _ _ _)

/-- **C80** The property fails in both byte orders: with `sum` zero and `a` one (64 bits), `AddN(sum, a, sum)` leaves two. -/
theorem C80_not :
    ¬ (∀ (w : Width) (m : Mem) (sum a : Slice), w.bytes ≤ sum.len → sum.Disjoint a →
      ∃ m' c, AddLE w m sum a sum = .ok (m', c, false) ∧ leVal ((firstN sum w.bytes).content m') =
        (leVal ((a.content m).take w.bytes) + leVal ((firstN sum w.bytes).content m)) % 2 ^ (8 * w.bytes)) ∧
    ¬ (∀ (w : Width) (m : Mem) (sum a : Slice), w.bytes = sum.len → sum.Disjoint a →
      ∃ m' c, AddBE w m sum a sum = .ok (m', c, false) ∧ beVal ((firstN sum w.bytes).content m') =
        (beVal ((a.content m).take w.bytes) + beVal ((firstN sum w.bytes).content m)) % 2 ^ (8 * w.bytes)) := by
  have hd : (⟨100, 8⟩ : Slice).Disjoint ⟨0, 1⟩ := by
    intro x hx
    simp only [Slice.Has] at hx
    omega
  constructor
  · intro h
    obtain ⟨m', c, e, h1⟩ := h .w64 (fun x => if x = 0 then 1#8 else 0#8) ⟨100, 8⟩ ⟨0, 1⟩ (by decide) hd
    have := (C80_le_partial .w64 _ _ _ (by decide) (.inr (.inr (by decide))) m' c e).1 h1
    revert this
    decide +kernel
  · intro h
    obtain ⟨m', c, e, h1⟩ := h .w64 (fun x => if x = 0 then 1#8 else 0#8) ⟨100, 8⟩ ⟨0, 1⟩ (by decide) hd
    have := (C80_be_partial .w64 (fun x => if x = 0 then 1#8 else 0#8) ⟨100, 8⟩ ⟨0, 1⟩ (by decide) (by
      intro x hx
      simp only [Slice.Has, firstN, Width.bytes] at hx
      omega) m' c e).1 h1
    revert this
    decide +kernel

/-- `sum` zero, `a` one: the code leaves two, in both byte orders. -/
example : (match AddLE .w64 (fun x => if x = 0 then 1#8 else 0#8) ⟨100, 8⟩ ⟨0, 1⟩ ⟨100, 8⟩ with
      | .ok (m', _, _) => (⟨100, 8⟩ : Slice).content m' | .panic => []) = [2, 0, 0, 0, 0, 0, 0, 0] ∧
    (match AddBE .w64 (fun x => if x = 0 then 1#8 else 0#8) ⟨100, 8⟩ ⟨0, 1⟩ ⟨100, 8⟩ with
      | .ok (m', _, _) => (⟨100, 8⟩ : Slice).content m' | .panic => []) = [0, 0, 0, 0, 0, 0, 0, 2] := by
  decide +kernel

/-- Equal operands, 7 and 7: here the right sum is left. -/
example : Width.w64.bytes ≤ (⟨100, 8⟩ : Slice).len ∧ (⟨0, 1⟩ : Slice).base ≠ (⟨100, 8⟩ : Slice).base ∧
    leVal (((⟨0, 1⟩ : Slice).content (fun x => if x = 0 ∨ x = 100 then 7#8 else 0#8)).take 8) =
      leVal ((firstN ⟨100, 8⟩ 8).content (fun x => if x = 0 ∨ x = 100 then 7#8 else 0#8)) := by
  decide +kernel

/-- `b` four bytes before `sum`: the first word of `b` (5) is outside, its second word is the first word of `sum`, read as the result
1 + 5 = 6 and not as 1, so the second word is 2 + 6. -/
example : (match AddLE .w64 (fun x => if x = 0 then 1#8 else if x = 4 then 2#8 else if x = 96 then 5#8 else 0#8)
      ⟨100, 8⟩ ⟨0, 8⟩ ⟨96, 8⟩ with
      | .ok (m', _, _) => (⟨100, 8⟩ : Slice).content m' | .panic => []) = [6, 0, 0, 0, 8, 0, 0, 0] := by
  decide +kernel

/-- The mirror image for big-endian: `b` four bytes after `sum`. -/
example : (match AddBE .w64 (fun x => if x = 7 then 1#8 else if x = 3 then 2#8 else if x = 111 then 5#8 else 0#8)
      ⟨100, 8⟩ ⟨0, 8⟩ ⟨104, 8⟩ with
      | .ok (m', _, _) => (⟨100, 8⟩ : Slice).content m' | .panic => []) = [0, 0, 0, 8, 0, 0, 0, 6] := by
  decide +kernel

/-- The layouts of the two examples above meet the hypothesis of `C79_le` and `C79_be` but no disjointness. -/
example : Width.w64.bytes ≤ (⟨100, 8⟩ : Slice).len ∧ ¬ (firstN ⟨100, 8⟩ 8).Disjoint ⟨96, 8⟩ ∧
    ¬ (firstN ⟨100, 8⟩ 8).Disjoint ⟨104, 8⟩ := by
  refine ⟨by decide, fun h => h 100 ?_, fun h => h 104 ?_⟩ <;> simp [Slice.Has]

/-- `b` ahead of `sum` by one byte, overlapping it. -/
example : (⟨100, 8⟩ : Slice).base ≤ (⟨101, 8⟩ : Slice).base ∧
    (⟨99, 8⟩ : Slice).base + (⟨99, 8⟩ : Slice).len ≤ (⟨100, 8⟩ : Slice).base + Width.w64.bytes := by decide

end Bytes
