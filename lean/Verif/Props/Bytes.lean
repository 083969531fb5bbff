import Verif.Lemmas.BytesAdd

/-! # Properties of package `bytes` (C25-C33) -/
namespace Bytes
open BytesSpec

/-! ## Little-endian addition -/

/-- The b operand survives padding and is read correctly. -/
theorem safeLE_of {sum b : Slice} {n : Nat} (hl : n ≤ sum.len) (hb : (firstN sum n).Disjoint (firstN b n)) : SafeLE sum b n := by
  intro i j hij hj hjb he
  apply hb (b.base + j)
  simp only [firstN, Slice.Has]
  omega

theorem digLE_of {m mp : Mem} {sum b : Slice} {n : Nat} (hf : OnlyOn (firstN sum n) m mp)
    (hb : (firstN sum n).Disjoint (firstN b n)) : ∀ i, i < n → digLE mp b i = digLE m b i := by
  intro i hi
  simp only [digLE]
  split
  · rename_i h
    apply hf
    intro hx
    apply hb _ ⟨hx, ?_⟩
    simp only [firstN, Slice.Has]
    omega
  · rfl

/-- **C25** `AddNLE(sum, a, b)`, for `sum` of at least N/8 bytes: `sum[0:N/8]` holds the low N bits of the sum of the numbers in
the first N/8 bytes of `a` and of `b` (fewer bytes are zero-extended), the carry is the rest, there is no error, nothing else is
written. `a` may overlap `sum` in any way, except as a shorter slice with the same start (see C30); the used bytes of `b`
must not overlap the written bytes of `sum`. -/
theorem C25_exact (w : Width) (m : Mem) (sum a b : Slice) (hl : w.bytes ≤ sum.len)
    (ha : a.len = 0 ∨ w.bytes ≤ a.len ∨ a.base ≠ sum.base) (hb : (firstN sum w.bytes).Disjoint (firstN b w.bytes)) :
    ∃ m' c, AddLE w m sum a b = .ok (m', c, false) ∧
      leVal ((firstN sum w.bytes).content m') =
        (leVal ((a.content m).take w.bytes) + leVal ((b.content m).take w.bytes)) % 2 ^ (8 * w.bytes) ∧
      c.toNat = (leVal ((a.content m).take w.bytes) + leVal ((b.content m).take w.bytes)) / 2 ^ (8 * w.bytes) ∧
      OnlyOn (firstN sum w.bytes) m m' := by
  obtain ⟨mp, hp, hd, hf⟩ := padLE_ok m sum a w.bytes (bytes_pos w) hl ha
  obtain ⟨m', c, e, hi⟩ := AddLE_core w hp hl (safeLE_of hl hb)
  obtain ⟨h1, h2⟩ := finLE hl hi hd (digLE_of hf hb)
  exact ⟨m', c, e, h1, h2, hf.trans' (Inv_frameLE hl hi)⟩

/-- 0xffff…ff + 1 in a 64-bit sum at address 100, operands elsewhere. -/
example : Width.w64.bytes ≤ (⟨100, 8⟩ : Slice).len ∧
    ((⟨0, 8⟩ : Slice).len = 0 ∨ Width.w64.bytes ≤ (⟨0, 8⟩ : Slice).len ∨ (⟨0, 8⟩ : Slice).base ≠ (⟨100, 8⟩ : Slice).base) ∧
    (firstN ⟨100, 8⟩ Width.w64.bytes).Disjoint (firstN ⟨50, 1⟩ Width.w64.bytes) ∧
    (leVal ((⟨0, 8⟩ : Slice).content (fun x => if x < 8 then 0xff#8 else 1#8)) +
      leVal ((⟨50, 1⟩ : Slice).content (fun x => if x < 8 then 0xff#8 else 1#8))) / 2 ^ 64 = 1 := by
  refine ⟨by decide, .inr (.inl (by decide)), ?_, by decide +kernel⟩
  intro x hx
  simp only [firstN, Slice.Has, Width.bytes] at hx
  omega

/-- **C25** The carry is 0 or 1. -/
theorem C25_carry (w : Width) (m : Mem) (sum a b : Slice) (hl : w.bytes ≤ sum.len)
    (ha : a.len = 0 ∨ w.bytes ≤ a.len ∨ a.base ≠ sum.base) (hb : (firstN sum w.bytes).Disjoint (firstN b w.bytes)) :
    ∃ m' c, AddLE w m sum a b = .ok (m', c, false) ∧ (c = 0#8 ∨ c = 1#8) := by
  obtain ⟨m', c, e, -, hc, -⟩ := C25_exact w m sum a b hl ha hb
  refine ⟨m', c, e, ?_⟩
  have h : c.toNat < 2 := by
    rw [hc, leVal_content, leVal_content, pow256, Nat.div_lt_iff_lt_mul (Nat.pow_pos (by omega))]
    have := val_lt (fun i => if i < a.len then m (a.base + i) else 0#8) w.bytes
    have := val_lt (fun i => if i < b.len then m (b.base + i) else 0#8) w.bytes
    omega
  rcases Nat.lt_or_ge c.toNat 1 with h1 | h1
  · exact .inl (BitVec.eq_of_toNat_eq (show c.toNat = 0 by omega))
  · exact .inr (BitVec.eq_of_toNat_eq (show c.toNat = 1 by omega))

/-- **C25** The unexported helper works for every size, not only the six used. -/
theorem C25_addAny (m : Mem) (sum a b : Slice) (n : Nat) (hn : 0 < n) (hl : n ≤ sum.len)
    (ha : a.len = 0 ∨ n ≤ a.len ∨ a.base ≠ sum.base) (hb : (firstN sum n).Disjoint (firstN b n)) :
    ∃ m' c, addAnyLE m sum a b n = .ok (m', c, false) ∧
      leVal ((firstN sum n).content m') = (leVal ((a.content m).take n) + leVal ((b.content m).take n)) % 2 ^ (8 * n) ∧
      c.toNat = (leVal ((a.content m).take n) + leVal ((b.content m).take n)) / 2 ^ (8 * n) := by
  obtain ⟨mp, hp, hd, hf⟩ := padLE_ok m sum a n hn hl ha
  obtain ⟨m', c, e, hi⟩ := addAnyLE_core hp hl (safeLE_of hl hb)
  exact ⟨m', c, e, finLE hl hi hd (digLE_of hf hb)⟩

/-- Seven bytes: one 32-bit, one 16-bit and one 8-bit step. -/
example : ∃ m' c, addAnyLE (fun x => if x < 7 then 0xff#8 else 1#8) ⟨100, 7⟩ ⟨0, 7⟩ ⟨50, 1⟩ 7 = .ok (m', c, false) ∧
    (⟨100, 7⟩ : Slice).content m' = List.replicate 7 0#8 ∧ c = 1#8 := by
  have h := C25_addAny (fun x => if x < 7 then 0xff#8 else 1#8) ⟨100, 7⟩ ⟨0, 7⟩ ⟨50, 1⟩ 7 (by omega) (by decide)
    (.inr (.inl (by decide))) (by intro x hx; simp only [firstN, Slice.Has] at hx; omega)
  obtain ⟨m', c, e, -, hc⟩ := h
  refine ⟨m', c, e, ?_, ?_⟩
  · have : (match addAnyLE (fun x => if x < 7 then 0xff#8 else 1#8) ⟨100, 7⟩ ⟨0, 7⟩ ⟨50, 1⟩ 7 with
      | .ok (m', _, _) => (⟨100, 7⟩ : Slice).content m' | .panic => []) = List.replicate 7 0#8 := by decide +kernel
    rwa [e] at this
  · apply BitVec.eq_of_toNat_eq; rw [hc]; decide +kernel

/-! ## Big-endian addition -/

theorem digBE_last (m : Mem) (b : Slice) (n : Nat) :
    val (digBE m b) n = beVal ((b.content m).drop (b.len - n)) := by
  have hc : (b.content m).drop (b.len - n) = (⟨b.base + (b.len - n), min n b.len⟩ : Slice).content m := by
    apply List.ext_getElem?
    intro i
    rw [List.getElem?_drop]
    simp only [Slice.content, List.getElem?_map]
    by_cases h : i < min n b.len
    · rw [List.getElem?_range h, List.getElem?_range (by omega)]
      simp [Nat.add_assoc]
    · rw [List.getElem?_eq_none (by simp; omega), List.getElem?_eq_none (by simp; omega)]
      rfl
  rw [hc, beVal_content _ _ n (by show min n b.len ≤ n; omega)]
  apply val_congr
  intro i hi
  simp only [digBE]
  by_cases h : i < b.len
  · rw [if_pos h, if_pos (by omega)]
    congr 1; omega
  · rw [if_neg h, if_neg (by omega)]

theorem effBE_sub (w : Width) (b : Slice) (x : Nat) (h : (effBE w b).Has x) : b.Has x := by
  cases w <;> simp only [effBE, firstN, Slice.Has] at h ⊢ <;> omega

theorem safeBE_of {sum b : Slice} {n k : Nat} (hl : n ≤ sum.len) (hk : n ≤ k) (hb : (firstN sum k).Disjoint b) : SafeBE sum b n := by
  intro i j hij hj hjb he
  apply hb (b.base + (b.len - 1 - j))
  simp only [firstN, Slice.Has]
  omega

theorem content_of {m mp : Mem} {s b : Slice} (hf : OnlyOn s m mp) (hb : s.Disjoint b) : b.content mp = b.content m := by
  simp only [Slice.content]
  apply List.map_congr_left
  intro i hi
  have hi := List.mem_range.mp hi
  apply hf
  intro hx
  exact hb _ ⟨hx, by simp only [Slice.Has]; omega⟩

/-- The general form: what `AddNBE` adds, for a `b` of any length. -/
theorem AddBE_general (w : Width) (m : Mem) (sum a b : Slice) (hl : w.bytes ≤ sum.len)
    (ha : (firstN sum (w.bytes - a.len)).Disjoint a) (hb : (firstN sum (max w.bytes a.len)).Disjoint (effBE w b)) :
    ∃ m' c, AddBE w m sum a b = .ok (m', c, false) ∧
      beVal ((firstN sum w.bytes).content m') = (beVal ((a.content m).take w.bytes) +
        beVal (((effBE w b).content m).drop ((effBE w b).len - w.bytes))) % 2 ^ (8 * w.bytes) ∧
      c.toNat = (beVal ((a.content m).take w.bytes) +
        beVal (((effBE w b).content m).drop ((effBE w b).len - w.bytes))) / 2 ^ (8 * w.bytes) ∧
      OnlyOn (firstN sum (max w.bytes a.len)) m m' := by
  obtain ⟨mp, hp, hd, hf⟩ := padBE_ok m sum a w.bytes hl ha
  obtain ⟨m', c, e, hi⟩ := AddBE_core w hp hl (safeBE_of hl (by omega) hb)
  have hB := digBE_last mp (effBE w b) w.bytes
  rw [content_of hf hb] at hB
  obtain ⟨h1, h2⟩ := finBE (m := m) hl hi hd hB
  refine ⟨m', c, e, h1, h2, hf.trans (Inv_frameBE hl hi) fun x hx => ?_⟩
  simp only [firstN, Slice.Has] at hx ⊢
  omega

theorem effBE_short (w : Width) (m : Mem) (b : Slice) (h : b.len ≤ w.bytes) :
    ((effBE w b).content m).drop ((effBE w b).len - w.bytes) = b.content m := by
  have he : effBE w b = b := by
    cases w
    · show (⟨b.base, min 2 b.len⟩ : Slice) = b
      rw [Nat.min_eq_right (show b.len ≤ 2 from h)]
    · show (⟨b.base, min 4 b.len⟩ : Slice) = b
      rw [Nat.min_eq_right (show b.len ≤ 4 from h)]
    all_goals rfl
  rw [he, Nat.sub_eq_zero_of_le h, List.drop_zero]

/-- **C26** `AddNBE(sum, a, b)`, for `sum` of at least N/8 bytes and `b` of at most N/8 bytes: `sum[0:N/8]` holds the low N bits
of the sum of the number in the first N/8 bytes of `a` and the number in `b`, the carry is the rest, there is no error.
`a`, when shorter than N/8, must not overlap the part of `sum` in front of the copy; `b` must not overlap the bytes
written. -/
theorem C26_exact (w : Width) (m : Mem) (sum a b : Slice) (hl : w.bytes ≤ sum.len) (hbl : b.len ≤ w.bytes)
    (ha : (firstN sum (w.bytes - a.len)).Disjoint a) (hb : (firstN sum (max w.bytes a.len)).Disjoint b) :
    ∃ m' c, AddBE w m sum a b = .ok (m', c, false) ∧
      beVal ((firstN sum w.bytes).content m') =
        (beVal ((a.content m).take w.bytes) + beVal (b.content m)) % 2 ^ (8 * w.bytes) ∧
      c.toNat = (beVal ((a.content m).take w.bytes) + beVal (b.content m)) / 2 ^ (8 * w.bytes) ∧
      OnlyOn (firstN sum (max w.bytes a.len)) m m' := by
  have := AddBE_general w m sum a b hl ha (fun x hx => hb x ⟨hx.1, effBE_sub w b x hx.2⟩)
  rwa [effBE_short w m b hbl] at this

example : Width.w32.bytes ≤ (⟨100, 4⟩ : Slice).len ∧ (⟨50, 3⟩ : Slice).len ≤ Width.w32.bytes ∧
    (firstN ⟨100, 4⟩ (Width.w32.bytes - (⟨0, 2⟩ : Slice).len)).Disjoint ⟨0, 2⟩ ∧
    (firstN ⟨100, 4⟩ (max Width.w32.bytes (⟨0, 2⟩ : Slice).len)).Disjoint ⟨50, 3⟩ := by
  refine ⟨by decide, by decide, ?_, ?_⟩ <;>
  · intro x hx
    simp only [firstN, Slice.Has, Width.bytes] at hx
    omega

/-! ## Over-long operands -/

/-- The claim C27 for one function: operands that agree on their first N/8 bytes give the same sum and carry. -/
def OnlyFirst (w : Width) (f : Mem → Slice → Slice → Slice → Res (Mem × U8 × Bool)) : Prop :=
  ∀ m sum a b a' b' m1 m2 c1 c2 e1 e2, w.bytes ≤ sum.len → sum.Disjoint a → sum.Disjoint b → sum.Disjoint a' → sum.Disjoint b' →
    (a.content m).take w.bytes = (a'.content m).take w.bytes → (b.content m).take w.bytes = (b'.content m).take w.bytes →
    f m sum a b = .ok (m1, c1, e1) → f m sum a' b' = .ok (m2, c2, e2) →
    (firstN sum w.bytes).content m1 = (firstN sum w.bytes).content m2 ∧ c1 = c2

theorem leVal_inj : ∀ {l l' : List U8}, l.length = l'.length → leVal l = leVal l' → l = l'
  | [], [], _, _ => rfl
  | x :: l, y :: l', hl, h => by
    have hx := x.isLt
    have hy := y.isLt
    simp only [leVal] at h
    have h1 : x.toNat = y.toNat := by omega
    have h2 : leVal l = leVal l' := by omega
    rw [BitVec.eq_of_toNat_eq h1, leVal_inj (by simpa using hl) h2]

theorem beVal_inj {l l' : List U8} (hl : l.length = l'.length) (h : beVal l = beVal l') : l = l' := by
  rw [beVal_eq, beVal_eq] at h
  exact List.reverse_inj.mp (leVal_inj (by simpa using hl) h)

theorem disjoint_firstN {s t : Slice} (n k : Nat) (h : s.Disjoint t) : (firstN s n).Disjoint (firstN t k) := by
  intro x hx
  apply h x
  simp only [firstN, Slice.Has] at hx ⊢
  omega

theorem disjoint_firstN' {s t : Slice} (n : Nat) (h : s.Disjoint t) : (firstN s n).Disjoint t := by
  intro x hx
  apply h x
  simp only [firstN, Slice.Has] at hx ⊢
  omega

theorem ne_base {s a : Slice} (h : s.Disjoint a) (h0 : 0 < s.len) (ha : 0 < a.len) : a.base ≠ s.base := by
  intro he
  apply h s.base
  simp only [Slice.Has]
  omega

/-- **C27** for the little-endian functions and for the two narrow big-endian ones.
Missing: `Add64BE` … `Add512BE`, where it is false, see `C27_false`. -/
theorem C27_first_partial (w : Width) : OnlyFirst w (AddLE w) ∧ (w = .w16 ∨ w = .w32 → OnlyFirst w (AddBE w)) := by
  constructor
  · intro m sum a b a' b' m1 m2 c1 c2 e1 e2 hl ha hb ha' hb' hta htb h1 h2
    have hw := bytes_pos w
    obtain ⟨n1, d1, q1, v1, k1, -⟩ := C25_exact w m sum a b hl
      (by rcases Nat.eq_zero_or_pos a.len with h | h; exact .inl h; exact .inr (.inr (ne_base ha (by omega) h)))
      (disjoint_firstN _ _ hb)
    obtain ⟨n2, d2, q2, v2, k2, -⟩ := C25_exact w m sum a' b' hl
      (by rcases Nat.eq_zero_or_pos a'.len with h | h; exact .inl h; exact .inr (.inr (ne_base ha' (by omega) h)))
      (disjoint_firstN _ _ hb')
    rw [h1] at q1
    rw [h2] at q2
    cases q1
    cases q2
    rw [hta, htb] at v1 k1
    exact ⟨leVal_inj (by rw [content_length, content_length]) (v1.trans v2.symm), BitVec.eq_of_toNat_eq (k1.trans k2.symm)⟩
  · intro hw m sum a b a' b' m1 m2 c1 c2 e1 e2 hl ha hb ha' hb' hta htb h1 h2
    have heff : ∀ b : Slice, effBE w b = firstN b w.bytes := by rcases hw with rfl | rfl <;> intro b <;> rfl
    have hcut : ∀ b : Slice, ((effBE w b).content m).drop ((effBE w b).len - w.bytes) = (b.content m).take w.bytes := by
      intro b
      rw [heff b, take_content, show (firstN b w.bytes).len - w.bytes = 0 by show min _ _ - _ = 0; omega, List.drop_zero]
    obtain ⟨n1, d1, q1, v1, k1, -⟩ := AddBE_general w m sum a b hl (disjoint_firstN' _ ha)
      (fun x hx => disjoint_firstN' _ hb x ⟨hx.1, effBE_sub w b x hx.2⟩)
    obtain ⟨n2, d2, q2, v2, k2, -⟩ := AddBE_general w m sum a' b' hl (disjoint_firstN' _ ha')
      (fun x hx => disjoint_firstN' _ hb' x ⟨hx.1, effBE_sub w b' x hx.2⟩)
    rw [h1] at q1
    rw [h2] at q2
    cases q1
    cases q2
    rw [hcut] at v1 k1 v2 k2
    rw [hta, htb] at v1 k1
    exact ⟨beVal_inj (by rw [content_length, content_length]) (v1.trans v2.symm), BitVec.eq_of_toNat_eq (k1.trans k2.symm)⟩

/-- Operands of different lengths with the same first 2 bytes. -/
example : (Slice.content (fun _ => 7#8) ⟨0, 5⟩).take Width.w16.bytes = (Slice.content (fun _ => 7#8) ⟨20, 2⟩).take Width.w16.bytes ∧
    (⟨100, 2⟩ : Slice).Disjoint ⟨0, 5⟩ ∧ (⟨100, 2⟩ : Slice).Disjoint ⟨20, 2⟩ := by
  refine ⟨by decide, ?_, ?_⟩ <;>
  · intro x hx
    simp only [Slice.Has] at hx
    omega

/-- **C27** What the wide big-endian functions do instead: `a` contributes its first N/8 bytes, `b` its *last* N/8 bytes. -/
theorem C27_be_wide (w : Width) (hw : w ≠ .w16 ∧ w ≠ .w32) (m : Mem) (sum a b : Slice) (hl : w.bytes ≤ sum.len)
    (ha : sum.Disjoint a) (hb : sum.Disjoint b) :
    ∃ m' c, AddBE w m sum a b = .ok (m', c, false) ∧
      beVal ((firstN sum w.bytes).content m') =
        (beVal ((a.content m).take w.bytes) + beVal ((b.content m).drop (b.len - w.bytes))) % 2 ^ (8 * w.bytes) ∧
      c.toNat = (beVal ((a.content m).take w.bytes) + beVal ((b.content m).drop (b.len - w.bytes))) / 2 ^ (8 * w.bytes) := by
  have heff : effBE w b = b := by
    obtain ⟨h1, h2⟩ := hw
    cases w
    · exact absurd rfl h1
    · exact absurd rfl h2
    all_goals rfl
  obtain ⟨m', c, e, h1, h2, -⟩ := AddBE_general w m sum a b hl (disjoint_firstN' _ ha)
    (fun x hx => disjoint_firstN' _ hb x ⟨hx.1, effBE_sub w b x hx.2⟩)
  rw [heff] at h1 h2
  exact ⟨m', c, e, h1, h2⟩

/-- **C27** is false for every wide big-endian function: with `b` one byte too long, its last byte counts. -/
theorem C27_false (w : Width) (hw : w ≠ .w16 ∧ w ≠ .w32) : ¬ OnlyFirst w (AddBE w) := by
  intro h
  -- `a` is empty, `b` is N/8+1 bytes at 0, all zero but the last, `b'` its first N/8 bytes
  have hb : (⟨100, w.bytes⟩ : Slice).Disjoint ⟨0, w.bytes + 1⟩ := by
    intro x hx
    simp only [Slice.Has] at hx
    cases w <;> simp only [Width.bytes] at hx <;> omega
  have hb' : (⟨100, w.bytes⟩ : Slice).Disjoint ⟨0, w.bytes⟩ := by
    intro x hx
    simp only [Slice.Has] at hx
    cases w <;> simp only [Width.bytes] at hx <;> omega
  have ha : (⟨100, w.bytes⟩ : Slice).Disjoint ⟨0, 0⟩ := by
    intro x hx
    simp only [Slice.Has] at hx
    omega
  obtain ⟨m1, c1, e1, v1, -⟩ := C27_be_wide w hw (fun x => if x = w.bytes then 1#8 else 0#8) ⟨100, w.bytes⟩ ⟨0, 0⟩ ⟨0, w.bytes + 1⟩
    (le_refl _) ha hb
  obtain ⟨m2, c2, e2, v2, -⟩ := C27_be_wide w hw (fun x => if x = w.bytes then 1#8 else 0#8) ⟨100, w.bytes⟩ ⟨0, 0⟩ ⟨0, w.bytes⟩
    (le_refl _) ha hb'
  have := (h _ _ _ _ _ _ _ _ _ _ _ _ (le_refl _) ha hb ha hb' rfl (by cases w <;> decide +kernel) e1 e2).1
  rw [this, v2] at v1
  revert v1
  cases w <;> decide +kernel

/-- Widths, and a `b` longer than the sum. -/
example : (Width.w128 ≠ .w16 ∧ Width.w128 ≠ .w32) ∧ (⟨100, 16⟩ : Slice).Disjoint ⟨0, 4⟩ ∧ (⟨100, 16⟩ : Slice).Disjoint ⟨10, 20⟩ := by
  refine ⟨by decide, ?_, ?_⟩ <;>
  · intro x hx
    simp only [Slice.Has] at hx
    omega

/-! ## Short sums -/

/-- **C28** For the functions with an explicit byte order and the platform functions of at least 64 bits: a `sum` that is too short
gives an error, and nothing is written. Missing: `Add16` and `Add32`, where it is false, see `C28_false`. -/
theorem C28_error_partial (w : Width) (m : Mem) (sum a b : Slice) (h : sum.len < w.bytes) :
    AddLE w m sum a b = .ok (m, 0#8, true) ∧ AddBE w m sum a b = .ok (m, 0#8, true) ∧
    (w ≠ .w16 ∧ w ≠ .w32 → ∀ little, Add w little m sum a b = .ok (m, 0#8, true)) := by
  refine ⟨AddLE_short w m sum a b h, AddBE_short w m sum a b h, fun hw little => ?_⟩
  have h1 := AddLE_short w m sum a b h
  have h2 := AddBE_short w m sum a b h
  cases w
  · exact absurd rfl hw.1
  · exact absurd rfl hw.2
  all_goals cases little <;> assumption

example : (⟨0, 7⟩ : Slice).len < Width.w64.bytes := by decide

/-- **C28** is false for `Add16` and `Add32`: they panic on every `sum` that is too short, on both platforms. -/
theorem C28_false (w : Width) (hw : w = .w16 ∨ w = .w32) (little : Bool) (m : Mem) (sum a b : Slice) (h : sum.len < w.bytes) :
    Add w little m sum a b = .panic := by
  rcases hw with rfl | rfl
  · have h : sum.len < 2 := h
    cases little
    · simp only [Add, Add16, padBE_short m sum a 2 h, Res.ok_bind, addEq16BE, beUint16, get_ge (show sum.len ≤ 1 by omega)]
      rfl
    · simp only [Add, Add16, padLE_short m sum a 2 h, Res.ok_bind, addEq16LE, leUint16, get_ge (show sum.len ≤ 1 by omega)]
      rfl
  · have h : sum.len < 4 := h
    cases little
    · simp only [Add, Add32, padBE_short m sum a 4 h, Res.ok_bind, addEq32BE, beUint32, get_ge (show sum.len ≤ 3 by omega)]
      rfl
    · simp only [Add, Add32, padLE_short m sum a 4 h, Res.ok_bind, addEq32LE, leUint32, get_ge (show sum.len ≤ 3 by omega)]
      rfl

example : (⟨0, 1⟩ : Slice).len < Width.w16.bytes ∧ (⟨0, 3⟩ : Slice).len < Width.w32.bytes := by decide

/-! ## What is written -/

/-- **C29** Whatever the overlaps of the three slices: no function panics on a long enough `sum`; the little-endian ones write only
`sum[0:N/8]`; the big-endian ones only `sum[0:max(N/8, len(a))]`, so the claim holds for them if `len(a) <= N/8` or
`len(sum) = N/8`. Missing: the big-endian functions with a longer `a` and a longer `sum`, where it is false, see `C29_false`. -/
theorem C29_frame_partial (w : Width) (m : Mem) (sum a b : Slice) (hl : w.bytes ≤ sum.len) :
    (∃ m' c, AddLE w m sum a b = .ok (m', c, false) ∧ OnlyOn (firstN sum w.bytes) m m') ∧
    (∃ m' c, AddBE w m sum a b = .ok (m', c, false) ∧ OnlyOn (firstN sum (max w.bytes a.len)) m m' ∧
      (a.len ≤ w.bytes ∨ sum.len = w.bytes → OnlyOn (firstN sum w.bytes) m m')) := by
  refine ⟨AddLE_any w m sum a b hl, ?_⟩
  obtain ⟨m', c, e, hf⟩ := AddBE_any w m sum a b hl
  refine ⟨m', c, e, hf, fun h x hx => hf x fun hh => hx ?_⟩
  simp only [firstN, Slice.Has] at hh ⊢
  omega

example : Width.w128.bytes ≤ (⟨100, 40⟩ : Slice).len := by decide

/-- **C29** is false for every big-endian function: with `len(a) = N/8+1` and `len(sum) = N/8+1`, the byte after the sum is
overwritten with the last byte of `a`. -/
theorem C29_false (w : Width) (m : Mem) (s t : Nat) (b : Slice) (hd : t + w.bytes < s ∨ s + w.bytes < t) (hv : m (t + w.bytes) ≠ m (s + w.bytes)) :
    ∃ m' c, AddBE w m ⟨s, w.bytes + 1⟩ ⟨t, w.bytes + 1⟩ b = .ok (m', c, false) ∧ m' (s + w.bytes) = m (t + w.bytes) ∧
      ¬ OnlyOn (firstN ⟨s, w.bytes + 1⟩ w.bytes) m m' := by
  have hl : w.bytes ≤ (⟨s, w.bytes + 1⟩ : Slice).len := Nat.le_succ _
  have hlong := padBE_long m ⟨s, w.bytes + 1⟩ ⟨t, w.bytes + 1⟩ w.bytes hl (Nat.le_succ _)
  -- the word additions stay below s + N/8
  have key : ∃ m' c, AddBE w m ⟨s, w.bytes + 1⟩ ⟨t, w.bytes + 1⟩ b = .ok (m', c, false) ∧
      OnlyOn (firstN ⟨s, w.bytes + 1⟩ w.bytes) (Slice.copy m ⟨s, w.bytes + 1⟩ ⟨t, w.bytes + 1⟩) m' := by
    have hempty : ∀ mp, padBE mp ⟨s, w.bytes + 1⟩ ⟨s, w.bytes⟩ w.bytes = .ok (mp, false) := by
      intro mp
      rw [padBE_long mp _ _ _ hl (le_refl _)]
      congr 2
      funext x
      simp only [Slice.copy]
      split
      · congr 1; omega
      · rfl
    have hsame : AddBE w m ⟨s, w.bytes + 1⟩ ⟨t, w.bytes + 1⟩ b =
        AddBE w (Slice.copy m ⟨s, w.bytes + 1⟩ ⟨t, w.bytes + 1⟩) ⟨s, w.bytes + 1⟩ ⟨s, w.bytes⟩ b := by
      have h1 := hempty (Slice.copy m ⟨s, w.bytes + 1⟩ ⟨t, w.bytes + 1⟩)
      cases w <;> simp only [AddBE, Add16BE, Add32BE, Add64BE, Add128BE, Add256BE, Add512BE, addAnyBE, Width.bytes] at h1 hlong ⊢ <;>
        rw [h1, hlong]
    obtain ⟨m', c, e, hf⟩ := AddBE_any w (Slice.copy m ⟨s, w.bytes + 1⟩ ⟨t, w.bytes + 1⟩) ⟨s, w.bytes + 1⟩ ⟨s, w.bytes⟩ b hl
    exact ⟨m', c, hsame.trans e, by simpa using hf⟩
  obtain ⟨m', c, e, hf⟩ := key
  have hx : m' (s + w.bytes) = m (t + w.bytes) := by
    rw [hf (s + w.bytes) (by simp only [firstN, Slice.Has]; omega)]
    simp only [Slice.copy]
    rw [if_pos (by omega), Nat.add_sub_cancel_left]
  refine ⟨m', c, e, hx, fun h => ?_⟩
  have := h (s + w.bytes) (by simp only [firstN, Slice.Has]; omega)
  rw [hx] at this
  exact hv this

example : (0 + Width.w64.bytes < 100 ∨ 100 + Width.w64.bytes < 0) ∧
    (fun x => BitVec.ofNat 8 x : Mem) (0 + Width.w64.bytes) ≠ (fun x => BitVec.ofNat 8 x : Mem) (100 + Width.w64.bytes) := by decide

/-- **C29** What the big-endian functions write, whatever the overlaps: apart from `sum[0:N/8]` exactly the bytes
`sum[N/8:min(len(sum), len(a))]`, which become the bytes of `a` with those indices. -/
theorem C29_be_exact (w : Width) (m : Mem) (sum a b : Slice) (hl : w.bytes ≤ sum.len) :
    ∃ m' c, AddBE w m sum a b = .ok (m', c, false) ∧ ∀ x, ¬ (firstN sum w.bytes).Has x →
      m' x = if sum.base ≤ x ∧ x < sum.base + min sum.len a.len then m (a.base + (x - sum.base)) else m x := by
  rcases Nat.lt_or_ge w.bytes a.len with ha | ha
  · have hlong := padBE_long m sum a w.bytes hl (Nat.le_of_lt ha)
    have hself : ∀ mp, padBE mp sum ⟨sum.base, w.bytes⟩ w.bytes = .ok (mp, false) := by
      intro mp
      rw [padBE_long mp _ _ _ hl (le_refl _)]
      congr 2
      funext x
      simp only [Slice.copy]
      split
      · congr 1; omega
      · rfl
    have hsame : AddBE w m sum a b = AddBE w (Slice.copy m sum a) sum ⟨sum.base, w.bytes⟩ b := by
      have h1 := hself (Slice.copy m sum a)
      cases w <;> simp only [AddBE, Add16BE, Add32BE, Add64BE, Add128BE, Add256BE, Add512BE, addAnyBE, Width.bytes] at h1 hlong ⊢ <;>
        rw [h1, hlong]
    obtain ⟨m', c, e, hf⟩ := AddBE_any w (Slice.copy m sum a) sum ⟨sum.base, w.bytes⟩ b hl
    exact ⟨m', c, hsame.trans e, fun x hx => hf x (by simpa using hx)⟩
  · obtain ⟨m', c, e, hf⟩ := AddBE_any w m sum a b hl
    refine ⟨m', c, e, fun x hx => ?_⟩
    have hm : max w.bytes a.len = w.bytes := by omega
    rw [hm] at hf
    rw [hf x hx, if_neg]
    simp only [firstN, Slice.Has] at hx
    omega

/-- `sum` of 12 bytes, `a` of 10: bytes 8 and 9 of `sum` are overwritten. -/
example : Width.w64.bytes ≤ (⟨100, 12⟩ : Slice).len ∧ ¬ (firstN ⟨100, 12⟩ Width.w64.bytes).Has 109 ∧
    100 ≤ 109 ∧ 109 < 100 + min (⟨100, 12⟩ : Slice).len (⟨0, 10⟩ : Slice).len := by
  simp [firstN, Slice.Has, Width.bytes]

/-! ## In place -/

/-- **C30** `AddNLE(sum, sum, b)` and `AddNBE(sum, sum, b)` add `b` to `sum` (`b` of at most N/8 bytes, not overlapping).
Missing: `a` a shorter prefix of `sum`, where the claim is false, see `C30_prefix_le`, `C30_prefix_be`, `C30_false`. -/
theorem C30_inPlace_partial (w : Width) (m : Mem) (sum b : Slice) (hl : w.bytes ≤ sum.len) (hbl : b.len ≤ w.bytes)
    (hb : sum.Disjoint b) :
    (∃ m' c, AddLE w m sum sum b = .ok (m', c, false) ∧
      leVal ((firstN sum w.bytes).content m') =
        (leVal ((firstN sum w.bytes).content m) + leVal (b.content m)) % 2 ^ (8 * w.bytes) ∧
      c.toNat = (leVal ((firstN sum w.bytes).content m) + leVal (b.content m)) / 2 ^ (8 * w.bytes) ∧
      OnlyOn (firstN sum w.bytes) m m') ∧
    (∃ m' c, AddBE w m sum sum b = .ok (m', c, false) ∧
      beVal ((firstN sum w.bytes).content m') =
        (beVal ((firstN sum w.bytes).content m) + beVal (b.content m)) % 2 ^ (8 * w.bytes) ∧
      c.toNat = (beVal ((firstN sum w.bytes).content m) + beVal (b.content m)) / 2 ^ (8 * w.bytes) ∧
      OnlyOn (firstN sum w.bytes) m m') := by
  constructor
  · have := C25_exact w m sum sum b hl (.inr (.inl hl)) (disjoint_firstN _ _ hb)
    rwa [take_content, List.take_of_length_le (l := b.content m) (by rw [content_length]; exact hbl)] at this
  · have hself : Slice.copy m sum sum = m := by
      funext x
      simp only [Slice.copy]
      split
      · congr 1; omega
      · rfl
    have hp : padBE m sum sum w.bytes = .ok (m, false) := by rw [padBE_long m sum sum _ hl hl, hself]
    have hb' : sum.Disjoint (effBE w b) := fun x hx => hb x ⟨hx.1, effBE_sub w b x hx.2⟩
    have hb'' := disjoint_firstN' w.bytes hb'
    obtain ⟨m', c, e, hi⟩ := AddBE_core w hp hl (safeBE_of hl (le_refl _) hb'')
    have hB := digBE_last m (effBE w b) w.bytes
    rw [effBE_short w m b hbl] at hB
    have hA : val (fun i => m (sum.base + (w.bytes - 1 - i))) w.bytes = beVal ((firstN sum w.bytes).content m) := by
      rw [beVal_content _ _ w.bytes (by show min _ _ ≤ _; omega)]
      apply val_congr
      intro i hi
      have hmin : (firstN sum w.bytes).len = w.bytes := by show min w.bytes sum.len = w.bytes; omega
      rw [hmin, if_pos hi]
    obtain ⟨h1, h2⟩ := finBE (m := m) hl hi hA hB
    exact ⟨m', c, e, h1, h2, Inv_frameBE hl hi⟩

example : Width.w256.bytes ≤ (⟨0, 32⟩ : Slice).len ∧ (⟨50, 1⟩ : Slice).len ≤ Width.w256.bytes ∧ (⟨0, 32⟩ : Slice).Disjoint ⟨50, 1⟩ := by
  refine ⟨by decide, by decide, ?_⟩
  intro x hx
  simp only [Slice.Has] at hx
  omega

/-- **C30** All three the same: `AddNLE(x, x, x)` doubles (so does `AddNBE` for an exact length). -/
theorem C30_double (w : Width) (m : Mem) (sum : Slice) (hl : w.bytes ≤ sum.len) :
    (∃ m' c, AddLE w m sum sum sum = .ok (m', c, false) ∧
      leVal ((firstN sum w.bytes).content m') = (2 * leVal ((firstN sum w.bytes).content m)) % 2 ^ (8 * w.bytes) ∧
      c.toNat = (2 * leVal ((firstN sum w.bytes).content m)) / 2 ^ (8 * w.bytes)) ∧
    (sum.len = w.bytes → ∃ m' c, AddBE w m sum sum sum = .ok (m', c, false) ∧
      beVal ((firstN sum w.bytes).content m') = (2 * beVal ((firstN sum w.bytes).content m)) % 2 ^ (8 * w.bytes) ∧
      c.toNat = (2 * beVal ((firstN sum w.bytes).content m)) / 2 ^ (8 * w.bytes)) := by
  constructor
  · have hp := padLE_same m sum sum w.bytes hl (by have := bytes_pos w; omega) (bytes_pos w) rfl
    obtain ⟨m', c, e, hi⟩ := AddLE_core (b := sum) w hp hl (fun i j hij _ _ => by omega)
    have h := finLE (a := sum) hl hi (fun i hi => by rw [digLE, if_pos (by omega)]) (fun i _ => rfl)
    rw [take_content, ← Nat.two_mul] at h
    exact ⟨m', c, e, h⟩
  · intro hlen
    have hself : Slice.copy m sum sum = m := by
      funext x
      simp only [Slice.copy]
      split
      · congr 1; omega
      · rfl
    have hp : padBE m sum sum w.bytes = .ok (m, false) := by rw [padBE_long m sum sum _ hl hl, hself]
    have heff : effBE w sum = sum := by
      cases w
      · show (⟨sum.base, min 2 sum.len⟩ : Slice) = sum
        rw [Nat.min_eq_right (show sum.len ≤ 2 by rw [hlen]; decide)]
      · show (⟨sum.base, min 4 sum.len⟩ : Slice) = sum
        rw [Nat.min_eq_right (show sum.len ≤ 4 by rw [hlen]; decide)]
      all_goals rfl
    obtain ⟨m', c, e, hi⟩ := AddBE_core (b := sum) w hp hl (by rw [heff]; intro i j hij h1 h2; omega)
    have hfirst : firstN sum w.bytes = sum := by show (⟨sum.base, min w.bytes sum.len⟩ : Slice) = sum; rw [hlen, Nat.min_self, ← hlen]
    have hB := digBE_last m (effBE w sum) w.bytes
    rw [effBE_short w m sum (by omega)] at hB
    have hA : val (fun i => m (sum.base + (w.bytes - 1 - i))) w.bytes = beVal (sum.content m) := by
      rw [beVal_content _ _ w.bytes (by omega)]
      apply val_congr
      intro i hi
      rw [hlen, if_pos hi]
    have h := finBE (m := m) hl hi hA hB
    rw [← Nat.two_mul, hfirst] at h
    rw [hfirst]
    exact ⟨m', c, e, h⟩

example : Width.w64.bytes ≤ (⟨0, 8⟩ : Slice).len ∧ (⟨0, 8⟩ : Slice).len = Width.w64.bytes := by decide

/-- **C30** With `a` a non-empty prefix of `sum`, the little-endian functions ignore its length: all of `sum` is added. -/
theorem C30_prefix_le (w : Width) (m : Mem) (sum b : Slice) (k : Nat) (hk : 0 < k) :
    AddLE w m sum ⟨sum.base, k⟩ b = AddLE w m sum sum b := by
  rcases Nat.lt_or_ge sum.len w.bytes with h | h
  · rw [AddLE_short w _ _ _ _ h, AddLE_short w _ _ _ _ h]
  · have h1 := padLE_same m sum ⟨sum.base, k⟩ w.bytes h hk (bytes_pos w) rfl
    have h2 := padLE_same m sum sum w.bytes h (by have := bytes_pos w; omega) (bytes_pos w) rfl
    cases w <;> simp only [AddLE, Add16LE, Add32LE, Add64LE, Add128LE, Add256LE, Add512LE, addAnyLE, Width.bytes] at h1 h2 ⊢ <;>
      rw [h1, h2]

/-- **C30** With `a` a prefix of at most half of `sum[0:N/8]`, the big-endian functions lose it: the result is `b`. -/
theorem C30_prefix_be (w : Width) (m : Mem) (sum b : Slice) (k : Nat) (hk : 2 * k ≤ w.bytes) (hl : w.bytes ≤ sum.len)
    (hbl : b.len ≤ w.bytes) (hb : sum.Disjoint b) :
    ∃ m' c, AddBE w m sum ⟨sum.base, k⟩ b = .ok (m', c, false) ∧ beVal ((firstN sum w.bytes).content m') = beVal (b.content m) := by
  obtain ⟨mp, hp, hf⟩ := padBE_total m sum ⟨sum.base, k⟩ w.bytes hl
  have hpos := bytes_pos w
  have hf' : OnlyOn sum m mp := fun x hx => hf x fun hh => hx (by simp only [firstN, Slice.Has] at hh ⊢; omega)
  have hb' : sum.Disjoint (effBE w b) := fun x hx => hb x ⟨hx.1, effBE_sub w b x hx.2⟩
  obtain ⟨m', c, e, hi⟩ := AddBE_core (b := b) w hp hl (safeBE_of hl (le_refl _) (disjoint_firstN' w.bytes hb'))
  have hB := digBE_last mp (effBE w b) w.bytes
  rw [content_of hf' hb', effBE_short w m b hbl] at hB
  have hA : val (fun i => mp (sum.base + (w.bytes - 1 - i))) w.bytes = 0 := by
    have hz : ∀ i, i < w.bytes → mp (sum.base + (w.bytes - 1 - i)) = 0#8 := by
      intro i hi
      rw [padBE_eq m sum _ w.bytes hl] at hp
      have hp : Slice.copy _ _ _ = mp := (Prod.mk.inj (Res.ok.inj hp)).1
      rw [← hp]
      simp only [Slice.copy]
      by_cases h : i < k
      · rw [if_pos (by omega), if_pos (by omega)]
      · rw [if_neg (by omega), if_pos (by omega)]
    rw [val_congr (g := fun _ => 0#8) hz, val_zero_ext _ 0 _ (fun _ _ => rfl) (by omega)]; rfl
  obtain ⟨h1, -⟩ := finBE (m := m) hl hi hA hB
  refine ⟨m', c, e, h1.trans ?_⟩
  rw [Nat.zero_add, pow256]
  apply Nat.mod_eq_of_lt
  rw [beVal_content _ _ w.bytes hbl]
  exact val_lt _ _

example : 2 * 4 ≤ Width.w64.bytes ∧ Width.w64.bytes ≤ (⟨0, 9⟩ : Slice).len ∧ (⟨20, 8⟩ : Slice).len ≤ Width.w64.bytes ∧
    (⟨0, 9⟩ : Slice).Disjoint ⟨20, 8⟩ := by
  refine ⟨by decide, by decide, by decide, ?_⟩
  intro x hx
  simp only [Slice.Has] at hx
  omega

/-- **C30** is false for prefixes, in both byte orders: neither function adds the prefix's value to `b`. -/
theorem C30_false :
    (¬ ∀ (w : Width) (m : Mem) (sum b : Slice) (k : Nat), w.bytes ≤ sum.len → k < w.bytes → b.len ≤ w.bytes → sum.Disjoint b →
      ∃ m' c, AddLE w m sum ⟨sum.base, k⟩ b = .ok (m', c, false) ∧ leVal ((firstN sum w.bytes).content m') =
        (leVal ((⟨sum.base, k⟩ : Slice).content m) + leVal (b.content m)) % 2 ^ (8 * w.bytes)) ∧
    (¬ ∀ (w : Width) (m : Mem) (sum b : Slice) (k : Nat), w.bytes ≤ sum.len → k < w.bytes → b.len ≤ w.bytes → sum.Disjoint b →
      ∃ m' c, AddBE w m sum ⟨sum.base, k⟩ b = .ok (m', c, false) ∧ beVal ((firstN sum w.bytes).content m') =
        (beVal ((⟨sum.base, k⟩ : Slice).content m) + beVal (b.content m)) % 2 ^ (8 * w.bytes)) := by
  have hd : (⟨0, 2⟩ : Slice).Disjoint ⟨0, 0⟩ := by
    intro x hx
    simp only [Slice.Has] at hx
    omega
  constructor
  · intro h
    obtain ⟨m', c, e, hv⟩ := h .w16 (fun _ => 1#8) ⟨0, 2⟩ ⟨0, 0⟩ 1 (by decide) (by decide) (by decide) hd
    rw [C30_prefix_le _ _ _ _ _ (by omega)] at e
    obtain ⟨m2, c2, e2, hv2, -⟩ := (C30_inPlace_partial .w16 (fun _ => 1#8) ⟨0, 2⟩ ⟨0, 0⟩ (by decide) (by decide) hd).1
    rw [e] at e2
    cases e2
    rw [hv] at hv2
    revert hv2
    decide +kernel
  · intro h
    obtain ⟨m', c, e, hv⟩ := h .w16 (fun _ => 1#8) ⟨0, 2⟩ ⟨0, 0⟩ 1 (by decide) (by decide) (by decide) hd
    obtain ⟨m2, c2, e2, hv2⟩ := C30_prefix_be .w16 (fun _ => 1#8) ⟨0, 2⟩ ⟨0, 0⟩ 1 (by decide) (by decide) (by decide) hd
    rw [e] at e2
    cases e2
    rw [hv] at hv2
    revert hv2
    decide +kernel

/-! ## Platform functions -/

/-- **C31** `AddN` is `AddNLE` on a little-endian platform and `AddNBE` on a big-endian one, for all inputs if N is at least 64,
and for `sum` of at least N/8 bytes if N is 16 or 32. Missing: `Add16` and `Add32` with a short `sum`, where it is false, see
`C31_false`. -/
theorem C31_platform_partial (w : Width) (little : Bool) (m : Mem) (sum a b : Slice)
    (h : (w ≠ .w16 ∧ w ≠ .w32) ∨ w.bytes ≤ sum.len) :
    Add w little m sum a b = if little then AddLE w m sum a b else AddBE w m sum a b := by
  cases w
  · have hl : 2 ≤ sum.len := by rcases h with h | h; exact absurd rfl h.1; exact h
    cases little
    · obtain ⟨mp, hp, -⟩ := padBE_total m sum a 2 hl
      simp only [Add, Add16, AddBE, Add16BE, hp, Res.ok_bind, Bool.false_eq_true, if_false]
    · obtain ⟨mp, hp, -⟩ := padLE_total m sum a 2 (by omega) hl
      simp only [Add, Add16, AddLE, Add16LE, hp, Res.ok_bind, Bool.false_eq_true, if_false, if_true]
  · have hl : 4 ≤ sum.len := by rcases h with h | h; exact absurd rfl h.2; exact h
    cases little
    · obtain ⟨mp, hp, -⟩ := padBE_total m sum a 4 hl
      simp only [Add, Add32, AddBE, Add32BE, hp, Res.ok_bind, Bool.false_eq_true, if_false]
    · obtain ⟨mp, hp, -⟩ := padLE_total m sum a 4 (by omega) hl
      simp only [Add, Add32, AddLE, Add32LE, hp, Res.ok_bind, Bool.false_eq_true, if_false, if_true]
  all_goals cases little <;> rfl

example : (Width.w64 ≠ .w16 ∧ Width.w64 ≠ .w32) ∧ Width.w16.bytes ≤ (⟨0, 2⟩ : Slice).len := by decide

/-- **C31** is false for `Add16` and `Add32` on any `sum` that is too short: they panic where the others return an error. -/
theorem C31_false (w : Width) (hw : w = .w16 ∨ w = .w32) (little : Bool) (m : Mem) (sum a b : Slice) (h : sum.len < w.bytes) :
    Add w little m sum a b ≠ if little then AddLE w m sum a b else AddBE w m sum a b := by
  rw [C28_false w hw little m sum a b h, AddLE_short w m sum a b h, AddBE_short w m sum a b h]
  cases little <;> simp

example : (⟨0, 1⟩ : Slice).len < Width.w16.bytes := by decide

/-! ## Zero and XorEq -/

/-- **C32** `Zero` clears exactly its slice. -/
theorem C32_zero (m : Mem) (t : Slice) : (∀ x, t.Has x → Zero m t x = 0#8) ∧ OnlyOn t m (Zero m t) := by
  rw [Zero_eq]
  constructor
  · intro x hx; simp only; exact if_pos hx
  · intro x hx; simp only; exact if_neg hx

/-- Eleven bytes: one stride of eight and a tail. -/
example : (⟨0, 14⟩ : Slice).content (Zero (fun _ => 9#8) ⟨1, 11⟩) = [9, 0, 0, 0, 0, 0, 0, 0, 0, 0, 0, 0, 9, 9] := by decide +kernel

/-- What `XorEq` does when no byte of `other` is read after it was written: on slices that do not overlap, or start together, or
with `dst` starting before `other`. -/
theorem XorEq_eq (m : Mem) (dst other : Slice) (hs : dst.Disjoint other ∨ dst.base ≤ other.base) :
    XorEq m dst other = .ok ((fun x => if dst.base ≤ x ∧ x < dst.base + min dst.len other.len then
      m x ^^^ m (other.base + (x - dst.base)) else m x), min dst.len other.len) := by
  have hn : (if other.len < dst.len then other.len else dst.len) = min dst.len other.len := by split <;> omega
  have hl := xorLoop_eq dst other (min dst.len other.len) 0 m (by omega) (by omega) (by
    intro j l _ hjl hl he
    rcases hs with hs | hs
    · apply hs (dst.base + j)
      simp only [Slice.Has]
      omega
    · omega)
  simp only [XorEq, hn, hl, Res.ok_bind, Res.pure_eq, Nat.add_zero]

/-- **C33** `XorEq` returns the common length, xors that many bytes of `dst`, and leaves the rest of memory. The slices may
be disjoint, or overlap with `dst` not after `other`. -/
theorem C33_xor (m : Mem) (dst other : Slice) (hs : dst.Disjoint other ∨ dst.base ≤ other.base) :
    ∃ m', XorEq m dst other = .ok (m', min dst.len other.len) ∧
      (∀ i, i < min dst.len other.len → m' (dst.base + i) = m (dst.base + i) ^^^ m (other.base + i)) ∧
      OnlyOn (firstN dst other.len) m m' := by
  refine ⟨_, XorEq_eq m dst other hs, fun i hi => ?_, fun x hx => ?_⟩
  · show (if _ then _ else _) = _
    rw [if_pos (by omega), Nat.add_sub_cancel_left]
  · simp only [firstN, Slice.Has] at hx
    show (if _ then _ else _) = _
    rw [if_neg (by omega)]

example : (⟨0, 4⟩ : Slice).Disjoint ⟨10, 3⟩ ∧ ¬ (⟨0, 4⟩ : Slice).Disjoint ⟨2, 3⟩ ∧ (⟨0, 4⟩ : Slice).base ≤ (⟨2, 3⟩ : Slice).base := by
  refine ⟨fun x hx => ?_, fun h => ?_, by decide⟩
  · simp only [Slice.Has] at hx
    omega
  · apply h 2
    simp only [Slice.Has]
    omega

/-- **C33** Twice is the identity. -/
theorem C33_twice (m : Mem) (dst other : Slice) (hs : dst.Disjoint other) :
    ∃ m', XorEq m dst other = .ok (m', min dst.len other.len) ∧ XorEq m' dst other = .ok (m, min dst.len other.len) := by
  refine ⟨_, XorEq_eq m dst other (.inl hs), ?_⟩
  rw [XorEq_eq _ dst other (.inl hs)]
  congr 2
  funext x
  by_cases h : dst.base ≤ x ∧ x < dst.base + min dst.len other.len
  · have h' : ¬ (dst.base ≤ other.base + (x - dst.base) ∧
        other.base + (x - dst.base) < dst.base + min dst.len other.len) := by
      intro hh
      apply hs (other.base + (x - dst.base))
      simp only [Slice.Has]
      omega
    rw [if_pos h, if_pos h, if_neg h', BitVec.xor_assoc, BitVec.xor_self, BitVec.xor_zero]
  · rw [if_neg h, if_neg h]

example : ∃ m m', XorEq m ⟨0, 2⟩ ⟨2, 3⟩ = .ok (m', 2) ∧ (⟨0, 5⟩ : Slice).content m = [0, 1, 2, 3, 4] ∧
    (⟨0, 5⟩ : Slice).content m' = [2, 2, 2, 3, 4] :=
  ⟨fun x => BitVec.ofNat 8 x, _, rfl, by decide, by decide⟩

/-- **C33** `XorEq(x, x)` clears `x`. -/
theorem C33_self (m : Mem) (dst : Slice) : ∃ m', XorEq m dst dst = .ok (m', dst.len) ∧ (∀ x, dst.Has x → m' x = 0#8) ∧
    OnlyOn dst m m' := by
  have h := XorEq_eq m dst dst (.inr (le_refl _))
  rw [Nat.min_self] at h
  refine ⟨_, h, fun x hx => ?_, fun x hx => ?_⟩
  · simp only [Slice.Has] at hx
    show (if _ then _ else _) = _
    rw [if_pos hx, show dst.base + (x - dst.base) = x by omega, BitVec.xor_self]
  · simp only [Slice.Has] at hx
    show (if _ then _ else _) = _
    rw [if_neg hx]

/-- **C33** No layout panics, and only the common prefix of `dst` is ever written. -/
theorem C33_total (m : Mem) (dst other : Slice) :
    ∃ m', XorEq m dst other = .ok (m', min dst.len other.len) ∧ OnlyOn (firstN dst other.len) m m' := by
  have key : ∀ (k i : Nat) (m : Mem), i + k ≤ min dst.len other.len →
      ∃ m', xorLoop dst other k i m = .ok m' ∧ OnlyOn (firstN dst other.len) m m' := by
    intro k
    induction k with
    | zero => intro i m _; exact ⟨m, rfl, fun _ _ => rfl⟩
    | succ k ih =>
      intro i m h
      rw [xorLoop, get_lt (by omega), get_lt (by omega)]
      simp only [Res.ok_bind]
      rw [set_lt (by omega)]
      simp only [Res.ok_bind]
      obtain ⟨m', e, hf⟩ := ih (i + 1) (fun x => if x = dst.base + i then m (dst.base + i) ^^^ m (other.base + i) else m x) (by omega)
      refine ⟨m', e, fun x hx => ?_⟩
      rw [hf x hx]
      simp only [firstN, Slice.Has] at hx
      show (if _ then _ else _) = _
      rw [if_neg (by omega)]
  have hn : (if other.len < dst.len then other.len else dst.len) = min dst.len other.len := by split <;> omega
  obtain ⟨m', e, hf⟩ := key (min dst.len other.len) 0 m (by omega)
  exact ⟨m', by simp only [XorEq, hn, e, Res.ok_bind, Res.pure_eq], hf⟩

/-- **C33** Every layout: byte `i` of the result is byte `i` of `dst` xor the byte of `other` that stands there when the loop
reaches it, which is already the new one if it is one of the first `i` bytes of `dst`. -/
theorem C33_any (m : Mem) (dst other : Slice) : ∃ m', XorEq m dst other = .ok (m', min dst.len other.len) ∧
    (∀ i, i < min dst.len other.len → m' (dst.base + i) = m (dst.base + i) ^^^
      (if dst.base ≤ other.base + i ∧ other.base < dst.base then m' (other.base + i) else m (other.base + i))) ∧
    OnlyOn (firstN dst other.len) m m' := by
  have key : ∀ (k i : Nat) (m : Mem), i + k ≤ min dst.len other.len →
      ∃ m', xorLoop dst other k i m = .ok m' ∧
        (∀ j, i ≤ j → j < i + k → m' (dst.base + j) = m (dst.base + j) ^^^
          (if dst.base + i ≤ other.base + j ∧ other.base < dst.base then m' (other.base + j) else m (other.base + j))) ∧
        ∀ x, ¬ (dst.base + i ≤ x ∧ x < dst.base + (i + k)) → m' x = m x := by
    intro k
    induction k with
    | zero => intro i m _; exact ⟨m, rfl, fun j _ _ => by omega, fun _ _ => rfl⟩
    | succ k ih =>
      intro i m h
      rw [xorLoop, get_lt (by omega), get_lt (by omega)]
      simp only [Res.ok_bind]
      rw [set_lt (by omega)]
      simp only [Res.ok_bind]
      obtain ⟨m', e, hj, hf⟩ := ih (i + 1) (fun x => if x = dst.base + i then m (dst.base + i) ^^^ m (other.base + i) else m x) (by omega)
      refine ⟨m', e, fun j h1 h2 => ?_, fun x hx => ?_⟩
      · rcases Nat.eq_or_lt_of_le h1 with rfl | h1
        · rw [hf _ (by omega), if_pos rfl, if_neg (by omega)]
        · rw [hj j (by omega) (by omega), if_neg (by omega)]
          congr 1
          by_cases ho : other.base < dst.base
          · rcases Nat.lt_trichotomy (other.base + j) (dst.base + i) with hlt | heq | hgt
            · rw [if_neg (by omega), if_neg (by omega), if_neg (by omega)]
            · rw [if_neg (by omega), if_pos heq, if_pos (by omega), hf _ (by omega), if_pos heq]
            · rw [if_pos (by omega), if_pos (by omega)]
          · rw [if_neg (by omega), if_neg (by omega), if_neg (by omega)]
      · rw [hf x (by omega), if_neg (by omega)]
  have hn : (if other.len < dst.len then other.len else dst.len) = min dst.len other.len := by split <;> omega
  obtain ⟨m', e, hj, hf⟩ := key (min dst.len other.len) 0 m (by omega)
  refine ⟨m', by simp only [XorEq, hn, e, Res.ok_bind, Res.pure_eq], fun i hi => ?_, fun x hx => ?_⟩
  · have := hj i (by omega) (by omega)
    simpa using this
  · apply hf
    simp only [firstN, Slice.Has] at hx
    omega

/-- `dst` one byte after `other`: the result is the running xor. -/
example : ∃ m', XorEq (fun x => BitVec.ofNat 8 (2 ^ x)) ⟨1, 3⟩ ⟨0, 3⟩ = .ok (m', 3) ∧ (⟨0, 5⟩ : Slice).content m' = [1, 3, 7, 15, 16] :=
  ⟨_, rfl, by decide +kernel⟩

end Bytes
