import Verif.Props.Bytes
import Verif.Props.BytesAlias
import Mathlib.Data.Nat.ModEq
import Mathlib.Data.Nat.Prime.Basic

/-! # Package `bytes` against its documentation: end padding, the word helpers (C81, C82) -/
namespace Bytes
open BytesSpec

/-! ## C81: "zero padded (at the end)" -/

/-- Value of a big-endian operand as the comments of AddBE.go say it is used: cut to `n` bytes or zero padded at the end. -/
def docBE (n : Nat) (l : List U8) : Nat := beVal (l.take n ++ List.replicate (n - l.length) 0#8)

theorem beVal_zeros (k : Nat) : beVal (List.replicate k 0#8) = 0 := by
  induction k with
  | zero => rfl
  | succ k ih => rw [List.replicate_succ', beVal_append, ih]; rfl

theorem docBE_eq (n : Nat) (l : List U8) : docBE n l = beVal (l.take n) * 256 ^ (n - l.length) := by
  rw [docBE, beVal_append, beVal_zeros, List.length_replicate, Nat.add_zero]

theorem beVal_lt (l : List U8) : beVal l < 256 ^ l.length := by
  rw [beVal_eq, ← List.take_of_length_le (l := l.reverse) (i := l.length) (by simp), leVal_take]
  exact val_lt _ _

/-- Multiplying by a power of 256 changes a number modulo 256^n, unless the number is 0 there. -/
theorem shift_mod {n k A : Nat} (hA : A < 256 ^ n) (hk : 0 < k) : (A * 256 ^ k) % 256 ^ n = A % 256 ^ n ↔ A = 0 := by
  constructor
  · intro h
    have hp : 0 < 256 ^ k := Nat.pow_pos (by omega)
    have hd : 256 ^ n ∣ A * 256 ^ k - A := (Nat.modEq_iff_dvd' (Nat.le_mul_of_pos_right A hp)).1 h.symm
    have he : A * 256 ^ k - A = (256 ^ k - 1) * A := by rw [Nat.sub_mul, Nat.one_mul, Nat.mul_comm]
    have hc : Nat.Coprime (256 ^ n) (256 ^ k - 1) := by
      apply Nat.Coprime.pow_left
      obtain ⟨j, rfl⟩ := Nat.exists_eq_add_of_lt hk
      have : Nat.Coprime 256 (256 ^ (0 + j + 1) - 1) := by
        rw [show (256 : Nat) = 2 ^ 8 from rfl]
        apply Nat.Coprime.pow_left
        rw [Nat.coprime_two_left, Nat.odd_iff]
        have : (2 ^ 8) ^ (0 + j + 1) = 2 * (128 * (2 ^ 8) ^ j) := by rw [Nat.zero_add, pow_succ]; ring
        have hp : 0 < (2 ^ 8) ^ j := Nat.pow_pos (by omega)
        omega
      exact this
    rw [he] at hd
    exact Nat.eq_zero_of_dvd_of_lt (hc.dvd_of_dvd_mul_left hd) hA
  · rintro rfl; simp

theorem add_mod_right_iff {a b c M : Nat} : (a + c) % M = (b + c) % M ↔ a % M = b % M :=
  ⟨fun h => Nat.ModEq.add_right_cancel' c h, fun h => Nat.ModEq.add_right c h⟩

/-- **C81** (partial) The comments of AddBE.go say that shorter operands are zero padded at the end. For a short `a` and a `b` of full
length, the result is the documented one exactly when `a` has full length or is zero. The property itself, the documented result
for all operands, fails (`C81_not`): the code pads in front (C26). -/
theorem C81_a_partial (w : Width) (m : Mem) (sum a b : Slice) (hl : w.bytes ≤ sum.len) (hbl : b.len = w.bytes)
    (ha : (firstN sum (w.bytes - a.len)).Disjoint a) (hb : (firstN sum (max w.bytes a.len)).Disjoint b) (m' : Mem) (c : U8)
    (e : AddBE w m sum a b = .ok (m', c, false)) :
    beVal ((firstN sum w.bytes).content m') =
      (docBE w.bytes (a.content m) + docBE w.bytes (b.content m)) % 2 ^ (8 * w.bytes) ↔
    w.bytes ≤ a.len ∨ beVal (a.content m) = 0 := by
  obtain ⟨m1, c1, e1, h1, -⟩ := C26_exact w m sum a b hl (by omega) ha hb
  rw [e] at e1
  cases e1
  have hB : docBE w.bytes (b.content m) = beVal (b.content m) := by
    rw [docBE_eq, content_length, hbl, Nat.sub_self, pow_zero, Nat.mul_one,
      List.take_of_length_le (by rw [content_length]; omega)]
  rw [h1, hB, docBE_eq, content_length, add_mod_right_iff, pow256]
  rcases Nat.lt_or_ge a.len w.bytes with h | h
  · have ht : (a.content m).take w.bytes = a.content m := List.take_of_length_le (by rw [content_length]; omega)
    have hlt : beVal (a.content m) < 256 ^ w.bytes :=
      lt_of_lt_of_le (beVal_lt _) (Nat.pow_le_pow_right (by omega) (by rw [content_length]; omega))
    rw [ht, eq_comm, shift_mod hlt (by omega)]
    constructor
    · exact .inr
    · rintro (h' | h')
      · omega
      · exact h'
  · rw [show w.bytes - a.len = 0 by omega, pow_zero, Nat.mul_one]
    exact ⟨fun _ => .inl h, fun _ => rfl⟩

/-- **C81** (partial) The same for a short `b` and an `a` of full length. -/
theorem C81_b_partial (w : Width) (m : Mem) (sum a b : Slice) (hl : w.bytes ≤ sum.len) (hal : w.bytes ≤ a.len)
    (hbl : b.len ≤ w.bytes) (hb : (firstN sum a.len).Disjoint b) (m' : Mem) (c : U8)
    (e : AddBE w m sum a b = .ok (m', c, false)) :
    beVal ((firstN sum w.bytes).content m') =
      (docBE w.bytes (a.content m) + docBE w.bytes (b.content m)) % 2 ^ (8 * w.bytes) ↔
    b.len = w.bytes ∨ beVal (b.content m) = 0 := by
  obtain ⟨m1, c1, e1, h1, -⟩ := C26_exact w m sum a b hl hbl
    (by intro x hx; simp only [firstN, Slice.Has] at hx; omega) (by rwa [Nat.max_eq_right hal])
  rw [e] at e1
  cases e1
  have hA : docBE w.bytes (a.content m) = beVal ((a.content m).take w.bytes) := by
    rw [docBE_eq, content_length, show w.bytes - a.len = 0 by omega, pow_zero, Nat.mul_one]
  have ht : (b.content m).take w.bytes = b.content m := List.take_of_length_le (by rw [content_length]; omega)
  rw [h1, hA, docBE_eq, content_length, ht, Nat.add_comm, Nat.add_comm (beVal ((a.content m).take w.bytes)),
    add_mod_right_iff, pow256]
  have hlt : beVal (b.content m) < 256 ^ w.bytes :=
    lt_of_lt_of_le (beVal_lt _) (Nat.pow_le_pow_right (by omega) (by rw [content_length]; omega))
  rcases Nat.lt_or_ge b.len w.bytes with h | h
  · rw [eq_comm, shift_mod hlt (by omega)]
    constructor
    · exact .inr
    · rintro (h' | h')
      · omega
      · exact h'
  · rw [show w.bytes - b.len = 0 by omega, pow_zero, Nat.mul_one]
    exact ⟨fun _ => .inl (by omega), fun _ => rfl⟩

/-- **C81** The documented padding is not what the code does: 32 bits, `a` the single byte 1, `b` zero. -/
theorem C81_not :
    ¬ ∀ (w : Width) (m : Mem) (sum a b : Slice), w.bytes ≤ sum.len → a.len ≤ w.bytes → b.len ≤ w.bytes → sum.Disjoint a → sum.Disjoint b →
      ∃ m' c, AddBE w m sum a b = .ok (m', c, false) ∧ beVal ((firstN sum w.bytes).content m') =
        (docBE w.bytes (a.content m) + docBE w.bytes (b.content m)) % 2 ^ (8 * w.bytes) := by
  intro h
  obtain ⟨m', c, e, h1⟩ := h .w32 (fun x => if x = 0 then 1#8 else 0#8) ⟨100, 4⟩ ⟨0, 1⟩ ⟨50, 4⟩ (by decide) (by decide) (by decide)
    (by intro x hx; simp only [Slice.Has] at hx; omega) (by intro x hx; simp only [Slice.Has] at hx; omega)
  have := (C81_a_partial .w32 (fun x => if x = 0 then 1#8 else 0#8) ⟨100, 4⟩ ⟨0, 1⟩ ⟨50, 4⟩ (by decide) rfl
    (by intro x hx; simp only [firstN, Slice.Has, Width.bytes] at hx; omega)
    (by intro x hx; simp only [firstN, Slice.Has, Width.bytes] at hx; omega) m' c e).1 h1
  revert this
  decide +kernel

/-- The code's result and the documented operand of the witness: 00 00 00 01 against 01 00 00 00. -/
example : (match AddBE .w32 (fun x => if x = 0 then 1#8 else 0#8) ⟨100, 4⟩ ⟨0, 1⟩ ⟨50, 4⟩ with
      | .ok (m', _, _) => (⟨100, 4⟩ : Slice).content m' | .panic => []) = [0, 0, 0, 1] ∧
    docBE 4 [1#8] = 2 ^ 24 := by
  decide +kernel

/-! ## C82: the helpers that add one word -/

theorem wordLE {m m' : Mem} {sum b : Slice} {n : Nat} {c c' : U8} (hl : n ≤ sum.len)
    (h : Word m m' (fun i => sum.base + i) n (digLE m b) c c') :
    OnlyOn (firstN sum n) m m' ∧
    leVal ((firstN sum n).content m') = (leVal ((firstN sum n).content m) + leVal ((b.content m).take n) + c.toNat % 2) % 2 ^ (8 * n) ∧
    c'.toNat = (leVal ((firstN sum n).content m) + leVal ((b.content m).take n) + c.toNat % 2) / 2 ^ (8 * n) := by
  obtain ⟨T, hT, hw, hc⟩ := h
  rw [leVal_first _ _ _ hl, leVal_first _ _ _ hl, leVal_content, pow256]
  subst hT
  refine ⟨fun x hx => hw.2 x fun i hi e => hx ?_, val_of_Wrote hw, hc⟩
  subst e
  simp only [firstN, Slice.Has]
  omega

theorem wordBE {m m' : Mem} {sum b : Slice} {n : Nat} {c c' : U8} (hl : n ≤ sum.len)
    (h : Word m m' (fun i => sum.base + (n - 1 - i)) n (digBE m (firstN b n)) c c') :
    OnlyOn (firstN sum n) m m' ∧
    beVal ((firstN sum n).content m') = (beVal ((firstN sum n).content m) + beVal ((b.content m).take n) + c.toNat % 2) % 2 ^ (8 * n) ∧
    c'.toNat = (beVal ((firstN sum n).content m) + beVal ((b.content m).take n) + c.toNat % 2) / 2 ^ (8 * n) := by
  obtain ⟨T, hT, hw, hc⟩ := h
  rw [beVal_first _ _ _ hl, beVal_first _ _ _ hl, take_content, beVal_content _ _ n (by show min n b.len ≤ n; omega), pow256]
  subst hT
  refine ⟨fun x hx => hw.2 x fun i hi e => hx ?_, val_of_Wrote hw, hc⟩
  subst e
  simp only [firstN, Slice.Has]
  omega

/-- **C82** `addEq8(sum, b, carryBit)`: for every carry byte (only its lowest bit counts), every length of `b` and every overlap of
`b` and `sum`, the first byte of `sum` becomes the low 8 bits of the sum, the carry is the rest, nothing else is written; an empty
`sum` makes it panic. -/
theorem C82_8 (m : Mem) (sum b : Slice) (c : U8) :
    (1 ≤ sum.len → ∃ m' c', addEq8 m sum b c = .ok (m', c') ∧ OnlyOn (firstN sum 1) m m' ∧
      leVal ((firstN sum 1).content m') =
        (leVal ((firstN sum 1).content m) + leVal ((b.content m).take 1) + c.toNat % 2) % 2 ^ 8 ∧
      c'.toNat = (leVal ((firstN sum 1).content m) + leVal ((b.content m).take 1) + c.toNat % 2) / 2 ^ 8) ∧
    (sum.len < 1 → addEq8 m sum b c = .panic) := by
  constructor
  · intro hl
    obtain ⟨m', c', e, h⟩ := addEq8_eq m sum b c hl
    exact ⟨m', c', e, wordLE hl h⟩
  · intro hl
    rw [addEq8, Slice.get, if_neg (by omega)]; rfl

/-- **C82** `addEq16LE` and `addEq32LE` likewise; they panic exactly when `sum` has less than 2 and 4 bytes. -/
theorem C82_le (m : Mem) (sum b : Slice) (c : U8) :
    (2 ≤ sum.len → ∃ m' c', addEq16LE m sum b c = .ok (m', c') ∧ OnlyOn (firstN sum 2) m m' ∧
      leVal ((firstN sum 2).content m') =
        (leVal ((firstN sum 2).content m) + leVal ((b.content m).take 2) + c.toNat % 2) % 2 ^ 16 ∧
      c'.toNat = (leVal ((firstN sum 2).content m) + leVal ((b.content m).take 2) + c.toNat % 2) / 2 ^ 16) ∧
    (sum.len < 2 → addEq16LE m sum b c = .panic) ∧
    (4 ≤ sum.len → ∃ m' c', addEq32LE m sum b c = .ok (m', c') ∧ OnlyOn (firstN sum 4) m m' ∧
      leVal ((firstN sum 4).content m') =
        (leVal ((firstN sum 4).content m) + leVal ((b.content m).take 4) + c.toNat % 2) % 2 ^ 32 ∧
      c'.toNat = (leVal ((firstN sum 4).content m) + leVal ((b.content m).take 4) + c.toNat % 2) / 2 ^ 32) ∧
    (sum.len < 4 → addEq32LE m sum b c = .panic) := by
  refine ⟨fun hl => ?_, fun hl => ?_, fun hl => ?_, fun hl => ?_⟩
  · obtain ⟨m', c', e, h⟩ := addEq16LE_eq m sum b c hl
    exact ⟨m', c', e, wordLE hl h⟩
  · rw [addEq16LE, leUint16, Slice.get, if_neg (by omega)]; rfl
  · obtain ⟨m', c', e, h⟩ := addEq32LE_eq m sum b c hl
    exact ⟨m', c', e, wordLE hl h⟩
  · rw [addEq32LE, leUint32, Slice.get, if_neg (by omega)]; rfl

/-- **C82** `addEq16BE` and `addEq32BE`: `b`, cut to its first bytes, is used as the number it stands for. -/
theorem C82_be (m : Mem) (sum b : Slice) (c : U8) :
    (2 ≤ sum.len → ∃ m' c', addEq16BE m sum b c = .ok (m', c') ∧ OnlyOn (firstN sum 2) m m' ∧
      beVal ((firstN sum 2).content m') =
        (beVal ((firstN sum 2).content m) + beVal ((b.content m).take 2) + c.toNat % 2) % 2 ^ 16 ∧
      c'.toNat = (beVal ((firstN sum 2).content m) + beVal ((b.content m).take 2) + c.toNat % 2) / 2 ^ 16) ∧
    (sum.len < 2 → addEq16BE m sum b c = .panic) ∧
    (4 ≤ sum.len → ∃ m' c', addEq32BE m sum b c = .ok (m', c') ∧ OnlyOn (firstN sum 4) m m' ∧
      beVal ((firstN sum 4).content m') =
        (beVal ((firstN sum 4).content m) + beVal ((b.content m).take 4) + c.toNat % 2) % 2 ^ 32 ∧
      c'.toNat = (beVal ((firstN sum 4).content m) + beVal ((b.content m).take 4) + c.toNat % 2) / 2 ^ 32) ∧
    (sum.len < 4 → addEq32BE m sum b c = .panic) := by
  refine ⟨fun hl => ?_, fun hl => ?_, fun hl => ?_, fun hl => ?_⟩
  · obtain ⟨m', c', e, h⟩ := addEq16BE_eq m sum b c hl
    exact ⟨m', c', e, wordBE hl h⟩
  · rw [addEq16BE, beUint16, Slice.get, if_neg (by omega)]; rfl
  · obtain ⟨m', c', e, h⟩ := addEq32BE_eq m sum b c hl
    exact ⟨m', c', e, wordBE hl h⟩
  · rw [addEq32BE, beUint32, Slice.get, if_neg (by omega)]; rfl

/-- **C82** The carry returned by the helpers is 0 or 1. -/
theorem C82_carry (m m' : Mem) (sum b : Slice) (c c' : U8)
    (h : addEq8 m sum b c = .ok (m', c') ∨ addEq16LE m sum b c = .ok (m', c') ∨ addEq32LE m sum b c = .ok (m', c') ∨
      addEq16BE m sum b c = .ok (m', c') ∨ addEq32BE m sum b c = .ok (m', c')) : c' = 0#8 ∨ c' = 1#8 := by
  have key : ∀ (n : Nat) (addr : Nat → Nat) (g : Nat → U8), Word m m' addr n g c c' → c' = 0#8 ∨ c' = 1#8 := by
    rintro n addr g ⟨T, hT, -, hc⟩
    have h1 := val_lt (fun i => m (addr i)) n
    have h2 := val_lt g n
    have h3 : c'.toNat < 2 := by rw [hc, Nat.div_lt_iff_lt_mul (Nat.pow_pos (by omega))]; omega
    rcases Nat.lt_or_ge c'.toNat 1 with h1 | h1
    · exact .inl (BitVec.eq_of_toNat_eq (show c'.toNat = 0 by omega))
    · exact .inr (BitVec.eq_of_toNat_eq (show c'.toNat = 1 by omega))
  rcases h with h | h | h | h | h
  · by_cases hl : 1 ≤ sum.len
    · obtain ⟨_, _, e, hw⟩ := addEq8_eq m sum b c hl
      rw [h] at e; cases e; exact key _ _ _ hw
    · rw [(C82_8 m sum b c).2 (by omega)] at h; cases h
  · by_cases hl : 2 ≤ sum.len
    · obtain ⟨_, _, e, hw⟩ := addEq16LE_eq m sum b c hl
      rw [h] at e; cases e; exact key _ _ _ hw
    · rw [(C82_le m sum b c).2.1 (by omega)] at h; cases h
  · by_cases hl : 4 ≤ sum.len
    · obtain ⟨_, _, e, hw⟩ := addEq32LE_eq m sum b c hl
      rw [h] at e; cases e; exact key _ _ _ hw
    · rw [(C82_le m sum b c).2.2.2 (by omega)] at h; cases h
  · by_cases hl : 2 ≤ sum.len
    · obtain ⟨_, _, e, hw⟩ := addEq16BE_eq m sum b c hl
      rw [h] at e; cases e; exact key _ _ _ hw
    · rw [(C82_be m sum b c).2.1 (by omega)] at h; cases h
  · by_cases hl : 4 ≤ sum.len
    · obtain ⟨_, _, e, hw⟩ := addEq32BE_eq m sum b c hl
      rw [h] at e; cases e; exact key _ _ _ hw
    · rw [(C82_be m sum b c).2.2.2 (by omega)] at h; cases h

/-- The carry byte 0xfe counts as 0, 0xff as 1; `b` overlaps `sum`. -/
example : (match addEq32LE (fun _ => 0xff#8) ⟨10, 4⟩ ⟨12, 4⟩ 0xfe#8 with
      | .ok (m', c) => ((⟨10, 4⟩ : Slice).content m', c) | .panic => ([], 9)) = ([0xfe, 0xff, 0xff, 0xff], 1) ∧
    (match addEq16BE (fun _ => 0xff#8) ⟨10, 4⟩ ⟨11, 1⟩ 0xff#8 with
      | .ok (m', c) => ((⟨10, 4⟩ : Slice).content m', c) | .panic => ([], 9)) = ([0, 0xff, 0xff, 0xff], 1) ∧
    (match addEq8 (fun _ => 0xff#8) ⟨10, 1⟩ ⟨10, 1⟩ 3#8 with
      | .ok (m', c) => ((⟨10, 1⟩ : Slice).content m', c) | .panic => ([], 9)) = ([0xff], 1) := by
  decide +kernel

end Bytes
