import Verif.Model.Whirlpool
import Verif.Spec.Whirlpool
import Verif.Lemmas.BlockHash
import Verif.Lemmas.Stream

/-! # Whirlpool: words, matrices and tables -/
namespace Whirlpool
open BlockHash BlockSpec WhirlpoolSpec

/-! ## Words and bytes -/

/-- Byte `j` of a word, most significant first. -/
def byteOf (w : U64) (j : Fin 8) : U8 := (w >>> (56 - 8 * j.val)).setWidth 8

/-- The word with given bytes. -/
def ofBytes (f : Fin 8 → U8) : U64 :=
  (f 0).setWidth 64 <<< 56 ||| (f 1).setWidth 64 <<< 48 ||| (f 2).setWidth 64 <<< 40 ||| (f 3).setWidth 64 <<< 32 |||
    (f 4).setWidth 64 <<< 24 ||| (f 5).setWidth 64 <<< 16 ||| (f 6).setWidth 64 <<< 8 ||| (f 7).setWidth 64

theorem or_shift' (x y n : Nat) (hx : x < 2 ^ n) : (y <<< n) ||| x = x + 2 ^ n * y := by
  rw [Nat.or_comm]; exact Bits.or_shift x y n hx

theorem ofBytes_toNat (f : Fin 8 → U8) : (ofBytes f).toNat = (f 0).toNat * 2 ^ 56 + (f 1).toNat * 2 ^ 48 + (f 2).toNat * 2 ^ 40 +
    (f 3).toNat * 2 ^ 32 + (f 4).toNat * 2 ^ 24 + (f 5).toNat * 2 ^ 16 + (f 6).toNat * 2 ^ 8 + (f 7).toNat := by
  have h0 := (f 0).isLt
  have h1 := (f 1).isLt
  have h2 := (f 2).isLt
  have h3 := (f 3).isLt
  have h4 := (f 4).isLt
  have h5 := (f 5).isLt
  have h6 := (f 6).isLt
  have h7 := (f 7).isLt
  unfold ofBytes
  generalize f 0 = b0 at *
  generalize f 1 = b1 at *
  generalize f 2 = b2 at *
  generalize f 3 = b3 at *
  generalize f 4 = b4 at *
  generalize f 5 = b5 at *
  generalize f 6 = b6 at *
  generalize f 7 = b7 at *
  have key : ∀ (b : U8) (n : Nat), n ≤ 56 → (b.setWidth 64 <<< n : U64).toNat = b.toNat <<< n := by
    intro b n hn
    have hb := b.isLt
    rw [BitVec.toNat_shiftLeft, BitVec.toNat_setWidth, Nat.mod_eq_of_lt (a := b.toNat) (by omega), Nat.mod_eq_of_lt]
    rw [Nat.shiftLeft_eq]
    calc b.toNat * 2 ^ n < 2 ^ 8 * 2 ^ n := Nat.mul_lt_mul_of_pos_right hb (Nat.pow_pos (by omega))
      _ = 2 ^ (8 + n) := (Nat.pow_add _ _ _).symm
      _ ≤ 2 ^ 64 := Nat.pow_le_pow_right (by omega) (by omega)
  simp only [BitVec.or_assoc]
  simp only [BitVec.toNat_or, key _ 56 (by omega), key _ 48 (by omega), key _ 40 (by omega), key _ 32 (by omega),
    key _ 24 (by omega), key _ 16 (by omega), key _ 8 (by omega)]
  rw [BitVec.toNat_setWidth, Nat.mod_eq_of_lt (a := b7.toNat) (by omega)]
  rw [or_shift' _ _ 8 (by omega), or_shift' _ _ 16 (by omega), or_shift' _ _ 24 (by omega), or_shift' _ _ 32 (by omega),
    or_shift' _ _ 40 (by omega), or_shift' _ _ 48 (by omega), or_shift' _ _ 56 (by omega)]
  omega

theorem byteOf_ofBytes (f : Fin 8 → U8) (j : Fin 8) : byteOf (ofBytes f) j = f j := by
  have h := ofBytes_toNat f
  have h0 := (f 0).isLt
  have h1 := (f 1).isLt
  have h2 := (f 2).isLt
  have h3 := (f 3).isLt
  have h4 := (f 4).isLt
  have h5 := (f 5).isLt
  have h6 := (f 6).isLt
  have h7 := (f 7).isLt
  apply BitVec.eq_of_toNat_eq
  rw [byteOf, BitVec.toNat_setWidth, BitVec.toNat_ushiftRight, h, Nat.shiftRight_eq_div_pow]
  match j with
  | 0 => simp only [Fin.isValue, Fin.val_zero]; omega
  | 1 => show _ / 2 ^ 48 % 2 ^ 8 = _; omega
  | 2 => show _ / 2 ^ 40 % 2 ^ 8 = _; omega
  | 3 => show _ / 2 ^ 32 % 2 ^ 8 = _; omega
  | 4 => show _ / 2 ^ 24 % 2 ^ 8 = _; omega
  | 5 => show _ / 2 ^ 16 % 2 ^ 8 = _; omega
  | 6 => show _ / 2 ^ 8 % 2 ^ 8 = _; omega
  | 7 => show _ / 2 ^ 0 % 2 ^ 8 = _; omega

theorem byteOf_toNat (w : U64) (j : Fin 8) : (byteOf w j).toNat = w.toNat / 2 ^ (56 - 8 * j.val) % 2 ^ 8 := by
  rw [byteOf, BitVec.toNat_setWidth, BitVec.toNat_ushiftRight, Nat.shiftRight_eq_div_pow]

theorem ext_bytes {a b : U64} (h : ∀ j, byteOf a j = byteOf b j) : a = b := by
  have key : ∀ j : Fin 8, a.toNat / 2 ^ (56 - 8 * j.val) % 2 ^ 8 = b.toNat / 2 ^ (56 - 8 * j.val) % 2 ^ 8 := fun j => by
    rw [← byteOf_toNat, ← byteOf_toNat, h]
  have h0 : a.toNat / 2 ^ 56 % 2 ^ 8 = b.toNat / 2 ^ 56 % 2 ^ 8 := key 0
  have h1 : a.toNat / 2 ^ 48 % 2 ^ 8 = b.toNat / 2 ^ 48 % 2 ^ 8 := key 1
  have h2 : a.toNat / 2 ^ 40 % 2 ^ 8 = b.toNat / 2 ^ 40 % 2 ^ 8 := key 2
  have h3 : a.toNat / 2 ^ 32 % 2 ^ 8 = b.toNat / 2 ^ 32 % 2 ^ 8 := key 3
  have h4 : a.toNat / 2 ^ 24 % 2 ^ 8 = b.toNat / 2 ^ 24 % 2 ^ 8 := key 4
  have h5 : a.toNat / 2 ^ 16 % 2 ^ 8 = b.toNat / 2 ^ 16 % 2 ^ 8 := key 5
  have h6 : a.toNat / 2 ^ 8 % 2 ^ 8 = b.toNat / 2 ^ 8 % 2 ^ 8 := key 6
  have h7 : a.toNat / 2 ^ 0 % 2 ^ 8 = b.toNat / 2 ^ 0 % 2 ^ 8 := key 7
  have ha := a.isLt
  have hb := b.isLt
  apply BitVec.eq_of_toNat_eq
  omega

theorem byteOf_xor (a b : U64) (j : Fin 8) : byteOf (a ^^^ b) j = byteOf a j ^^^ byteOf b j := by
  simp only [byteOf, BitVec.ushiftRight_xor_distrib, BitVec.setWidth_xor]

/-! ## Matrices -/

theorem Mat.at_of (f : Fin 8 → Fin 8 → U8) (i j : Fin 8) : (Mat.of f).at i j = f i j := by
  simp [Mat.of, Mat.at]

theorem Mat.ext {a b : Mat} (h : ∀ i j, a.at i j = b.at i j) : a = b := by
  apply Vector.ext
  intro i hi
  apply Vector.ext
  intro j hj
  exact h ⟨i, hi⟩ ⟨j, hj⟩

theorem xorSum_eq (f : Fin 8 → U8) :
    xorSum f = f 0 ^^^ (f 1 ^^^ (f 2 ^^^ (f 3 ^^^ (f 4 ^^^ (f 5 ^^^ (f 6 ^^^ (f 7 ^^^ 0))))))) := rfl

/-- Row `i` as a word. -/
def row (m : Mat) (i : Fin 8) : U64 := ofBytes (m.at i)

/-- A matrix as the eight words of the code. -/
def emb (m : Mat) : List U64 := [row m 0, row m 1, row m 2, row m 3, row m 4, row m 5, row m 6, row m 7]

theorem emb_at (m : Mat) (i : Fin 8) : goIdx (emb m) i.val = .ok (row m i) := by
  match i with
  | 0 => rfl
  | 1 => rfl
  | 2 => rfl
  | 3 => rfl
  | 4 => rfl
  | 5 => rfl
  | 6 => rfl
  | 7 => rfl

theorem emb_ext {m : Mat} {w : Fin 8 → U64} (h : ∀ i j, byteOf (w i) j = m.at i j) :
    [w 0, w 1, w 2, w 3, w 4, w 5, w 6, w 7] = emb m := by
  have : ∀ i, w i = row m i := fun i => ext_bytes fun j => by rw [h, row, byteOf_ofBytes]
  simp only [emb, this]

/-! ## Tables -/

/-- The merged tables, entry by entry: the row S[x]·C, starting at column `t`. -/
theorem ct_eq : ct = (List.range 2048).map fun n =>
    ofBytes fun j => gfMul (S (BitVec.ofNat 8 n)) (cir (j - Fin.ofNat 8 (n / 256))) := by
  decide +kernel

theorem goIdx_range_map {α : Type} (f : Nat → α) {n i : Nat} (h : i < n) : goIdx ((List.range n).map f) i = .ok (f i) := by
  rw [goIdx_lt (by simpa using h)]
  simp

theorem ct_at (t : Fin 8) (x : U8) : goIdx ct (256 * t.val + x.toNat) = .ok (ofBytes fun j => gfMul (S x) (cir (j - t))) := by
  have hx := x.isLt
  have ht := t.isLt
  refine (congrArg (goIdx · (256 * t.val + x.toNat)) ct_eq).trans ((goIdx_range_map _ (by omega)).trans ?_)
  have e1 : BitVec.ofNat 8 (256 * t.val + x.toNat) = x := BitVec.eq_of_toNat_eq (by rw [BitVec.toNat_ofNat]; omega)
  have e2 : Fin.ofNat 8 ((256 * t.val + x.toNat) / 256) = t := by
    apply Fin.ext
    show (256 * t.val + x.toNat) / 256 % 8 = t.val
    omega
  rw [e1, e2]

theorem rc_at : ∀ r : Fin 10, goIdx rc r.val = .ok (ofBytes fun j => S (BitVec.ofNat 8 (8 * r.val + j.val))) := by
  decide +kernel

end Whirlpool
