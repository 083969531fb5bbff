import Verif.Lemmas.WhirlpoolTables

/-! # Whirlpool: the block cipher is invertible -/
namespace Whirlpool
open WhirlpoolSpec

/-! ## Field multiplication is linear -/

theorem xtime_xor : ∀ a b : U8, xtime (a ^^^ b) = xtime a ^^^ xtime b := by
  intro a b
  unfold xtime
  rw [BitVec.getLsbD_xor, BitVec.shiftLeft_xor_distrib]
  generalize a <<< 1 = x
  generalize b <<< 1 = y
  cases a.getLsbD 7 <;> cases b.getLsbD 7 <;> simp
  · rw [BitVec.xor_assoc]
  · rw [BitVec.xor_assoc, BitVec.xor_comm y, ← BitVec.xor_assoc]
  · rw [BitVec.xor_assoc, BitVec.xor_comm (29#8) (y ^^^ _), BitVec.xor_assoc y, BitVec.xor_self, BitVec.xor_zero]

theorem xor4 (a b c d : U8) : (a ^^^ b) ^^^ (c ^^^ d) = (a ^^^ c) ^^^ (b ^^^ d) := by
  rw [BitVec.xor_assoc, BitVec.xor_assoc, ← BitVec.xor_assoc b, BitVec.xor_comm b c, BitVec.xor_assoc]

theorem gfMulBits_xor (b : U8) : ∀ (n k : Nat) (x y : U8),
    gfMulBits b n k (x ^^^ y) = gfMulBits b n k x ^^^ gfMulBits b n k y
  | 0, _, _, _ => by simp [gfMulBits]
  | n + 1, k, x, y => by
    simp only [gfMulBits]
    rw [xtime_xor, gfMulBits_xor b n, xor4]
    congr 1
    cases b.getLsbD k <;> simp

theorem gfMul_xor (x y b : U8) : gfMul (x ^^^ y) b = gfMul x b ^^^ gfMul y b := gfMulBits_xor b 8 0 x y

theorem gfMul_zero (b : U8) : gfMul 0#8 b = 0#8 := by
  have := gfMul_xor 0#8 0#8 b
  rw [BitVec.xor_self] at this
  rw [this, BitVec.xor_self]

/-! ## Sums -/

theorem xorSum_xor (f g : Fin 8 → U8) : xorSum (fun k => f k ^^^ g k) = xorSum f ^^^ xorSum g := by
  have : ∀ l : List (Fin 8), l.foldr (fun k acc => (f k ^^^ g k) ^^^ acc) 0#8 =
      l.foldr (fun k acc => f k ^^^ acc) 0#8 ^^^ l.foldr (fun k acc => g k ^^^ acc) 0#8 := by
    intro l
    induction l with
    | nil => simp
    | cons k l ih => simp only [List.foldr_cons, ih]; rw [xor4]
  exact this _

theorem xorSum_zero : xorSum (fun _ => 0#8) = 0#8 := by decide +kernel

theorem xorSum_map (φ : U8 → U8) (hφ : ∀ a b, φ (a ^^^ b) = φ a ^^^ φ b) (hz : φ 0#8 = 0#8) (f : Fin 8 → U8) :
    φ (xorSum f) = xorSum fun k => φ (f k) := by
  have : ∀ l : List (Fin 8), φ (l.foldr (fun k acc => f k ^^^ acc) 0#8) = l.foldr (fun k acc => φ (f k) ^^^ acc) 0#8 := by
    intro l
    induction l with
    | nil => exact hz
    | cons k l ih => simp only [List.foldr_cons, hφ, ih]
  exact this _

theorem xorSum_comm (f : Fin 8 → Fin 8 → U8) : xorSum (fun k => xorSum fun l => f k l) = xorSum fun l => xorSum fun k => f k l := by
  have : ∀ l : List (Fin 8), l.foldr (fun k acc => (xorSum fun l => f k l) ^^^ acc) 0#8 =
      xorSum fun j => l.foldr (fun k acc => f k j ^^^ acc) 0#8 := by
    intro l
    induction l with
    | nil => exact xorSum_zero.symm
    | cons k l ih => simp only [List.foldr_cons, ih, xorSum_xor]
  exact this _

theorem xorSum_delta (v : Fin 8 → U8) (j : Fin 8) : xorSum (fun l => if l = j then v l else 0#8) = v j := by
  rw [xorSum_eq]
  match j with
  | 0 => simp
  | 1 => simp
  | 2 => simp
  | 3 => simp
  | 4 => simp
  | 5 => simp
  | 6 => simp
  | 7 => simp

/-! ## θ -/

/-- A byte is the sum of its bits. -/
theorem bits_sum : ∀ x : U8, x = xorSum fun k => if x.getLsbD k.val then 1#8 <<< k.val else 0#8 := by decide +kernel

theorem additive_ext {φ ψ : U8 → U8} (h1 : ∀ a b, φ (a ^^^ b) = φ a ^^^ φ b) (h2 : ∀ a b, ψ (a ^^^ b) = ψ a ^^^ ψ b)
    (h : ∀ k : Fin 8, φ (1#8 <<< k.val) = ψ (1#8 <<< k.val)) (x : U8) : φ x = ψ x := by
  have z1 : φ 0#8 = 0#8 := by
    have := h1 0#8 0#8
    rw [BitVec.xor_self] at this
    rw [this, BitVec.xor_self]
  have z2 : ψ 0#8 = 0#8 := by
    have := h2 0#8 0#8
    rw [BitVec.xor_self] at this
    rw [this, BitVec.xor_self]
  rw [bits_sum x, xorSum_map φ h1 z1, xorSum_map ψ h2 z2]
  congr 1
  funext k
  split
  · exact h k
  · rw [z1, z2]

/-- The first row of the inverse of the circulant matrix. -/
def dir (j : Fin 8) : U8 := #v[0x04, 0xaf, 0x0e, 0xa4, 0xc2, 0xc2, 0xcb, 0x3e][j]

theorem inv_basis : ∀ k l j : Fin 8, xorSum (fun m => gfMul (gfMul (1#8 <<< k.val) (cir (m - l))) (dir (j - m))) =
    if l = j then 1#8 <<< k.val else 0#8 := by decide +kernel

theorem inv_basis' : ∀ k l j : Fin 8, xorSum (fun m => gfMul (gfMul (1#8 <<< k.val) (dir (m - l))) (cir (j - m))) =
    if l = j then 1#8 <<< k.val else 0#8 := by decide +kernel

/-- Multiplication of a row by a circulant matrix with first row `c`. -/
def mulRow (c : Fin 8 → U8) (v : Fin 8 → U8) (j : Fin 8) : U8 := xorSum fun k => gfMul (v k) (c (j - k))

theorem mulRow_inv (c d : Fin 8 → U8)
    (h : ∀ k l j : Fin 8, xorSum (fun m => gfMul (gfMul (1#8 <<< k.val) (c (m - l))) (d (j - m))) =
      if l = j then 1#8 <<< k.val else 0#8) (v : Fin 8 → U8) : mulRow d (mulRow c v) = v := by
  funext j
  unfold mulRow
  have e1 : ∀ k, gfMul (xorSum fun l => gfMul (v l) (c (k - l))) (d (j - k)) =
      xorSum fun l => gfMul (gfMul (v l) (c (k - l))) (d (j - k)) := fun k =>
    xorSum_map (fun a => gfMul a (d (j - k))) (fun a b => gfMul_xor a b _) (gfMul_zero _) _
  simp only [e1]
  rw [xorSum_comm]
  have e2 : ∀ l x, xorSum (fun m => gfMul (gfMul x (c (m - l))) (d (j - m))) = if l = j then x else 0#8 := by
    intro l x
    refine additive_ext (φ := fun x => xorSum fun m => gfMul (gfMul x (c (m - l))) (d (j - m)))
      (ψ := fun x => if l = j then x else 0#8) ?_ ?_ (fun k => h k l j) x
    · intro a b
      simp only [gfMul_xor, xorSum_xor]
    · intro a b
      by_cases hlj : l = j <;> simp [hlj]
  simp only [e2]
  exact xorSum_delta v j

/-- θ⁻¹ -/
def unmixRows (a : Mat) : Mat := .of fun i j => xorSum fun k => gfMul (a.at i k) (dir (j - k))

theorem unmix_mix (a : Mat) : unmixRows (mixRows a) = a := by
  apply Mat.ext
  intro i j
  simp only [unmixRows, mixRows, Mat.at_of]
  exact congrFun (mulRow_inv cir dir inv_basis (a.at i)) j

theorem mix_unmix (a : Mat) : mixRows (unmixRows a) = a := by
  apply Mat.ext
  intro i j
  simp only [unmixRows, mixRows, Mat.at_of]
  exact congrFun (mulRow_inv dir cir inv_basis' (a.at i)) j

/-! ## γ, π, σ -/

/-- The inverse of the substitution box. -/
def Sinv (y : U8) : U8 :=
  let a := Einv (y.extractLsb' 4 4)
  let b := E (y.extractLsb' 0 4)
  let r := R (a ^^^ b)
  Einv (a ^^^ r) ++ E (b ^^^ r)

theorem Sinv_S : ∀ x, Sinv (S x) = x := by decide +kernel
theorem S_Sinv : ∀ x, S (Sinv x) = x := by decide +kernel

def unsubBytes (a : Mat) : Mat := .of fun i j => Sinv (a.at i j)
def unshiftColumns (a : Mat) : Mat := .of fun i j => a.at (i + j) j

theorem fin_cancel : ∀ i j : Fin 8, i + j - j = i := by decide
theorem fin_cancel' : ∀ i j : Fin 8, i - j + j = i := by decide

theorem unsub_sub (a : Mat) : unsubBytes (subBytes a) = a := by
  apply Mat.ext; intro i j; simp only [unsubBytes, subBytes, Mat.at_of, Sinv_S]

theorem sub_unsub (a : Mat) : subBytes (unsubBytes a) = a := by
  apply Mat.ext; intro i j; simp only [unsubBytes, subBytes, Mat.at_of, S_Sinv]

theorem unshift_shift (a : Mat) : unshiftColumns (shiftColumns a) = a := by
  apply Mat.ext; intro i j; simp only [unshiftColumns, shiftColumns, Mat.at_of, fin_cancel]

theorem shift_unshift (a : Mat) : shiftColumns (unshiftColumns a) = a := by
  apply Mat.ext; intro i j; simp only [unshiftColumns, shiftColumns, Mat.at_of, fin_cancel']

theorem addKey_addKey (k a : Mat) : addKey k (addKey k a) = a := by
  apply Mat.ext; intro i j; simp only [addKey, Mat.at_of]; rw [BitVec.xor_assoc, BitVec.xor_self, BitVec.xor_zero]

theorem addKey_comm (k a : Mat) : addKey k a = addKey a k := by
  apply Mat.ext; intro i j; simp only [addKey, Mat.at_of]; rw [BitVec.xor_comm]

/-! ## Rounds -/

def unround (k a : Mat) : Mat := unsubBytes (unshiftColumns (unmixRows (addKey k a)))

theorem unround_round (k a : Mat) : unround k (roundFn k a) = a := by
  rw [unround, roundFn, addKey_addKey, unmix_mix, unshift_shift, unsub_sub]

theorem round_unround (k a : Mat) : roundFn k (unround k a) = a := by
  rw [unround, roundFn, sub_unsub, shift_unshift, mix_unmix, addKey_addKey]

/-- Decryption of `r` rounds. -/
def decipher (K : Mat) : (r : Nat) → Mat → Mat
  | 0, a => addKey K a
  | r + 1, a => decipher K r (unround (roundKey K (r + 1)) a)

theorem decipher_cipher (K a : Mat) : ∀ r, decipher K r (cipher K r a) = a
  | 0 => addKey_addKey K a
  | r + 1 => by rw [decipher, cipher, unround_round, decipher_cipher K a r]

theorem cipher_decipher (K : Mat) : ∀ r a, cipher K r (decipher K r a) = a
  | 0, a => addKey_addKey K a
  | r + 1, a => by rw [decipher, cipher, cipher_decipher K r, round_unround]

end Whirlpool
