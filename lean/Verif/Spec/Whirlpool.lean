import Verif.Spec.Stream
import Verif.Spec.Blocks

/-!
# Whirlpool as published

P. Barreto, V. Rijmen, "The Whirlpool hashing function" (ISO/IEC 10118-3): the matrix description, with the S-box built from the
4-bit boxes E, E⁻¹ and R.
-/
namespace WhirlpoolSpec
open BlockSpec

/-! ## GF(2^8) modulo x^8 + x^4 + x^3 + x^2 + 1 -/

/-- Multiplication by x. -/
def xtime (a : U8) : U8 := if a.getLsbD 7 then (a <<< 1) ^^^ 0x1d else a <<< 1

/-- Product: Σ over the bits of `b` of x^k·a. -/
def gfMulBits (b : U8) : (n k : Nat) → U8 → U8
  | 0, _, _ => 0
  | n + 1, k, a => (if b.getLsbD k then a else 0) ^^^ gfMulBits b n (k + 1) (xtime a)

def gfMul (a b : U8) : U8 := gfMulBits b 8 0 a

/-! ## S-box -/

/-- The exponential box: E(i) = B^i in GF(2^4) modulo x^4+x+1 for i < 15, E(15) = 0. -/
def boxE : List (BitVec 4) := [0x1, 0xB, 0x9, 0xC, 0xD, 0x6, 0xF, 0x3, 0xE, 0x8, 0x7, 0x4, 0xA, 0x2, 0x5, 0x0]

/-- The pseudo-random box. -/
def boxR : List (BitVec 4) := [0x7, 0xC, 0xB, 0xD, 0xE, 0x4, 0x9, 0xF, 0x6, 0x3, 0x8, 0xA, 0x2, 0x5, 0x1, 0x0]

def E (x : BitVec 4) : BitVec 4 := boxE.getD x.toNat 0
def R (x : BitVec 4) : BitVec 4 := boxR.getD x.toNat 0
/-- Multiplication in GF(2^4) modulo x^4+x+1. -/
def gf16MulBits (b : BitVec 4) : (n k : Nat) → BitVec 4 → BitVec 4
  | 0, _, _ => 0
  | n + 1, k, a => (if b.getLsbD k then a else 0) ^^^
      gf16MulBits b n (k + 1) (if a.getLsbD 3 then (a <<< 1) ^^^ 0x3 else a <<< 1)

def gf16Mul (a b : BitVec 4) : BitVec 4 := gf16MulBits b 4 0 a
/-- E⁻¹ -/
def Einv (y : BitVec 4) : BitVec 4 := BitVec.ofNat 4 (boxE.idxOf y)

/-- The substitution box. -/
def S (x : U8) : U8 :=
  let u := E (x.extractLsb' 4 4)
  let l := Einv (x.extractLsb' 0 4)
  let r := R (u ^^^ l)
  E (u ^^^ r) ++ Einv (l ^^^ r)

/-! ## The block cipher W -/

/-- 8×8 matrices of bytes. -/
abbrev Mat := Vector (Vector U8 8) 8

def Mat.of (f : Fin 8 → Fin 8 → U8) : Mat := Vector.ofFn fun i => Vector.ofFn (f i)
def Mat.at (m : Mat) (i j : Fin 8) : U8 := m[i][j]

/-- γ: the S-box on every entry. -/
def subBytes (a : Mat) : Mat := .of fun i j => S (a.at i j)

/-- π: column `j` is rotated downwards by `j`. (Indices in `Fin 8` are modulo 8.) -/
def shiftColumns (a : Mat) : Mat := .of fun i j => a.at (i - j) j

/-- The first row of the circulant matrix. -/
def cir (j : Fin 8) : U8 := #v[0x01, 0x01, 0x04, 0x01, 0x08, 0x05, 0x02, 0x09][j]

/-- XOR over 0..7. -/
def xorSum (f : Fin 8 → U8) : U8 := (List.finRange 8).foldr (fun k acc => f k ^^^ acc) 0

/-- θ: right multiplication by the circulant matrix `C`, whose entry at row `k`, column `j` is `cir (j - k)`. -/
def mixRows (a : Mat) : Mat := .of fun i j => xorSum fun k => gfMul (a.at i k) (cir (j - k))

/-- σ: key addition. -/
def addKey (k a : Mat) : Mat := .of fun i j => a.at i j ^^^ k.at i j

/-- ρ[k] = σ[k] ∘ θ ∘ π ∘ γ -/
def roundFn (k a : Mat) : Mat := addKey k (mixRows (shiftColumns (subBytes a)))

/-- Round constants: S[8(r-1)+j] in row 0, zero elsewhere, for r = 1, 2, … -/
def roundConst (r : Nat) : Mat := .of fun i j => if i = 0 then S (BitVec.ofNat 8 (8 * (r - 1) + j)) else 0

/-- Round keys: K⁰ = K, Kʳ = ρ[cʳ](Kʳ⁻¹). -/
def roundKey (K : Mat) : Nat → Mat
  | 0 => K
  | r + 1 => roundFn (roundConst (r + 1)) (roundKey K r)

/-- The cipher after `r` rounds: σ[K⁰], then ρ[K¹], ρ[K²], … -/
def cipher (K : Mat) : (r : Nat) → Mat → Mat
  | 0, a => addKey K a
  | r + 1, a => roundFn (roundKey K (r + 1)) (cipher K r a)

/-- W[K], ten rounds. -/
def W (K : Mat) : Mat → Mat := cipher K 10

/-! ## The hash function -/

/-- μ: a block as a matrix, row by row. -/
def toMat (b : List U8) : Mat := .of fun i j => b.getD (8 * i + j) 0

/-- μ⁻¹ -/
def Mat.bytes (m : Mat) : List U8 := m.toList.flatMap Vector.toList

/-- Miyaguchi–Preneel: H ↦ W[H](m) ⊕ H ⊕ m. -/
def compress (h : Mat) (b : List U8) : Mat := addKey (toMat b) (addKey h (W h (toMat b)))

def zeroMat : Mat := .of fun _ _ => 0

/-- Padding with the 256-bit length in bits. -/
def pad (m : List U8) : List U8 := padWith (beBytes 32 (8 * m.length)) m

def whirlpool (m : List U8) : List U8 := ((blocks (pad m)).foldl compress zeroMat).bytes

/-- The code counts bytes in a `uint64`: the length field is taken of the length modulo 2^64. -/
def padMod (m : List U8) : List U8 := padWith (beBytes 32 (8 * (m.length % 2 ^ 64))) m

def whirlpoolMod (m : List U8) : List U8 := ((blocks (padMod m)).foldl compress zeroMat).bytes

def algo : HashSpec.Algo := ⟨whirlpoolMod, fun _ => none, 64, 64⟩

end WhirlpoolSpec
