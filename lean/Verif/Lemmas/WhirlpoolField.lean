import Verif.Lemmas.WhirlpoolCipher
import Mathlib.Algebra.Field.Defs
import Mathlib.Algebra.BigOperators.Fin
import Mathlib.LinearAlgebra.Matrix.Nondegenerate
import Mathlib.LinearAlgebra.Matrix.Determinant.Basic
import Mathlib.Data.Finset.Sort

/-! # GF(2^8) as a field, and the minors of the diffusion matrix -/
namespace Whirlpool
open WhirlpoolSpec

theorem gfMulBits_xor_right (a b c : U8) : ∀ (n k : Nat) (x : U8),
    gfMulBits (b ^^^ c) n k x = gfMulBits b n k x ^^^ gfMulBits c n k x
  | 0, _, _ => by simp [gfMulBits]
  | n + 1, k, x => by
    simp only [gfMulBits]
    rw [gfMulBits_xor_right a b c n, xor4, BitVec.getLsbD_xor]
    congr 1
    cases b.getLsbD k <;> cases c.getLsbD k <;> simp

theorem gfMul_xor_right (a b c : U8) : gfMul a (b ^^^ c) = gfMul a b ^^^ gfMul a c := gfMulBits_xor_right a b c 8 0 a

theorem gfMul_basis : ∀ k l : Fin 8, gfMul (1#8 <<< k.val) (1#8 <<< l.val) = gfMul (1#8 <<< l.val) (1#8 <<< k.val) := by
  decide +kernel

theorem gfMul_basis3 : ∀ k l m : Fin 8, gfMul (gfMul (1#8 <<< k.val) (1#8 <<< l.val)) (1#8 <<< m.val) =
    gfMul (1#8 <<< k.val) (gfMul (1#8 <<< l.val) (1#8 <<< m.val)) := by
  decide +kernel

theorem gfMul_comm (a b : U8) : gfMul a b = gfMul b a := by
  refine additive_ext (φ := fun a => gfMul a b) (ψ := fun a => gfMul b a) (fun x y => gfMul_xor x y b)
    (fun x y => gfMul_xor_right b x y) (fun k => ?_) a
  exact additive_ext (φ := fun b => gfMul (1#8 <<< k.val) b) (ψ := fun b => gfMul b (1#8 <<< k.val))
    (fun x y => gfMul_xor_right _ x y) (fun x y => gfMul_xor x y _) (fun l => gfMul_basis k l) b

theorem gfMul_assoc (a b c : U8) : gfMul (gfMul a b) c = gfMul a (gfMul b c) := by
  refine additive_ext (φ := fun a => gfMul (gfMul a b) c) (ψ := fun a => gfMul a (gfMul b c))
    (fun x y => by simp only [gfMul_xor]) (fun x y => by simp only [gfMul_xor]) (fun k => ?_) a
  refine additive_ext (φ := fun b => gfMul (gfMul (1#8 <<< k.val) b) c) (ψ := fun b => gfMul (1#8 <<< k.val) (gfMul b c))
    (fun x y => by simp only [gfMul_xor, gfMul_xor_right]) (fun x y => by simp only [gfMul_xor, gfMul_xor_right]) (fun l => ?_) b
  exact additive_ext (φ := fun c => gfMul (gfMul (1#8 <<< k.val) (1#8 <<< l.val)) c)
    (ψ := fun c => gfMul (1#8 <<< k.val) (gfMul (1#8 <<< l.val) c))
    (fun x y => by simp only [gfMul_xor_right]) (fun x y => by simp only [gfMul_xor_right]) (fun m => gfMul_basis3 k l m) c

theorem gfMul_one : ∀ a : U8, gfMul a 1#8 = a := by decide +kernel

/-- `a^254` -/
def gfInv (a : U8) : U8 :=
  let a2 := gfMul a a
  let a3 := gfMul a2 a
  let a6 := gfMul a3 a3
  let a7 := gfMul a6 a
  let a14 := gfMul a7 a7
  let a15 := gfMul a14 a
  let a30 := gfMul a15 a15
  let a31 := gfMul a30 a
  let a62 := gfMul a31 a31
  let a63 := gfMul a62 a
  let a126 := gfMul a63 a63
  let a127 := gfMul a126 a
  gfMul a127 a127

theorem gfMul_inv : ∀ a : U8, a ≠ 0#8 → gfMul a (gfInv a) = 1#8 := by decide +kernel

/-- The elements of GF(2^8). -/
@[ext] structure GF where
  v : U8
  deriving DecidableEq

namespace GF

instance : Zero GF := ⟨⟨0#8⟩⟩
instance : One GF := ⟨⟨1#8⟩⟩
instance : Add GF := ⟨fun a b => ⟨a.v ^^^ b.v⟩⟩
instance : Mul GF := ⟨fun a b => ⟨gfMul a.v b.v⟩⟩
instance : Neg GF := ⟨fun a => a⟩
instance : Inv GF := ⟨fun a => ⟨gfInv a.v⟩⟩

@[simp] theorem zero_v : (0 : GF).v = 0#8 := rfl
@[simp] theorem one_v : (1 : GF).v = 1#8 := rfl
@[simp] theorem add_v (a b : GF) : (a + b).v = a.v ^^^ b.v := rfl
@[simp] theorem mul_v (a b : GF) : (a * b).v = gfMul a.v b.v := rfl
@[simp] theorem neg_v (a : GF) : (-a).v = a.v := rfl

instance : CommRing GF where
  add_assoc a b c := GF.ext (BitVec.xor_assoc _ _ _)
  zero_add a := GF.ext (by simp)
  add_zero a := GF.ext (by simp)
  add_comm a b := GF.ext (BitVec.xor_comm _ _)
  nsmul := nsmulRec
  zsmul := zsmulRec
  neg_add_cancel a := GF.ext (by simp)
  left_distrib a b c := GF.ext (by simp [gfMul_xor_right])
  right_distrib a b c := GF.ext (by simp [gfMul_xor])
  zero_mul a := GF.ext (by simp [gfMul_zero])
  mul_zero a := GF.ext (by simp [gfMul_comm _ 0#8, gfMul_zero])
  mul_assoc a b c := GF.ext (gfMul_assoc _ _ _)
  one_mul a := GF.ext (by simp [gfMul_comm 1#8, gfMul_one])
  mul_one a := GF.ext (by simp [gfMul_one])
  mul_comm a b := GF.ext (gfMul_comm _ _)

instance : Nontrivial GF := ⟨⟨0, 1, by decide⟩⟩

instance : NoZeroDivisors GF where
  eq_zero_or_eq_zero_of_mul_eq_zero {a b} h := by
    by_cases ha : a = 0
    · exact .inl ha
    · right
      have h1 : gfMul a.v (gfInv a.v) = 1#8 := gfMul_inv a.v fun e => ha (GF.ext e)
      have h2 : b = ⟨gfInv a.v⟩ * (a * b) := by
        apply GF.ext
        simp only [mul_v]
        rw [← gfMul_assoc, gfMul_comm _ a.v, h1, gfMul_comm, gfMul_one]
      rw [h2, h, mul_zero]

instance : IsDomain GF := NoZeroDivisors.to_isDomain GF

end GF

/-! ## Multiplication by tables, on numbers (for evaluation in the kernel) -/

/-- 510 powers of x, 8 bits each. -/
def expT : Nat := 0x8e47add86c361b83cfe9fa7db0582c160b8bcbebfbf3f7f5f47a3d90482412098a45ac562b9bc3eff9f279b259a251a653a7dde070381c0e078dc86432198241ae57a5dc6e3795c46231964babdbe3fff1f67bb3d7e5fc7e3f91c663bfd1e673b7d5e472399249aa55a452299a4da8542a158442219e4fa9da6db85c2e1785cc663397c5ec763b93c7edf87c3e1f81ce67bdd068341a0d884422118643afd9e271b65ba3dfe1fe7fb1d66bbbd3e7fdf0783c1e0f89ca65bc5e2f99c261be5fa1de6fb9d269ba5da05028140a058c46239fc1ee77b5d46a35944a259c4e279dc06030180c06038fc9ea75b45a2d984c261387cde8743a1d80402010080402018e47add86c361b83cfe9fa7db0582c160b8bcbebfbf3f7f5f47a3d90482412098a45ac562b9bc3eff9f279b259a251a653a7dde070381c0e078dc86432198241ae57a5dc6e3795c46231964babdbe3fff1f67bb3d7e5fc7e3f91c663bfd1e673b7d5e472399249aa55a452299a4da8542a158442219e4fa9da6db85c2e1785cc663397c5ec763b93c7edf87c3e1f81ce67bdd068341a0d884422118643afd9e271b65ba3dfe1fe7fb1d66bbbd3e7fdf0783c1e0f89ca65bc5e2f99c261be5fa1de6fb9d269ba5da05028140a058c46239fc1ee77b5d46a35944a259c4e279dc06030180c06038fc9ea75b45a2d984c261387cde8743a1d8040201008040201

/-- Discrete logarithms, 8 bits each. -/
def logT : Nat := 0xaf5850a8eaf4d674e8ade7e6e9d5ae4fd72c757aeb16f50b51a0a99cb05f59cb5a3eccbbb18660fbaa559d29523ba16cf66f0c7fec4917c476a47bb7d8432d1fa2416d4753393c849e5d2a14abd356f261befcdcb2978790cdcfbc955bd13f372e892023d99244117cb4b8267799a5e318fec531edde4a670d63808cf7c0700757a7f373ace5d44e2b79150a9f9b5eca3dba85fa54283a6b6e7e48c3a3b6421e404638835c13d2f1bddb968fce94d03688229110b32598e2fd30dd66628bbf06a672e44d78099ac9b9f9276a7dc2b51d458212f0da8e9335210f24e12f658a05714c08c8f869c11c81ef8d340ee064044bc7681bee33df03c61a320219010000

def expAt (n : Nat) : Nat := (expT >>> (8 * n)) % 256
def logAt (a : Nat) : Nat := (logT >>> (8 * a)) % 256
def mulT (a b : Nat) : Nat := if a = 0 then 0 else if b = 0 then 0 else expAt (logAt a + logAt b)

theorem expT_step : expAt 0 = 1 ∧ ∀ n : Fin 509, expAt (n.val + 1) = (xtime (BitVec.ofNat 8 (expAt n.val))).toNat := by
  decide +kernel

theorem logT_spec : ∀ a : U8, logAt a.toNat < 255 ∧ (a ≠ 0#8 → expAt (logAt a.toNat) = a.toNat) := by decide +kernel

theorem gfMul_two (a : U8) : gfMul a 2#8 = xtime a := by
  simp [gfMul, gfMulBits]

theorem expAt_eq : ∀ n, n < 510 → ((⟨2#8⟩ : GF) ^ n).v.toNat = expAt n
  | 0, _ => by rw [pow_zero]; exact expT_step.1.symm
  | n + 1, h => by
    have ih := expAt_eq n (by omega)
    have := expT_step.2 ⟨n, by omega⟩
    rw [pow_succ, GF.mul_v, gfMul_two, this, ← ih, BitVec.ofNat_toNat, BitVec.setWidth_eq]

theorem mulT_eq (a b : GF) : mulT a.v.toNat b.v.toNat = (a * b).v.toNat := by
  unfold mulT
  have hz : ∀ c : GF, c.v.toNat = 0 ↔ c = 0 := fun c =>
    ⟨fun h => GF.ext (BitVec.eq_of_toNat_eq h), fun h => by rw [h]; rfl⟩
  by_cases ha : a.v.toNat = 0
  · rw [if_pos ha, (hz a).mp ha, zero_mul]; rfl
  rw [if_neg ha]
  by_cases hb : b.v.toNat = 0
  · rw [if_pos hb, (hz b).mp hb, mul_zero]; rfl
  rw [if_neg hb]
  have key : ∀ c : GF, c.v.toNat ≠ 0 → (⟨2#8⟩ : GF) ^ logAt c.v.toNat = c := by
    intro c hc
    apply GF.ext
    apply BitVec.eq_of_toNat_eq
    obtain ⟨h1, h2⟩ := logT_spec c.v
    rw [expAt_eq _ (by omega)]
    exact h2 fun e => hc (by rw [e]; rfl)
  have h1 := (logT_spec a.v).1
  have h2 := (logT_spec b.v).1
  rw [← expAt_eq _ (by omega), pow_add, key a ha, key b hb]

/-! ## Minors of circulant matrices -/

/-- The first rows of the matrix and of its inverse, 8 bits each. -/
def cirT : Nat := 0x902050801040101
def dirT : Nat := 0x3ecbc2c2a40eaf04

/-- Entry at row `s`, column `z` of the circulant matrix with first row `T`. -/
def ent (T s z : Nat) : Nat := (T >>> (8 * ((z + 8 - s) % 8))) % 256

def d2 (a b c d : Nat) : Nat := mulT a d ^^^ mulT b c
def d3 (a b c d e f g h i : Nat) : Nat := mulT a (d2 e f h i) ^^^ mulT b (d2 d f g i) ^^^ mulT c (d2 d e g h)

def ok1 (T : Nat) : Bool := (List.range 8).all fun s => (List.range 8).all fun z => ent T s z != 0

def ok2 (T : Nat) : Bool := (List.range 8).all fun s0 => (List.range 8).all fun s1 => s1 ≤ s0 ||
  (List.range 8).all fun z0 => (List.range 8).all fun z1 => z1 ≤ z0 ||
    d2 (ent T s0 z0) (ent T s0 z1) (ent T s1 z0) (ent T s1 z1) != 0

def ok3 (T : Nat) : Bool := (List.range 8).all fun s0 => (List.range 8).all fun s1 => s1 ≤ s0 ||
  (List.range 8).all fun s2 => s2 ≤ s1 ||
  (List.range 8).all fun z0 => (List.range 8).all fun z1 => z1 ≤ z0 || (List.range 8).all fun z2 => z2 ≤ z1 ||
    d3 (ent T s0 z0) (ent T s0 z1) (ent T s0 z2) (ent T s1 z0) (ent T s1 z1) (ent T s1 z2)
      (ent T s2 z0) (ent T s2 z1) (ent T s2 z2) != 0

def d4 (T s0 s1 s2 s3 z0 z1 z2 z3 : Nat) : Nat :=
  mulT (ent T s0 z0) (d3 (ent T s1 z1) (ent T s1 z2) (ent T s1 z3) (ent T s2 z1) (ent T s2 z2) (ent T s2 z3)
    (ent T s3 z1) (ent T s3 z2) (ent T s3 z3)) ^^^
  mulT (ent T s0 z1) (d3 (ent T s1 z0) (ent T s1 z2) (ent T s1 z3) (ent T s2 z0) (ent T s2 z2) (ent T s2 z3)
    (ent T s3 z0) (ent T s3 z2) (ent T s3 z3)) ^^^
  mulT (ent T s0 z2) (d3 (ent T s1 z0) (ent T s1 z1) (ent T s1 z3) (ent T s2 z0) (ent T s2 z1) (ent T s2 z3)
    (ent T s3 z0) (ent T s3 z1) (ent T s3 z3)) ^^^
  mulT (ent T s0 z3) (d3 (ent T s1 z0) (ent T s1 z1) (ent T s1 z2) (ent T s2 z0) (ent T s2 z1) (ent T s2 z2)
    (ent T s3 z0) (ent T s3 z1) (ent T s3 z2))

def ok4 (T : Nat) : Bool := (List.range 8).all fun s0 => (List.range 8).all fun s1 => s1 ≤ s0 ||
  (List.range 8).all fun s2 => s2 ≤ s1 || (List.range 8).all fun s3 => s3 ≤ s2 ||
  (List.range 8).all fun z0 => (List.range 8).all fun z1 => z1 ≤ z0 || (List.range 8).all fun z2 => z2 ≤ z1 ||
  (List.range 8).all fun z3 => z3 ≤ z2 || d4 T s0 s1 s2 s3 z0 z1 z2 z3 != 0

theorem cir_ok1 : ok1 cirT = true := by decide +kernel
theorem cir_ok2 : ok2 cirT = true := by decide +kernel
theorem cir_ok3 : ok3 cirT = true := by decide +kernel
theorem cir_ok4 : ok4 cirT = true := by decide +kernel
theorem dir_ok1 : ok1 dirT = true := by decide +kernel
theorem dir_ok2 : ok2 dirT = true := by decide +kernel
theorem dir_ok3 : ok3 dirT = true := by decide +kernel

end Whirlpool
