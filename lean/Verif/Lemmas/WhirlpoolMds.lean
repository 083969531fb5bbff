import Verif.Lemmas.WhirlpoolField

/-! # The diffusion matrix of Whirlpool has branch number 9 -/
namespace Whirlpool
open WhirlpoolSpec

/-- A square submatrix of the circulant matrix with first row `c`. -/
def sub {k : Nat} (c : Fin 8 → U8) (s z : Fin k → Fin 8) : Matrix (Fin k) (Fin k) GF := fun a b => ⟨c (z b - s a)⟩

theorem cir_ent : ∀ s z : Fin 8, (cir (z - s)).toNat = ent cirT s.val z.val := by decide +kernel
theorem dir_ent : ∀ s z : Fin 8, (dir (z - s)).toNat = ent dirT s.val z.val := by decide +kernel

theorem GF.neg_eq (a : GF) : -a = a := rfl
theorem GF.toNat_add (a b : GF) : (a + b).v.toNat = a.v.toNat ^^^ b.v.toNat := BitVec.toNat_xor _ _
theorem GF.toNat_mul (a b : GF) : (a * b).v.toNat = mulT a.v.toNat b.v.toNat := (mulT_eq a b).symm
theorem GF.ne_zero {a : GF} (h : a.v.toNat ≠ 0) : a ≠ 0 := fun e => h (by rw [e]; rfl)

theorem det2_eq (M : Matrix (Fin 2) (Fin 2) GF) :
    M.det.v.toNat = d2 (M 0 0).v.toNat (M 0 1).v.toNat (M 1 0).v.toNat (M 1 1).v.toNat := by
  rw [Matrix.det_fin_two, sub_eq_add_neg, GF.neg_eq]
  simp only [GF.toNat_add, GF.toNat_mul, d2]

theorem det3_eq (M : Matrix (Fin 3) (Fin 3) GF) :
    M.det.v.toNat = d3 (M 0 0).v.toNat (M 0 1).v.toNat (M 0 2).v.toNat (M 1 0).v.toNat (M 1 1).v.toNat (M 1 2).v.toNat
      (M 2 0).v.toNat (M 2 1).v.toNat (M 2 2).v.toNat := by
  have : M.det = M 0 0 * (M 1 1 * M 2 2 + M 1 2 * M 2 1) + M 0 1 * (M 1 0 * M 2 2 + M 1 2 * M 2 0) +
      M 0 2 * (M 1 0 * M 2 1 + M 1 1 * M 2 0) := by
    rw [Matrix.det_fin_three]
    simp only [sub_eq_add_neg, GF.neg_eq]
    ring
  rw [this]
  simp only [GF.toNat_add, GF.toNat_mul, d2, d3]

theorem det4_eq (M : Matrix (Fin 4) (Fin 4) GF) : M.det =
    M 0 0 * (M.submatrix ![1, 2, 3] ![1, 2, 3]).det + M 0 1 * (M.submatrix ![1, 2, 3] ![0, 2, 3]).det +
    M 0 2 * (M.submatrix ![1, 2, 3] ![0, 1, 3]).det + M 0 3 * (M.submatrix ![1, 2, 3] ![0, 1, 2]).det := by
  have h1 : (-1 : GF) = 1 := rfl
  rw [Matrix.det_succ_row_zero, Fin.sum_univ_four]
  simp only [h1, one_pow, one_mul]
  congr <;> funext a <;> fin_cases a <;> rfl

section
variable {c : Fin 8 → U8} {T : Nat} (hc : ∀ s z : Fin 8, (c (z - s)).toNat = ent T s.val z.val)
include hc

theorem minor1 (h : ok1 T = true) (s z : Fin 1 → Fin 8) : (sub c s z).det ≠ 0 := by
  apply GF.ne_zero
  rw [Matrix.det_fin_one, sub, hc]
  simp only [ok1, List.all_eq_true, List.mem_range, bne_iff_ne] at h
  exact h _ (s 0).isLt _ (z 0).isLt

theorem minor2 (h : ok2 T = true) (s z : Fin 2 → Fin 8) (hs : StrictMono s) (hz : StrictMono z) : (sub c s z).det ≠ 0 := by
  apply GF.ne_zero
  rw [det2_eq]
  simp only [sub, hc]
  simp only [ok2, List.all_eq_true, List.mem_range, bne_iff_ne, Bool.or_eq_true, decide_eq_true_eq] at h
  have := hs (show (0 : Fin 2) < 1 by decide)
  have := hz (show (0 : Fin 2) < 1 by decide)
  exact ((((h _ (s 0).isLt _ (s 1).isLt).resolve_left (by omega)) _ (z 0).isLt _ (z 1).isLt).resolve_left (by omega))

theorem minor3 (h : ok3 T = true) (s z : Fin 3 → Fin 8) (hs : StrictMono s) (hz : StrictMono z) : (sub c s z).det ≠ 0 := by
  apply GF.ne_zero
  rw [det3_eq]
  simp only [sub, hc]
  simp only [ok3, List.all_eq_true, List.mem_range, bne_iff_ne, Bool.or_eq_true, decide_eq_true_eq] at h
  have := hs (show (0 : Fin 3) < 1 by decide)
  have := hz (show (0 : Fin 3) < 1 by decide)
  have := hs (show (1 : Fin 3) < 2 by decide)
  have := hz (show (1 : Fin 3) < 2 by decide)
  exact (((((h _ (s 0).isLt _ (s 1).isLt).resolve_left (by omega)) _ (s 2).isLt).resolve_left (by omega)) _ (z 0).isLt _
    (z 1).isLt |>.resolve_left (by omega)) _ (z 2).isLt |>.resolve_left (by omega)

theorem minor4 (h : ok4 T = true) (s z : Fin 4 → Fin 8) (hs : StrictMono s) (hz : StrictMono z) : (sub c s z).det ≠ 0 := by
  apply GF.ne_zero
  rw [det4_eq]
  simp only [GF.toNat_add, GF.toNat_mul, det3_eq, Matrix.submatrix_apply]
  simp only [sub]
  simp only [hc]
  simp only [ok4, List.all_eq_true, List.mem_range, bne_iff_ne, Bool.or_eq_true, decide_eq_true_eq] at h
  have := hs (show (0 : Fin 4) < 1 by decide)
  have := hz (show (0 : Fin 4) < 1 by decide)
  have := hs (show (1 : Fin 4) < 2 by decide)
  have := hz (show (1 : Fin 4) < 2 by decide)
  have := hs (show (2 : Fin 4) < 3 by decide)
  have := hz (show (2 : Fin 4) < 3 by decide)
  have h1 := ((h _ (s 0).isLt _ (s 1).isLt).resolve_left (by omega)) _ (s 2).isLt |>.resolve_left (by omega)
  have h2 := h1 _ (s 3).isLt |>.resolve_left (by omega)
  have h3 := h2 _ (z 0).isLt _ (z 1).isLt |>.resolve_left (by omega)
  have h4 := h3 _ (z 2).isLt |>.resolve_left (by omega)
  exact h4 _ (z 3).isLt |>.resolve_left (by omega)
end

/-- Number of non-zero bytes. -/
def weight (v : Fin 8 → U8) : Nat := (Finset.univ.filter fun j => v j ≠ 0#8).card

theorem xorSum_sum (f : Fin 8 → U8) : (⟨xorSum f⟩ : GF) = ∑ k, ⟨f k⟩ := by
  rw [Fin.sum_univ_eight, xorSum_eq]
  apply GF.ext
  simp only [GF.add_v, BitVec.xor_assoc, BitVec.ofNat_eq_ofNat, BitVec.xor_zero]

/-- If all minors of size `k` of the circulant matrix are non-zero, no row with `k` non-zero bytes has an image with `k` zero
bytes. -/
theorem weight_of_minors {c : Fin 8 → U8} {k : Nat} (hk : 0 < k)
    (hdet : ∀ s z : Fin k → Fin 8, StrictMono s → StrictMono z → (sub c s z).det ≠ 0) (v : Fin 8 → U8) (hv : weight v = k) :
    9 ≤ weight v + weight (mulRow c v) := by
  by_contra hlt
  have hcard : (Finset.univ.filter fun j => v j ≠ 0#8).card = k := hv
  have hz : k ≤ (Finset.univ.filter fun j => mulRow c v j = 0#8).card := by
    have := Finset.card_filter_add_card_filter_not (s := (Finset.univ : Finset (Fin 8))) (fun j => mulRow c v j = 0#8)
    rw [Finset.card_univ, Fintype.card_fin] at this
    unfold weight at hlt hv
    simp only [ne_eq] at hlt hv
    omega
  obtain ⟨Z, hZ, hZk⟩ := Finset.exists_subset_card_eq hz
  let s := (Finset.univ.filter fun j => v j ≠ 0#8).orderEmbOfFin hcard
  let z := Z.orderEmbOfFin hZk
  have key : Matrix.vecMul (fun a => (⟨v (s a)⟩ : GF)) (sub c s z) = 0 := by
    funext b
    have hb : mulRow c v (z b) = 0#8 := (Finset.mem_filter.mp (hZ (Finset.orderEmbOfFin_mem Z hZk b))).2
    have e : (⟨mulRow c v (z b)⟩ : GF) = ∑ j, ⟨gfMul (v j) (c (z b - j))⟩ := xorSum_sum _
    rw [hb] at e
    have e2 : ∑ j, (⟨gfMul (v j) (c (z b - j))⟩ : GF) = ∑ a, (⟨gfMul (v (s a)) (c (z b - s a))⟩ : GF) := by
      have h1 : ∑ j, (⟨gfMul (v j) (c (z b - j))⟩ : GF) =
          ∑ j ∈ Finset.univ.filter (fun j => v j ≠ 0#8), (⟨gfMul (v j) (c (z b - j))⟩ : GF) := by
        rw [Finset.sum_filter]
        refine Finset.sum_congr rfl fun j _ => ?_
        split
        · rfl
        · rename_i h
          rw [not_not.mp h, gfMul_zero]; rfl
      rw [h1, ← Finset.map_orderEmbOfFin_univ _ hcard, Finset.sum_map]
      rfl
    rw [e2] at e
    exact e.symm
  have h0 := Matrix.eq_zero_of_vecMul_eq_zero (hdet s z s.strictMono z.strictMono) key
  have h1 : v (s ⟨0, hk⟩) ≠ 0#8 := (Finset.mem_filter.mp (Finset.orderEmbOfFin_mem _ hcard ⟨0, hk⟩)).2
  exact h1 (congrArg GF.v (congrFun h0 ⟨0, hk⟩))

/-- Branch number 9: a row that is not zero and its image have together at least nine non-zero bytes. -/
theorem branch (v : Fin 8 → U8) (h : weight v ≠ 0) : 9 ≤ weight v + weight (mulRow cir v) := by
  have low : ∀ v, weight v ≠ 0 → weight v ≤ 4 → 9 ≤ weight v + weight (mulRow cir v) := by
    intro v h h4
    have : weight v = 1 ∨ weight v = 2 ∨ weight v = 3 ∨ weight v = 4 := by omega
    rcases this with h | h | h | h
    · exact weight_of_minors (by omega) (fun s z _ _ => minor1 cir_ent cir_ok1 s z) v h
    · exact weight_of_minors (by omega) (minor2 cir_ent cir_ok2) v h
    · exact weight_of_minors (by omega) (minor3 cir_ent cir_ok3) v h
    · exact weight_of_minors (by omega) (minor4 cir_ent cir_ok4) v h
  rcases Nat.lt_or_ge 4 (weight v) with h5 | h5
  · by_contra hlt
    have hw : weight (mulRow cir v) ≠ 0 := by
      intro hw
      have hz : mulRow cir v = fun _ => 0#8 := by
        funext j
        by_contra hj
        have : j ∈ Finset.univ.filter fun j => mulRow cir v j ≠ 0#8 := by simp [hj]
        rw [Finset.card_eq_zero.mp hw] at this
        simp at this
      have hv := mulRow_inv cir dir inv_basis v
      rw [hz] at hv
      apply h
      rw [← hv]
      have : ∀ j, mulRow dir (fun _ => 0#8) j = 0#8 := by
        intro j
        simp only [mulRow, gfMul_zero]
        exact xorSum_zero
      simp [weight, this]
    have hv := mulRow_inv cir dir inv_basis v
    generalize mulRow cir v = w at *
    have : weight w = 1 ∨ weight w = 2 ∨ weight w = 3 := by omega
    have : 9 ≤ weight w + weight (mulRow dir w) := by
      rcases this with h | h | h
      · exact weight_of_minors (by omega) (fun s z _ _ => minor1 dir_ent dir_ok1 s z) w h
      · exact weight_of_minors (by omega) (minor2 dir_ent dir_ok2) w h
      · exact weight_of_minors (by omega) (minor3 dir_ent dir_ok3) w h
    rw [hv] at this
    omega
  · exact low v h h5

end Whirlpool
