import Verif.Lemmas.Stream
import Verif.Spec.Checksum
import Verif.Model.Checksum
import Mathlib.Tactic.Ring
import Mathlib.Tactic.Linarith

namespace ChecksumSpec
open HashSpec GoHash

/-! ## Running totals -/

theorem runningTotal_nil : runningTotal [] = 0 := rfl

theorem map_add_const_sum (w : Nat) (l : List Nat) (f : Nat → Nat) :
    (l.map (fun i => w + f i)).sum = l.length * w + (l.map f).sum := by
  induction l with
  | nil => simp
  | cons a t ih => simp [ih]; ring

theorem runningTotal_cons (w : Nat) (ws : List Nat) :
    runningTotal (w :: ws) = (ws.length + 1) * w + runningTotal ws := by
  unfold runningTotal
  rw [List.length_cons, List.range_succ_eq_map]
  simp only [List.map_cons, List.map_map, List.sum_cons, Function.comp_def, List.take_succ_cons, List.take_zero, List.sum_nil]
  rw [map_add_const_sum]
  simp; ring

theorem runningTotal_append (ws vs : List Nat) :
    runningTotal (ws ++ vs) = runningTotal ws + vs.length * ws.sum + runningTotal vs := by
  induction ws with
  | nil => simp [runningTotal_nil]
  | cons w t ih =>
    rw [List.cons_append, runningTotal_cons, runningTotal_cons, ih]
    simp; ring

theorem sum_le_of_le (W : Nat) : ∀ ws : List Nat, (∀ w ∈ ws, w ≤ W) → ws.sum ≤ ws.length * W
  | [], _ => by simp
  | w :: t, h => by
    have := sum_le_of_le W t (fun x hx => h x (List.mem_cons_of_mem _ hx))
    have := h w (by simp)
    simp; linarith

theorem runningTotal_le (W : Nat) : ∀ ws : List Nat, (∀ w ∈ ws, w ≤ W) →
    2 * runningTotal ws ≤ ws.length * (ws.length + 1) * W
  | [], _ => by simp [runningTotal_nil]
  | w :: t, h => by
    have h1 := runningTotal_le W t (fun x hx => h x (List.mem_cons_of_mem _ hx))
    have h2 := h w (by simp)
    rw [runningTotal_cons, List.length_cons]
    have h3 : 2 * (t.length + 1) * w ≤ 2 * (t.length + 1) * W := Nat.mul_le_mul_left _ h2
    nlinarith

theorem runningTotal_replicate (n x : Nat) : 2 * runningTotal (List.replicate n x) = n * (n + 1) * x := by
  induction n with
  | zero => simp [runningTotal_nil]
  | succ n ih =>
    rw [List.replicate_succ, runningTotal_cons, Nat.mul_add, ih]
    simp; ring

/-! ## Advancing a Fletcher state -/

/-- State after words `ws` from state `(a,b)`, modulo `M`. -/
def adv (M a b : Nat) (ws : List Nat) : Nat × Nat :=
  ((a + ws.sum) % M, (b + ws.length * a + runningTotal ws) % M)

theorem adv_append (M a b : Nat) (ws vs : List Nat) :
    adv M a b (ws ++ vs) = adv M (adv M a b ws).1 (adv M a b ws).2 vs := by
  unfold adv
  simp only [List.sum_append, List.length_append, runningTotal_append, Prod.mk.injEq]
  constructor
  · simp [Nat.add_assoc]
  · have e : b + (ws.length + vs.length) * a + (runningTotal ws + vs.length * ws.sum + runningTotal vs)
        = (b + ws.length * a + runningTotal ws) + vs.length * (a + ws.sum) + runningTotal vs := by ring
    rw [e]
    simp [Nat.add_mod, Nat.mul_mod]

theorem adv_nil (M a b : Nat) (ha : a < M) (hb : b < M) : adv M a b [] = (a, b) := by
  simp [adv, runningTotal_nil, Nat.mod_eq_of_lt, ha, hb]

/-- The loop body on accumulators of `n` bits. -/
def foldBV {n : Nat} : List Nat → BitVec n → BitVec n → BitVec n × BitVec n
  | [], c0, c1 => (c0, c1)
  | w :: ws, c0, c1 => foldBV ws (c0 + BitVec.ofNat n w) (c1 + (c0 + BitVec.ofNat n w))

theorem foldBV_toNat {n : Nat} : ∀ (ws : List Nat) (c0 c1 : BitVec n),
    (foldBV ws c0 c1).1.toNat = (c0.toNat + ws.sum) % 2 ^ n ∧
    (foldBV ws c0 c1).2.toNat = (c1.toNat + ws.length * c0.toNat + runningTotal ws) % 2 ^ n
  | [], c0, c1 => by simp [foldBV, runningTotal_nil, Nat.mod_eq_of_lt, c0.isLt, c1.isLt]
  | w :: ws, c0, c1 => by
    obtain ⟨h1, h2⟩ := foldBV_toNat ws (c0 + BitVec.ofNat n w) (c1 + (c0 + BitVec.ofNat n w))
    rw [foldBV, h1, h2]
    constructor
    · simp [Nat.add_assoc]
    · rw [runningTotal_cons]
      have e : c1.toNat + (w :: ws).length * c0.toNat + ((ws.length + 1) * w + runningTotal ws)
        = (c1.toNat + (c0.toNat + w)) + ws.length * (c0.toNat + w) + runningTotal ws := by simp; ring
      rw [e]
      simp [Nat.add_mod, Nat.mul_mod]

theorem foldBV_append {n : Nat} : ∀ (ws vs : List Nat) (c0 c1 : BitVec n),
    foldBV (ws ++ vs) c0 c1 = foldBV vs (foldBV ws c0 c1).1 (foldBV ws c0 c1).2
  | [], _, _, _ => rfl
  | w :: ws, vs, c0, c1 => by rw [List.cons_append, foldBV, foldBV_append ws vs, foldBV]

/-- When nothing overflows, reducing the accumulators modulo `M` gives the specified state. -/
theorem foldBV_adv {n M W : Nat} (ws : List Nat) (c0 c1 : BitVec n) (hW : ∀ w ∈ ws, w ≤ W)
    (h : 2 * c1.toNat + 2 * (ws.length * c0.toNat) + 2 * c0.toNat + ws.length * (ws.length + 1) * W < 2 * 2 ^ n) :
    ((foldBV ws c0 c1).1.toNat % M, (foldBV ws c0 c1).2.toNat % M) = adv M c0.toNat c1.toNat ws := by
  obtain ⟨h1, h2⟩ := foldBV_toNat ws c0 c1
  have b1 := sum_le_of_le W ws hW
  have b2 := runningTotal_le W ws hW
  have b3 : 2 * (ws.length * W) ≤ ws.length * (ws.length + 1) * W := by
    rcases Nat.eq_zero_or_pos ws.length with e | e
    · simp [e]
    · have : ws.length * W ≤ ws.length * ws.length * W := by
        rw [Nat.mul_assoc]; exact Nat.mul_le_mul_left _ (Nat.le_mul_of_pos_left _ e)
      nlinarith
  rw [h1, h2, Nat.mod_eq_of_lt (a := c0.toNat + ws.sum), Nat.mod_eq_of_lt (a := c1.toNat + _ + _)]
  · rfl
  · omega
  · omega

/-! ## Words -/

theorem words_nil {k : Nat} (hk : 0 < k) : words k [] = [] := by
  have : (k - 1) / k = 0 := Nat.div_eq_of_lt (by omega)
  simp [words, this]

theorem words_cons {k : Nat} (hk : 0 < k) (l : List U8) (hl : l ≠ []) :
    words k l = leNat (l.take k) :: words k (l.drop k) := by
  unfold words
  have hpos : 0 < l.length := List.length_pos_iff.mpr hl
  have e : (l.length + (k - 1)) / k = ((l.drop k).length + (k - 1)) / k + 1 := by
    rw [List.length_drop]
    rcases Nat.lt_or_ge l.length k with h | h
    · have e1 : (l.length + (k - 1)) / k = 1 := by
        rw [Nat.div_eq_iff (by omega)]; omega
      have e2 : (l.length - k + (k - 1)) / k = 0 := Nat.div_eq_of_lt (by omega)
      omega
    · have : l.length + (k - 1) = (l.length - k + (k - 1)) + k := by omega
      rw [this, Nat.add_div_right _ hk]
  rw [e, List.range_succ_eq_map]
  simp only [List.map_cons, List.map_map, Function.comp_def, Nat.mul_zero, List.drop_zero, List.drop_drop]
  congr 1
  apply List.map_congr_left
  intro i _
  rw [Nat.mul_succ, Nat.add_comm]

theorem words_length {k : Nat} (l : List U8) : (words k l).length = (l.length + (k - 1)) / k := by
  simp [words]

theorem words_append {k : Nat} (hk : 0 < k) : ∀ (n : Nat) (l m : List U8), l.length = k * n →
    words k (l ++ m) = words k l ++ words k m
  | 0, l, m, h => by
    have : l = [] := List.length_eq_zero_iff.mp (by simpa using h)
    subst this; simp [words_nil hk]
  | n + 1, l, m, h => by
    have hlen : k ≤ l.length := by rw [h, Nat.mul_succ]; omega
    have hl : l ≠ [] := by intro e; subst e; simp at hlen; omega
    rw [words_cons hk (l ++ m) (by simp [hl]), words_cons hk l hl, List.take_append_of_le_length hlen,
      List.drop_append_of_le_length hlen, words_append hk n (l.drop k) m (by simp [h, Nat.mul_succ])]
    rfl

theorem words_take_drop {k : Nat} (hk : 0 < k) : ∀ (n : Nat) (l : List U8),
    words k l = (words k l).take n ++ words k (l.drop (k * n))
  | 0, l => by simp
  | n + 1, l => by
    by_cases hl : l = []
    · subst hl; simp [words_nil hk]
    · rw [words_cons hk l hl, List.take_succ_cons, List.cons_append]
      congr 1
      have := words_take_drop hk n (l.drop k)
      rw [List.drop_drop] at this
      rw [Nat.mul_succ, Nat.add_comm]
      exact this

theorem leNat_lt : ∀ l : List U8, leNat l < 256 ^ l.length
  | [] => by simp [leNat]
  | b :: t => by
    have := leNat_lt t
    have hb := b.isLt
    rw [leNat, List.length_cons, Nat.pow_succ]; omega

theorem words_le {k : Nat} (l : List U8) : ∀ w ∈ words k l, w ≤ 256 ^ k - 1 := by
  intro w hw
  simp only [words, List.mem_map] at hw
  obtain ⟨i, _, rfl⟩ := hw
  have h1 := leNat_lt ((l.drop (k * i)).take k)
  have h2 : 256 ^ ((l.drop (k * i)).take k).length ≤ 256 ^ k :=
    Nat.pow_le_pow_right (by omega) (List.length_take_le _ _)
  omega

end ChecksumSpec
