import Verif.Lemmas.WhirlpoolDiffusion
import Verif.Lemmas.WhirlpoolSbox
import Verif.Props.Whirlpool

/-!
# C78: diffusion of the table-driven rounds of Whirlpool

The statements are about `lookup` (the XOR of eight table entries) and `roundLoop` (the round loop of `hash`) as the code has them,
on words; the only notions besides are bytes of words and numbers of bytes that differ.
-/
namespace Whirlpool
open WhirlpoolSpec BlockHash Finset

/-- Byte `j` of word `i`, `j = 0` the lowest. -/
def byteAt (s : List U64) (i j : Nat) : Nat := (s.getD i 0).toNat / 256 ^ j % 256

/-- Number of the 64 bytes in which two lists of eight words differ. -/
def byteDist (s t : List U64) : Nat := (univ.filter fun p : Fin 8 × Fin 8 => byteAt s p.1 p.2 ≠ byteAt t p.1 p.2).card

/-- Number of the bytes in which two words differ. -/
def wordDist (x y : U64) : Nat := (univ.filter fun j : Fin 8 => x.toNat / 256 ^ j.val % 256 ≠ y.toNat / 256 ^ j.val % 256).card

/-- Number of differing bytes among the eight that `lookup … i` selects: the highest byte of word `i`, the next byte of word `i-1`
and so on, indices modulo 8. -/
def selDist (s t : List U64) (i : Nat) : Nat :=
  (univ.filter fun j : Fin 8 => byteAt s ((i + 8 - j) % 8) (7 - j) ≠ byteAt t ((i + 8 - j) % 8) (7 - j)).card

theorem byteAt_emb (m : Mat) (i j : Fin 8) : byteAt (emb m) i.val (7 - j.val) = (m.at i j).toNat := by
  have e : (emb m).getD i.val 0 = row m i := by
    rw [emb_eq]
    match i with
    | 0 => rfl
    | 1 => rfl
    | 2 => rfl
    | 3 => rfl
    | 4 => rfl
    | 5 => rfl
    | 6 => rfl
    | 7 => rfl
  rw [byteAt, e, ← row_at m i j, byteOf_toNat]
  have : (256 : Nat) ^ (7 - j.val) = 2 ^ (56 - 8 * j.val) := by
    rw [show (256 : Nat) = 2 ^ 8 from rfl, ← Nat.pow_mul]
    congr 1
    have := j.isLt
    omega
  rw [this]
  rfl

theorem rev_val (j : Fin 8) : (Fin.rev j).val = 7 - j.val := by rw [Fin.val_rev]; omega

theorem byteDist_emb (a b : Mat) : byteDist (emb a) (emb b) = dist a b := by
  unfold byteDist dist
  refine card_bij' (fun p _ => (p.1, Fin.rev p.2)) (fun p _ => (p.1, Fin.rev p.2)) ?_ ?_ ?_ ?_
  · rintro ⟨i, j⟩ h
    simp only [mem_filter, mem_univ, true_and] at h ⊢
    intro e
    apply h
    have e1 := byteAt_emb a i (Fin.rev j)
    have e2 := byteAt_emb b i (Fin.rev j)
    rw [← rev_val, Fin.rev_rev] at e1 e2
    rw [e1, e2, e]
  · rintro ⟨i, j⟩ h
    simp only [mem_filter, mem_univ, true_and] at h ⊢
    rw [rev_val, byteAt_emb, byteAt_emb]
    exact fun e => h (BitVec.eq_of_toNat_eq e)
  · rintro ⟨i, j⟩ _; simp
  · rintro ⟨i, j⟩ _; simp

theorem wordDist_row (a b : Mat) (i : Fin 8) : wordDist (row a i) (row b i) = rowWt a b i := by
  have e : ∀ (m : Mat) (j : Fin 8), (row m i).toNat / 256 ^ (Fin.rev j).val % 256 = (m.at i j).toNat := by
    intro m j
    rw [← row_at m i j, byteOf_toNat, rev_val]
    have : (256 : Nat) ^ (7 - j.val) = 2 ^ (56 - 8 * j.val) := by
      rw [show (256 : Nat) = 2 ^ 8 from rfl, ← Nat.pow_mul]
      congr 1
      have := j.isLt
      omega
    rw [this]
    rfl
  unfold wordDist rowWt
  refine card_bij' (fun j _ => Fin.rev j) (fun j _ => Fin.rev j) ?_ ?_ ?_ ?_
  · intro j h
    simp only [mem_filter, mem_univ, true_and] at h ⊢
    intro h'
    apply h
    have e1 := e a (Fin.rev j)
    have e2 := e b (Fin.rev j)
    rw [Fin.rev_rev] at e1 e2
    rw [e1, e2, h']
  · intro j h
    simp only [mem_filter, mem_univ, true_and] at h ⊢
    rw [e, e]
    exact fun h' => h (BitVec.eq_of_toNat_eq h')
  · intro j _; simp
  · intro j _; simp

theorem selDist_emb (a b : Mat) (i : Fin 8) : selDist (emb a) (emb b) i.val = diagWt a b i := by
  have e : ∀ (m : Mat) (j : Fin 8), byteAt (emb m) ((i.val + 8 - j.val) % 8) (7 - j.val) = (m.at (i - j) j).toNat := by
    intro m j
    rw [← byteAt_emb]
    congr 1
    rw [Fin.sub_def]
    have := j.isLt
    show _ = (8 - j.val + i.val) % 8
    congr 1
    omega
  unfold selDist diagWt
  congr 1
  ext j
  simp only [mem_filter, mem_univ, true_and, e]
  exact ⟨fun h e => h (by rw [e]), fun h e => h (BitVec.eq_of_toNat_eq e)⟩

/-- Every list of eight words is a matrix. -/
theorem exists_emb (s : List U64) (h : s.length = 8) : ∃ m, s = emb m := by
  obtain ⟨m, hm⟩ := C50_states s h
  exact ⟨m, by rw [hm, emb_bytes]⟩

theorem addKey_xor (k a b : Mat) (i : Fin 8) : rowWt (addKey k a) (addKey k b) i = rowWt a b i := by
  unfold rowWt
  congr 1
  ext j
  simp only [mem_filter, mem_univ, true_and, addKey, Mat.at_of]
  constructor
  · exact fun h e => h (by rw [e])
  · exact fun h e => h (by
      have := congrArg (· ^^^ k.at i j) e
      simpa [BitVec.xor_assoc] using this)

/-! ## One application of the tables -/

/-- **C78** The XOR of eight table entries: if `d > 0` of the eight bytes it selects differ, the results differ in at least `9 - d`
bytes; if none differs, the results are equal. -/
theorem C78_lookup (s t : List U64) (hs : s.length = 8) (ht : t.length = 8) (i : Nat) (hi : i < 8) :
    ∃ u v, lookup s i = .ok u ∧ lookup t i = .ok v ∧ (selDist s t i ≠ 0 → 9 ≤ selDist s t i + wordDist u v) ∧
      (selDist s t i = 0 → u = v) := by
  obtain ⟨a, rfl⟩ := exists_emb s hs
  obtain ⟨b, rfl⟩ := exists_emb t ht
  refine ⟨_, _, lookup_eq a ⟨i, hi⟩, lookup_eq b ⟨i, hi⟩, ?_, ?_⟩
  · intro h
    have e := selDist_emb a b ⟨i, hi⟩
    dsimp only at e
    rw [e] at h ⊢
    rw [wordDist_row]
    have := row_branch zeroMat a b ⟨i, hi⟩ h
    rwa [roundFn, roundFn, addKey_xor] at this
  · intro h
    have e := selDist_emb a b ⟨i, hi⟩
    dsimp only at e
    rw [e] at h
    have := row_same zeroMat a b ⟨i, hi⟩ h
    rw [roundFn, roundFn, addKey_xor] at this
    apply ext_bytes
    intro j
    rw [row_at, row_at]
    by_contra hne
    exact card_ne_zero_of_mem (a := j) (by simpa using hne) this

/-! ## Rounds -/

/-- The keys of rounds `r+1`, `r+2`, …, started from `k`. -/
def keys (k : Mat) (r : Nat) : Nat → Mat
  | 0 => k
  | n + 1 => roundFn (roundConst (r + n + 1)) (keys k r n)

/-- The states of the rounds. -/
def states (k : Mat) (r : Nat) (a : Mat) : Nat → Mat
  | 0 => a
  | n + 1 => roundFn (keys k r (n + 1)) (states k r a n)

theorem keys_shift (k : Mat) (r : Nat) : ∀ n, keys (roundFn (roundConst (r + 1)) k) (r + 1) n = keys k r (n + 1)
  | 0 => rfl
  | n + 1 => by rw [keys, keys_shift k r n, keys]; congr 2; omega

theorem states_shift (k : Mat) (r : Nat) (a : Mat) : ∀ n,
    states (roundFn (roundConst (r + 1)) k) (r + 1) (roundFn (roundFn (roundConst (r + 1)) k) a) n = states k r a (n + 1)
  | 0 => rfl
  | n + 1 => by rw [states, states_shift k r a n, keys_shift]; rfl

theorem roundLoop_states : ∀ (n r : Nat) (k a : Mat) (L : List U64), r + n ≤ 10 → L.length = 8 →
    roundLoop n r (emb k) (emb a) L = .ok (emb (states k r a n))
  | 0, _, _, _, _, _, _ => rfl
  | n + 1, r, k, a, L, h, hL => by
    rw [roundLoop_step _ _ _ _ _ (by omega) hL, roundLoop_states n (r + 1) _ _ _ (by omega) rfl, states_shift]

theorem states_inj {k : Mat} {r : Nat} {a b : Mat} (h : a ≠ b) : ∀ n, states k r a n ≠ states k r b n
  | 0 => h
  | n + 1 => fun e => states_inj h n (roundFn_inj e)

/-- **C78** Full diffusion after two rounds: if the states before any round differ in one byte, then two rounds later all 64 bytes
differ, whatever the key. -/
theorem C78_full (K L s t : List U64) (hK : K.length = 8) (hL : L.length = 8) (hs : s.length = 8) (ht : t.length = 8) (r : Nat)
    (hr : r + 2 ≤ 10) (h : byteDist s t = 1) :
    ∃ u v, roundLoop 2 r K s L = .ok u ∧ roundLoop 2 r K t L = .ok v ∧ byteDist u v = 64 := by
  obtain ⟨k, rfl⟩ := exists_emb K hK
  obtain ⟨a, rfl⟩ := exists_emb s hs
  obtain ⟨b, rfl⟩ := exists_emb t ht
  refine ⟨_, _, roundLoop_states 2 r k a L hr hL, roundLoop_states 2 r k b L hr hL, ?_⟩
  rw [byteDist_emb] at h ⊢
  exact dist_full _ _ a b h

/-- **C78** Four consecutive rounds, from different states: the states that enter them differ in at least 81 bytes altogether. -/
theorem C78_four (K L s t : List U64) (hK : K.length = 8) (hL : L.length = 8) (hs : s.length = 8) (ht : t.length = 8) (r : Nat)
    (hr : r + 4 ≤ 10) (h : s ≠ t) :
    ∃ u v : Nat → List U64, (∀ i ≤ 4, roundLoop i r K s L = .ok (u i) ∧ roundLoop i r K t L = .ok (v i)) ∧
      81 ≤ byteDist (u 0) (v 0) + byteDist (u 1) (v 1) + byteDist (u 2) (v 2) + byteDist (u 3) (v 3) := by
  obtain ⟨k, rfl⟩ := exists_emb K hK
  obtain ⟨a, rfl⟩ := exists_emb s hs
  obtain ⟨b, rfl⟩ := exists_emb t ht
  refine ⟨fun i => emb (states k r a i), fun i => emb (states k r b i), fun i hi =>
    ⟨roundLoop_states i r k a L (by omega) hL, roundLoop_states i r k b L (by omega) hL⟩, ?_⟩
  simp only [byteDist_emb]
  exact dist_four _ _ _ a b fun e => h (by rw [e])

/-- **C78** All ten rounds, from different states: the states that enter them differ in at least 171 bytes altogether. -/
theorem C78_ten (K L s t : List U64) (hK : K.length = 8) (hL : L.length = 8) (hs : s.length = 8) (ht : t.length = 8) (h : s ≠ t) :
    ∃ u v : Nat → List U64, (∀ i ≤ 10, roundLoop i 0 K s L = .ok (u i) ∧ roundLoop i 0 K t L = .ok (v i)) ∧
      171 ≤ ∑ i ∈ range 10, byteDist (u i) (v i) := by
  obtain ⟨k, rfl⟩ := exists_emb K hK
  obtain ⟨a, rfl⟩ := exists_emb s hs
  obtain ⟨b, rfl⟩ := exists_emb t ht
  refine ⟨fun i => emb (states k 0 a i), fun i => emb (states k 0 b i), fun i hi =>
    ⟨roundLoop_states i 0 k a L (by omega) hL, roundLoop_states i 0 k b L (by omega) hL⟩, ?_⟩
  have hab : a ≠ b := fun e => h (by rw [e])
  simp only [byteDist_emb]
  have four : ∀ n, 81 ≤ dist (states k 0 a n) (states k 0 b n) + dist (states k 0 a (n + 1)) (states k 0 b (n + 1)) +
      dist (states k 0 a (n + 2)) (states k 0 b (n + 2)) + dist (states k 0 a (n + 3)) (states k 0 b (n + 3)) := fun n =>
    dist_four _ _ _ _ _ (states_inj hab n)
  have two : 9 ≤ dist (states k 0 a 8) (states k 0 b 8) + dist (states k 0 a 9) (states k 0 b 9) := by
    refine le_trans ?_ (dist_two (keys k 0 9) (states k 0 a 8) (states k 0 b 8))
    have : rows (states k 0 a 9) (states k 0 b 9) ≠ 0 := by
      intro h0
      apply states_inj (k := k) (r := 0) hab 9
      apply Mat.ext
      intro i j
      by_contra hne
      have h1 : rowWt (states k 0 a 9) (states k 0 b 9) i ≠ 0 := card_ne_zero_of_mem (a := j) (by simpa using hne)
      exact card_ne_zero_of_mem (a := i) (by simpa using h1) h0
    show 9 ≤ 9 * rows (states k 0 a 9) (states k 0 b 9)
    omega
  have h0 := four 0
  have h4 := four 4
  simp only [sum_range_succ, sum_range_zero]
  simp only [Nat.zero_add, Nat.reduceAdd] at h0 h4
  omega

/-- Two states with one byte of difference. -/
example : byteDist [1, 0, 0, 0, 0, 0, 0, 0] [0, 0, 0, 0, 0, 0, 0, 0] = 1 ∧
    byteDist [0x0101, 0, 0, 0xff00000000, 0, 0, 0, 0] [0, 0, 0, 0, 0, 0, 0, 0] = 3 ∧
    selDist [1, 0, 0, 0, 0, 0, 0, 0] [0, 0, 0, 0, 0, 0, 0, 0] 7 = 1 ∧
    selDist [1, 0, 0, 0, 0, 0, 0, 0] [0, 0, 0, 0, 0, 0, 0, 0] 6 = 0 := by decide +kernel

/-- The bound of `C78_lookup` is reached: one selected byte differs, eight bytes of the results differ. -/
example : (lookup [1, 0, 0, 0, 0, 0, 0, 0] 7).bind (fun u => (lookup [0, 0, 0, 0, 0, 0, 0, 0] 7).bind fun v =>
    .ok (wordDist u v)) = .ok 8 := by decide +kernel

/-! ## The S-box -/

/-- **C78** The generator's S-box: for every non-zero difference of inputs and every difference of outputs, at most eight inputs
have both. (`x` is a byte, `a` and `b` the differences.) -/
theorem C78_sbox (a b : Nat) (ha : 0 < a) (ha' : a < 256) :
    ((List.range 256).filter fun x => (sBox.getD (x ^^^ a) 0).toNat ^^^ (sBox.getD x 0).toNat = b).length ≤ 8 := by
  have get : ∀ x, x < 256 → sBox.getD x 0 = S (BitVec.ofNat 8 x) := by
    intro x hx
    rw [C51_sbox, List.getD_eq_getElem?_getD, List.getElem?_map, List.getElem?_range hx]
    rfl
  by_cases hb : b < 256
  · refine Nat.le_trans (Nat.le_of_eq ?_) (sbox_diff (BitVec.ofNat 8 a) (BitVec.ofNat 8 b) ?_)
    · congr 1
      apply List.filter_congr
      intro x hx
      have hx := List.mem_range.mp hx
      have hxa : x ^^^ a < 256 := Nat.xor_lt_two_pow (n := 8) hx ha'
      rw [get _ hx, get _ hxa, ← BitVec.toNat_xor]
      have e : BitVec.ofNat 8 (x ^^^ a) = BitVec.ofNat 8 x ^^^ BitVec.ofNat 8 a := by
        apply BitVec.eq_of_toNat_eq
        rw [BitVec.toNat_xor, BitVec.toNat_ofNat, BitVec.toNat_ofNat, BitVec.toNat_ofNat, Nat.mod_eq_of_lt hx,
          Nat.mod_eq_of_lt ha', Nat.mod_eq_of_lt hxa]
      rw [e]
      have : b = (BitVec.ofNat 8 b).toNat := by rw [BitVec.toNat_ofNat, Nat.mod_eq_of_lt hb]
      rw [decide_eq_decide]
      constructor
      · intro h
        apply BitVec.eq_of_toNat_eq
        rw [h, ← this]
      · intro h
        rw [h, ← this]
    · intro h
      have := congrArg BitVec.toNat h
      rw [BitVec.toNat_ofNat, Nat.mod_eq_of_lt ha'] at this
      exact absurd this (by simp; omega)
  · have : ((List.range 256).filter fun x => (sBox.getD (x ^^^ a) 0).toNat ^^^ (sBox.getD x 0).toNat = b) = [] := by
      apply List.filter_eq_nil_iff.mpr
      intro x _
      have : (sBox.getD (x ^^^ a) 0).toNat ^^^ (sBox.getD x 0).toNat < 2 ^ 8 :=
        Nat.xor_lt_two_pow (sBox.getD (x ^^^ a) 0).isLt (sBox.getD x 0).isLt
      simp only [decide_eq_true_eq]
      omega
    rw [this]
    simp

/-- The bound is reached. -/
example : ∃ a b, a < 256 ∧ 0 < a ∧
    ((List.range 256).filter fun x => (sBox.getD (x ^^^ a) 0).toNat ^^^ (sBox.getD x 0).toNat = b).length = 8 :=
  ⟨1, 144, by decide, by decide, by decide +kernel⟩

end Whirlpool
