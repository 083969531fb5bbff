import Verif.Lemmas.WhirlpoolLinear
import Verif.Props.WhirlpoolDiffusion
import Mathlib.Data.Fintype.BigOperators
import Mathlib.Data.Fintype.Pi

/-!
# C114: the tables of Whirlpool against linear approximations

The counterparts of `C78_sbox` and `C78_lookup`: how well a sum of bits of the output can be a sum of bits of the input (S-box), and how many
bytes of the input a sum of bits of the output depends on (`lookup`, the XOR of eight table entries). The notions used are the parity
of the bits of a number and bytes of words.
-/
namespace Whirlpool
open WhirlpoolSpec BlockHash Finset

/-! ## The S-box -/

theorem S_at (x : Nat) (hx : x < 256) : sAt x = (S (BitVec.ofNat 8 x)).toNat := by
  have := sAt_eq (BitVec.ofNat 8 x)
  rwa [BitVec.toNat_ofNat, Nat.mod_eq_of_lt hx] at this

/-- **C114** The generator's S-box: for every mask `a` of the input and every non-zero mask `b` of the output, the sum of the bits of
the input under `a` equals the sum of the bits of the output under `b` for at least 100 and at most 156 of the 256 inputs. -/
theorem C114_sbox (a b : Nat) (ha : a < 256) (hb : 0 < b) (hb' : b < 256) :
    100 ≤ ((List.range 256).filter fun x => oddBits 8 (a &&& x) = oddBits 8 (b &&& (sBox.getD x 0).toNat)).length ∧
      ((List.range 256).filter fun x => oddBits 8 (a &&& x) = oddBits 8 (b &&& (sBox.getD x 0).toNat)).length ≤ 156 := by
  have h := sbox_linear a b ha hb hb'
  have e : ((List.range 256).filter fun x => oddBits 8 (a &&& x) = oddBits 8 (b &&& (sBox.getD x 0).toNat)).length =
      agree b 256 a := by
    unfold agree
    congr 1
    apply List.filter_congr
    intro x hx
    have hx := List.mem_range.mp hx
    have get : (sBox.getD x 0).toNat = sAt x := by
      rw [C51_sbox, List.getD_eq_getElem?_getD, List.getElem?_map, List.getElem?_range hx]
      exact (S_at x hx).symm
    rw [get, decide_eq_decide]
    have h1 : Nat.land a x < 256 := Nat.and_lt_two_pow (n := 8) _ hx
    have h2 : Nat.land b (sAt x) < 256 := by
      rw [← get]
      exact Nat.and_lt_two_pow (n := 8) _ (sBox.getD x 0).isLt
    rw [parAt_eq _ h1, parAt_eq _ h2]
    show oddBits 8 (Nat.land a x) = oddBits 8 (Nat.land b (sAt x)) ↔ _
    cases oddBits 8 (Nat.land a x) <;> cases oddBits 8 (Nat.land b (sAt x)) <;> simp
  rw [e]
  exact h

/-! ## One application of the tables -/

/-- Whether the sum of the bits of `lookup … i` under the mask `w` depends on the `j`-th of the eight bytes that `lookup` selects: some
two lists of eight words that agree in the seven others have different sums. -/
def Depends (w : U64) (i : Nat) (j : Fin 8) : Prop := ∃ s t u v, s.length = 8 ∧ t.length = 8 ∧
  (∀ k : Fin 8, k ≠ j → byteAt s ((i + 8 - k) % 8) (7 - k) = byteAt t ((i + 8 - k) % 8) (7 - k)) ∧
  lookup s i = .ok u ∧ lookup t i = .ok v ∧ oddBits 64 (w &&& u).toNat ≠ oddBits 64 (w &&& v).toNat

/-- Number of bytes of a mask that are not zero. -/
def activeBytes (w : U64) : Nat := (univ.filter fun j : Fin 8 => w.toNat / 256 ^ j.val % 256 ≠ 0).card

/-- Two vectors that agree off `K` have the same image under a function that depends on no component in `K`. -/
theorem const_off {α β : Type} (f : (Fin 8 → α) → β) (K : Finset (Fin 8))
    (h : ∀ c ∈ K, ∀ x y : Fin 8 → α, (∀ k, k ≠ c → x k = y k) → f x = f y) :
    ∀ x y : Fin 8 → α, (∀ k, k ∉ K → x k = y k) → f x = f y := by
  induction K using Finset.induction_on with
  | empty => exact fun x y e => congrArg f (funext fun k => e k (by simp))
  | insert c K _ ih =>
    intro x y e
    refine (h c (mem_insert_self _ _) x (Function.update x c (y c)) fun k hk => by simp [hk]).trans ?_
    refine ih (fun d hd => h d (mem_insert_of_mem hd)) _ _ fun k hk => ?_
    by_cases hc : k = c
    · subst hc; simp
    · rw [Function.update_of_ne hc]
      exact e k (by simp [hc, hk])

/-- A function of eight bytes to eight bytes with branch number 9 takes all values on any set `I` of components when any `I.card`
components of the input vary. -/
theorem onto_of_branch (F : (Fin 8 → U8) → Fin 8 → U8)
    (hF : ∀ x y, x ≠ y → 9 ≤ (univ.filter fun k => x k ≠ y k).card + (univ.filter fun k => F x k ≠ F y k).card)
    (I K : Finset (Fin 8)) (hc : K.card = I.card) (z : Fin 8 → U8) :
    ∃ x : Fin 8 → U8, (∀ k, k ∉ K → x k = 0) ∧ ∀ k ∈ I, F x k = z k := by
  let ext : (K → U8) → Fin 8 → U8 := fun x k => if h : k ∈ K then x ⟨k, h⟩ else 0
  let g : (K → U8) → (I → U8) := fun x k => F (ext x) k
  have inj : Function.Injective g := by
    intro x y e
    by_contra hne
    have hne' : ext x ≠ ext y := by
      intro h
      apply hne
      funext k
      have := congrFun h k.1
      simpa [ext, k.2] using this
    have h9 := hF _ _ hne'
    have h1 : (univ.filter fun k => ext x k ≠ ext y k).card ≤ K.card := by
      apply card_le_card
      intro k hk
      by_contra hk'
      simp [ext, hk'] at hk
    have h2 : (univ.filter fun k => F (ext x) k ≠ F (ext y) k).card ≤ Iᶜ.card := by
      apply card_le_card
      intro k hk
      rw [mem_compl]
      intro hk'
      have := congrFun e ⟨k, hk'⟩
      simp only [mem_filter] at hk
      exact hk.2 this
    have h3 := card_compl_add_card I
    rw [Fintype.card_fin] at h3
    omega
  letI : Fintype U8 := Fintype.ofEquiv (Fin (2 ^ 8)) ⟨BitVec.ofFin, BitVec.toFin, fun _ => rfl, fun _ => rfl⟩
  have bij : Function.Bijective g := (Fintype.bijective_iff_injective_and_card g).mpr ⟨inj, by simp [hc]⟩
  obtain ⟨x, hx⟩ := bij.2 fun k => z k
  refine ⟨ext x, fun k hk => by simp [ext, hk], fun k hk => ?_⟩
  exact congrFun hx ⟨k, hk⟩

theorem byteAt_sel (m : Mat) (i j : Fin 8) :
    byteAt (emb m) ((i.val + 8 - j.val) % 8) (7 - j.val) = (m.at (i - j) j).toNat := by
  rw [← byteAt_emb]
  congr 1
  rw [Fin.sub_def]
  have := j.isLt
  show _ = (8 - j.val + i.val) % 8
  congr 1
  omega

theorem byteOf_and (a b : U64) (j : Fin 8) : byteOf (a &&& b) j = byteOf a j &&& byteOf b j := by
  simp only [byteOf, BitVec.ushiftRight_and_distrib, BitVec.setWidth_and]

theorem byteOf_zero (j : Fin 8) : byteOf 0 j = 0 := by
  simp [byteOf]

theorem wordDist_bytes (u v : U64) : wordDist u v = (univ.filter fun k : Fin 8 => byteOf u k ≠ byteOf v k).card := by
  have e : ∀ (u : U64) (j : Fin 8), u.toNat / 256 ^ (Fin.rev j).val % 256 = (byteOf u j).toNat := by
    intro u j
    rw [byteOf_toNat, rev_val]
    have : (256 : Nat) ^ (7 - j.val) = 2 ^ (56 - 8 * j.val) := by
      rw [show (256 : Nat) = 2 ^ 8 from rfl, ← Nat.pow_mul]
      congr 1
      have := j.isLt
      omega
    rw [this]
    rfl
  unfold wordDist
  refine card_bij' (fun j _ => Fin.rev j) (fun j _ => Fin.rev j) ?_ ?_ ?_ ?_
  · intro j h
    simp only [mem_filter, mem_univ, true_and] at h ⊢
    intro h'
    apply h
    have e1 := e u (Fin.rev j)
    have e2 := e v (Fin.rev j)
    rw [Fin.rev_rev] at e1 e2
    rw [e1, e2, h']
  · intro j h
    simp only [mem_filter, mem_univ, true_and] at h ⊢
    rw [e, e]
    exact fun h' => h (BitVec.eq_of_toNat_eq h')
  · intro j _; simp
  · intro j _; simp

/-- **C114** The XOR of eight table entries: for a non-zero mask of the result with `d` non-zero bytes, the sum of the bits under the mask
depends on at least `9 - d` of the eight selected bytes. -/
theorem C114_lookup (w : U64) (hw : w ≠ 0) (i : Nat) (hi : i < 8) (D : Finset (Fin 8)) (hD : ∀ j, Depends w i j → j ∈ D) :
    9 ≤ activeBytes w + D.card := by
  by_contra hlt
  let mat : (Fin 8 → U8) → Mat := fun x => .of fun r c => if r = ⟨i, hi⟩ - c then x c else 0
  let out : (Fin 8 → U8) → U64 := fun x => row (mixRows (shiftColumns (subBytes (mat x)))) ⟨i, hi⟩
  have hlook : ∀ x, lookup (emb (mat x)) i = .ok (out x) := fun x => lookup_eq (mat x) ⟨i, hi⟩
  have hat : ∀ x (k : Fin 8), byteAt (emb (mat x)) ((i + 8 - k) % 8) (7 - k) = (x k).toNat := by
    intro x k
    rw [byteAt_sel (mat x) ⟨i, hi⟩ k]
    simp [mat, Mat.at_of]
  have hsel : ∀ x y, selDist (emb (mat x)) (emb (mat y)) i = (univ.filter fun k => x k ≠ y k).card := by
    intro x y
    unfold selDist
    congr 1
    ext k
    simp only [mem_filter, mem_univ, true_and, hat]
    exact ⟨fun h e => h (by rw [e]), fun h e => h (BitVec.eq_of_toNat_eq e)⟩
  have hF : ∀ x y, x ≠ y → 9 ≤ (univ.filter fun k => x k ≠ y k).card +
      (univ.filter fun k => byteOf (out x) k ≠ byteOf (out y) k).card := by
    intro x y hne
    obtain ⟨u, v, hu, hv, h9, _⟩ := C78_lookup (emb (mat x)) (emb (mat y)) (emb_length _) (emb_length _) i hi
    rw [hlook] at hu hv
    cases hu
    cases hv
    rw [hsel, wordDist_bytes] at h9
    apply h9
    obtain ⟨k, hk⟩ := Function.ne_iff.mp hne
    exact card_ne_zero_of_mem (a := k) (by simpa using hk)
  let I : Finset (Fin 8) := univ.filter fun k => byteOf w k ≠ 0
  have hI : I.card = activeBytes w := by
    have := wordDist_bytes w 0
    simp only [wordDist, byteOf_zero] at this
    rw [activeBytes]
    refine Eq.trans ?_ (Eq.trans this.symm ?_)
    · rfl
    · simp
  obtain ⟨K, hK, hKc⟩ := exists_subset_card_eq (s := Dᶜ) (n := I.card) (by
    have := card_compl_add_card D
    rw [Fintype.card_fin] at this
    omega)
  have honto := onto_of_branch (fun x => byteOf (out x)) hF I K hKc
  have hmask : ∀ u v : U64, (∀ k ∈ I, byteOf u k = byteOf v k) → w &&& u = w &&& v := by
    intro u v h
    apply ext_bytes
    intro k
    rw [byteOf_and, byteOf_and]
    by_cases hk : k ∈ I
    · rw [h k hk]
    · have : byteOf w k = 0 := by simpa [I] using hk
      rw [this]
      simp
  have hconst := const_off (fun x => oddBits 64 (w &&& out x).toNat) K (by
    intro c hc x y hxy
    by_contra hne
    have := hD c ⟨emb (mat x), emb (mat y), out x, out y, emb_length _, emb_length _,
      fun k hk => by rw [hat, hat, hxy k hk], hlook x, hlook y, hne⟩
    exact mem_compl.mp (hK hc) this)
  obtain ⟨b, hb⟩ : ∃ b : Fin 64, w.getLsbD b = true := by
    by_contra h
    apply hw
    apply BitVec.eq_of_getLsbD_eq
    intro k hk
    have := not_exists.mp h ⟨k, hk⟩
    simpa using this
  obtain ⟨x, hx, ex⟩ := honto (byteOf 0)
  obtain ⟨y, hy, ey⟩ := honto (byteOf (BitVec.twoPow 64 b))
  have h0 := hconst x y fun k hk => by rw [hx k hk, hy k hk]
  simp only [hmask _ _ ex, hmask _ _ ey] at h0
  have e1 : w &&& BitVec.twoPow 64 b = BitVec.twoPow 64 b := by
    rw [BitVec.and_twoPow, hb, if_pos rfl]
  rw [e1] at h0
  have key : ∀ b : Fin 64, oddBits 64 (BitVec.twoPow 64 b).toNat = true := by decide +kernel
  rw [key b] at h0
  have z : oddBits 64 (w &&& 0 : U64).toNat = false := by
    rw [show w &&& 0 = 0 from BitVec.and_zero]
    decide +kernel
  rw [z] at h0
  exact absurd h0 (by decide)

/-- The upper end of `C114_sbox` is reached, and so is the lower. -/
example : ((List.range 256).filter fun x => oddBits 8 (232 &&& x) = oddBits 8 (254 &&& (sBox.getD x 0).toNat)).length = 156 := by
  decide +kernel

example : ((List.range 256).filter fun x => oddBits 8 (32 &&& x) = oddBits 8 (2 &&& (sBox.getD x 0).toNat)).length = 100 := by
  decide +kernel

/-- The lowest bit of the result at place 7 depends on the lowest byte of word 0. -/
example : Depends 1 7 7 := ⟨[1, 0, 0, 0, 0, 0, 0, 0], [0, 0, 0, 0, 0, 0, 0, 0], 0x13c413edff5ed613, 0x2828282828282828,
  by decide +kernel⟩

/-- A mask with one non-zero byte: all eight selected bytes matter. -/
example (i : Nat) (hi : i < 8) (j : Fin 8) : Depends 0x10 i j := by
  by_contra h
  have := C114_lookup 0x10 (by decide) i hi (univ.erase j) fun k hk => by
    rw [mem_erase]
    exact ⟨fun e => h (e ▸ hk), mem_univ _⟩
  rw [card_erase_of_mem (mem_univ _), card_univ, Fintype.card_fin] at this
  exact absurd this (by decide)

end Whirlpool
