import Verif.Props.SourceErrors
import Mathlib.Data.Set.Card
import Mathlib.Data.Set.Finite.List
import Mathlib.SetTheory.Cardinal.Finite
import Mathlib.Order.Interval.Finset.Nat

/-!
# C120: how many messages have a given check value

C112 tells which errors the checksums notice. Here the messages are counted: of all byte strings of a length, or of all numbers with so
many digits, how many does the text give the same check value? For BCC, LRC and Luhn every value is taken equally often. For Fletcher the
values with a half that is all ones never occur, and the others occur up to a factor of four equally often.
-/
namespace Source
open GoLang hiding leNat
open HashSpec ChecksumSpec Checksum

/-- Byte strings of length `n`. -/
theorem bytes_finite (n : Nat) : {q : List U8 | q.length = n}.Finite := by
  haveI : Finite U8 := Finite.of_injective (fun x : U8 => x.toFin) (fun a b h => by cases a; cases b; simpa using h)
  exact List.finite_length_eq U8 n

theorem ncard_bytes (n : Nat) : {q : List U8 | q.length = n}.ncard = 256 ^ n := by
  induction n with
  | zero =>
    rw [show {q : List U8 | q.length = 0} = {[]} by ext q; simp, Set.ncard_singleton]; rfl
  | succ n ih =>
    let e : {q : List U8 | q.length = n + 1} ≃ Fin 256 × {q : List U8 | q.length = n} :=
      { toFun := fun q => (⟨(q.1.headD 0).toNat, (q.1.headD 0).isLt⟩, ⟨q.1.tail, by have := q.2; simp only [Set.mem_setOf_eq] at *; simp [this]⟩)
        invFun := fun x => ⟨BitVec.ofNat 8 x.1.1 :: x.2.1, by have := x.2.2; simp only [Set.mem_setOf_eq] at *; simp [this]⟩
        left_inv := fun q => by
          obtain ⟨q, hq⟩ := q
          cases q with
          | nil => simp at hq
          | cons b t => simp
        right_inv := fun x => by
          obtain ⟨⟨b, hb⟩, t, ht⟩ := x
          simp [Nat.mod_eq_of_lt hb] }
    have := Nat.card_congr e
    rw [Nat.card_prod, Nat.card_fin, Nat.card_coe_set_eq, Nat.card_coe_set_eq, ih] at this
    rw [this, Nat.pow_succ, Nat.mul_comm]

/-- If every string of length `n` has exactly one byte that can be put before it, a property holds for `256^n` strings of length `n+1`. -/
theorem count_by_head (n : Nat) (good : List U8 → Prop) (h : ∀ q : List U8, q.length = n → ∃! x : U8, good (x :: q)) :
    {p : List U8 | p.length = n + 1 ∧ good p}.ncard = 256 ^ n := by
  rw [← ncard_bytes n]
  refine Set.ncard_congr (fun p _ => p.tail) ?_ ?_ ?_
  · rintro p ⟨hp, -⟩
    simp [hp]
  · rintro p q ⟨hp, gp⟩ ⟨hq, gq⟩ e
    cases p with
    | nil => simp at hp
    | cons x p =>
      cases q with
      | nil => simp at hq
      | cons y q =>
        obtain rfl : p = q := e
        rw [(h p (by simpa using hp)).unique gp gq]
  · intro q hq
    obtain ⟨x, hx, -⟩ := h q hq
    exact ⟨x :: q, ⟨by simpa using hq, hx⟩, rfl⟩

theorem fits_len {P : Prog} {p : List U8} {n : Nat} (hn : ((n + 1 : Nat) : Int) < 2 ^ (P.W - 1)) (hp : p.length = n + 1) : FitsWord P [p] := by
  intro q hq
  obtain rfl : q = p := by simpa using hq
  rw [hp]; exact hn

/-! ## bcc, lrc -/

/-- **C120** Of the byte strings of length `n+1`, exactly `256^n` have a given BCC. -/
theorem C120_bcc {P : Prog} (hP : P.Has Bcc.path [Bcc.src] []) (hW : 32 ≤ P.W) (n c : Nat) (hn : ((n + 1 : Nat) : Int) < 2 ^ (P.W - 1))
    (hc : c < 256) : {p : List U8 | p.length = n + 1 ∧ BccOf P [p] c}.ncard = 256 ^ n := by
  refine count_by_head n _ fun q hq => ?_
  have key : ∀ x : U8, BccOf P [x :: q] c ↔ x = BitVec.ofNat 8 c ^^^ xorAll q := by
    intro x
    rw [C112_bcc_value hP hW _ (fits_len hn (by simp [hq]))]
    have : [x :: q].flatten = x :: q := by simp
    rw [this, xorAll]
    constructor
    · intro h
      have : BitVec.ofNat 8 c = x ^^^ xorAll q := by rw [h]; simp
      rw [this, BitVec.xor_assoc, BitVec.xor_self, BitVec.xor_zero]
    · rintro rfl
      rw [BitVec.xor_assoc, BitVec.xor_self, BitVec.xor_zero, BitVec.toNat_ofNat]
      exact (Nat.mod_eq_of_lt hc).symm
  exact ⟨_, (key _).mpr rfl, fun x hx => (key x).mp hx⟩

/-- **C120** Of the byte strings of length `n+1`, exactly `256^n` have a given LRC. -/
theorem C120_lrc {P : Prog} (hP : P.Has Lrc.path [Lrc.src] []) (hW : 32 ≤ P.W) (n c : Nat) (hn : ((n + 1 : Nat) : Int) < 2 ^ (P.W - 1))
    (hc : c < 256) : {p : List U8 | p.length = n + 1 ∧ LrcOf P [p] c}.ncard = 256 ^ n := by
  refine count_by_head n _ fun q hq => ?_
  have key : ∀ x : U8, LrcOf P [x :: q] c ↔ (x.toNat + byteSum q + c) % 256 = 0 := by
    intro x
    rw [C112_lrc_value hP hW _ (fits_len hn (by simp [hq]))]
    simp [byteSum, hc]
  refine ⟨BitVec.ofNat 8 (256 * (byteSum q + c) - (byteSum q + c)), (key _).mpr ?_, fun x hx => ?_⟩
  · rw [BitVec.toNat_ofNat]; omega
  · have := (key x).mp hx
    apply BitVec.eq_of_toNat_eq
    have := x.isLt
    rw [BitVec.toNat_ofNat]; omega

/-- **C120** What goes unnoticed: of the `256^(n+1) - 1` other strings of the length of `p` that may arrive instead of it, exactly `256^n - 1`
have the BCC of `p`, and as many its LRC. -/
theorem C120_missed {P Q : Prog} (hW : 32 ≤ P.W) (hV : 32 ≤ Q.W) (n c : Nat) (hn : ((n + 1 : Nat) : Int) < 2 ^ (P.W - 1))
    (hm : ((n + 1 : Nat) : Int) < 2 ^ (Q.W - 1)) (p : List U8) (hp : p.length = n + 1) :
    (P.Has Bcc.path [Bcc.src] [] → Q.Has Bcc.path [Bcc.src] [] → BccOf P [p] c →
      {q : List U8 | q ≠ p ∧ q.length = n + 1 ∧ BccOf Q [q] c}.ncard = 256 ^ n - 1) ∧
    (P.Has Lrc.path [Lrc.src] [] → Q.Has Lrc.path [Lrc.src] [] → LrcOf P [p] c →
      {q : List U8 | q ≠ p ∧ q.length = n + 1 ∧ LrcOf Q [q] c}.ncard = 256 ^ n - 1) := by
  have key (good : List U8 → Prop) (hg : good p) (h : {q : List U8 | q.length = n + 1 ∧ good q}.ncard = 256 ^ n) :
      {q : List U8 | q ≠ p ∧ q.length = n + 1 ∧ good q}.ncard = 256 ^ n - 1 := by
    have hm : p ∈ {q : List U8 | q.length = n + 1 ∧ good q} := ⟨hp, hg⟩
    rw [← h, ← Set.ncard_diff_singleton_of_mem hm]
    congr 1
    ext q
    simp only [Set.mem_setOf_eq, Set.mem_diff, Set.mem_singleton_iff]
    tauto
  refine ⟨fun hP hQ h => ?_, fun hP hQ h => ?_⟩
  · have hv := (C112_bcc_value hP hW _ (fits_len hn hp) c).mp h
    refine key (fun q => BccOf Q [q] c) ((C112_bcc_value hQ hV _ (fits_len hm hp) c).mpr hv) (C120_bcc hQ hV n c hm ?_)
    rw [hv]; exact BitVec.isLt _
  · have hv := (C112_lrc_value hP hW _ (fits_len hn hp) c).mp h
    exact key (fun q => LrcOf Q [q] c) ((C112_lrc_value hQ hV _ (fits_len hm hp) c).mpr hv) (C120_lrc hQ hV n c hm hv.1)

/-! ## luhn -/

theorem luhnDigit_unique : ∀ a : Fin 10, ∃ d : Fin 10, luhnDigit true d.1 % 10 = a.1 ∧ ∀ d' : Fin 10, luhnDigit true d'.1 % 10 = a.1 → d' = d := by
  decide

/-- **C120** Of the numbers with at most `k+1` decimal digits, up to nineteen, exactly `10^k` have a given check digit. -/
theorem C120_luhn {P : Prog} (hP : P.Has Luhn.path [Luhn.src] []) (k : Nat) (hk : k ≤ 18) (c : U8) (hc : c.toNat < 10) :
    {i : U64 | i.toNat < 10 ^ (k + 1) ∧ LuhnOf P i c}.ncard = 10 ^ k := by
  have e : (Set.Iio (10 ^ k)).ncard = 10 ^ k := by
    rw [Set.ncard_eq_toFinset_card']; simp
  have hb : (10 : Nat) ^ (k + 1) ≤ 2 ^ 64 := Nat.le_trans (Nat.pow_le_pow_right (by omega) (by omega : k + 1 ≤ 19)) (by norm_num)
  have key : ∀ i : U64, LuhnOf P i c ↔
      luhnDigit true (i.toNat % 10) % 10 = (20 - c.toNat - luhnTotal false (i.toNat / 10) % 10) % 10 := by
    intro i
    rw [luhnOf_iff hP, ← BitVec.toNat_inj, Luhn.Checksum_toNat, Luhn.total_eq]
    simp only [Bool.not_true]
    omega
  rw [← e]
  refine Set.ncard_congr (fun i _ => i.toNat / 10) ?_ ?_ ?_
  · rintro i ⟨hi, -⟩
    rw [Nat.pow_succ] at hi
    simp only [Set.mem_Iio]
    omega
  · rintro i j ⟨-, hi⟩ ⟨-, hj⟩ hij
    rw [key] at hi hj
    rw [hij] at hi
    obtain ⟨d, -, hd⟩ := luhnDigit_unique ⟨_, Nat.mod_lt (20 - c.toNat - luhnTotal false (j.toNat / 10) % 10) (by omega : 0 < 10)⟩
    have h1 := hd ⟨i.toNat % 10, Nat.mod_lt _ (by omega)⟩ hi
    have h2 := hd ⟨j.toNat % 10, Nat.mod_lt _ (by omega)⟩ hj
    have := congrArg Fin.val (h1.trans h2.symm)
    simp only at this
    apply BitVec.eq_of_toNat_eq
    omega
  · intro m hm
    simp only [Set.mem_Iio] at hm
    obtain ⟨d, hd, -⟩ := luhnDigit_unique ⟨_, Nat.mod_lt (20 - c.toNat - luhnTotal false m % 10) (by omega : 0 < 10)⟩
    have hlt : 10 * m + d.1 < 10 ^ (k + 1) := by rw [Nat.pow_succ]; omega
    have ht : (BitVec.ofNat 64 (10 * m + d.1)).toNat = 10 * m + d.1 := by
      rw [BitVec.toNat_ofNat, Nat.mod_eq_of_lt (by omega)]
    refine ⟨BitVec.ofNat 64 (10 * m + d.1), ⟨by rw [ht]; exact hlt, ?_⟩, by simp only [ht]; omega⟩
    rw [key, ht, show (10 * m + d.1) % 10 = d.1 by omega, show (10 * m + d.1) / 10 = m by omega]
    exact hd

/-! ## fletcher -/

theorem leNat_inj : ∀ (p q : List U8), p.length = q.length → leNat p = leNat q → p = q
  | [], [], _, _ => rfl
  | x :: p, y :: q, hl, h => by
    simp only [leNat] at h
    have := x.isLt
    have := y.isLt
    obtain rfl : x = y := BitVec.eq_of_toNat_eq (by omega)
    rw [leNat_inj p q (by simpa using hl) (by omega)]

theorem leNat_surj : ∀ (k v : Nat), v < 256 ^ k → ∃ p : List U8, p.length = k ∧ leNat p = v
  | 0, v, h => ⟨[], rfl, by simp only [Nat.pow_zero] at h; simp only [leNat]; omega⟩
  | k + 1, v, h => by
    obtain ⟨p, hp, hv⟩ := leNat_surj k (v / 256) (by rw [Nat.pow_succ] at h; omega)
    refine ⟨BitVec.ofNat 8 v :: p, by simp [hp], ?_⟩
    simp only [leNat, hv, BitVec.toNat_ofNat]
    omega

/-- The first two words and the rest. -/
theorem words_split {k : Nat} (hk : 0 < k) (u v q : List U8) (hu : u.length = k) (hv : v.length = k) :
    words k (u ++ (v ++ q)) = leNat u :: leNat v :: words k q := by
  have h : ∀ u w : List U8, u.length = k → words k (u ++ w) = leNat u :: words k w := by
    intro u w hu
    rw [words_cons hk _ (by cases u <;> simp_all)]
    simp [← hu]
  rw [h u _ hu, h v _ hv]

theorem cut {k n : Nat} (p : List U8) (hp : p.length = k * (n + 2)) :
    ∃ u v q : List U8, p = u ++ (v ++ q) ∧ u.length = k ∧ v.length = k ∧ q.length = k * n := by
  refine ⟨p.take k, (p.drop k).take k, (p.drop k).drop k, by simp, ?_, ?_, ?_⟩ <;>
    simp only [List.length_take, List.length_drop, hp, Nat.mul_add] <;> omega

theorem congr_eq {M x y : Nat} (hx : x ≤ M) (hy : y ≤ M) (h : x ≡ y [MOD M]) (he : x = M ↔ y = M) : x = y := by
  by_cases hM : x = M
  · rw [hM, he.mp hM]
  · have : y ≠ M := fun e => hM (he.mpr e)
    have h : x % M = y % M := h
    rwa [Nat.mod_eq_of_lt (by omega), Nat.mod_eq_of_lt (by omega)] at h

/-- For every rest and every pair of remainders there are two words to put before it. -/
theorem fletcher_solve {k : Nat} (hk : 0 < k) (ws : List Nat) (a b : Nat) (ha : a < 256 ^ k - 1) (hb : b < 256 ^ k - 1) :
    ∃ x y, x < 256 ^ k ∧ y < 256 ^ k ∧ fletcher k (x :: y :: ws) = b * 256 ^ k + a := by
  have h1 : 256 ≤ 256 ^ k := by
    calc 256 = 256 ^ 1 := rfl
      _ ≤ 256 ^ k := Nat.pow_le_pow_right (by omega) hk
  generalize hM : 256 ^ k - 1 = M at *
  have neg : ∀ t, t + (M - 1) * t ≡ 0 [MOD M] := by
    intro t
    have : t + (M - 1) * t = M * t := by rw [Nat.sub_mul, Nat.one_mul]; have : t ≤ M * t := Nat.le_mul_of_pos_left t (by omega); omega
    rw [this]
    exact (Nat.modEq_zero_iff_dvd).mpr ⟨t, rfl⟩
  let s := a + (M - 1) * ws.sum
  let x := (b + (M - 1) * (runningTotal ws + (ws.length + 1) * s)) % M
  let y := (s + (M - 1) * x) % M
  have hx : x < M := Nat.mod_lt _ (by omega)
  have hy : y < M := Nat.mod_lt _ (by omega)
  have ex : x ≡ b + (M - 1) * (runningTotal ws + (ws.length + 1) * s) [MOD M] := Nat.mod_modEq _ _
  have ey : y ≡ s + (M - 1) * x [MOD M] := Nat.mod_modEq _ _
  have exy : x + y ≡ s [MOD M] := by
    have h2 : x + y ≡ x + (s + (M - 1) * x) [MOD M] := ey.add_left x
    have h3 : s + (x + (M - 1) * x) ≡ s + 0 [MOD M] := (neg x).add_left s
    rw [show x + (s + (M - 1) * x) = s + (x + (M - 1) * x) by ring] at h2
    exact h2.trans h3
  refine ⟨x, y, by omega, by omega, ?_⟩
  have hsum : (x :: y :: ws).sum % M = a := by
    have h2 : x + y + ws.sum ≡ a + (M - 1) * ws.sum + ws.sum [MOD M] := exy.add_right _
    have h3 : a + (ws.sum + (M - 1) * ws.sum) ≡ a + 0 [MOD M] := (neg _).add_left a
    have h4 : x + y + ws.sum ≡ a [MOD M] := by
      rw [show a + (M - 1) * ws.sum + ws.sum = a + (ws.sum + (M - 1) * ws.sum) by ring] at h2
      exact h2.trans h3
    rw [show (x :: y :: ws).sum = x + y + ws.sum by simp [Nat.add_assoc], h4, Nat.mod_eq_of_lt ha]
  have hrun : runningTotal (x :: y :: ws) % M = b := by
    have e : runningTotal (x :: y :: ws) = x + ((ws.length + 1) * (x + y) + runningTotal ws) := by
      rw [runningTotal_cons, runningTotal_cons, List.length_cons]; ring
    have h2 : x + ((ws.length + 1) * (x + y) + runningTotal ws) ≡
        b + (M - 1) * (runningTotal ws + (ws.length + 1) * s) + ((ws.length + 1) * s + runningTotal ws) [MOD M] :=
      ex.add ((exy.mul_left _).add_right _)
    have h3 := (neg (runningTotal ws + (ws.length + 1) * s)).add_left b
    rw [show b + (M - 1) * (runningTotal ws + (ws.length + 1) * s) + ((ws.length + 1) * s + runningTotal ws) =
      b + (runningTotal ws + (ws.length + 1) * s + (M - 1) * (runningTotal ws + (ws.length + 1) * s)) by ring] at h2
    rw [e, h2.trans h3, Nat.add_zero, Nat.mod_eq_of_lt hb]
  rw [fletcher, hM, hsum, hrun]

section fletcher
variable {P : Prog} (hP : P.Has Fletcher.path fletcherTexts []) (hW : 32 ≤ P.W) {k : Nat} (hk : k = 1 ∨ k = 2 ∨ k = 4)
include hP hW hk

/-- **C120** A Fletcher checksum never has a half that is all ones. -/
theorem C120_fletcher_never (p : List U8) (hf : FitsWord P [p]) (ht : FletcherTakes k p) (c : Nat) (h : FletcherOf P k [p] c) :
    c % 256 ^ k < 256 ^ k - 1 ∧ c / 256 ^ k < 256 ^ k - 1 := by
  rw [C112_fletcher_value hP hW hk p hf ht] at h
  have h1 : 256 ≤ 256 ^ k := by rcases hk with rfl | rfl | rfl <;> decide
  generalize hB : 256 ^ k = B at *
  have hA : (words k p).sum % (B - 1) < B - 1 := Nat.mod_lt _ (by omega)
  have hR : runningTotal (words k p) % (B - 1) < B - 1 := Nat.mod_lt _ (by omega)
  rw [h, fletcher, hB, Nat.mul_comm, Nat.mul_add_mod, Nat.mod_eq_of_lt (by omega : (words k p).sum % (B - 1) < B),
    Nat.mul_add_div (by omega), Nat.div_eq_of_lt (by omega : (words k p).sum % (B - 1) < B)]
  exact ⟨hA, by omega⟩

/-- **C120** Every other value is taken: of the messages of `n+2` words by at least as many as there are messages of `n` words, and by at
most four times as many. -/
theorem C120_fletcher (n c : Nat) (hn : ((k * (n + 2) : Nat) : Int) < 2 ^ (P.W - 1)) (ht : k = 1 → n + 2 ≤ 5803)
    (ha : c % 256 ^ k < 256 ^ k - 1) (hb : c / 256 ^ k < 256 ^ k - 1) :
    256 ^ (k * n) ≤ {p : List U8 | p.length = k * (n + 2) ∧ FletcherOf P k [p] c}.ncard ∧
    {p : List U8 | p.length = k * (n + 2) ∧ FletcherOf P k [p] c}.ncard ≤ 4 * 256 ^ (k * n) := by
  have k0 : 0 < k := by omega
  have val : ∀ p : List U8, p.length = k * (n + 2) → (FletcherOf P k [p] c ↔ c = fletcher k (words k p)) := by
    intro p hp
    refine C112_fletcher_value hP hW hk p ?_ (fun e => ?_) c
    · intro q hq
      obtain rfl : q = p := by simpa using hq
      rw [hp]; exact hn
    · subst e; have := ht rfl; omega
  have fin : {p : List U8 | p.length = k * (n + 2) ∧ FletcherOf P k [p] c}.Finite :=
    (bytes_finite (k * (n + 2))).subset fun p hp => hp.1
  constructor
  · rw [← ncard_bytes (k * n)]
    refine Nat.le_trans (Set.ncard_le_ncard (t := (fun p : List U8 => p.drop (2 * k)) '' {p | p.length = k * (n + 2) ∧ FletcherOf P k [p] c})
      ?_ (fin.image _)) (Set.ncard_image_le fin)
    intro q hq
    obtain ⟨x, y, hx, hy, h⟩ := fletcher_solve k0 (words k q) _ _ ha hb
    obtain ⟨u, hu, rfl⟩ := leNat_surj k x hx
    obtain ⟨v, hv, rfl⟩ := leNat_surj k y hy
    have hl : (u ++ (v ++ q)).length = k * (n + 2) := by
      have : q.length = k * n := hq
      simp only [List.length_append, hu, hv, this, Nat.mul_add]; omega
    refine ⟨u ++ (v ++ q), ⟨hl, (val _ hl).mpr ?_⟩, ?_⟩
    · rw [words_split k0 u v q hu hv, h, Nat.mul_comm, Nat.div_add_mod]
    · show (u ++ (v ++ q)).drop (2 * k) = q
      rw [← List.append_assoc, List.drop_left' (by simp [hu, hv]; omega)]
  · let f : List U8 → List U8 × (Bool × Bool) := fun p =>
      (p.drop (2 * k), decide (leNat (p.take k) = 256 ^ k - 1), decide (leNat ((p.drop k).take k) = 256 ^ k - 1))
    have hc : ({q : List U8 | q.length = k * n} ×ˢ (Set.univ : Set (Bool × Bool))).ncard = 4 * 256 ^ (k * n) := by
      rw [Set.ncard_prod, ncard_bytes, Set.ncard_univ, Nat.card_prod]
      simp [Nat.mul_comm]
    rw [← hc]
    refine Set.ncard_le_ncard_of_injOn f ?_ ?_ ((bytes_finite _).prod Set.finite_univ)
    · rintro p ⟨hp, -⟩
      refine ⟨?_, trivial⟩
      show (p.drop (2 * k)).length = k * n
      rw [List.length_drop, hp, Nat.mul_add]; omega
    · rintro p ⟨hp, gp⟩ p' ⟨hp', gp'⟩ e
      rw [val p hp] at gp
      rw [val p' hp'] at gp'
      obtain ⟨u, v, q, rfl, hu, hv, hq⟩ := cut p hp
      obtain ⟨u', v', q', rfl, hu', hv', hq'⟩ := cut p' hp'
      have tk : ∀ u v q : List U8, u.length = k → v.length = k → f (u ++ (v ++ q)) =
          (q, decide (leNat u = 256 ^ k - 1), decide (leNat v = 256 ^ k - 1)) := by
        intro u v q hu hv
        show ((u ++ (v ++ q)).drop (2 * k), decide (leNat ((u ++ (v ++ q)).take k) = 256 ^ k - 1),
          decide (leNat (((u ++ (v ++ q)).drop k).take k) = 256 ^ k - 1)) = _
        rw [List.take_left' hu, List.drop_left' hu, List.take_left' hv, ← List.append_assoc, List.drop_left' (by simp [hu, hv]; omega)]
      rw [tk u v q hu hv, tk u' v' q' hu' hv'] at e
      simp only [Prod.mk.injEq, decide_eq_decide] at e
      obtain ⟨rfl, e1, e2⟩ := e
      have h := gp.symm.trans gp'
      rw [words_split k0 u v q hu hv, words_split k0 u' v' q hu' hv'] at h
      have h := (fletcher_two k k0 [] [] (words k q) (leNat u) (leNat v) (leNat u') (leNat v')).mp h
      simp only [List.length_nil, Nat.zero_add, Nat.one_mul] at h
      have lt : ∀ w : List U8, w.length = k → leNat w ≤ 256 ^ k - 1 := by
        intro w hw
        have := leNat_lt w
        rw [hw] at this; omega
      rw [leNat_inj u u' (by omega) (congr_eq (lt u hu) (lt u' hu') h.2 e1),
        leNat_inj v v' (by omega) (congr_eq (lt v hv) (lt v' hv') (h.2.add_left_cancel h.1) e2)]

end fletcher

/-! ## The hypotheses can be met -/

/-- Three bytes on a machine with 32-bit integers: 65536 strings have the BCC 7, 65535 arrive unnoticed instead of a given one; a hundred of
the numbers below 1000 have the check digit 4; the Fletcher-16 value 0x0102 is taken. -/
example : {p : List U8 | p.length = 3 ∧ BccOf checksums32 [p] 7}.ncard = 65536 ∧ {p : List U8 | p.length = 3 ∧ LrcOf checksums32 [p] 7}.ncard = 65536 ∧
    {i : U64 | i.toNat < 1000 ∧ LuhnOf checksums32 i 4#8}.ncard = 100 ∧
    256 ≤ {p : List U8 | p.length = 3 ∧ FletcherOf checksums32 1 [p] 0x0102}.ncard :=
  ⟨C120_bcc ⟨_, Bcc.text, by kernel_rfl⟩ (by decide) 2 7 (by decide) (by omega),
   C120_lrc ⟨_, Lrc.text, by kernel_rfl⟩ (by decide) 2 7 (by decide) (by omega),
   C120_luhn ⟨_, Luhn.text, by kernel_rfl⟩ 2 (by omega) 4#8 (by decide),
   (C120_fletcher ⟨_, Fletcher.text, by kernel_rfl⟩ (by decide) (.inl rfl) 1 0x0102 (by decide) (by omega) (by decide) (by decide)).1⟩

/-- Two bytes, sent on one machine and checked on the other: 255 others have the BCC 3, and 255 others the LRC 253. -/
example : {q : List U8 | q ≠ [1, 2] ∧ q.length = 2 ∧ BccOf checksums32 [q] 3}.ncard = 255 ∧
    {q : List U8 | q ≠ [1, 2] ∧ q.length = 2 ∧ LrcOf checksums32 [q] 253}.ncard = 255 :=
  ⟨(C120_missed (P := checksums) (Q := checksums32) (by decide) (by decide) 1 3 (by decide) (by decide) [1, 2] rfl).1 checksums_has.1 checksums32_has.1
      ((C112_bcc_value checksums_has.1 (by decide) _ (fits_small _ (by decide) _ (by simp)) _).mpr (by decide)),
    (C120_missed (P := checksums) (Q := checksums32) (by decide) (by decide) 1 253 (by decide) (by decide) [1, 2] rfl).2 checksums_has.2.1 checksums32_has.2.1
      ((C112_lrc_value checksums_has.2.1 (by decide) _ (fits_small _ (by decide) _ (by simp)) _).mpr (by decide))⟩

/-- No data has the Fletcher-32 value 0xffff. -/
example : ¬ FletcherOf checksums 2 [[1#8, 2#8, 3#8]] 0xffff := fun h =>
  absurd (C120_fletcher_never checksums_has.2.2.1 (by decide) (.inr (.inl rfl)) _ (fits_small _ (by decide) _ (by simp)) (by simp [FletcherTakes]) _ h).1 (by decide)

end Source
