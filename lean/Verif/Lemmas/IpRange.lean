import Verif.Lemmas.IpTree

namespace Net
open NetSpec
variable {V : Type}

theorem agree_iff (a pos e : Nat) (ha : a < 2 ^ 32) (hp : pos < 2 ^ 32) :
    (∀ i, e ≤ i → i < 32 → a.testBit i = pos.testBit i) ↔ a / 2 ^ e = pos / 2 ^ e := by
  have hz : ∀ x, x < 2 ^ 32 → ∀ i, 32 ≤ i → x.testBit i = false := fun x hx i hi =>
    Nat.testBit_lt_two_pow (Nat.lt_of_lt_of_le hx (Nat.pow_le_pow_right (by omega) hi))
  constructor
  · intro h
    apply Nat.eq_of_testBit_eq
    intro i
    rw [Nat.testBit_div_two_pow, Nat.testBit_div_two_pow]
    rcases Nat.lt_or_ge (i + e) 32 with h1 | h1
    · exact h _ (by omega) h1
    · rw [hz a ha _ h1, hz pos hp _ h1]
  · intro h i h1 _
    have := congrArg (fun x => x.testBit (i - e)) h
    simp only [Nat.testBit_div_two_pow] at this
    rwa [show i - e + e = i by omega] at this

theorem add_norm (merge : V → V → V) (t : Node V) (hn : Norm t 32) (pos : U32) (e : U8) (x : V) :
    Norm (add merge t pos 32#8 e x) 32 := by
  rw [add_eq merge 32 t pos 32#8 e x rfl]; exact (addN_norm merge 32 t _ _ x hn).1

theorem add_mem (merge : V → V → V) (t : Node V) (hn : Norm t 32) (pos : U32) (e : U8) (x : V) (a : Nat) (ha : a < 2 ^ 32) :
    mem (add merge t pos 32#8 e x) 32 a ↔ mem t 32 a ∨ a / 2 ^ e.toNat = pos.toNat / 2 ^ e.toNat := by
  rw [add_eq merge 32 t pos 32#8 e x rfl, addN_mem merge 32 t _ _ x hn, agree_iff _ _ _ ha pos.isLt]

theorem add_covered (merge : V → V → V) (t : Node V) (hn : Norm t 32) (pos : U32) (e : U8) (x : V)
    (h : ∀ a, a < 2 ^ 32 → a / 2 ^ e.toNat = pos.toNat / 2 ^ e.toNat → mem t 32 a) :
    add merge t pos 32#8 e x = t := by
  rw [add_eq merge 32 t pos 32#8 e x rfl]
  apply addN_covered merge 32 t _ _ x hn
  intro a ha
  have hlow : ∀ i, i < 32 → a.testBit i = (a % 2 ^ 32).testBit i := by
    intro i hi; rw [Nat.testBit_mod_two_pow]; simp [hi]
  have hlt : a % 2 ^ 32 < 2 ^ 32 := Nat.mod_lt _ (by omega)
  rw [mem_congr 32 t a (a % 2 ^ 32) hlow]
  apply h _ hlt
  rw [← agree_iff _ _ _ hlt pos.isLt]
  intro i h1 h2
  rw [← hlow i h2]; exact ha i h1 h2

theorem add_vals (merge : V → V → V) (P : V → Prop) (hP : ∀ a b, P a → P b → P (merge a b)) (t : Node V) (pos : U32)
    (e : U8) (x : V) (hx : P x) (ht : ∀ w, hasVal t w → P w) : ∀ w, hasVal (add merge t pos 32#8 e x) w → P w := by
  rw [add_eq merge 32 t pos 32#8 e x rfl]; exact addN_vals merge P hP 32 t _ _ x hx ht

/-! ## AddRange -/

theorem exists_odd (n : Nat) (h : n ≠ 0) : ∃ k q, n = 2 ^ k * (2 * q + 1) := by
  induction n using Nat.strongRecOn with
  | _ n ih =>
    rcases Nat.even_or_odd' n with ⟨c, hc | hc⟩
    · obtain ⟨k, q, e⟩ := ih c (by omega) (by omega)
      exact ⟨k + 1, q, by rw [hc, e, Nat.pow_succ]; ring⟩
    · exact ⟨0, c, by rw [hc]; ring⟩

theorem low_bits (k q i : Nat) :
    ((2 ^ k * (2 * q + 1) - 1).testBit i && !(2 ^ k * (2 * q + 1)).testBit i) = decide (i < k) := by
  have hp : 0 < 2 ^ k := Nat.pow_pos (by omega)
  have e1 : 2 ^ k * (2 * q + 1) - 1 = 2 ^ k * (2 * q) + (2 ^ k - 1) := by rw [Nat.mul_add]; omega
  have e2 : 2 ^ k * (2 * q + 1) = 2 ^ k * (2 * q + 1) + 0 := rfl
  rw [e1, Nat.testBit_two_pow_mul_add _ (by omega), e2, Nat.testBit_two_pow_mul_add _ hp]
  by_cases hi : i < k
  · simp [hi, Nat.testBit_two_pow_sub_one]
  · simp only [if_neg hi, decide_eq_false hi]
    cases i - k with
    | zero => simp [Nat.testBit_zero]
    | succ j => rw [Nat.testBit_succ, Nat.testBit_succ, show 2 * q / 2 = (2 * q + 1) / 2 by omega]; simp

/-- The initial `m`: all ones below the lowest one bit of the start. -/
theorem initial_max (u : U32) : ∃ k, k ≤ 32 ∧ 2 ^ k ∣ u.toNat ∧ ((u - 1#32) &&& ~~~u).toNat = 2 ^ k - 1 ∧
    ∀ j, j ≤ 32 → 2 ^ j ∣ u.toNat → j ≤ k := by
  by_cases h0 : u.toNat = 0
  · have : u = 0#32 := BitVec.eq_of_toNat_eq h0
    subst this
    exact ⟨32, by omega, by simp, by decide, fun j hj _ => hj⟩
  · obtain ⟨k, q, e⟩ := exists_odd u.toNat h0
    have hlt := u.isLt
    have hk : k < 32 := by
      by_contra hk
      have : 2 ^ 32 ≤ 2 ^ k := Nat.pow_le_pow_right (by omega) (by omega)
      have : 2 ^ k * 1 ≤ 2 ^ k * (2 * q + 1) := Nat.mul_le_mul_left _ (by omega)
      omega
    refine ⟨k, by omega, ⟨_, e⟩, ?_, ?_⟩
    rotate_left
    · intro j _ hd
      by_contra hj
      have hd := Dvd.dvd.trans (Nat.pow_dvd_pow 2 (show k + 1 ≤ j by omega)) hd
      rw [e, Nat.pow_succ] at hd
      have := Nat.dvd_of_mul_dvd_mul_left (Nat.pow_pos (by omega)) hd
      omega
    have hs : (u - 1#32).toNat = 2 ^ k * (2 * q + 1) - 1 := by
      rw [BitVec.toNat_sub_of_le (by rw [BitVec.le_def]; simp; omega), e]; rfl
    apply Nat.eq_of_testBit_eq
    intro i
    rw [Nat.testBit_two_pow_sub_one, ← low_bits k q i]
    rcases Nat.lt_or_ge i 32 with hi | hi
    · have h1 : ((u - 1#32) &&& ~~~u).toNat.testBit i = ((u - 1#32) &&& ~~~u).getLsbD i := rfl
      rw [h1, BitVec.getLsbD_and, BitVec.getLsbD_not]
      simp only [BitVec.getLsbD, hs, e, hi, decide_true, Bool.true_and]
    · have hz : ∀ x : Nat, x < 2 ^ 32 → x.testBit i = false := fun x hx =>
        Nat.testBit_lt_two_pow (Nat.lt_of_lt_of_le hx (Nat.pow_le_pow_right (by omega) hi))
      rw [hz _ (BitVec.isLt _), hz _ (by omega)]; rfl

theorem initial_m (u : U32) : ∃ k, k ≤ 32 ∧ 2 ^ k ∣ u.toNat ∧ ((u - 1#32) &&& ~~~u).toNat = 2 ^ k - 1 := by
  obtain ⟨k, h1, h2, h3, _⟩ := initial_max u
  exact ⟨k, h1, h2, h3⟩

theorem dvd_room {k u : Nat} (hk : k ≤ 32) (hd : 2 ^ k ∣ u) (hu : u < 2 ^ 32) : u + 2 ^ k ≤ 2 ^ 32 := by
  obtain ⟨q, rfl⟩ := hd
  have e : 2 ^ 32 = 2 ^ k * 2 ^ (32 - k) := by rw [← Nat.pow_add]; congr 1; omega
  rw [e] at hu ⊢
  have hq : q < 2 ^ (32 - k) := Nat.lt_of_mul_lt_mul_left hu
  calc 2 ^ k * q + 2 ^ k = 2 ^ k * (q + 1) := by ring
    _ ≤ _ := Nat.mul_le_mul_left _ hq

theorem sum_toNat {k : Nat} (u m : U32) (hk : k ≤ 32) (hd : 2 ^ k ∣ u.toNat) (hm : m.toNat = 2 ^ k - 1) :
    (u + m).toNat = u.toNat + 2 ^ k - 1 := by
  have := dvd_room hk hd u.isLt
  have hp : 0 < 2 ^ k := Nat.pow_pos (by omega)
  rw [BitVec.toNat_add, hm, Nat.mod_eq_of_lt] <;> omega

/-- What `shrink` returns: a smaller block, inside the range. -/
theorem shrink_some (u uEnd : U32) (fuel : Nat) : ∀ (m m' : U32) (k : Nat), k ≤ 32 → 2 ^ k ∣ u.toNat → m.toNat = 2 ^ k - 1 →
    shrink u uEnd fuel m = some m' → ∃ j, j ≤ k ∧ m'.toNat = 2 ^ j - 1 ∧ u.toNat + 2 ^ j - 1 ≤ uEnd.toNat := by
  have base : ∀ (m : U32) (k : Nat), k ≤ 32 → 2 ^ k ∣ u.toNat → m.toNat = 2 ^ k - 1 → ¬ (u + m > uEnd) →
      u.toNat + 2 ^ k - 1 ≤ uEnd.toNat := by
    intro m k hk hd hm hc
    have : ¬ uEnd.toNat < (u + m).toNat := hc
    rw [sum_toNat u m hk hd hm] at this; omega
  induction fuel with
  | zero =>
    intro m m' k hk hd hm h
    rw [shrink] at h
    split at h
    · cases h
    · rename_i hc; cases h; exact ⟨k, le_refl _, hm, base m k hk hd hm hc⟩
  | succ fuel ih =>
    intro m m' k hk hd hm h
    rw [shrink] at h
    split at h
    · cases k with
      | zero =>
        have hm0 : m = 0#32 := BitVec.eq_of_toNat_eq (by simpa using hm)
        subst hm0
        exact ih _ m' 0 hk hd (by simp) h
      | succ k =>
        obtain ⟨j, hj, r⟩ := ih _ m' k (by omega) (Dvd.dvd.trans (Nat.pow_dvd_pow 2 (by omega)) hd) (by
          rw [BitVec.toNat_ushiftRight, hm, Nat.shiftRight_eq_div_pow, Nat.pow_succ]; omega) h
        exact ⟨j, by omega, r⟩
    · rename_i hc; cases h; exact ⟨k, le_refl _, hm, base m k hk hd hm hc⟩

/-- `shrink` ends within `k` steps. -/
theorem shrink_ends (u uEnd : U32) (hle : u ≤ uEnd) : ∀ (fuel : Nat) (m : U32) (k : Nat), k ≤ fuel → m.toNat = 2 ^ k - 1 →
    ∃ m', shrink u uEnd fuel m = some m' := by
  intro fuel
  have hz : ∀ m : U32, m.toNat = 2 ^ 0 - 1 → ¬ (u + m > uEnd) := by
    intro m hm
    have hm0 : m = 0#32 := BitVec.eq_of_toNat_eq (by simpa using hm)
    subst hm0
    show ¬ uEnd.toNat < (u + 0#32).toNat
    rw [BitVec.add_zero]; rw [BitVec.le_def] at hle; omega
  induction fuel with
  | zero =>
    intro m k hk hm
    obtain rfl : k = 0 := by omega
    exact ⟨m, by rw [shrink, if_neg (hz m hm)]⟩
  | succ fuel ih =>
    intro m k hk hm
    rw [shrink]
    cases k with
    | zero => exact ⟨m, by rw [if_neg (hz m hm)]⟩
    | succ k =>
      split
      · exact ih _ k (by omega) (by rw [BitVec.toNat_ushiftRight, hm, Nat.shiftRight_eq_div_pow, Nat.pow_succ]; omega)
      · exact ⟨m, rfl⟩

theorem bitCount_eq (j : Nat) : ∀ (m : U32) (b : U8), m.toNat = 2 ^ j - 1 → bitCount m b = b + BitVec.ofNat 8 j := by
  induction j with
  | zero =>
    intro m b hm
    have hm0 : m = 0#32 := BitVec.eq_of_toNat_eq (by simpa using hm)
    subst hm0
    rw [bitCount]; simp
  | succ j ih =>
    intro m b hm
    have hp : 0 < 2 ^ j := Nat.pow_pos (by omega)
    rw [Nat.pow_succ] at hm
    have h0 : m ≠ 0#32 := by rintro rfl; simp at hm; omega
    rw [bitCount, dif_pos h0, ih _ _ (by rw [BitVec.toNat_ushiftRight, hm, Nat.shiftRight_eq_div_pow]; omega)]
    apply BitVec.eq_of_toNat_eq
    simp only [BitVec.toNat_add, BitVec.toNat_ofNat]; omega

/-- With the last address as end the outer loop never ends. -/
theorem rangeLoop_forever (merge : V → V → V) (x : V) (fuel : Nat) : ∀ (u : U32) (t : Node V),
    rangeLoop merge 0xffffffff#32 x fuel u t = Option.none := by
  have hle : ∀ u : U32, u ≤ 0xffffffff#32 := fun u => by rw [BitVec.le_def]; have := u.isLt; simp; omega
  induction fuel with
  | zero => intro u t; rw [rangeLoop, if_pos (hle u)]
  | succ fuel ih =>
    intro u t
    rw [rangeLoop, if_pos (hle u)]
    cases shrink u 0xffffffff#32 fuel ((u - 1#32) &&& ~~~u) with
    | none => rfl
    | some m => exact ih _ _

/-- One turn of the outer loop. -/
theorem range_turn {fuel : Nat} {u uEnd m : U32} (hne : uEnd ≠ 0xffffffff#32)
    (h : shrink u uEnd fuel ((u - 1#32) &&& ~~~u) = some m) : ∃ j, j ≤ 32 ∧ 2 ^ j ∣ u.toNat ∧
      (bitCount m 0#8).toNat = j ∧ u.toNat + 2 ^ j ≤ uEnd.toNat + 1 ∧ (u + (m + 1#32)).toNat = u.toNat + 2 ^ j ∧
      ∀ a, a / 2 ^ j = u.toNat / 2 ^ j ↔ u.toNat ≤ a ∧ a < u.toNat + 2 ^ j := by
  obtain ⟨k, hk, hd, hm0⟩ := initial_m u
  obtain ⟨j, hj, hm, hend⟩ := shrink_some u uEnd fuel _ m k hk hd hm0 h
  have hdj : 2 ^ j ∣ u.toNat := Dvd.dvd.trans (Nat.pow_dvd_pow 2 hj) hd
  have hp : 0 < 2 ^ j := Nat.pow_pos (by omega)
  have hlt : uEnd.toNat < 2 ^ 32 - 1 := by
    have := uEnd.isLt
    rcases Nat.lt_or_ge uEnd.toNat (2 ^ 32 - 1) with h | h
    · exact h
    · exact absurd (BitVec.eq_of_toNat_eq (by show _ = 4294967295; omega)) hne
  refine ⟨j, by omega, hdj, ?_, by omega, ?_, ?_⟩
  · rw [bitCount_eq j m _ hm]; simp; omega
  · rw [← BitVec.add_assoc, BitVec.toNat_add, sum_toNat u m (by omega) hdj hm]
    show (_ + 1) % _ = _
    rw [Nat.mod_eq_of_lt] <;> omega
  · intro a
    obtain ⟨q, hq⟩ := hdj
    rw [hq, Nat.mul_div_cancel_left _ hp, Nat.div_eq_iff hp]
    rw [Nat.mul_comm q]
    omega

theorem rangeLoop_spec (merge : V → V → V) (uEnd : U32) (hne : uEnd ≠ 0xffffffff#32) (x : V) (fuel : Nat) :
    ∀ (u : U32) (t t' : Node V), Norm t 32 → rangeLoop merge uEnd x fuel u t = some t' →
    Norm t' 32 ∧ ∀ a, a < 2 ^ 32 → (mem t' 32 a ↔ mem t 32 a ∨ (u.toNat ≤ a ∧ a ≤ uEnd.toNat)) := by
  induction fuel with
  | zero =>
    intro u t t' hn h
    rw [rangeLoop] at h
    split at h
    · cases h
    · rename_i hc; cases h
      refine ⟨hn, fun a _ => ?_⟩
      rw [BitVec.le_def] at hc
      constructor
      · exact .inl
      · rintro (h | h)
        · exact h
        · omega
  | succ fuel ih =>
    intro u t t' hn h
    rw [rangeLoop] at h
    split at h
    · rename_i hc
      split at h
      · cases h
      · rename_i m hm
        obtain ⟨j, hj, hd, hb, hend, hnext, hblk⟩ := range_turn hne hm
        obtain ⟨i1, i2⟩ := ih _ _ _ (add_norm merge t hn u _ x) h
        refine ⟨i1, fun a ha => ?_⟩
        rw [i2 a ha, add_mem merge t hn u _ x a ha, hb, hblk, hnext]
        have hp : 0 < 2 ^ j := Nat.pow_pos (by omega)
        generalize mem t 32 a = p
        constructor
        · rintro ((h | h) | h)
          · exact .inl h
          · exact .inr (by omega)
          · exact .inr (by omega)
        · rintro (h | h)
          · exact .inl (.inl h)
          · rcases Nat.lt_or_ge a (u.toNat + 2 ^ j) with h' | h'
            · exact .inl (.inr (by omega))
            · exact .inr (by omega)
    · rename_i hc; cases h
      refine ⟨hn, fun a _ => ?_⟩
      rw [BitVec.le_def] at hc
      constructor
      · exact .inl
      · rintro (h | h)
        · exact h
        · omega

theorem rangeLoop_norm (merge : V → V → V) (uEnd : U32) (x : V) (fuel : Nat) : ∀ (u : U32) (t t' : Node V), Norm t 32 →
    rangeLoop merge uEnd x fuel u t = some t' → Norm t' 32 := by
  intro u t t' hn h
  by_cases hne : uEnd = 0xffffffff#32
  · rw [hne, rangeLoop_forever] at h; cases h
  · exact (rangeLoop_spec merge uEnd hne x fuel u t t' hn h).1

theorem rangeLoop_vals (merge : V → V → V) (P : V → Prop) (hP : ∀ a b, P a → P b → P (merge a b)) (uEnd : U32) (x : V)
    (hx : P x) (fuel : Nat) : ∀ (u : U32) (t t' : Node V), (∀ w, hasVal t w → P w) →
    rangeLoop merge uEnd x fuel u t = some t' → ∀ w, hasVal t' w → P w := by
  induction fuel with
  | zero =>
    intro u t t' ht h
    rw [rangeLoop] at h
    split at h
    · cases h
    · cases h; exact ht
  | succ fuel ih =>
    intro u t t' ht h
    rw [rangeLoop] at h
    split at h
    · split at h
      · cases h
      · exact ih _ _ _ (add_vals merge P hP t u _ x hx ht) h
    · cases h; exact ht

theorem rangeLoop_covered (merge : V → V → V) (uEnd : U32) (x : V) (fuel : Nat) :
    ∀ (u : U32) (t t' : Node V), Norm t 32 → (∀ a, u.toNat ≤ a → a ≤ uEnd.toNat → mem t 32 a) →
    rangeLoop merge uEnd x fuel u t = some t' → t' = t := by
  by_cases hne : uEnd = 0xffffffff#32
  · intro u t t' _ _ h; rw [hne, rangeLoop_forever] at h; cases h
  induction fuel with
  | zero =>
    intro u t t' hn hm h
    rw [rangeLoop] at h
    split at h
    · cases h
    · cases h; rfl
  | succ fuel ih =>
    intro u t t' hn hm h
    rw [rangeLoop] at h
    split at h
    · split at h
      · cases h
      · rename_i m hs
        obtain ⟨j, hj, hd, hb, hend, hnext, hblk⟩ := range_turn hne hs
        have hc : add merge t u 32#8 (bitCount m 0#8) x = t := by
          apply add_covered merge t hn
          intro a ha hab
          rw [hb, hblk] at hab
          exact hm a hab.1 (by omega)
        simp only [hc] at h
        exact ih _ _ _ hn (fun a h1 h2 => hm a (by omega) h2) h
    · cases h; rfl

theorem rangeLoop_ends (merge : V → V → V) (uEnd : U32) (hne : uEnd ≠ 0xffffffff#32) (x : V) (fuel : Nat) :
    ∀ (u : U32) (t : Node V), 33 + (uEnd.toNat + 1 - u.toNat) ≤ fuel → ∃ t', rangeLoop merge uEnd x fuel u t = some t' := by
  induction fuel with
  | zero => intro u t h; omega
  | succ fuel ih =>
    intro u t hf
    rw [rangeLoop]
    split
    · rename_i hc
      obtain ⟨k, hk, hd, hm0⟩ := initial_m u
      obtain ⟨m, hm⟩ := shrink_ends u uEnd hc fuel _ k (by omega) hm0
      rw [hm]
      obtain ⟨j, hj, hd, hb, hend, hnext, hblk⟩ := range_turn hne hm
      have hp : 0 < 2 ^ j := Nat.pow_pos (by omega)
      rw [BitVec.le_def] at hc
      exact ih _ _ (by rw [hnext]; omega)
    · exact ⟨t, rfl⟩

/-! ## Calls -/

theorem AddCidr_eq (merge : V → V → V) (t : Node V) {n : IPNet} {u ones : Nat} (hi : IPv4 n.ip u) (hl : n.mask.length = 4)
    (hc : Contiguous n.mask ones) (x : V) : ∃ pos : U32, ∃ e : U8, pos.toNat = u ∧ e.toNat = 32 - ones ∧
      AddCidr merge t n x = .ok (add merge t pos 32#8 e x) := by
  obtain ⟨v, hv, e⟩ := Ipv4ToUint_of hi
  have hle := Contiguous_le hc
  rw [hl] at hle
  refine ⟨v, 32#8 - BitVec.ofNat 8 ones, e, ?_, ?_⟩
  · rw [BitVec.toNat_sub_of_le (by rw [BitVec.le_def]; simp; omega)]; simp; omega
  · rw [AddCidr, hv, MaskToByte_of hc]; rfl

theorem AddIp_eq (merge : V → V → V) (t : Node V) {ip : List U8} {u : Nat} (hi : IPv4 ip u) (x : V) :
    ∃ pos : U32, pos.toNat = u ∧ AddIp merge t ip x = .ok (add merge t pos 32#8 0#8 x) := by
  obtain ⟨v, hv, e⟩ := Ipv4ToUint_of hi
  exact ⟨v, e, by rw [AddIp, hv]; rfl⟩

theorem AddRange_eq (merge : V → V → V) (t : Node V) {s e : List U8} {us ue : Nat} (hs : IPv4 s us) (he : IPv4 e ue) :
    ∃ ps pe : U32, ps.toNat = us ∧ pe.toNat = ue ∧ ∀ fuel (x : V), AddRange merge fuel t s e x = .ok (rangeLoop merge pe x fuel ps t) := by
  obtain ⟨v, hv, ev⟩ := Ipv4ToUint_of hs
  obtain ⟨w, hw, ew⟩ := Ipv4ToUint_of he
  exact ⟨v, w, ev, ew, fun fuel x => by rw [AddRange, hv, hw]; rfl⟩

theorem Ipv4ToUint_total (ip : List U8) : ∃ v, Ipv4ToUint ip = .ok v := by
  by_cases h : ∃ u, IPv4 ip u
  · obtain ⟨u, hu⟩ := h
    obtain ⟨v, hv, _⟩ := Ipv4ToUint_of hu
    exact ⟨v, hv⟩
  · exact ⟨_, Ipv4ToUint_not h⟩

theorem Step_norm {merge : V → V → V} {t t' : Node V} {op : Op V} (hn : Norm t 32) (h : Step merge t op t') : Norm t' 32 := by
  cases op with
  | addIp ip x =>
    obtain ⟨v, hv⟩ := Ipv4ToUint_total ip
    have h : AddIp merge t ip x = .ok t' := h
    rw [AddIp, hv] at h
    cases h; exact add_norm merge t hn _ _ _
  | addCidr c x =>
    obtain ⟨v, hv⟩ := Ipv4ToUint_total c.ip
    have h : AddCidr merge t c x = .ok t' := h
    rw [AddCidr, hv] at h
    cases h; exact add_norm merge t hn _ _ _
  | addRange s e x =>
    obtain ⟨v, hv⟩ := Ipv4ToUint_total s
    obtain ⟨w, hw⟩ := Ipv4ToUint_total e
    obtain ⟨fuel, h⟩ := h
    rw [AddRange, hv, hw] at h
    have h' : rangeLoop merge w x fuel v t = some t' := by injection h
    exact rangeLoop_norm merge w x fuel v t t' hn h'

theorem Step_vals {merge : V → V → V} {t t' : Node V} {op : Op V} (P : V → Prop) (hP : ∀ a b, P a → P b → P (merge a b))
    (ht : ∀ w, hasVal t w → P w) (hx : P (valueOf op)) (h : Step merge t op t') : ∀ w, hasVal t' w → P w := by
  cases op with
  | addIp ip x =>
    obtain ⟨v, hv⟩ := Ipv4ToUint_total ip
    have h : AddIp merge t ip x = .ok t' := h
    rw [AddIp, hv] at h
    cases h; exact add_vals merge P hP t _ _ _ hx ht
  | addCidr c x =>
    obtain ⟨v, hv⟩ := Ipv4ToUint_total c.ip
    have h : AddCidr merge t c x = .ok t' := h
    rw [AddCidr, hv] at h
    cases h; exact add_vals merge P hP t _ _ _ hx ht
  | addRange s e x =>
    obtain ⟨v, hv⟩ := Ipv4ToUint_total s
    obtain ⟨w, hw⟩ := Ipv4ToUint_total e
    obtain ⟨fuel, h⟩ := h
    rw [AddRange, hv, hw] at h
    have h' : rangeLoop merge w x fuel v t = some t' := by injection h
    exact rangeLoop_vals merge P hP w x hx fuel v t t' ht h'

theorem Adds_lt {a : Nat} {op : Op V} (h : Adds a op) : a < 2 ^ 32 := by
  cases op with
  | addIp ip x => exact IPv4_lt h
  | addRange s e x => obtain ⟨us, ue, _, he, _, h⟩ := h; have := IPv4_lt he; omega
  | addCidr c x => obtain ⟨u, _, _, h, _⟩ := h; exact h

theorem Step_mem {merge : V → V → V} {t t' : Node V} {op : Op V} (hn : Norm t 32) (h4 : IPv4Args op)
    (h : Step merge t op t') (a : Nat) (ha : a < 2 ^ 32) : mem t' 32 a ↔ mem t 32 a ∨ Adds a op := by
  cases op with
  | addIp ip x =>
    obtain ⟨u, hu⟩ := h4
    obtain ⟨pos, hp, e⟩ := AddIp_eq merge t hu x
    have h : AddIp merge t ip x = .ok t' := h
    rw [e] at h; cases h
    rw [add_mem merge t hn _ _ _ a ha]
    simp only [Adds, BitVec.toNat_ofNat, Nat.zero_mod, Nat.pow_zero, Nat.div_one, hp]
    constructor
    · rintro (h | rfl)
      · exact .inl h
      · exact .inr hu
    · rintro (h | h)
      · exact .inl h
      · exact .inr (IPv4_unique h hu)
  | addCidr c x =>
    obtain ⟨⟨u, hu⟩, hl, ones, hc⟩ := h4
    obtain ⟨pos, e, hp, he, eq⟩ := AddCidr_eq merge t hu hl hc x
    have h : AddCidr merge t c x = .ok t' := h
    rw [eq] at h; cases h
    rw [add_mem merge t hn _ _ _ a ha, Adds, contains_iff hu hl hc, hp, he]
    simp only [ha, true_and]
  | addRange s e x =>
    obtain ⟨⟨us, hs⟩, ue, he⟩ := h4
    obtain ⟨ps, pe, hps, hpe, eq⟩ := AddRange_eq merge t hs he
    obtain ⟨fuel, h⟩ := h
    rw [eq] at h
    have h' : rangeLoop merge pe x fuel ps t = some t' := by injection h
    by_cases hne : pe = 0xffffffff#32
    · rw [hne, rangeLoop_forever] at h'; cases h'
    · rw [(rangeLoop_spec merge pe hne x fuel ps t t' hn h').2 a ha, hps, hpe]
      constructor
      · rintro (h | h)
        · exact .inl h
        · exact .inr ⟨us, ue, hs, he, h.1, h.2⟩
      · rintro (h | ⟨us', ue', hs', he', h1, h2⟩)
        · exact .inl h
        · rw [IPv4_unique hs hs', IPv4_unique he he']; exact .inr ⟨h1, h2⟩

theorem Runs_norm {merge : V → V → V} (ops : List (Op V)) : ∀ {t t' : Node V}, Norm t 32 → Runs merge t ops t' → Norm t' 32 := by
  induction ops with
  | nil => intro t t' hn h; cases h; exact hn
  | cons op ops ih => intro t t' hn h; obtain ⟨t1, h1, h2⟩ := h; exact ih (Step_norm hn h1) h2

theorem Runs_mem {merge : V → V → V} (ops : List (Op V)) : ∀ {t t' : Node V}, Norm t 32 → (∀ op ∈ ops, IPv4Args op) →
    Runs merge t ops t' → ∀ a, a < 2 ^ 32 → (mem t' 32 a ↔ mem t 32 a ∨ ∃ op ∈ ops, Adds a op) := by
  induction ops with
  | nil => intro t t' hn _ h a _; cases h; simp
  | cons op ops ih =>
    intro t t' hn h4 h a ha
    obtain ⟨t1, h1, h2⟩ := h
    rw [ih (Step_norm hn h1) (fun op ho => h4 op (List.mem_cons_of_mem _ ho)) h2 a ha,
      Step_mem hn (h4 op List.mem_cons_self) h1 a ha]
    simp [or_assoc]

theorem Runs_vals {merge : V → V → V} (P : V → Prop) (hP : ∀ a b, P a → P b → P (merge a b)) (ops : List (Op V)) :
    ∀ {t t' : Node V}, (∀ w, hasVal t w → P w) → (∀ op ∈ ops, P (valueOf op)) → Runs merge t ops t' →
    ∀ w, hasVal t' w → P w := by
  induction ops with
  | nil => intro t t' ht _ h; cases h; exact ht
  | cons op ops ih =>
    intro t t' ht hx h
    obtain ⟨t1, h1, h2⟩ := h
    exact ih (Step_vals P hP ht (hx op List.mem_cons_self) h1) (fun op ho => hx op (List.mem_cons_of_mem _ ho)) h2

/-! ## ListCidr -/

/-- The network listed for a block. -/
def blockNet (s k : Nat) : IPNet := ⟨Ipv4FromUint (BitVec.ofNat 32 s), MaskFromByte (BitVec.ofNat 8 (32 - k))⟩

theorem blockNet_ip (s k : Nat) (hs : s < 2 ^ 32) : (blockNet s k).ip.length = 4 ∧ beVal (blockNet s k).ip = s := by
  refine ⟨rfl, ?_⟩
  show beVal (bePutUint32 _) = s
  rw [bePut_val, BitVec.toNat_ofNat, Nat.mod_eq_of_lt hs]

theorem blockNet_contains (s k a : Nat) (hs : s < 2 ^ 32) (hk : k ≤ 32) (hd : 2 ^ k ∣ s) :
    Contains (blockNet s k) a ↔ a < 2 ^ 32 ∧ s ≤ a ∧ a < s + 2 ^ k := by
  obtain ⟨hl, hv⟩ := blockNet_ip s k hs
  have hi := IPv4_of_len4 hl
  rw [hv] at hi
  rw [contains_iff hi rfl (MaskFromByte_contiguous (32 - k) (by omega)), show 32 - (32 - k) = k by omega]
  have hp : 0 < 2 ^ k := Nat.pow_pos (by omega)
  obtain ⟨q, rfl⟩ := hd
  rw [Nat.mul_div_cancel_left _ hp, Nat.div_eq_iff hp, Nat.mul_comm q]
  omega

theorem ListCidr_blocks (t : Node V) (hn : Norm t 32) : ListCidr t = (blocks t 32 0).map fun b => (blockNet b.1 b.2.1, b.2.2) :=
  ListCidr_eq t hn

theorem block_ok {t : Node V} {b : Nat × Nat × V} (hb : b ∈ blocks t 32 0) : b.2.1 ≤ 32 ∧ 2 ^ b.2.1 ∣ b.1 ∧
    b.1 < 2 ^ 32 ∧ b.1 + 2 ^ b.2.1 ≤ 2 ^ 32 := by
  obtain ⟨h1, h2, _, h4⟩ := blocks_bounds 32 t 0 (by simp) b hb
  have hp : 0 < 2 ^ b.2.1 := Nat.pow_pos (by omega)
  exact ⟨h1, h2, by omega, by omega⟩

theorem ListCidr_contains (t : Node V) (hn : Norm t 32) (a : Nat) :
    (∃ c ∈ ListCidr t, Contains c.1 a) ↔ a < 2 ^ 32 ∧ mem t 32 a := by
  rw [ListCidr_blocks t hn]
  constructor
  · rintro ⟨c, hc, h⟩
    obtain ⟨b, hb, rfl⟩ := List.mem_map.mp hc
    obtain ⟨h1, h2, h3, h4⟩ := block_ok hb
    obtain ⟨ha, h⟩ := (blockNet_contains _ _ a h3 h1 h2).mp h
    exact ⟨ha, (blocks_mem 32 t 0 (by simp) hn a (by omega) (by omega)).mp ⟨b, hb, h⟩⟩
  · rintro ⟨ha, hm⟩
    obtain ⟨b, hb, h⟩ := (blocks_mem 32 t 0 (by simp) hn a (by omega) (by omega)).mpr hm
    obtain ⟨h1, h2, h3, h4⟩ := block_ok hb
    exact ⟨_, List.mem_map_of_mem hb, (blockNet_contains _ _ a h3 h1 h2).mpr ⟨ha, h⟩⟩

theorem ListCidr_shape {W : Type} (t : Node V) (t' : Node W) (hn : Norm t 32) (hn' : Norm t' 32)
    (h : ∀ a, a < 2 ^ 32 → (mem t 32 a ↔ mem t' 32 a)) : (ListCidr t).map Prod.fst = (ListCidr t').map Prod.fst := by
  have hs : shape t = shape t' := by
    apply shape_unique 32 t t' hn hn'
    intro a
    have hlow : ∀ i, i < 32 → a.testBit i = (a % 2 ^ 32).testBit i := by
      intro i hi; rw [Nat.testBit_mod_two_pow]; simp [hi]
    rw [mem_congr 32 t _ _ hlow, mem_congr 32 t' _ _ hlow]
    exact h _ (Nat.mod_lt _ (by omega))
  have := congrArg (List.map fun x : Nat × Nat => blockNet x.1 x.2) (blocks_shape 32 t t' 0 hs)
  simp only [List.map_map] at this
  rw [ListCidr_blocks t hn, ListCidr_blocks t' hn', List.map_map, List.map_map]
  exact this

theorem ListCidr_minimal (t : Node V) (hn : Norm t 32) (C : List IPNet) (hC : ∀ c ∈ C, IPv4Net c)
    (h : ∀ a, a < 2 ^ 32 → (mem t 32 a ↔ ∃ c ∈ C, Contains c a)) : (ListCidr t).length ≤ C.length := by
  classical
  have hex : ∀ c : IPNet, ∃ b : Blk, c ∈ C → ∀ a, a < 2 ^ 32 → (Contains c a ↔ b.Has a) := by
    intro c
    by_cases hc : c ∈ C
    · obtain ⟨⟨u, hu⟩, hl, ones, ho⟩ := hC c hc
      refine ⟨(u, 32 - ones), fun _ a ha => ?_⟩
      rw [contains_iff hu hl ho, Blk.Has]; simp only [ha, true_and]
    · exact ⟨(0, 0), fun h => absurd h hc⟩
  choose f hf using hex
  have := blocks_minimal 32 t 0 hn (C.map f) (fun a ha => by
    have ha : a < 2 ^ 32 := by
      rcases (Nat.div_eq_zero_iff).mp ha with h | h
      · omega
      · exact h
    rw [h a ha]
    constructor
    · rintro ⟨c, hc, hca⟩; exact ⟨f c, List.mem_map_of_mem hc, (hf c hc a ha).mp hca⟩
    · rintro ⟨b, hb, hba⟩
      obtain ⟨c, hc, rfl⟩ := List.mem_map.mp hb
      exact ⟨c, hc, (hf c hc a ha).mpr hba⟩) (fun _ => true) (fun _ _ _ => rfl)
  rw [ListCidr_blocks t hn, List.length_map]
  simpa using this

end Net
