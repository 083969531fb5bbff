import Verif.Lemmas.Checksum

namespace Fletcher
open ChecksumSpec HashSpec GoHash

theorem words_one (l : List U8) : words 1 l = l.map BitVec.toNat := by
  induction l with
  | nil => rfl
  | cons a t ih => rw [words_cons (by omega) _ (by simp)]; simp [leNat, ih]

theorem map_toNat_le (l : List U8) : ∀ w ∈ l.map BitVec.toNat, w ≤ 255 := by
  intro w hw
  obtain ⟨x, _, rfl⟩ := List.mem_map.mp hw
  have := x.isLt; omega

/-! ## Fletcher-16 -/

theorem inner16_ok (p : List U8) : ∀ (cnt i : Nat) (c0 c1 : U32), i + cnt ≤ p.length →
    inner16 p cnt i c0 c1 = .ok (foldBV (((p.drop i).take cnt).map BitVec.toNat) c0 c1)
  | 0, i, c0, c1, _ => by simp [inner16, foldBV]
  | cnt + 1, i, c0, c1, h => by
    have hi : i < p.length := by omega
    rw [inner16, goIdx_lt hi, Res.ok_bind, inner16_ok p cnt (i + 1) _ _ (by omega), List.drop_eq_getElem_cons hi]
    simp only [List.take_succ_cons, List.map_cons, foldBV]
    have : (BitVec.ofNat 32 p[i].toNat) = p[i].setWidth 32 := by
      apply BitVec.eq_of_toNat_eq; simp
    rw [this]

theorem inner16_panic (p : List U8) : ∀ (cnt i : Nat) (c0 c1 : U32), p.length < i + cnt → i ≤ p.length →
    inner16 p cnt i c0 c1 = .panic
  | 0, i, c0, c1, h, h' => by omega
  | cnt + 1, i, c0, c1, h, h' => by
    rw [inner16]
    by_cases hi : i < p.length
    · rw [goIdx_lt hi, Res.ok_bind, inner16_panic p cnt (i + 1) _ _ (by omega) (by omega)]
    · rw [goIdx_ge (by omega)]; rfl

theorem outer16_done (p : List U8) (i : Nat) (c0 c1 : U32) (h : p.length ≤ i) : outer16 p i c0 c1 = .ok (c0, c1) := by
  rw [outer16, dif_neg (by omega)]

/-- Writes of at most 5803 bytes are one batch. -/
theorem outer16_small (p : List U8) (c0 c1 : U32) (h0 : p ≠ []) (h : p.length ≤ 5803) :
    outer16 p 0 c0 c1 = .ok ((foldBV (words 1 p) c0 c1).1 % 255#32, (foldBV (words 1 p) c0 c1).2 % 255#32) := by
  have hp : 0 < p.length := List.length_pos_iff.mpr h0
  have hb : batch16 p.length = p.length := by simp [batch16, c1Overflow16]; omega
  rw [outer16, dif_pos hp, hb, inner16_ok p _ _ _ _ (by omega)]
  simp only [Res.ok_bind, List.drop_zero, List.take_length]
  rw [outer16_done _ _ _ _ (by omega), words_one]

theorem outer16_panic (p : List U8) (hp : 5803 < p.length) (hm : p.length % 5803 ≠ 0) (n : Nat) :
    ∀ (i : Nat) (c0 c1 : U32), p.length - i ≤ n → i % 5803 = 0 → i ≤ p.length → outer16 p i c0 c1 = .panic := by
  have hb : batch16 p.length = 5803 := by simp [batch16, c1Overflow16]; omega
  induction n with
  | zero =>
    intro i c0 c1 hn hi hle
    have : i = p.length := by omega
    subst this; omega
  | succ n ih =>
    intro i c0 c1 hn hi hle
    have : i ≠ p.length := by rintro rfl; omega
    rw [outer16, dif_pos (by omega), hb]
    by_cases h : i + 5803 ≤ p.length
    · rw [inner16_ok p _ _ _ _ h, Res.ok_bind]
      exact ih _ _ _ (by omega) (by omega) h
    · rw [inner16_panic p _ _ _ _ (by omega) (by omega)]; rfl

/-- Reachable states agree with the words written so far. -/
def R16 (d : Digest16) (ws : List Nat) : Prop := (d.a.toNat, d.b.toNat) = adv 255 0 0 ws

theorem R16_new : R16 ⟨0#8, 0#8⟩ [] := rfl

theorem R16_lt {d : Digest16} {ws : List Nat} (h : R16 d ws) : d.a.toNat < 255 ∧ d.b.toNat < 255 := by
  simp only [R16, adv, Prod.mk.injEq] at h
  rw [h.1, h.2]
  exact ⟨Nat.mod_lt _ (by omega), Nat.mod_lt _ (by omega)⟩

theorem update16_ok (d : Digest16) (ws : List Nat) (p : List U8) (hR : R16 d ws)
    (hp : p.length ≤ 5802 ∨ (p.length = 5803 ∧ d.a.toNat ≤ 118)) :
    ∃ d', update16 d p = .ok d' ∧ R16 d' (ws ++ words 1 p) := by
  obtain ⟨ha, hb⟩ := R16_lt hR
  by_cases h0 : p = []
  · subst h0
    refine ⟨d, ?_, by simpa [words_one] using hR⟩
    rw [update16, outer16_done _ _ _ _ (by simp)]
    cases d
    simp
  · have hb2 : p.length * (p.length + 1) * 255 ≤ 5803 * 5804 * 255 := by
      have : p.length ≤ 5803 := by omega
      exact Nat.mul_le_mul_right _ (Nat.mul_le_mul this (by omega))
    have key := foldBV_adv (M := 255) (W := 255) (words 1 p) (d.a.setWidth 32) (d.b.setWidth 32)
      (by rw [words_one]; exact map_toNat_le p) (by
        rw [words_one]
        simp only [List.length_map, BitVec.toNat_setWidth]
        rw [Nat.mod_eq_of_lt (by omega), Nat.mod_eq_of_lt (by omega)]
        rcases hp with hp | ⟨hp, ha'⟩
        · have h1 : p.length * d.a.toNat ≤ 5802 * 254 := Nat.mul_le_mul hp (by omega)
          have h2 : p.length * (p.length + 1) * 255 ≤ 5802 * 5803 * 255 :=
            Nat.mul_le_mul_right _ (Nat.mul_le_mul hp (by omega))
          omega
        · have h1 : p.length * d.a.toNat ≤ 5803 * 118 := Nat.mul_le_mul (by omega) ha'
          omega)
    refine ⟨_, by rw [update16, outer16_small p _ _ h0 (by omega)]; rfl, ?_⟩
    have e1 : (d.a.setWidth 32 : U32).toNat = d.a.toNat := by simp; omega
    have e2 : (d.b.setWidth 32 : U32).toNat = d.b.toNat := by simp; omega
    rw [e1, e2] at key
    unfold R16 at hR ⊢
    rw [adv_append, ← hR, ← key]
    simp only [BitVec.toNat_setWidth, BitVec.toNat_umod, Prod.mk.injEq]
    constructor
    · exact Nat.mod_eq_of_lt (Nat.lt_trans (Nat.mod_lt _ (by decide)) (by decide))
    · exact Nat.mod_eq_of_lt (Nat.lt_trans (Nat.mod_lt _ (by decide)) (by decide))

/-! ## Fletcher-32 -/

theorem or_shift_toNat (x y : Nat) (n : Nat) (hx : x < 2 ^ n) : x ||| (y <<< n) = x + 2 ^ n * y := by
  rw [Nat.or_comm, Nat.shiftLeft_eq, Nat.mul_comm y, Nat.add_comm]
  exact (Nat.two_pow_add_eq_or_of_lt hx y).symm

/-- One iteration of the Fletcher-32 inner loop consumes one word. -/
theorem inner32_step (len j : Nat) (rest : List U8) (c0 c1 : U64) (h : j < len) (h0 : rest ≠ []) :
    inner32 len j rest c0 c1 = inner32 len (j + 2) (rest.drop 2) (c0 + BitVec.ofNat 64 (leNat (rest.take 2)))
      (c1 + (c0 + BitVec.ofNat 64 (leNat (rest.take 2)))) := by
  match rest, h0 with
  | [x], _ =>
    rw [inner32.eq_def, dif_pos h]
    have : BitVec.ofNat 64 (leNat [x]) = x.setWidth 64 := by
      apply BitVec.eq_of_toNat_eq; simp [leNat]
    simp [this]
  | x :: y :: t, _ =>
    rw [inner32.eq_def, dif_pos h]
    have : BitVec.ofNat 64 (leNat [x, y]) = x.setWidth 64 ||| y.setWidth 64 <<< 8 := by
      apply BitVec.eq_of_toNat_eq
      have hx := x.isLt
      have hy := y.isLt
      simp only [leNat, BitVec.toNat_ofNat, BitVec.toNat_or, BitVec.toNat_shiftLeft, BitVec.toNat_setWidth]
      rw [Nat.mod_eq_of_lt (a := x.toNat) (by omega), Nat.mod_eq_of_lt (a := y.toNat) (by omega),
        Nat.mod_eq_of_lt (a := y.toNat <<< 8) (by rw [Nat.shiftLeft_eq]; omega), or_shift_toNat _ _ _ hx]
      omega
    simp [this]

/-- The inner loop, when enough words remain. -/
theorem inner32_ok (len : Nat) (n : Nat) : ∀ (j : Nat) (rest : List U8) (c0 c1 : U64),
    (len + 1 - j) / 2 = n → n ≤ (words 2 rest).length →
    inner32 len j rest c0 c1 = .ok (rest.drop (2 * n), foldBV ((words 2 rest).take n) c0 c1) := by
  induction n with
  | zero =>
    intro j rest c0 c1 hn _
    rw [inner32.eq_def, dif_neg (by omega)]
    simp [foldBV]
  | succ n ih =>
    intro j rest c0 c1 hn hle
    have h0 : rest ≠ [] := by rintro rfl; simp [words_nil] at hle
    rw [words_cons (by omega) _ h0] at hle ⊢
    rw [inner32_step _ _ _ _ _ (by omega) h0, ih (j + 2) _ _ _ (by omega) (by simpa using hle)]
    simp [foldBV, List.drop_drop, Nat.mul_succ, Nat.add_comm]

theorem outer32_ok (n : Nat) : ∀ (rest : List U8) (c0 c1 : U64), rest.length ≤ n → c0.toNat < 65535 → c1.toNat < 65535 →
    ∃ d0 d1, outer32 rest c0 c1 = .ok (d0, d1) ∧ (d0.toNat, d1.toNat) = adv 65535 c0.toNat c1.toNat (words 2 rest) := by
  induction n with
  | zero =>
    intro rest c0 c1 hn h0 h1
    have : rest = [] := List.length_eq_zero_iff.mp (by omega)
    subst this
    exact ⟨c0, c1, by simp [outer32], by rw [words_nil (by omega), adv_nil _ _ _ h0 h1]⟩
  | succ n ih =>
    intro rest c0 c1 hn h0 h1
    by_cases hr : rest = []
    · subst hr
      exact ⟨c0, c1, by simp [outer32], by rw [words_nil (by omega), adv_nil _ _ _ h0 h1]⟩
    · have hpos : 0 < rest.length := List.length_pos_iff.mpr hr
      obtain ⟨len, hlen⟩ : ∃ len, len = if rest.length > c1Overflow32 then c1Overflow32 else rest.length := ⟨_, rfl⟩
      have hlen1 : len ≤ rest.length ∧ 0 < len ∧ len ≤ 23726746 := by
        rw [hlen]; unfold c1Overflow32; split <;> omega
      obtain ⟨m, hm⟩ : ∃ m, m = (len + 1) / 2 := ⟨_, rfl⟩
      have hin := inner32_ok len m 0 rest c0 c1 (by omega) (by rw [words_length]; omega)
      have hml : ((words 2 rest).take m).length ≤ 11863373 := by
        rw [List.length_take]; omega
      have key := foldBV_adv (M := 65535) (W := 65535) ((words 2 rest).take m) c0 c1
        (fun w hw => words_le rest w (List.mem_of_mem_take hw)) (by
          have e1 : ((words 2 rest).take m).length * c0.toNat ≤ 11863373 * 65535 := Nat.mul_le_mul hml (by omega)
          have e2 : ((words 2 rest).take m).length * (((words 2 rest).take m).length + 1) * 65535 ≤
              11863373 * 11863374 * 65535 := Nat.mul_le_mul_right _ (Nat.mul_le_mul hml (by omega))
          omega)
      obtain ⟨d0, d1, hd, hadv⟩ := ih (rest.drop (2 * m))
        ((foldBV ((words 2 rest).take m) c0 c1).1 % 65535#64) ((foldBV ((words 2 rest).take m) c0 c1).2 % 65535#64)
        (by simp; omega) (by rw [BitVec.toNat_umod]; exact Nat.mod_lt _ (by decide))
        (by rw [BitVec.toNat_umod]; exact Nat.mod_lt _ (by decide))
      refine ⟨d0, d1, ?_, ?_⟩
      · rw [outer32, dif_pos hpos]
        dsimp only
        split
        · rename_i he; rw [← hlen, hin] at he; simp at he
        · rename_i he; rw [← hlen, hin] at he
          simp only [Res.ok.injEq, Prod.mk.injEq] at he
          obtain ⟨rfl, he2⟩ := he
          rw [he2] at hd
          exact hd
      · rw [hadv]
        conv => rhs; rw [words_take_drop (by omega : 0 < 2) m rest, adv_append, ← key]
        simp

/-- Reachable states agree with the words written so far. -/
def R32 (d : Digest32) (ws : List Nat) : Prop := (d.a.toNat, d.b.toNat) = adv 65535 0 0 ws

theorem R32_lt {d : Digest32} {ws : List Nat} (h : R32 d ws) : d.a.toNat < 65535 ∧ d.b.toNat < 65535 := by
  simp only [R32, adv, Prod.mk.injEq] at h
  rw [h.1, h.2]
  exact ⟨Nat.mod_lt _ (by omega), Nat.mod_lt _ (by omega)⟩

theorem update32_ok (d : Digest32) (ws : List Nat) (p : List U8) (hR : R32 d ws) :
    ∃ d', update32 d p = .ok d' ∧ R32 d' (ws ++ words 2 p) := by
  obtain ⟨ha, hb⟩ := R32_lt hR
  have e1 : (d.a.setWidth 64 : U64).toNat = d.a.toNat := by simp; omega
  have e2 : (d.b.setWidth 64 : U64).toNat = d.b.toNat := by simp; omega
  obtain ⟨d0, d1, hd, hadv⟩ := outer32_ok _ p (d.a.setWidth 64) (d.b.setWidth 64) (Nat.le_refl _)
    (by rw [e1]; exact ha) (by rw [e2]; exact hb)
  refine ⟨_, by rw [update32, hd]; rfl, ?_⟩
  rw [e1, e2] at hadv
  unfold R32 at hR ⊢
  rw [adv_append, ← hR, ← hadv]
  have hb : d0.toNat < 65535 ∧ d1.toNat < 65535 := by
    simp only [adv, Prod.mk.injEq] at hadv
    rw [hadv.1, hadv.2]
    exact ⟨Nat.mod_lt _ (by omega), Nat.mod_lt _ (by omega)⟩
  simp only [BitVec.toNat_setWidth]
  rw [Nat.mod_eq_of_lt (by omega), Nat.mod_eq_of_lt (by omega)]

/-! ## Fletcher-64 -/

/-- One iteration of the Fletcher-64 inner loop consumes one word. -/
theorem inner64_step (len j : Nat) (rest : List U8) (c0 c1 : U64) (h : j < len) (h0 : rest ≠ []) :
    inner64 len j rest c0 c1 = inner64 len (j + 4) (rest.drop 4) (c0 + BitVec.ofNat 64 (leNat (rest.take 4)))
      (c1 + (c0 + BitVec.ofNat 64 (leNat (rest.take 4)))) := by
  have key : ∀ x y z w : U8, BitVec.ofNat 64 (leNat [x, y, z, w]) =
      x.setWidth 64 ||| y.setWidth 64 <<< 8 ||| z.setWidth 64 <<< 16 ||| w.setWidth 64 <<< 24 := by
    intro x y z w
    apply BitVec.eq_of_toNat_eq
    have hx := x.isLt
    have hy := y.isLt
    have hz := z.isLt
    have hw := w.isLt
    simp only [leNat, BitVec.toNat_ofNat, BitVec.toNat_or, BitVec.toNat_shiftLeft, BitVec.toNat_setWidth]
    rw [Nat.mod_eq_of_lt (a := x.toNat) (by omega), Nat.mod_eq_of_lt (a := y.toNat) (by omega),
      Nat.mod_eq_of_lt (a := z.toNat) (by omega), Nat.mod_eq_of_lt (a := w.toNat) (by omega),
      Nat.mod_eq_of_lt (a := y.toNat <<< 8) (by rw [Nat.shiftLeft_eq]; omega),
      Nat.mod_eq_of_lt (a := z.toNat <<< 16) (by rw [Nat.shiftLeft_eq]; omega),
      Nat.mod_eq_of_lt (a := w.toNat <<< 24) (by rw [Nat.shiftLeft_eq]; omega),
      or_shift_toNat _ _ 8 hx, or_shift_toNat _ _ 16 (by omega), or_shift_toNat _ _ 24 (by omega)]
    omega
  match rest, h0 with
  | [x], _ =>
    have := key x 0 0 0
    rw [inner64.eq_def, dif_pos h]
    have : BitVec.ofNat 64 (leNat [x]) = x.setWidth 64 := by
      rw [show leNat [x] = leNat [x, 0, 0, 0] by simp [leNat], this]; simp
    simp [this]
  | [x, y], _ =>
    have := key x y 0 0
    rw [inner64.eq_def, dif_pos h]
    have : BitVec.ofNat 64 (leNat [x, y]) = x.setWidth 64 ||| y.setWidth 64 <<< 8 := by
      rw [show leNat [x, y] = leNat [x, y, 0, 0] by simp [leNat], this]; simp
    simp [this]
  | [x, y, z], _ =>
    have := key x y z 0
    rw [inner64.eq_def, dif_pos h]
    have : BitVec.ofNat 64 (leNat [x, y, z]) = x.setWidth 64 ||| y.setWidth 64 <<< 8 ||| z.setWidth 64 <<< 16 := by
      rw [show leNat [x, y, z] = leNat [x, y, z, 0] by simp [leNat], this]; simp
    simp [this]
  | x :: y :: z :: w :: t, _ =>
    rw [inner64.eq_def, dif_pos h]
    simp [key]

/-- The inner loop, when enough words remain. -/
theorem inner64_ok (len : Nat) (n : Nat) : ∀ (j : Nat) (rest : List U8) (c0 c1 : U64),
    (len + 3 - j) / 4 = n → n ≤ (words 4 rest).length →
    inner64 len j rest c0 c1 = .ok (rest.drop (4 * n), foldBV ((words 4 rest).take n) c0 c1) := by
  induction n with
  | zero =>
    intro j rest c0 c1 hn _
    rw [inner64.eq_def, dif_neg (by omega)]
    simp [foldBV]
  | succ n ih =>
    intro j rest c0 c1 hn hle
    have h0 : rest ≠ [] := by rintro rfl; simp [words_nil] at hle
    rw [words_cons (by omega) _ h0] at hle ⊢
    rw [inner64_step _ _ _ _ _ (by omega) h0, ih (j + 4) _ _ _ (by omega) (by simpa using hle)]
    simp [foldBV, List.drop_drop, Nat.mul_succ, Nat.add_comm]

theorem outer64_ok (n : Nat) : ∀ (rest : List U8) (c0 c1 : U64), rest.length ≤ n →
    c0.toNat < 4294967295 → c1.toNat < 4294967295 →
    ∃ d0 d1, outer64 rest c0 c1 = .ok (d0, d1) ∧ (d0.toNat, d1.toNat) = adv 4294967295 c0.toNat c1.toNat (words 4 rest) := by
  induction n with
  | zero =>
    intro rest c0 c1 hn h0 h1
    have : rest = [] := List.length_eq_zero_iff.mp (by omega)
    subst this
    exact ⟨c0, c1, by simp [outer64], by rw [words_nil (by omega), adv_nil _ _ _ h0 h1]⟩
  | succ n ih =>
    intro rest c0 c1 hn h0 h1
    by_cases hr : rest = []
    · subst hr
      exact ⟨c0, c1, by simp [outer64], by rw [words_nil (by omega), adv_nil _ _ _ h0 h1]⟩
    · have hpos : 0 < rest.length := List.length_pos_iff.mpr hr
      obtain ⟨len, hlen⟩ : ∃ len, len = if rest.length > c1Overflow64 then c1Overflow64 else rest.length := ⟨_, rfl⟩
      have hlen1 : len ≤ rest.length ∧ 0 < len ∧ len ≤ 92681 := by
        rw [hlen]; unfold c1Overflow64; split <;> omega
      obtain ⟨m, hm⟩ : ∃ m, m = (len + 3) / 4 := ⟨_, rfl⟩
      have hin := inner64_ok len m 0 rest c0 c1 (by omega) (by rw [words_length]; omega)
      have hml : ((words 4 rest).take m).length ≤ 23171 := by
        rw [List.length_take]; omega
      have key := foldBV_adv (M := 4294967295) (W := 4294967295) ((words 4 rest).take m) c0 c1
        (fun w hw => words_le rest w (List.mem_of_mem_take hw)) (by
          have e1 : ((words 4 rest).take m).length * c0.toNat ≤ 23171 * 4294967295 := Nat.mul_le_mul hml (by omega)
          have e2 : ((words 4 rest).take m).length * (((words 4 rest).take m).length + 1) * 4294967295 ≤
              23171 * 23172 * 4294967295 := Nat.mul_le_mul_right _ (Nat.mul_le_mul hml (by omega))
          omega)
      obtain ⟨d0, d1, hd, hadv⟩ := ih (rest.drop (4 * m))
        ((foldBV ((words 4 rest).take m) c0 c1).1 % 4294967295#64) ((foldBV ((words 4 rest).take m) c0 c1).2 % 4294967295#64)
        (by simp; omega) (by rw [BitVec.toNat_umod]; exact Nat.mod_lt _ (by decide))
        (by rw [BitVec.toNat_umod]; exact Nat.mod_lt _ (by decide))
      refine ⟨d0, d1, ?_, ?_⟩
      · rw [outer64, dif_pos hpos]
        dsimp only
        split
        · rename_i he; rw [← hlen, hin] at he; simp at he
        · rename_i he; rw [← hlen, hin] at he
          simp only [Res.ok.injEq, Prod.mk.injEq] at he
          obtain ⟨rfl, he2⟩ := he
          rw [he2] at hd
          exact hd
      · rw [hadv]
        conv => rhs; rw [words_take_drop (by omega : 0 < 4) m rest, adv_append, ← key]
        simp

/-- Reachable states agree with the words written so far. -/
def R64 (d : Digest64) (ws : List Nat) : Prop := (d.a.toNat, d.b.toNat) = adv 4294967295 0 0 ws

theorem R64_lt {d : Digest64} {ws : List Nat} (h : R64 d ws) : d.a.toNat < 4294967295 ∧ d.b.toNat < 4294967295 := by
  simp only [R64, adv, Prod.mk.injEq] at h
  rw [h.1, h.2]
  exact ⟨Nat.mod_lt _ (by omega), Nat.mod_lt _ (by omega)⟩

theorem update64_ok (d : Digest64) (ws : List Nat) (p : List U8) (hR : R64 d ws) :
    ∃ d', update64 d p = .ok d' ∧ R64 d' (ws ++ words 4 p) := by
  obtain ⟨ha, hb⟩ := R64_lt hR
  have e1 : (d.a.setWidth 64 : U64).toNat = d.a.toNat := by simp; omega
  have e2 : (d.b.setWidth 64 : U64).toNat = d.b.toNat := by simp; omega
  obtain ⟨d0, d1, hd, hadv⟩ := outer64_ok _ p (d.a.setWidth 64) (d.b.setWidth 64) (Nat.le_refl _)
    (by rw [e1]; exact ha) (by rw [e2]; exact hb)
  refine ⟨_, by rw [update64, hd]; rfl, ?_⟩
  rw [e1, e2] at hadv
  unfold R64 at hR ⊢
  rw [adv_append, ← hR, ← hadv]
  have hb : d0.toNat < 4294967295 ∧ d1.toNat < 4294967295 := by
    simp only [adv, Prod.mk.injEq] at hadv
    rw [hadv.1, hadv.2]
    exact ⟨Nat.mod_lt _ (by omega), Nat.mod_lt _ (by omega)⟩
  simp only [BitVec.toNat_setWidth]
  rw [Nat.mod_eq_of_lt (by omega), Nat.mod_eq_of_lt (by omega)]

end Fletcher
