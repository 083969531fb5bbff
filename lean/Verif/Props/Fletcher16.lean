import Verif.Model.Recover
import Verif.Spec.Fletcher16
import Verif.Props.Checksum

/-!
# Property C86: Fletcher-16 for writes of any length, with panics recovered
-/
namespace Fletcher
open GoHash ChecksumSpec HashSpec Fletcher16Spec

theorem batch_lt (s : Nat × Nat) (q : List U8) : (batch s q).1 < 255 ∧ (batch s q).2 < 255 :=
  ⟨Nat.mod_lt _ (by omega), Nat.mod_lt _ (by omega)⟩

/-- One batch of the code. -/
theorem foldBV_batch (q : List U8) (c0 c1 : U32) (hq : q.length ≤ 5803) (h0 : c0.toNat < 255) :
    (((foldBV (q.map BitVec.toNat) c0 c1).1 % 255#32).toNat, ((foldBV (q.map BitVec.toNat) c0 c1).2 % 255#32).toNat) =
      batch (c0.toNat, c1.toNat) q := by
  obtain ⟨h1, h2⟩ := foldBV_toNat (q.map BitVec.toNat) c0 c1
  have hs := sum_le_of_le 255 (q.map BitVec.toNat) (map_toNat_le q)
  rw [List.length_map] at hs h2
  have hs' : q.length * 255 ≤ 5803 * 255 := Nat.mul_le_mul_right _ hq
  have e : (c0.toNat + (q.map BitVec.toNat).sum) % 2 ^ 32 = c0.toNat + (q.map BitVec.toNat).sum := Nat.mod_eq_of_lt (by omega)
  rw [BitVec.toNat_umod, BitVec.toNat_umod, h1, h2, e, batch, total]
  rfl

theorem outer16_multiple (p : List U8) (B n : Nat) (hB : B ≤ 5803) (hB0 : 0 < B) (hb : batch16 p.length = B) (hp : p.length = B * n)
    (m : Nat) : ∀ (k : Nat) (c0 c1 : U32), k + m = n → c0.toNat < 255 → c1.toNat < 255 → ∃ d0 d1, outer16 p (B * k) c0 c1 = .ok (d0, d1) ∧
      (d0.toNat, d1.toNat) = ((List.range' k m).map fun k => (p.drop (B * k)).take B).foldl batch (c0.toNat, c1.toNat) ∧
      d0.toNat < 255 ∧ d1.toNat < 255 := by
  induction m with
  | zero =>
    intro k c0 c1 hk ha hb'
    rw [Nat.add_zero] at hk
    exact ⟨c0, c1, outer16_done _ _ _ _ (by rw [hp, hk]), rfl, ha, hb'⟩
  | succ m ih =>
    intro k c0 c1 hk ha _
    have hle : B * k + B ≤ p.length := by rw [hp, ← Nat.mul_succ]; exact Nat.mul_le_mul_left _ (by omega)
    rw [outer16, dif_pos (by omega), hb, inner16_ok p _ _ _ _ hle]
    simp only [Res.ok_bind]
    have hq : ((p.drop (B * k)).take B).length ≤ 5803 := by rw [List.length_take]; omega
    have key := foldBV_batch _ c0 c1 hq ha
    rw [show B * k + B = B * (k + 1) by rw [Nat.mul_succ]]
    generalize foldBV _ c0 c1 = f at key ⊢
    obtain ⟨l1, l2⟩ := batch_lt (c0.toNat, c1.toNat) ((p.drop (B * k)).take B)
    rw [← key] at l1 l2
    obtain ⟨d0, d1, h1, h2, h3⟩ := ih (k + 1) (f.1 % 0xff#32) (f.2 % 0xff#32) (by omega) l1 l2
    refine ⟨d0, d1, h1, ?_, h3⟩
    rw [h2, List.range'_succ, List.map_cons, List.foldl_cons, ← key]

/-- The object holds the sums `s`. -/
def Holds (d : Digest16) (s : Nat × Nat) : Prop := d.a.toNat = s.1 ∧ d.b.toNat = s.2 ∧ s.1 < 255 ∧ s.2 < 255

theorem batches_small {p : List U8} (h : p.length ≤ 5803) : batches p = [p] := if_pos h

theorem write16_accepts {d : Digest16} {s : Nat × Nat} (h : Holds d s) {p : List U8} (hp : Accepts p) :
    ∃ d', update16 d p = .ok d' ∧ Holds d' (Fletcher16Spec.write s p) := by
  obtain ⟨ha, hb, la, lb⟩ := h
  have e1 : (d.a.setWidth 32 : U32).toNat = s.1 := by simp; omega
  have e2 : (d.b.setWidth 32 : U32).toNat = s.2 := by simp; omega
  have fin : ∀ d0 d1 : U32, outer16 p 0 (d.a.setWidth 32) (d.b.setWidth 32) = .ok (d0, d1) →
      (d0.toNat, d1.toNat) = Fletcher16Spec.write s p → d0.toNat < 255 → d1.toNat < 255 →
      ∃ d', update16 d p = .ok d' ∧ Holds d' (Fletcher16Spec.write s p) := by
    intro d0 d1 h1 h2 h3 h4
    refine ⟨_, by rw [update16, h1]; rfl, ?_⟩
    rw [← h2]
    refine ⟨?_, ?_, h3, h4⟩ <;> (simp only [BitVec.toNat_setWidth]; omega)
  by_cases h0 : p = []
  · subst h0
    refine fin _ _ (outer16_done _ _ _ _ (by simp)) ?_ (by omega) (by omega)
    rw [e1, e2, Fletcher16Spec.write, batches_small (by simp)]
    simp only [List.foldl_cons, List.foldl_nil, batch, total, List.map_nil, List.sum_nil, List.length_nil, runningTotal_nil]
    rw [show 2 ^ 32 = 4294967296 from rfl]
    ext <;> (dsimp only; omega)
  · by_cases h1 : p.length ≤ 5803
    · have hs := outer16_small p (d.a.setWidth 32) (d.b.setWidth 32) h0 h1
      have key := foldBV_batch p (d.a.setWidth 32) (d.b.setWidth 32) h1 (by omega)
      rw [words_one] at hs
      generalize foldBV _ _ _ = f at hs key
      obtain ⟨l1, l2⟩ := batch_lt ((d.a.setWidth 32 : U32).toNat, (d.b.setWidth 32 : U32).toNat) p
      rw [← key] at l1 l2
      refine fin _ _ hs ?_ l1 l2
      rw [key, e1, e2, Fletcher16Spec.write, batches_small h1]
      rfl
    · obtain ⟨n, hn⟩ : 5803 ∣ p.length := by rcases hp with h | h; exact absurd h h1; exact h
      obtain ⟨d0, d1, h2, h3, h4, h5⟩ := outer16_multiple p 5803 n (Nat.le_refl _) (by omega)
        (by simp [batch16, c1Overflow16]; omega) hn n 0 (d.a.setWidth 32) (d.b.setWidth 32) (by omega) (by omega) (by omega)
      refine fin d0 d1 h2 ?_ h4 h5
      rw [h3, e1, e2, Fletcher16Spec.write, batches, if_neg h1, hn, Nat.mul_div_cancel_left _ (by omega), List.range_eq_range']

theorem write16_panics (d : Digest16) {p : List U8} (hp : ¬ Accepts p) : update16 d p = .panic := by
  simp only [Accepts, not_or, not_le] at hp
  rw [update16, outer16_panic p hp.1 (fun h => hp.2 (Nat.dvd_of_mod_eq_zero h)) _ 0 _ _ (Nat.le_refl _) (by omega) (by omega)]
  rfl

theorem runFromRec_expect (ops : List Op) : ∀ (d : Digest16) (s : Nat × Nat), Holds d s →
    runFromRec impl16 d ops = expectRec s ops := by
  induction ops with
  | nil => intro d s _; rfl
  | cons op ops ih =>
    intro d s h
    cases op with
    | write p =>
      rw [runFromRec, expectRec]
      by_cases hp : Accepts p
      · obtain ⟨d', h1, h2⟩ := write16_accepts h hp
        have e : stepRec impl16 d (.write p) = (d', some (.wrote p.length false)) := by
          simp only [stepRec, step, impl16, h1, Res.ok_bind, Res.pure_eq]
        rw [if_pos hp, e, ih d' _ h2]
      · have e : stepRec impl16 d (.write p) = (d, none) := by
          simp only [stepRec, step, impl16, write16_panics d hp]
          rfl
        rw [if_neg hp, e, ih d _ h]
    | sum inp =>
      have e : stepRec impl16 d (.sum inp) = (d, some (.bytes (inp ++ [d.b, d.a]))) := rfl
      rw [runFromRec, expectRec, e, ih d _ h, ← h.1, ← h.2.1]
      simp
    | sumN =>
      have e : stepRec impl16 d .sumN = (d, some (.num (sum16 d).toNat)) := rfl
      rw [runFromRec, expectRec, e, ih d _ h, Checksum.sum16_toNat, h.1, h.2.1]
    | reset =>
      have e : stepRec impl16 d .reset = (⟨0#8, 0#8⟩, some .unit) := rfl
      rw [runFromRec, expectRec, e, ih _ (0, 0) ⟨rfl, rfl, by decide, by decide⟩]
    | size =>
      have e : stepRec impl16 d .size = (d, some (.num 2)) := rfl
      rw [runFromRec, expectRec, e, ih d _ h]
    | blockSize =>
      have e : stepRec impl16 d .blockSize = (d, some (.num 1)) := rfl
      rw [runFromRec, expectRec, e, ih d _ h]

/-- **C86** Every history of calls, with panics recovered: `Write` panics exactly for the lengths that `Accepts` excludes and then
changes nothing; otherwise the sums are those of `Fletcher16Spec.write`. -/
theorem C86_exact (ops : List Op) : runRec impl16 ops = .ok (expectRec (0, 0) ops) := by
  show Res.ok (runFromRec impl16 ⟨0#8, 0#8⟩ ops) = _
  rw [runFromRec_expect ops _ (0, 0) ⟨rfl, rfl, by decide, by decide⟩]

theorem batches_flatten {p : List U8} (hp : Accepts p) : (batches p).flatten = p := by
  unfold batches
  split
  · simp
  · rename_i h
    obtain ⟨n, hn⟩ : 5803 ∣ p.length := by rcases hp with h' | h'; exact absurd h' h; exact h'
    rw [hn, Nat.mul_div_cancel_left _ (by omega)]
    have : ∀ m, m ≤ n → ((List.range m).map fun k => (p.drop (5803 * k)).take 5803).flatten = p.take (5803 * m) := by
      intro m hm
      induction m with
      | zero => simp
      | succ m ih =>
        rw [List.range_succ, List.map_append, List.flatten_append, ih (by omega), Nat.mul_succ, List.take_add]
        simp
    rw [this n (Nat.le_refl n), ← hn, List.take_length]

theorem batches_le {p q : List U8} (hq : q ∈ batches p) : q.length ≤ 5803 := by
  unfold batches at hq
  split at hq
  · rw [List.mem_singleton.mp hq]; assumption
  · obtain ⟨k, _, rfl⟩ := List.mem_map.mp hq
    rw [List.length_take]; omega

theorem foldl_write (ps : List (List U8)) (s : Nat × Nat) :
    ps.foldl Fletcher16Spec.write s = (ps.flatMap batches).foldl batch s := by
  induction ps generalizing s with
  | nil => rfl
  | cons p ps ih => rw [List.foldl_cons, ih, List.flatMap_cons, List.foldl_append]; rfl

theorem lost_adv (qs : List (List U8)) : ∀ s : Nat × Nat,
    (qs.foldl batch s).1 % 255 = (adv 255 s.1 s.2 (qs.flatten.map BitVec.toNat)).1 ∧
    ((qs.foldl batch s).2 + lost s qs) % 255 = (adv 255 s.1 s.2 (qs.flatten.map BitVec.toNat)).2 := by
  induction qs with
  | nil => intro s; simp [lost, adv, runningTotal_nil]
  | cons q qs ih =>
    intro s
    obtain ⟨h1, h2⟩ := ih (batch s q)
    rw [List.foldl_cons, lost, List.flatten_cons, List.map_append, adv_append]
    simp only [adv] at h1 h2 ⊢
    constructor
    · rw [h1, batch]
    · have hT : total s.1 s.2 q = s.2 + (q.map BitVec.toNat).length * s.1 + runningTotal (q.map BitVec.toNat) := by
        rw [List.length_map]; rfl
      rw [← hT]
      simp only [batch] at h2 ⊢
      generalize total s.1 s.2 q = T at *
      generalize (s.1 + (q.map BitVec.toNat).sum) % 255 = A at *
      generalize (qs.flatten.map BitVec.toNat).length * A = P at *
      generalize runningTotal (qs.flatten.map BitVec.toNat) = Q at *
      rw [show 2 ^ 32 = 4294967296 from rfl] at *
      generalize List.foldl batch (A, T % 4294967296 % 255) qs = F at *
      generalize lost (A, T % 4294967296 % 255) qs = L at *
      omega

/-- **C86** The first sum is right after any writes that return; the second is too small by the number of times that 2^32 was lost,
modulo 255. -/
theorem C86_lost (ps : List (List U8)) (hp : ∀ p ∈ ps, Accepts p) :
    (ps.foldl Fletcher16Spec.write (0, 0)).1 = (ps.flatten.map BitVec.toNat).sum % 255 ∧
    (ps.foldl Fletcher16Spec.write (0, 0)).2 < 255 ∧
    ((ps.foldl Fletcher16Spec.write (0, 0)).2 + lost (0, 0) (ps.flatMap batches)) % 255 =
      runningTotal (ps.flatten.map BitVec.toNat) % 255 := by
  have hf : (ps.flatMap batches).flatten = ps.flatten := by
    clear * - hp
    induction ps with
    | nil => rfl
    | cons p ps ih =>
      rw [List.flatMap_cons, List.flatten_append, ih fun q hq => hp q (List.mem_cons_of_mem _ hq), batches_flatten (hp p (by simp)),
        List.flatten_cons]
  have hlt : ∀ (qs : List (List U8)) (s : Nat × Nat), s.1 < 255 → s.2 < 255 → (qs.foldl batch s).1 < 255 ∧ (qs.foldl batch s).2 < 255 := by
    intro qs
    induction qs with
    | nil => intro s h1 h2; exact ⟨h1, h2⟩
    | cons q qs ih => intro s _ _; exact ih _ (batch_lt s q).1 (batch_lt s q).2
  obtain ⟨h1, h2⟩ := lost_adv (ps.flatMap batches) (0, 0)
  obtain ⟨l1, l2⟩ := hlt (ps.flatMap batches) (0, 0) (by decide) (by decide)
  rw [hf] at h1 h2
  rw [foldl_write]
  refine ⟨?_, l2, ?_⟩
  · rw [Nat.mod_eq_of_lt l1] at h1
    rw [h1]; simp [adv]
  · rw [h2]; simp [adv]

/-- **C86** A batch loses 2^32 at most once, and never if it is shorter than 5803 bytes or the first sum was at most 118. -/
theorem C86_batch (s : Nat × Nat) (h1 : s.1 < 255) (h2 : s.2 < 255) (q : List U8) (hq : q.length ≤ 5803) :
    total s.1 s.2 q / 2 ^ 32 ≤ 1 ∧ (q.length ≤ 5802 ∨ s.1 ≤ 118 → total s.1 s.2 q / 2 ^ 32 = 0) := by
  have ht := runningTotal_le 255 (q.map BitVec.toNat) (map_toNat_le q)
  rw [List.length_map] at ht
  have hq2 : q.length * (q.length + 1) * 255 ≤ 5803 * 5804 * 255 := Nat.mul_le_mul_right _ (Nat.mul_le_mul hq (by omega))
  have ha : q.length * s.1 ≤ 5803 * 254 := Nat.mul_le_mul hq (by omega)
  rw [total]
  generalize runningTotal (q.map BitVec.toNat) = R at *
  constructor
  · omega
  · rintro (h | h)
    · have hq3 : q.length * (q.length + 1) * 255 ≤ 5802 * 5803 * 255 := Nat.mul_le_mul_right _ (Nat.mul_le_mul h (by omega))
      omega
    · have ha : q.length * s.1 ≤ 5803 * 118 := Nat.mul_le_mul hq h
      omega

/-- **C86** After any writes that return, the checksum is right exactly if 255 divides the number of times that 2^32 was lost. -/
theorem C86_right (ps : List (List U8)) (hp : ∀ p ∈ ps, Accepts p) :
    (ps.foldl Fletcher16Spec.write (0, 0)).2 * 256 + (ps.foldl Fletcher16Spec.write (0, 0)).1 = fletcher 1 (words 1 ps.flatten) ↔
      255 ∣ lost (0, 0) (ps.flatMap batches) := by
  obtain ⟨h1, h2, h3⟩ := C86_lost ps hp
  rw [words_one, fletcher, h1]
  generalize lost (0, 0) (ps.flatMap batches) = L at *
  generalize (ps.foldl Fletcher16Spec.write (0, 0)).2 = b at *
  generalize runningTotal (ps.flatten.map BitVec.toNat) = T at *
  simp only [Nat.reducePow, Nat.reduceSub]
  omega

/-- The writes of C38: the second loses 2^32 once. -/
example (n : Nat) (hn : n = 5803) : (∀ p ∈ [[254#8], List.replicate n 255#8], Accepts p) ∧
    lost (0, 0) ([[254#8], List.replicate n 255#8].flatMap batches) = 1 := by
  have hl : (List.replicate n 255#8 : List U8).length = n := List.length_replicate
  have ht := runningTotal_replicate n 255
  have hr : (List.replicate n 255#8 : List U8).map BitVec.toNat = List.replicate n 255 := by rw [List.map_replicate]; rfl
  constructor
  · intro p hp
    simp only [List.mem_cons, List.not_mem_nil, or_false] at hp
    rcases hp with rfl | rfl
    · left; simp
    · left; rw [hl]; omega
  · rw [List.flatMap_cons, List.flatMap_cons, batches_small (by simp), batches_small (by rw [hl]; omega)]
    have e : batch (0, 0) [254#8] = (254, 254) := by decide
    simp only [List.singleton_append, List.flatMap_nil, List.append_nil, lost, e]
    rw [show total 0 0 [254#8] = 254 by decide, total, hl, hr]
    subst hn
    have ht' : runningTotal (List.replicate 5803 255) = 4294278030 := by omega
    rw [ht']

end Fletcher
