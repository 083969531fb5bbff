import Verif.Lemmas.WhirlpoolTables

/-! # Whirlpool: the table generator -/
namespace Whirlpool
open BlockHash BlockSpec WhirlpoolSpec

theorem goSet_range_map {α : Type} (f : Nat → α) {n i : Nat} (v : α) (h : i < n) :
    goSet ((List.range n).map f) i v = .ok ((List.range n).map fun m => if m = i then v else f m) := by
  rw [goSet_lt (by simpa using h)]
  congr 1
  apply List.ext_getElem
  · simp
  · intro k h1 h2
    simp only [List.getElem_set, List.getElem_map, List.getElem_range]
    by_cases hk : i = k
    · simp [hk]
    · rw [if_neg hk, if_neg (fun e => hk e.symm)]

theorem range_map_congr {α : Type} {f g : Nat → α} {n : Nat} (h : ∀ m, m < n → f m = g m) :
    (List.range n).map f = (List.range n).map g :=
  List.map_congr_left fun m hm => h m (List.mem_range.mp hm)

theorem genRotLoop_eq (x : Nat) (hx : x < 256) : ∀ (n t : Nat) (f : Nat → U64), t + n = 8 → 1 ≤ t →
    genRotLoop x n t ((List.range 2048).map f) = .ok ((List.range 2048).map fun m =>
      if m % 256 = x ∧ t ≤ m / 256 then rotl64m8^[m / 256 + 1 - t] (f (256 * (t - 1) + x)) else f m)
  | 0, t, f, h, _ => by
    unfold genRotLoop
    refine congrArg Res.ok ?_
    apply range_map_congr
    intro m hm
    rw [if_neg (by omega)]
  | n + 1, t, f, h, ht => by
    unfold genRotLoop
    rw [or_shift' x (t - 1) 8 (by omega), or_shift' x t 8 (by omega), goIdx_range_map f (by omega), Res.ok_bind,
      goSet_range_map f _ (by omega), Res.ok_bind, genRotLoop_eq x hx n (t + 1) _ (by omega) (by omega)]
    refine congrArg Res.ok ?_
    apply range_map_congr
    intro m hm
    have e : x + 2 ^ 8 * (t - 1) = 256 * (t - 1) + x := by omega
    rw [e]
    by_cases h1 : m % 256 = x ∧ t + 1 ≤ m / 256
    · rw [if_pos h1, if_pos (by omega), if_pos ⟨h1.1, by omega⟩, show m / 256 + 1 - t = m / 256 + 1 - (t + 1) + 1 by omega,
        Function.iterate_succ_apply]
    · rw [if_neg h1]
      by_cases h2 : m = x + 2 ^ 8 * t
      · rw [if_pos h2, if_pos ⟨by omega, by omega⟩, show m / 256 + 1 - t = 1 by omega]
        rfl
      · rw [if_neg h2, if_neg]
        omega

theorem sBox_length : sBox.length = 256 := by decide +kernel

/-- What `genEntry` returns for `x < 256`. -/
def entry (x : Nat) : U64 := match genEntry x with | .ok v => v | _ => 0

theorem genEntry_eq (x : Nat) (hx : x < 256) : genEntry x = .ok (entry x) := by
  unfold entry genEntry
  rw [goIdx_lt (by rw [sBox_length]; exact hx)]
  rfl

theorem genCtLoop_eq (g : Nat → U64) : ∀ (n x : Nat), x + n = 256 →
    genCtLoop n x ((List.range 2048).map fun m => if m % 256 < x then rotl64m8^[m / 256] (entry (m % 256)) else g m) =
      .ok ((List.range 2048).map fun m => rotl64m8^[m / 256] (entry (m % 256)))
  | 0, x, h => by
    unfold genCtLoop
    refine congrArg Res.ok ?_
    apply range_map_congr
    intro m hm
    rw [if_pos (by omega)]
  | n + 1, x, h => by
    unfold genCtLoop
    rw [genEntry_eq x (by omega), Res.ok_bind, goSet_range_map _ _ (by omega), Res.ok_bind,
      genRotLoop_eq x (by omega) 7 1 _ rfl (by omega), Res.ok_bind, ← genCtLoop_eq g n (x + 1) (by omega)]
    refine congrArg (genCtLoop n (x + 1)) ?_
    apply range_map_congr
    intro m hm
    by_cases h1 : m % 256 = x ∧ 1 ≤ m / 256
    · rw [if_pos h1, if_pos (by omega), if_pos (by omega), h1.1, show m / 256 + 1 - 1 = m / 256 by omega]
    · rw [if_neg h1]
      by_cases h2 : m = x
      · rw [if_pos h2, if_pos (by omega), show m / 256 = 0 by omega, show m % 256 = x by omega]
        rfl
      · rw [if_neg h2]
        by_cases h3 : m % 256 < x
        · rw [if_pos h3, if_pos (by omega)]
        · rw [if_neg h3, if_neg (by omega)]

theorem ct_gen : ct = (List.range 2048).map fun m => rotl64m8^[m / 256] (entry (m % 256)) := by
  decide +kernel

theorem replicate_eq_range {α : Type} (n : Nat) (v : α) : List.replicate n v = (List.range n).map fun _ => v := by
  rw [List.map_const', List.length_range]

/-- Every element is written, so what the array held before does not matter. -/
theorem genCtLoop_any {c : List U64} (hc : c.length = 2048) : genCtLoop 256 0 c = .ok ct := by
  rw [ct_gen, ← genCtLoop_eq (fun m => c.getD m 0) 256 0 rfl]
  refine congrArg (genCtLoop 256 0) ?_
  apply List.ext_getElem
  · simp [hc]
  · intro k h1 h2
    simp [h1]

theorem buildCirculantTable_eq : buildCirculantTable = .ok ct := genCtLoop_any (List.length_replicate ..)

theorem buildRoundConstants_eq : buildRoundConstants ct = .ok rc := by
  decide +kernel

theorem genRc_eq : ∀ r < 10, genRc ct r = .ok (rc.getD r 0) := by
  decide +kernel

/-- The same whatever the array held before. -/
theorem genRcLoop_any {a : List U64} (ha : a.length = 10) : genRcLoop ct 10 0 a = .ok rc := by
  have h (n r : Nat) (a : List U64) (hr : n + r = 10) (hl : a.length = 10) : genRcLoop ct n r a = .ok (a.take r ++ rc.drop r) := by
    induction n generalizing r a with
    | zero =>
      have : r = 10 := by omega
      subst this
      rw [genRcLoop, List.take_of_length_le (by omega), List.drop_eq_nil_of_le (by rw [show rc.length = 10 from rfl]), List.append_nil]
    | succ n ih =>
      have h1 : r < a.length := by omega
      have h2 : r < rc.length := by rw [show rc.length = 10 from rfl]; omega
      rw [genRcLoop, genRc_eq r (by omega), Res.ok_bind, goSet_lt h1, Res.ok_bind, ih (r + 1) _ (by omega) (by simpa using hl)]
      congr 1
      have h3 : (a.set r (rc.getD r 0)).take (r + 1) = a.take r ++ [rc[r]] := by
        rw [List.take_add_one, List.take_set_of_le (Nat.le_refl r), List.getElem?_set_self h1]
        simp [h2]
      rw [h3, List.append_assoc]
      congr 1
      rw [List.singleton_append, List.getElem_cons_drop]
  simpa using h 10 0 a rfl ha

end Whirlpool
