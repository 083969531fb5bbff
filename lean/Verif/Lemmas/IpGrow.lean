import Verif.Lemmas.IpRange
import Mathlib.Data.List.Pairwise

/-!
# What one addition does to the listed blocks and their values
-/
namespace Net
open NetSpec
variable {V : Type}

/-- The block with index `q` at height `k` (first address `2^k * q`) with value `v`, joined with listed buddies as long as
there are any below height `top`. -/
inductive GrowN (merge : V → V → V) (D : List (Nat × Nat × V)) (top : Nat) : Nat → Nat → V → Nat → Nat → V → Prop
  | stop {q k : Nat} {v : V} : (k = top ∨ ∀ w, (2 ^ k * (q ^^^ 1), k, w) ∉ D) → GrowN merge D top q k v q k v
  | left {q k q' k' : Nat} {v w v' : V} : q % 2 = 0 → k < top → (2 ^ k * (q + 1), k, w) ∈ D →
      GrowN merge D top (q / 2) (k + 1) (merge v w) q' k' v' → GrowN merge D top q k v q' k' v'
  | right {q k q' k' : Nat} {v w v' : V} : q % 2 = 1 → k < top → (2 ^ k * (q - 1), k, w) ∈ D →
      GrowN merge D top (q / 2) (k + 1) (merge w v) q' k' v' → GrowN merge D top q k v q' k' v'

theorem GrowN.lift {merge : V → V → V} {D D' : List (Nat × Nat × V)} {top top' : Nat} (hD : ∀ b ∈ D, b ∈ D')
    (ht : top ≤ top') {q k q' k' : Nat} {v v' : V} (h : GrowN merge D top q k v q' k' v') :
    (k' = top ∨ ∀ w, (2 ^ k' * (q' ^^^ 1), k', w) ∉ D) ∧ ∀ q'' k'' v'',
      GrowN merge D' top' q' k' v' q'' k'' v'' → GrowN merge D' top' q k v q'' k'' v'' := by
  induction h with
  | stop hs => exact ⟨hs, fun _ _ _ h => h⟩
  | left h1 h2 h3 _ ih => exact ⟨ih.1, fun _ _ _ h => .left h1 (by omega) (hD _ h3) (ih.2 _ _ _ h)⟩
  | right h1 h2 h3 _ ih => exact ⟨ih.1, fun _ _ _ h => .right h1 (by omega) (hD _ h3) (ih.2 _ _ _ h)⟩

/-- A block lies in the block of height `h` that contains its index. -/
theorem fit {q k h Q : Nat} (hk : k ≤ h) (hq : q / 2 ^ (h - k) = Q) :
    2 ^ h * Q ≤ 2 ^ k * q ∧ 2 ^ k * q + 2 ^ k ≤ 2 ^ h * Q + 2 ^ h := by
  have e : 2 ^ h = 2 ^ k * 2 ^ (h - k) := by rw [← Nat.pow_add]; congr 1; omega
  have hp : 0 < 2 ^ (h - k) := Nat.pow_pos (by omega)
  obtain ⟨h1, h2⟩ := (Nat.div_eq_iff hp).mp hq
  rw [e]
  constructor
  · calc _ = 2 ^ k * (Q * 2 ^ (h - k)) := by ring
      _ ≤ _ := Nat.mul_le_mul_left _ h1
  · calc 2 ^ k * q + 2 ^ k = 2 ^ k * (q + 1) := by ring
      _ ≤ 2 ^ k * (Q * 2 ^ (h - k) + 2 ^ (h - k)) := Nat.mul_le_mul_left _ (by omega)
      _ = _ := by ring

theorem buddy_div (q j : Nat) (hj : 1 ≤ j) : (q ^^^ 1) / 2 ^ j = q / 2 ^ j := by
  apply Nat.eq_of_testBit_eq
  intro i
  rw [Nat.testBit_div_two_pow, Nat.testBit_div_two_pow, Nat.testBit_xor]
  have : Nat.testBit 1 (i + j) = false := by
    rw [show i + j = (i + j - 1) + 1 by omega, Nat.testBit_succ]; simp
  rw [this]; simp

theorem buddy_even {q : Nat} (h : q % 2 = 0) : q ^^^ 1 = q + 1 := by
  obtain ⟨m, rfl⟩ : ∃ m, q = 2 * m := ⟨q / 2, by omega⟩
  apply Nat.eq_of_testBit_eq
  intro i
  cases i with
  | zero => simp
  | succ i => rw [Nat.testBit_xor, Nat.testBit_succ, Nat.testBit_succ, Nat.testBit_succ, show (2 * m + 1) / 2 = 2 * m / 2 by omega]; simp

theorem buddy_odd {q : Nat} (h : q % 2 = 1) : q ^^^ 1 = q - 1 := by
  have := buddy_even (q := q - 1) (by omega)
  rw [show q = (q - 1) ^^^ 1 by omega, Nat.xor_assoc]; simp
  omega

/-- Only a full node has a block of its own height. -/
theorem blocks_whole {h : Nat} {t : Node V} {p s : Nat} {v : V} (hd : 2 ^ h ∣ p) (hb : (s, h, v) ∈ blocks t h p) : t = .all v := by
  cases t with
  | all w => simp only [blocks, List.mem_singleton, Prod.mk.injEq] at hb; rw [hb.2.2]
  | none => simp [blocks] at hb
  | tree l r =>
    cases h with
    | zero => simp [blocks] at hb
    | succ h =>
      have hd' : 2 ^ h ∣ p := Dvd.dvd.trans (Nat.pow_dvd_pow 2 (by omega)) hd
      rw [blocks, List.mem_append] at hb
      rcases hb with hb | hb
      · have := (blocks_bounds h l p hd' _ hb).1; dsimp only at this; omega
      · have := (blocks_bounds h r _ (Nat.dvd_add hd' (dvd_refl _)) _ hb).1; dsimp only at this; omega

theorem mkNode_blocks (merge : V → V → V) (l r : Node V) (h p : Nat) :
    (∃ a b, l = .all a ∧ r = .all b ∧ blocks (mkNode merge l r) (h + 1) p = [(p, h + 1, merge a b)]) ∨
    (¬ ((∃ a, l = .all a) ∧ ∃ b, r = .all b) ∧ blocks (mkNode merge l r) (h + 1) p = blocks l h p ++ blocks r h (p + 2 ^ h)) := by
  cases l <;> cases r <;> simp [mkNode, blocks]

/-- Induction step of `addN_grow`: the block was added in the left (`i = 0`) or right (`i = 1`) child. -/
theorem grow_step (merge : V → V → V) (h Q : Nat) (l r c : Node V) {q k q' k' : Nat} {v v' : V} (i : Nat) (hi : i = 0 ∨ i = 1)
    (hg : GrowN merge (blocks (if i = 0 then l else r) h (2 ^ h * (2 * Q + i))) h q k v q' k' v') (hk' : k' ≤ h)
    (hq' : q' / 2 ^ (h - k') = 2 * Q + i)
    (hc : ∀ b, b ∈ blocks c h (2 ^ h * (2 * Q + i)) ↔ (b ∈ blocks (if i = 0 then l else r) h (2 ^ h * (2 * Q + i)) ∧
      ¬ (2 ^ k' * q' ≤ b.1 ∧ b.1 + 2 ^ b.2.1 ≤ 2 ^ k' * q' + 2 ^ k')) ∨ b = (2 ^ k' * q', k', v')) :
    ∃ q'' k'' v'', GrowN merge (blocks l h (2 ^ h * (2 * Q)) ++ blocks r h (2 ^ h * (2 * Q + 1))) (h + 1) q k v q'' k'' v'' ∧
      k'' ≤ h + 1 ∧ q'' / 2 ^ (h + 1 - k'') = Q ∧
      ∀ b, b ∈ blocks (if i = 0 then mkNode merge c r else mkNode merge l c) (h + 1) (2 ^ (h + 1) * Q) ↔
        (b ∈ blocks l h (2 ^ h * (2 * Q)) ++ blocks r h (2 ^ h * (2 * Q + 1)) ∧
          ¬ (2 ^ k'' * q'' ≤ b.1 ∧ b.1 + 2 ^ b.2.1 ≤ 2 ^ k'' * q'' + 2 ^ k'')) ∨ b = (2 ^ k'' * q'', k'', v'') := by
  have hp : 0 < 2 ^ h := Nat.pow_pos (by omega)
  have e0 : 2 ^ (h + 1) * Q = 2 ^ h * (2 * Q) := by rw [Nat.pow_succ]; ring
  have e1 : 2 ^ h * (2 * Q) + 2 ^ h = 2 ^ h * (2 * Q + 1) := by ring
  have hL := blocks_bounds h l (2 ^ h * (2 * Q)) (Dvd.intro _ rfl)
  have hR := blocks_bounds h r (2 ^ h * (2 * Q + 1)) (Dvd.intro _ rfl)
  have hfit := fit hk' hq'
  rw [e0]
  rcases hi with rfl | rfl
  · -- left
    simp only [if_pos, Nat.add_zero] at hg hc hq' hfit ⊢
    obtain ⟨hstop, hlift⟩ := hg.lift (D' := blocks l h (2 ^ h * (2 * Q)) ++ blocks r h (2 ^ h * (2 * Q + 1)))
      (top' := h + 1) (fun b hb => List.mem_append_left _ hb) (by omega)
    have hnew := (hc (2 ^ k' * q', k', v')).mpr (.inr rfl)
    have hmem : ∀ b, b ∈ blocks c h (2 ^ h * (2 * Q)) ++ blocks r h (2 ^ h * (2 * Q) + 2 ^ h) ↔
        (b ∈ blocks l h (2 ^ h * (2 * Q)) ++ blocks r h (2 ^ h * (2 * Q + 1)) ∧
          ¬ (2 ^ k' * q' ≤ b.1 ∧ b.1 + 2 ^ b.2.1 ≤ 2 ^ k' * q' + 2 ^ k')) ∨ b = (2 ^ k' * q', k', v') := by
      intro b
      rw [e1, List.mem_append, List.mem_append, hc b]
      have hRb := hR b
      have hpb : 0 < 2 ^ b.2.1 := Nat.pow_pos (by omega)
      constructor
      · rintro ((⟨h1, h2⟩ | h1) | h1)
        · exact .inl ⟨.inl h1, h2⟩
        · exact .inr h1
        · exact .inl ⟨.inr h1, fun h2 => by have := hRb h1; omega⟩
      · rintro (⟨h1 | h1, h2⟩ | h1)
        · exact .inl (.inl ⟨h1, h2⟩)
        · exact .inr h1
        · exact .inl (.inr h1)
    rcases Nat.lt_or_ge k' h with hlt | hge
    · refine ⟨q', k', v', hlift _ _ _ (.stop (.inr ?_)), by omega, ?_, ?_⟩
      · intro w hw
        rcases List.mem_append.mp hw with hw | hw
        · rcases hstop with hs | hs
          · omega
          · exact hs w hw
        · have h2 := fit hk' ((buddy_div q' (h - k') (by omega)).trans hq')
          have h1 := hR _ hw
          have : 0 < 2 ^ k' := Nat.pow_pos (by omega)
          dsimp only at h1
          omega
      · rw [show h + 1 - k' = (h - k') + 1 by omega, Nat.pow_succ, ← Nat.div_div_eq_div_mul, hq']; omega
      · have hna : ¬ ∃ a, c = .all a := by
          rintro ⟨a, rfl⟩
          simp only [blocks, List.mem_singleton, Prod.mk.injEq] at hnew
          omega
        rcases mkNode_blocks merge c r h (2 ^ h * (2 * Q)) with ⟨a, b, ha, _⟩ | ⟨_, hb⟩
        · exact absurd ⟨a, ha⟩ hna
        · rw [hb]; exact hmem
    · obtain rfl : k' = h := by omega
      simp only [Nat.sub_self, Nat.pow_zero, Nat.div_one] at hq'
      subst hq'
      have hcall := blocks_whole (Dvd.intro _ rfl) hnew
      subst hcall
      by_cases hr : ∃ w, r = .all w
      · obtain ⟨w, rfl⟩ := hr
        refine ⟨Q, k' + 1, merge v' w, hlift _ _ _ ?_, le_refl _, by simp, ?_⟩
        · refine .left (w := w) (by omega) (by omega) (List.mem_append_right _ (by simp [blocks])) ?_
          rw [show 2 * Q / 2 = Q by omega]
          exact .stop (.inl rfl)
        · intro b
          rw [e0]
          simp only [mkNode, blocks, List.mem_singleton]
          constructor
          · exact .inr
          · rintro (⟨h1, h2⟩ | h1)
            · exfalso; apply h2
              rw [Nat.pow_succ]
              rcases List.mem_append.mp h1 with h1 | h1
              · have := hL b h1; omega
              · rw [List.mem_singleton] at h1; subst h1; dsimp only; omega
            · exact h1
      · refine ⟨2 * Q, k', v', hlift _ _ _ (.stop (.inr ?_)), by omega, ?_, ?_⟩
        · intro w hw
          rw [buddy_even (by omega)] at hw
          rcases List.mem_append.mp hw with hw | hw
          · have := hL _ hw; dsimp only at this; omega
          · exact hr ⟨w, blocks_whole (Dvd.intro _ rfl) hw⟩
        · rw [show k' + 1 - k' = 1 by omega]; omega
        · rcases mkNode_blocks merge (.all v') r k' (2 ^ k' * (2 * Q)) with ⟨a, b, _, hb, _⟩ | ⟨_, hb⟩
          · exact absurd ⟨b, hb⟩ hr
          · rw [hb]; exact hmem
  · -- right
    simp only [if_neg (show ¬ (1 : Nat) = 0 by omega)] at hg hc ⊢
    obtain ⟨hstop, hlift⟩ := hg.lift (D' := blocks l h (2 ^ h * (2 * Q)) ++ blocks r h (2 ^ h * (2 * Q + 1)))
      (top' := h + 1) (fun b hb => List.mem_append_right _ hb) (by omega)
    have hnew := (hc (2 ^ k' * q', k', v')).mpr (.inr rfl)
    have hmem : ∀ b, b ∈ blocks l h (2 ^ h * (2 * Q)) ++ blocks c h (2 ^ h * (2 * Q) + 2 ^ h) ↔
        (b ∈ blocks l h (2 ^ h * (2 * Q)) ++ blocks r h (2 ^ h * (2 * Q + 1)) ∧
          ¬ (2 ^ k' * q' ≤ b.1 ∧ b.1 + 2 ^ b.2.1 ≤ 2 ^ k' * q' + 2 ^ k')) ∨ b = (2 ^ k' * q', k', v') := by
      intro b
      rw [e1, List.mem_append, List.mem_append, hc b]
      have hLb := hL b
      have hpb : 0 < 2 ^ b.2.1 := Nat.pow_pos (by omega)
      constructor
      · rintro (h1 | (⟨h1, h2⟩ | h1))
        · exact .inl ⟨.inl h1, fun h2 => by have := hLb h1; omega⟩
        · exact .inl ⟨.inr h1, h2⟩
        · exact .inr h1
      · rintro (⟨h1 | h1, h2⟩ | h1)
        · exact .inl h1
        · exact .inr (.inl ⟨h1, h2⟩)
        · exact .inr (.inr h1)
    rcases Nat.lt_or_ge k' h with hlt | hge
    · refine ⟨q', k', v', hlift _ _ _ (.stop (.inr ?_)), by omega, ?_, ?_⟩
      · intro w hw
        rcases List.mem_append.mp hw with hw | hw
        · have h2 := fit hk' ((buddy_div q' (h - k') (by omega)).trans hq')
          have h1 := hL _ hw
          have : 0 < 2 ^ k' := Nat.pow_pos (by omega)
          dsimp only at h1
          omega
        · rcases hstop with hs | hs
          · omega
          · exact hs w hw
      · rw [show h + 1 - k' = (h - k') + 1 by omega, Nat.pow_succ, ← Nat.div_div_eq_div_mul, hq']; omega
      · have hna : ¬ ∃ a, c = .all a := by
          rintro ⟨a, rfl⟩
          simp only [blocks, List.mem_singleton, Prod.mk.injEq] at hnew
          omega
        rcases mkNode_blocks merge l c h (2 ^ h * (2 * Q)) with ⟨a, b, _, ha, _⟩ | ⟨_, hb⟩
        · exact absurd ⟨b, ha⟩ hna
        · rw [hb]; exact hmem
    · obtain rfl : k' = h := by omega
      simp only [Nat.sub_self, Nat.pow_zero, Nat.div_one] at hq'
      subst hq'
      have hcall := blocks_whole (Dvd.intro _ rfl) hnew
      subst hcall
      by_cases hr : ∃ w, l = .all w
      · obtain ⟨w, rfl⟩ := hr
        refine ⟨Q, k' + 1, merge w v', hlift _ _ _ ?_, le_refl _, by simp, ?_⟩
        · refine .right (w := w) (by omega) (by omega) (List.mem_append_left _ (by simp [blocks])) ?_
          rw [show (2 * Q + 1) / 2 = Q by omega]
          exact .stop (.inl rfl)
        · intro b
          rw [e0]
          simp only [mkNode, blocks, List.mem_singleton]
          constructor
          · exact .inr
          · rintro (⟨h1, h2⟩ | h1)
            · exfalso; apply h2
              rw [Nat.pow_succ]
              rcases List.mem_append.mp h1 with h1 | h1
              · rw [List.mem_singleton] at h1; subst h1; dsimp only; omega
              · have := hR b h1; omega
            · exact h1
      · refine ⟨2 * Q + 1, k', v', hlift _ _ _ (.stop (.inr ?_)), by omega, ?_, ?_⟩
        · intro w hw
          rw [buddy_odd (by omega), show 2 * Q + 1 - 1 = 2 * Q by omega] at hw
          rcases List.mem_append.mp hw with hw | hw
          · exact hr ⟨w, blocks_whole (Dvd.intro _ rfl) hw⟩
          · have := hR _ hw; dsimp only at this; omega
        · rw [show k' + 1 - k' = 1 by omega]; omega
        · rcases mkNode_blocks merge l (.all v') k' (2 ^ k' * (2 * Q)) with ⟨a, b, hb, _, _⟩ | ⟨_, hb⟩
          · exact absurd ⟨a, hb⟩ hr
          · rw [hb]; exact hmem

theorem addN_grow (merge : V → V → V) (h : Nat) : ∀ (t : Node V) (Q pos e : Nat) (x : V), pos / 2 ^ h = Q → e ≤ h →
    (¬ ∃ b ∈ blocks t h (2 ^ h * Q), b.1 ≤ 2 ^ e * (pos / 2 ^ e) ∧ 2 ^ e * (pos / 2 ^ e) + 2 ^ e ≤ b.1 + 2 ^ b.2.1) →
    ∃ q' k' v', GrowN merge (blocks t h (2 ^ h * Q)) h (pos / 2 ^ e) e x q' k' v' ∧ k' ≤ h ∧ q' / 2 ^ (h - k') = Q ∧
      ∀ b, b ∈ blocks (addN merge t pos h e x) h (2 ^ h * Q) ↔ (b ∈ blocks t h (2 ^ h * Q) ∧
        ¬ (2 ^ k' * q' ≤ b.1 ∧ b.1 + 2 ^ b.2.1 ≤ 2 ^ k' * q' + 2 ^ k')) ∨ b = (2 ^ k' * q', k', v') := by
  have hidx : ∀ pos e h : Nat, e ≤ h → pos / 2 ^ e / 2 ^ (h - e) = pos / 2 ^ h := by
    intro pos e h he
    rw [Nat.div_div_eq_div_mul, ← Nat.pow_add]; congr 2; omega
  -- replacing the whole node
  have whole : ∀ (h : Nat) (t : Node V) (pos : Nat) (x : V),
      ∃ q' k' v', GrowN merge (blocks t h (2 ^ h * (pos / 2 ^ h))) h (pos / 2 ^ h) h x q' k' v' ∧ k' ≤ h ∧
      q' / 2 ^ (h - k') = pos / 2 ^ h ∧
      ∀ b, b ∈ blocks (.all x) h (2 ^ h * (pos / 2 ^ h)) ↔ (b ∈ blocks t h (2 ^ h * (pos / 2 ^ h)) ∧
        ¬ (2 ^ k' * q' ≤ b.1 ∧ b.1 + 2 ^ b.2.1 ≤ 2 ^ k' * q' + 2 ^ k')) ∨ b = (2 ^ k' * q', k', v') := by
    intro h t pos x
    refine ⟨_, _, _, .stop (.inl rfl), le_refl _, by simp, ?_⟩
    intro b
    simp only [blocks, List.mem_singleton]
    constructor
    · exact .inr
    · rintro (⟨h1, h2⟩ | h1)
      · have := blocks_bounds h t _ (Dvd.intro _ rfl) b h1; omega
      · exact h1
  induction h with
  | zero =>
    intro t Q pos e x hQ he hnc
    obtain rfl : e = 0 := by omega
    subst hQ
    cases t with
    | all v => exact absurd ⟨_, List.mem_singleton.mpr rfl, le_refl _, le_refl _⟩ hnc
    | none => exact whole 0 .none pos x
    | tree l r => exact whole 0 (.tree l r) pos x
  | succ h ih =>
    intro t Q pos e x hQ he hnc
    by_cases heq : e = h + 1
    · subst heq hQ
      cases t with
      | all v => exact absurd ⟨_, List.mem_singleton.mpr rfl, le_refl _, le_refl _⟩ hnc
      | none => rw [addN, if_pos (le_refl _)]; exact whole _ .none pos x
      | tree l r => rw [addN, if_pos (le_refl _)]; exact whole _ (.tree l r) pos x
    · have hlt : e ≤ h := by omega
      have e0 : 2 ^ (h + 1) * Q = 2 ^ h * (2 * Q) := by rw [Nat.pow_succ]; ring
      have e1 : 2 ^ h * (2 * Q) + 2 ^ h = 2 ^ h * (2 * Q + 1) := by ring
      have hbit : pos.testBit h = decide (pos / 2 ^ h % 2 = 1) := Nat.testBit_eq_decide_div_mod_eq
      have hdiv : pos / 2 ^ h / 2 = Q := by rw [← hQ, Nat.pow_succ, ← Nat.div_div_eq_div_mul]
      -- both kinds of inner node
      have inner : ∀ l r : Node V, (¬ ∃ b ∈ blocks l h (2 ^ h * (2 * Q)) ++ blocks r h (2 ^ h * (2 * Q + 1)),
            b.1 ≤ 2 ^ e * (pos / 2 ^ e) ∧ 2 ^ e * (pos / 2 ^ e) + 2 ^ e ≤ b.1 + 2 ^ b.2.1) →
          ∃ q' k' v', GrowN merge (blocks l h (2 ^ h * (2 * Q)) ++ blocks r h (2 ^ h * (2 * Q + 1))) (h + 1) (pos / 2 ^ e) e x q' k' v' ∧
            k' ≤ h + 1 ∧ q' / 2 ^ (h + 1 - k') = Q ∧
            ∀ b, b ∈ blocks (if pos.testBit h = true then mkNode merge l (addN merge r pos h e x)
                else mkNode merge (addN merge l pos h e x) r) (h + 1) (2 ^ (h + 1) * Q) ↔
              (b ∈ blocks l h (2 ^ h * (2 * Q)) ++ blocks r h (2 ^ h * (2 * Q + 1)) ∧
              ¬ (2 ^ k' * q' ≤ b.1 ∧ b.1 + 2 ^ b.2.1 ≤ 2 ^ k' * q' + 2 ^ k')) ∨ b = (2 ^ k' * q', k', v') := by
        intro l r hnc
        by_cases hb : pos / 2 ^ h % 2 = 1
        · rw [if_pos (by rw [hbit]; simp [hb])]
          obtain ⟨q', k', v', g1, g2, g3, g4⟩ := ih r (2 * Q + 1) pos e x (by omega) hlt
            (fun ⟨b, hb, hb'⟩ => hnc ⟨b, List.mem_append_right _ hb, hb'⟩)
          exact grow_step merge h Q l r (addN merge r pos h e x) 1 (.inr rfl) g1 g2 g3 g4
        · rw [if_neg (by rw [hbit]; simp [hb])]
          obtain ⟨q', k', v', g1, g2, g3, g4⟩ := ih l (2 * Q) pos e x (by omega) hlt
            (fun ⟨b, hb, hb'⟩ => hnc ⟨b, List.mem_append_left _ hb, hb'⟩)
          exact grow_step merge h Q l r (addN merge l pos h e x) 0 (.inl rfl) g1 g2 g3 g4
      cases t with
      | all v =>
        refine absurd ⟨_, List.mem_singleton.mpr rfl, ?_⟩ hnc
        exact fit he (by rw [hidx _ _ _ he, hQ])
      | none =>
        rw [addN, if_neg (by omega)]
        have := inner .none .none (by simp [blocks])
        simpa only [blocks, List.append_nil] using this
      | tree l r =>
        rw [addN, if_neg (by omega)]
        rw [blocks, e0, e1] at hnc ⊢
        have := inner l r hnc
        rw [e0] at this
        exact this

/-! ## As CIDRs -/

/-- The CIDR of a block of height `k`. -/
def toCidr (s k : Nat) : Cidr := ⟨s, 32 - k⟩

theorem cidrOf_blockNet (s k : Nat) (hs : s < 2 ^ 32) (hk : k ≤ 32) : cidrOf (blockNet s k) = toCidr s k := by
  obtain ⟨z, hz⟩ := MaskFromByte_contiguous (32 - k) (by omega)
  rw [cidrOf, (blockNet_ip s k hs).2]
  show Cidr.mk s ((bits (MaskFromByte (BitVec.ofNat 8 (32 - k)))).filter id).length = _
  rw [hz]
  simp [toCidr]

theorem listed_blocks (t : Node V) (hn : Norm t 32) :
    listed (ListCidr t) = (blocks t 32 0).map fun b => (toCidr b.1 b.2.1, b.2.2) := by
  rw [ListCidr_blocks t hn, listed, List.map_map]
  apply List.map_congr_left
  intro b hb
  obtain ⟨h1, _, h3, _⟩ := block_ok hb
  simp only [Function.comp, cidrOf_blockNet _ _ h3 h1]

theorem toCidr_has {q k : Nat} (hk : k ≤ 32) (a : Nat) : (toCidr (2 ^ k * q) k).Has a ↔ 2 ^ k * q ≤ a ∧ a < 2 ^ k * q + 2 ^ k := by
  have hp : 0 < 2 ^ k := Nat.pow_pos (by omega)
  rw [Cidr.Has, toCidr]
  simp only [show 32 - (32 - k) = k by omega]
  rw [Nat.mul_div_cancel_left _ hp, Nat.div_eq_iff hp, Nat.mul_comm q]
  omega

theorem toCidr_within {q k q' k' : Nat} (hk : k ≤ 32) (hk' : k' ≤ 32) :
    (toCidr (2 ^ k * q) k).Within (toCidr (2 ^ k' * q') k') ↔
      2 ^ k' * q' ≤ 2 ^ k * q ∧ 2 ^ k * q + 2 ^ k ≤ 2 ^ k' * q' + 2 ^ k' := by
  have hp : 0 < 2 ^ k := Nat.pow_pos (by omega)
  rw [Cidr.Within]
  simp only [toCidr_has hk, toCidr_has hk']
  constructor
  · intro h
    have h1 := h (2 ^ k * q) (by omega)
    have h2 := h (2 ^ k * q + (2 ^ k - 1)) (by omega)
    omega
  · intro h a ha; omega

theorem toCidr_inj {s k s' k' : Nat} (hk : k ≤ 32) (hk' : k' ≤ 32) (h : toCidr s k = toCidr s' k') : s = s' ∧ k = k' := by
  simp only [toCidr, Cidr.mk.injEq] at h; omega

theorem toCidr_buddy {q k : Nat} (hk : k ≤ 32) : (toCidr (2 ^ k * q) k).buddy = toCidr (2 ^ k * (q ^^^ 1)) k := by
  have hp : 0 < 2 ^ k := Nat.pow_pos (by omega)
  simp only [toCidr, Cidr.buddy, show 32 - (32 - k) = k by omega, Nat.mul_div_cancel_left _ hp]
  congr 1
  by_cases h : q % 2 = 0
  · rw [if_pos h, buddy_even h]; ring
  · rw [if_neg h, buddy_odd (by omega), Nat.mul_sub, Nat.mul_one]

theorem toCidr_parent {q k : Nat} (hk : k < 32) : (toCidr (2 ^ k * q) k).parent = toCidr (2 ^ (k + 1) * (q / 2)) (k + 1) := by
  rw [Cidr.parent, toCidr_buddy (by omega)]
  simp only [toCidr]
  have e : 2 ^ (k + 1) * (q / 2) = 2 ^ k * (2 * (q / 2)) := by rw [Nat.pow_succ]; ring
  rw [show 32 - k - 1 = 32 - (k + 1) by omega, e]
  congr 1
  by_cases h : q % 2 = 0
  · rw [buddy_even h, show 2 * (q / 2) = q by omega]
    exact Nat.min_eq_left (Nat.mul_le_mul_left _ (by omega))
  · rw [buddy_odd (by omega), show 2 * (q / 2) = q - 1 by omega]
    exact Nat.min_eq_right (Nat.mul_le_mul_left _ (by omega))

theorem mem_listed {t : Node V} (hn : Norm t 32) {s k : Nat} (hk : k ≤ 32) (w : V) :
    (toCidr s k, w) ∈ listed (ListCidr t) ↔ (s, k, w) ∈ blocks t 32 0 := by
  rw [listed_blocks t hn, List.mem_map]
  constructor
  · rintro ⟨⟨s', k', w'⟩, hb, e⟩
    rw [Prod.mk.injEq] at e
    obtain ⟨rfl, rfl⟩ := toCidr_inj (block_ok hb).1 hk e.1
    rw [← e.2]; exact hb
  · intro hb; exact ⟨_, hb, rfl⟩

theorem GrowN.grows {merge : V → V → V} {t : Node V} (hn : Norm t 32) {q k q' k' : Nat} {v v' : V} (hk : k ≤ 32)
    (h : GrowN merge (blocks t 32 0) 32 q k v q' k' v') :
    Grows merge (listed (ListCidr t)) (toCidr (2 ^ k * q) k) v (toCidr (2 ^ k' * q') k') v' := by
  induction h with
  | @stop q k v hs =>
    apply Grows.stop
    rw [toCidr_buddy hk]
    rcases hs with rfl | hs
    · exact .inl rfl
    · right; intro w; rw [mem_listed hn hk]; exact hs w
  | @left q k q' k' v w v' h1 h2 h3 _ ih =>
    have hp : 0 < 2 ^ k := Nat.pow_pos (by omega)
    have ih := ih (by omega)
    rw [← toCidr_parent h2] at ih
    refine .low (w := w) (by show 32 - k ≠ 0; omega) ?_ ?_ ih
    · rw [toCidr_buddy hk, mem_listed hn hk, buddy_even h1]; exact h3
    · rw [toCidr_buddy hk, buddy_even h1]
      exact Nat.mul_lt_mul_of_pos_left (by omega) hp
  | @right q k q' k' v w v' h1 h2 h3 _ ih =>
    have hp : 0 < 2 ^ k := Nat.pow_pos (by omega)
    have ih := ih (by omega)
    rw [← toCidr_parent h2] at ih
    refine .high (w := w) (by show 32 - k ≠ 0; omega) ?_ ?_ ih
    · rw [toCidr_buddy hk, mem_listed hn hk, buddy_odd h1]; exact h3
    · rw [toCidr_buddy hk, buddy_odd h1]
      exact Nat.mul_lt_mul_of_pos_left (by omega) hp

theorem add_grow (merge : V → V → V) (t : Node V) (hn : Norm t 32) (pos : U32) (e : U8) (he : e.toNat ≤ 32) (x : V)
    (hnc : ¬ ∃ d ∈ listed (ListCidr t), (toCidr (2 ^ e.toNat * (pos.toNat / 2 ^ e.toNat)) e.toNat).Within d.1) :
    ∃ d u, Grows merge (listed (ListCidr t)) (toCidr (2 ^ e.toNat * (pos.toNat / 2 ^ e.toNat)) e.toNat) x d u ∧
      ∀ b, b ∈ listed (ListCidr (add merge t pos 32#8 e x)) ↔
        (b ∈ listed (ListCidr t) ∧ ¬ b.1.Within d) ∨ b = (d, u) := by
  have hn' := add_norm merge t hn pos e x
  have hQ : pos.toNat / 2 ^ 32 = 0 := Nat.div_eq_of_lt pos.isLt
  obtain ⟨q', k', v', g1, g2, g3, g4⟩ := addN_grow merge 32 t 0 pos.toNat e.toNat x hQ he (by
    rintro ⟨⟨s, k, w⟩, hb, h1, h2⟩
    rw [Nat.mul_zero] at hb
    obtain ⟨k1, ⟨q, hq⟩, _, _⟩ := block_ok hb
    dsimp only at k1 hq h1 h2
    subst hq
    exact hnc ⟨(toCidr (2 ^ k * q) k, w), (mem_listed hn k1 w).mpr hb, (toCidr_within he k1).mpr ⟨h1, h2⟩⟩)
  rw [Nat.mul_zero] at g1 g4
  rw [← add_eq merge 32 t pos 32#8 e x rfl] at g4
  refine ⟨_, v', g1.grows hn he, ?_⟩
  rintro ⟨c, w⟩
  rw [listed_blocks _ hn', listed_blocks _ hn, List.mem_map, List.mem_map]
  constructor
  · rintro ⟨⟨s, k, w'⟩, hb, e⟩
    rw [← e]
    rcases (g4 _).mp hb with ⟨h1, h2⟩ | h
    · left
      refine ⟨⟨_, h1, rfl⟩, ?_⟩
      obtain ⟨k1, ⟨q, hq⟩, _, _⟩ := block_ok h1
      dsimp only at k1 hq h2 ⊢
      subst hq
      rw [toCidr_within k1 g2]; exact h2
    · right
      rw [Prod.mk.injEq, Prod.mk.injEq] at h
      rw [h.1, h.2.1, h.2.2]
  · rintro (⟨⟨⟨s, k, w'⟩, hb, e⟩, h2⟩ | h)
    · refine ⟨_, (g4 _).mpr (.inl ⟨hb, ?_⟩), e⟩
      obtain ⟨k1, ⟨q, hq⟩, _, _⟩ := block_ok hb
      rw [Prod.mk.injEq] at e
      dsimp only at k1 hq h2 e ⊢
      rw [← e.1] at h2
      subst hq
      rwa [toCidr_within k1 g2] at h2
    · rw [h]
      exact ⟨_, (g4 _).mpr (.inr rfl), rfl⟩

/-- In the list each CIDR has one value. -/
theorem listed_value {t : Node V} (hn : Norm t 32) {c : Cidr} {v w : V} (hv : (c, v) ∈ listed (ListCidr t))
    (hw : (c, w) ∈ listed (ListCidr t)) : v = w := by
  rw [listed_blocks t hn, List.mem_map] at hv hw
  obtain ⟨b, hb, eb⟩ := hv
  obtain ⟨b', hb', eb'⟩ := hw
  rw [Prod.mk.injEq] at eb eb'
  obtain ⟨e1, e2⟩ := toCidr_inj (block_ok hb).1 (block_ok hb').1 (eb.1.trans eb'.1.symm)
  have hs := blocks_sorted 32 t 0 (by simp)
  have hp : 0 < 2 ^ b.2.1 := Nat.pow_pos (by omega)
  by_contra hne
  have hbb : b ≠ b' := by rintro rfl; exact hne (eb.2.symm.trans eb'.2)
  have hp' : 0 < 2 ^ b'.2.1 := Nat.pow_pos (by omega)
  have key : ∀ x y : Nat × Nat × V, x.1 + 2 ^ x.2.1 ≤ y.1 ∨ y.1 + 2 ^ y.2.1 ≤ x.1 → x.1 ≠ y.1 := by
    intro x y h
    have : 0 < 2 ^ x.2.1 := Nat.pow_pos (by omega)
    have : 0 < 2 ^ y.2.1 := Nat.pow_pos (by omega)
    omega
  have hs' : (blocks t 32 0).Pairwise fun x y => x.1 + 2 ^ x.2.1 ≤ y.1 ∨ y.1 + 2 ^ y.2.1 ≤ x.1 := hs.imp .inl
  haveI : Std.Symm fun x y : Nat × Nat × V => x.1 + 2 ^ x.2.1 ≤ y.1 ∨ y.1 + 2 ^ y.2.1 ≤ x.1 := ⟨fun _ _ h => h.symm⟩
  exact key b b' (hs'.forall hb hb' hbb) e1

/-! ## AddRange -/

/-- `shrink` stops at the first block that fits. -/
theorem shrink_max (u uEnd : U32) (fuel : Nat) : ∀ (m m' : U32) (k : Nat), k ≤ 32 → 2 ^ k ∣ u.toNat → m.toNat = 2 ^ k - 1 →
    shrink u uEnd fuel m = some m' → ∀ j, j ≤ k → u.toNat + 2 ^ j ≤ uEnd.toNat + 1 → 2 ^ j - 1 ≤ m'.toNat := by
  have mono : ∀ j k : Nat, j ≤ k → 2 ^ j ≤ 2 ^ k := fun j k h => Nat.pow_le_pow_right (by omega) h
  induction fuel with
  | zero =>
    intro m m' k hk hd hm h j hj _
    rw [shrink] at h
    split at h
    · cases h
    · cases h; have := mono j k hj; omega
  | succ fuel ih =>
    intro m m' k hk hd hm h j hj hfit
    rw [shrink] at h
    split at h
    · rename_i hc
      have hc : uEnd.toNat < (u + m).toNat := hc
      rw [sum_toNat u m hk hd hm] at hc
      have hjk : j ≠ k := by rintro rfl; omega
      obtain ⟨k, rfl⟩ : ∃ k', k = k' + 1 := ⟨k - 1, by omega⟩
      exact ih _ m' k (by omega) (Dvd.dvd.trans (Nat.pow_dvd_pow 2 (by omega)) hd) (by
          rw [BitVec.toNat_ushiftRight, hm, Nat.shiftRight_eq_div_pow, Nat.pow_succ]; omega) h j (by omega) hfit
    · cases h; have := mono j k hj; omega

theorem bitCount_max {fuel : Nat} {u uEnd m : U32} (h : shrink u uEnd fuel ((u - 1#32) &&& ~~~u) = some m) :
    ∀ j, j ≤ 32 → 2 ^ j ∣ u.toNat → u.toNat + 2 ^ j ≤ uEnd.toNat + 1 → j ≤ (bitCount m 0#8).toNat := by
  intro j hj hd hfit
  obtain ⟨k, hk, hkd, hm0, hmax⟩ := initial_max u
  obtain ⟨i, hi, hm, _⟩ := shrink_some u uEnd fuel _ m k hk hkd hm0 h
  have := shrink_max u uEnd fuel _ m k hk hkd hm0 h j (hmax j hj hd) hfit
  rw [bitCount_eq i m _ hm]
  have e : (0#8 + BitVec.ofNat 8 i).toNat = i := by simp; omega
  rw [e]
  by_contra hc
  have := Nat.pow_lt_pow_right (a := 2) (by omega) (show i < j by omega)
  have : 0 < 2 ^ i := Nat.pow_pos (by omega)
  omega

theorem blockNet_canonical (s k : Nat) (hs : s < 2 ^ 32) (hk : k ≤ 32) (hd : 2 ^ k ∣ s) : CanonicalNet (blockNet s k) := by
  obtain ⟨hl, hv⟩ := blockNet_ip s k hs
  have hcont := MaskFromByte_contiguous (32 - k) (by omega)
  refine ⟨hl, rfl, ⟨_, hcont⟩, ?_⟩
  show beVal (blockNet s k).ip &&& beVal (MaskFromByte (BitVec.ofNat 8 (32 - k))) = _
  rw [(mask_val_of_contiguous rfl hcont).2, hv, and_maskVal _ _ hs (by omega), show 32 - (32 - k) = k by omega,
    Nat.div_mul_cancel hd]

theorem AddCidr_blockNet (merge : V → V → V) (t : Node V) (u : U32) (e : U8) (he : e.toNat ≤ 32) (x : V) :
    AddCidr merge t (blockNet u.toNat e.toNat) x = .ok (add merge t u 32#8 e x) := by
  have h1 : Ipv4ToUint (blockNet u.toNat e.toNat).ip = .ok u := by
    have hi := IPv4_of_len4 (blockNet_ip u.toNat e.toNat u.isLt).1
    rw [(blockNet_ip u.toNat e.toNat u.isLt).2] at hi
    obtain ⟨v, hv, e'⟩ := Ipv4ToUint_of hi
    rw [hv, BitVec.eq_of_toNat_eq e']
  have h2 : 32#8 - MaskToByte (blockNet u.toNat e.toNat).mask = e := by
    show 32#8 - MaskToByte (MaskFromByte (BitVec.ofNat 8 (32 - e.toNat))) = e
    rw [MaskToByte_of (MaskFromByte_contiguous (32 - e.toNat) (by omega))]
    apply BitVec.eq_of_toNat_eq
    rw [BitVec.toNat_sub_of_le (by rw [BitVec.le_def]; simp; omega)]
    simp; omega
  rw [AddCidr, h1]
  simp only [h2]
  rfl

theorem rangeLoop_greedy (merge : V → V → V) (uEnd : U32) (hne : uEnd ≠ 0xffffffff#32) (x : V) (fuel : Nat) :
    ∀ (u : U32) (t t' : Node V), rangeLoop merge uEnd x fuel u t = some t' →
    ∃ ns : List IPNet, (∀ n ∈ ns, CanonicalNet n) ∧ Greedy uEnd.toNat u.toNat (ns.map cidrOf) ∧
      Runs merge t (ns.map fun n => .addCidr n x) t' := by
  induction fuel with
  | zero =>
    intro u t t' h
    rw [rangeLoop] at h
    split at h
    · cases h
    · rename_i hc; cases h
      rw [BitVec.le_def] at hc
      exact ⟨[], by simp, .done (by omega), rfl⟩
  | succ fuel ih =>
    intro u t t' h
    rw [rangeLoop] at h
    split at h
    · rename_i hc
      split at h
      · cases h
      · rename_i m hm
        obtain ⟨j, hj, hd, hb, hend, hnext, hblk⟩ := range_turn hne hm
        have hmax := bitCount_max hm
        obtain ⟨ns, i1, i2, i3⟩ := ih _ _ _ h
        refine ⟨blockNet u.toNat j :: ns, ?_, ?_, ?_⟩
        · intro n hn'
          rcases List.mem_cons.mp hn' with rfl | hn'
          · exact blockNet_canonical _ _ u.isLt hj hd
          · exact i1 n hn'
        · rw [List.map_cons, cidrOf_blockNet _ _ u.isLt hj]
          rw [hnext] at i2
          refine .next hj hd hend (fun i h1 h2 h3 => ?_) i2
          have := hmax i h1 h2 h3
          omega
        · refine ⟨_, ?_, i3⟩
          have := AddCidr_blockNet merge t u (bitCount m 0#8) (by omega) x
          rw [hb] at this
          exact this
    · rename_i hc; cases h
      rw [BitVec.le_def] at hc
      exact ⟨[], by simp, .done (by omega), rfl⟩

/-- A range shorter than `2^k` from a multiple of `2^k` on takes at most `k` blocks. -/
theorem Greedy_tail {e s : Nat} {cs : List Cidr} (h : Greedy e s cs) : ∀ k, k ≤ 32 → 2 ^ k ∣ s → e + 1 < s + 2 ^ k → cs.length ≤ k := by
  induction h with
  | done _ => intro k _ _ _; simp
  | @next s j cs hj hd hfit hmax _ ih =>
    intro k hk hdk hlt
    have hjk : j < k := by
      by_contra hc
      have := Nat.pow_le_pow_right (n := 2) (by omega) (show k ≤ j by omega)
      omega
    have hnext : e + 1 < s + 2 ^ j + 2 ^ j := by
      by_contra hc
      have := hmax (j + 1) (by omega) (Dvd.dvd.trans (Nat.pow_dvd_pow 2 (by omega)) hdk) (by rw [Nat.pow_succ]; omega)
      omega
    have := ih j hj (Nat.dvd_add hd (dvd_refl _)) hnext
    simp only [List.length_cons]; omega

theorem Greedy_head {e s : Nat} {cs : List Cidr} (h : Greedy e s cs) (he : e + 1 < 2 ^ 32) : ∀ k, k ≤ 31 → s ≠ 0 → 2 ^ k ∣ s →
    cs.length ≤ 62 - k := by
  induction h with
  | done _ => intro k _ _ _; simp
  | @next s j cs hj hd hfit hmax hg ih =>
    intro k hk hs hdk
    obtain ⟨a, q, ea⟩ := exists_odd s hs
    have hpj : 0 < 2 ^ j := Nat.pow_pos (by omega)
    have hsa : 2 ^ a ∣ s := ⟨_, ea⟩
    have hmaxa : ∀ i, 2 ^ i ∣ s → i ≤ a := by
      intro i hi
      by_contra hc
      have hi := Dvd.dvd.trans (Nat.pow_dvd_pow 2 (show a + 1 ≤ i by omega)) hi
      rw [ea, Nat.pow_succ] at hi
      have := Nat.dvd_of_mul_dvd_mul_left (Nat.pow_pos (by omega)) hi
      omega
    have hka := hmaxa k hdk
    have hja := hmaxa j hd
    have ha31 : a < 32 := by
      by_contra hc
      have h1 : 2 ^ 32 ≤ 2 ^ a := Nat.pow_le_pow_right (by omega) (by omega)
      have h2 : 2 ^ a ≤ s := Nat.le_of_dvd (by omega) hsa
      omega
    simp only [List.length_cons]
    rcases Nat.lt_or_ge j a with hlt | hge
    · have hnext : e + 1 < s + 2 ^ j + 2 ^ j := by
        by_contra hc
        have := hmax (j + 1) (by omega) (Dvd.dvd.trans (Nat.pow_dvd_pow 2 (by omega)) hsa) (by rw [Nat.pow_succ]; omega)
        omega
      have := Greedy_tail hg j hj (Nat.dvd_add hd (dvd_refl _)) hnext
      omega
    · obtain rfl : j = a := by omega
      have hd' : 2 ^ (j + 1) ∣ s + 2 ^ j := ⟨q + 1, by rw [ea, Nat.pow_succ]; ring⟩
      rcases Nat.lt_or_ge j 31 with h31 | h31
      · have := ih (j + 1) (by omega) (by omega) hd'
        omega
      · -- the block from 2^31 would end at 2^32
        have h1 : 2 ^ (j + 1) ≤ s + 2 ^ j := Nat.le_of_dvd (by omega) hd'
        have h2 : 2 ^ 32 ≤ 2 ^ (j + 1) := Nat.pow_le_pow_right (by omega) (by omega)
        omega

theorem Greedy_length_le {e s : Nat} {cs : List Cidr} (h : Greedy e s cs) (he : e + 1 < 2 ^ 32) : cs.length ≤ 62 := by
  by_cases hs : s = 0
  · subst hs
    have := Greedy_tail h 32 (by omega) (by simp) (by omega)
    omega
  · have := Greedy_head h he 0 (by omega) hs (by simp)
    omega

end Net
