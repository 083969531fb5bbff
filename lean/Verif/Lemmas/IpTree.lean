import Verif.Lemmas.Net

namespace Net
open NetSpec
variable {V : Type}

/-! ## The tree over natural numbers -/

/-- `add` with the mask as a structurally decreasing height. -/
def addN (merge : V → V → V) : Node V → (pos h e : Nat) → V → Node V
  | .all v, _, _, _, _ => .all v
  | _, _, 0, _, x => .all x
  | .none, pos, h + 1, e, x =>
    if h + 1 ≤ e then .all x
    else if pos.testBit h then mkNode merge .none (addN merge .none pos h e x)
    else mkNode merge (addN merge .none pos h e x) .none
  | .tree l r, pos, h + 1, e, x =>
    if h + 1 ≤ e then .all x
    else if pos.testBit h then mkNode merge l (addN merge r pos h e x)
    else mkNode merge (addN merge l pos h e x) r

theorem bit_cond (pos : U32) (k : Nat) : ((pos >>> k) &&& 1#32 = 1#32) ↔ pos.toNat.testBit k = true := by
  rw [← BitVec.toNat_inj, BitVec.toNat_and, BitVec.toNat_ushiftRight, Nat.testBit_eq_decide_div_mod_eq,
    Nat.shiftRight_eq_div_pow]
  show _ &&& 1 = 1 ↔ _
  rw [Nat.and_one_is_mod]
  simp

theorem add_eq (merge : V → V → V) (h : Nat) : ∀ (t : Node V) (pos : U32) (mask e : U8) (x : V), mask.toNat = h →
    add merge t pos mask e x = addN merge t pos.toNat h e.toNat x := by
  induction h with
  | zero =>
    intro t pos mask e x hm
    have hle : mask ≤ e := by rw [BitVec.le_def]; omega
    rw [add.eq_def]
    cases t with
    | all v => simp only [addN]
    | none => simp only [addN, dif_pos hle]
    | tree l r => simp only [addN, dif_pos hle]
  | succ h ih =>
    intro t pos mask e x hm
    have hs : (mask - 1#8).toNat = h := by
      rw [BitVec.toNat_sub_of_le (by rw [BitVec.le_def]; simp; omega), hm]; rfl
    rw [add.eq_def]
    cases t with
    | all v => simp only [addN]
    | none =>
      by_cases hle : mask ≤ e
      · have : h + 1 ≤ e.toNat := by rw [BitVec.le_def] at hle; omega
        simp only [addN, dif_pos hle, if_pos this]
      · have : ¬ h + 1 ≤ e.toNat := by rw [BitVec.le_def] at hle; omega
        simp only [addN, dif_neg hle, if_neg this, ih _ _ _ _ _ hs, hs, bit_cond]
    | tree l r =>
      by_cases hle : mask ≤ e
      · have : h + 1 ≤ e.toNat := by rw [BitVec.le_def] at hle; omega
        simp only [addN, dif_pos hle, if_pos this]
      · have : ¬ h + 1 ≤ e.toNat := by rw [BitVec.le_def] at hle; omega
        simp only [addN, dif_neg hle, if_neg this, ih _ _ _ _ _ hs, hs, bit_cond]

/-- The addresses (by their low `h` bits) under a node at height `h`. -/
def mem : Node V → Nat → Nat → Prop
  | .all _, _, _ => True
  | .none, _, _ => False
  | .tree _ _, 0, _ => False
  | .tree l r, h + 1, a => if a.testBit h then mem r h a else mem l h a

/-- Normal form: depth at most `h`, no tree node with two `all` or two `none` children. -/
def Norm : Node V → Nat → Prop
  | .all _, _ => True
  | .none, _ => True
  | .tree _ _, 0 => False
  | .tree l r, h + 1 => Norm l h ∧ Norm r h ∧ ¬ ((∃ a, l = .all a) ∧ ∃ b, r = .all b) ∧ ¬ (l = .none ∧ r = .none)

theorem mem_congr (h : Nat) : ∀ (t : Node V) (a b : Nat), (∀ i, i < h → a.testBit i = b.testBit i) →
    (mem t h a ↔ mem t h b) := by
  induction h with
  | zero => intro t a b _; cases t <;> simp [mem]
  | succ h ih =>
    intro t a b hab
    cases t with
    | all v => simp [mem]
    | none => simp [mem]
    | tree l r =>
      rw [mem, mem, hab h (by omega), ih l a b (fun i hi => hab i (by omega)), ih r a b (fun i hi => hab i (by omega))]

/-- `a` with bit `h` set to `b` (and nothing above). -/
theorem exists_bit (a h : Nat) (b : Bool) : ∃ a' : Nat, a'.testBit h = b ∧ ∀ i, i < h → a'.testBit i = a.testBit i := by
  cases b with
  | false =>
    refine ⟨a % 2 ^ h, by simp, ?_⟩
    intro i hi; rw [Nat.testBit_mod_two_pow]; simp [hi]
  | true =>
    refine ⟨2 ^ h + a % 2 ^ h, ?_, ?_⟩
    · rw [Nat.testBit_two_pow_add_eq]; simp
    · intro i hi; rw [Nat.testBit_two_pow_add_gt hi, Nat.testBit_mod_two_pow]; simp [hi]

theorem mem_tree_l {l r : Node V} {h : Nat} (a : Nat) : ∃ a', (mem (.tree l r) (h + 1) a' ↔ mem l h a) := by
  obtain ⟨a', h1, h2⟩ := exists_bit a h false
  exact ⟨a', by rw [mem, h1]; simpa using mem_congr h l a' a h2⟩

theorem mem_tree_r {l r : Node V} {h : Nat} (a : Nat) : ∃ a', (mem (.tree l r) (h + 1) a' ↔ mem r h a) := by
  obtain ⟨a', h1, h2⟩ := exists_bit a h true
  exact ⟨a', by rw [mem, h1]; simpa using mem_congr h r a' a h2⟩

theorem full_all (h : Nat) : ∀ (t : Node V), Norm t h → (∀ a, mem t h a) → ∃ v, t = .all v := by
  induction h with
  | zero => intro t hn hm; cases t with
    | all v => exact ⟨v, rfl⟩
    | none => exact absurd (hm 0) (by simp [mem])
    | tree l r => exact absurd (hm 0) (by simp [mem])
  | succ h ih => intro t hn hm; cases t with
    | all v => exact ⟨v, rfl⟩
    | none => exact absurd (hm 0) (by simp [mem])
    | tree l r =>
      obtain ⟨hl, hr, ha, _⟩ := hn
      refine absurd ⟨ih l hl fun a => ?_, ih r hr fun a => ?_⟩ ha
      · obtain ⟨a', e⟩ := mem_tree_l (l := l) (r := r) (h := h) a; exact e.mp (hm a')
      · obtain ⟨a', e⟩ := mem_tree_r (l := l) (r := r) (h := h) a; exact e.mp (hm a')

theorem empty_none (h : Nat) : ∀ (t : Node V), Norm t h → (∀ a, ¬ mem t h a) → t = .none := by
  induction h with
  | zero => intro t hn hm; cases t with
    | all v => exact absurd trivial (hm 0)
    | none => rfl
    | tree l r => exact hn.elim
  | succ h ih => intro t hn hm; cases t with
    | all v => exact absurd trivial (hm 0)
    | none => rfl
    | tree l r =>
      obtain ⟨hl, hr, _, ha⟩ := hn
      refine absurd ⟨ih l hl fun a => ?_, ih r hr fun a => ?_⟩ ha
      · obtain ⟨a', e⟩ := mem_tree_l (l := l) (r := r) (h := h) a; exact fun h => hm a' (e.mpr h)
      · obtain ⟨a', e⟩ := mem_tree_r (l := l) (r := r) (h := h) a; exact fun h => hm a' (e.mpr h)

/-- The tree without its values. -/
def shape : Node V → Node Unit
  | .all _ => .all ()
  | .none => .none
  | .tree l r => .tree (shape l) (shape r)

theorem shape_unique {W : Type} (h : Nat) : ∀ (t : Node V) (t' : Node W), Norm t h → Norm t' h →
    (∀ a, mem t h a ↔ mem t' h a) → shape t = shape t' := by
  induction h with
  | zero =>
    intro t t' hn hn' hm
    cases t <;> cases t' <;> simp_all [mem, Norm, shape]
  | succ h ih =>
    intro t t' hn hn' hm
    cases t with
    | all v =>
      obtain ⟨w, rfl⟩ := full_all _ t' hn' (fun a => (hm a).mp trivial); rfl
    | none =>
      rw [empty_none _ t' hn' (fun a h => (hm a).mpr h)]; rfl
    | tree l r =>
      cases t' with
      | all w =>
        obtain ⟨v, e⟩ := full_all _ (.tree l r) hn (fun a => (hm a).mpr trivial); cases e
      | none => have e := empty_none _ (.tree l r) hn (fun a h => (hm a).mp h); cases e
      | tree l' r' =>
        rw [shape, shape, ih l l' hn.1 hn'.1, ih r r' hn.2.1 hn'.2.1]
        · intro a
          obtain ⟨a', h1, h2⟩ := exists_bit a h true
          have := hm a'
          rw [mem, mem, h1] at this
          rw [← mem_congr h r a' a h2, ← mem_congr h r' a' a h2]; simpa using this
        · intro a
          obtain ⟨a', h1, h2⟩ := exists_bit a h false
          have := hm a'
          rw [mem, mem, h1] at this
          rw [← mem_congr h l a' a h2, ← mem_congr h l' a' a h2]; simpa using this

theorem mkNode_norm (merge : V → V → V) {l r : Node V} {h : Nat} (hl : Norm l h) (hr : Norm r h)
    (hn : ¬ (l = .none ∧ r = .none)) : Norm (mkNode merge l r) (h + 1) ∧ mkNode merge l r ≠ .none := by
  cases l <;> cases r <;> simp_all [mkNode, Norm]

theorem mkNode_mem (merge : V → V → V) (l r : Node V) (h a : Nat) :
    mem (mkNode merge l r) (h + 1) a ↔ if a.testBit h then mem r h a else mem l h a := by
  cases l <;> cases r <;> simp [mkNode, mem]

theorem addN_norm (merge : V → V → V) (h : Nat) : ∀ (t : Node V) (pos e : Nat) (x : V), Norm t h →
    Norm (addN merge t pos h e x) h ∧ addN merge t pos h e x ≠ .none := by
  induction h with
  | zero => intro t pos e x hn; cases t <;> simp [addN, Norm]
  | succ h ih =>
    intro t pos e x hn
    cases t with
    | all v => simp [addN, Norm]
    | none =>
      rw [addN]
      obtain ⟨i1, i2⟩ := ih .none pos e x trivial
      split
      · simp [Norm]
      · split
        · exact mkNode_norm merge trivial i1 (by simp [i2])
        · exact mkNode_norm merge i1 trivial (by simp [i2])
    | tree l r =>
      rw [addN]
      obtain ⟨i1, i2⟩ := ih l pos e x hn.1
      obtain ⟨j1, j2⟩ := ih r pos e x hn.2.1
      split
      · simp [Norm]
      · split
        · exact mkNode_norm merge hn.1 j1 (by simp [j2])
        · exact mkNode_norm merge i1 hn.2.1 (by simp [i2])

theorem bits_succ (a pos h e : Nat) (he : e < h + 1) :
    (∀ i, e ≤ i → i < h + 1 → a.testBit i = pos.testBit i) ↔
      a.testBit h = pos.testBit h ∧ ∀ i, e ≤ i → i < h → a.testBit i = pos.testBit i := by
  constructor
  · intro H; exact ⟨H h (by omega) (by omega), fun i h1 h2 => H i h1 (by omega)⟩
  · rintro ⟨H1, H2⟩ i h1 h2
    rcases Nat.lt_or_ge i h with h3 | h3
    · exact H2 i h1 h3
    · rw [show i = h by omega]; exact H1

theorem addN_mem (merge : V → V → V) (h : Nat) : ∀ (t : Node V) (pos e : Nat) (x : V), Norm t h → ∀ a,
    (mem (addN merge t pos h e x) h a ↔ mem t h a ∨ ∀ i, e ≤ i → i < h → a.testBit i = pos.testBit i) := by
  induction h with
  | zero => intro t pos e x hn a; cases t <;> simp [addN, mem]
  | succ h ih =>
    intro t pos e x hn a
    cases t with
    | all v => simp [addN, mem]
    | none =>
      rw [addN]
      by_cases he : h + 1 ≤ e
      · rw [if_pos he]
        simp only [mem, true_iff]
        right; intro i h1 h2; omega
      · rw [if_neg he, bits_succ _ _ _ _ (by omega)]
        have := ih .none pos e x trivial a
        simp only [mem, false_or] at this ⊢
        by_cases hp : pos.testBit h = true
        · rw [if_pos hp, mkNode_mem, this, hp]
          by_cases ha : a.testBit h = true <;> simp [ha, mem]
        · rw [if_neg hp, mkNode_mem, this]
          by_cases ha : a.testBit h = true <;> simp [ha, hp, mem]
    | tree l r =>
      rw [addN]
      by_cases he : h + 1 ≤ e
      · rw [if_pos he]
        simp only [mem, true_iff]
        right; intro i h1 h2; omega
      · rw [if_neg he, bits_succ _ _ _ _ (by omega)]
        have hl := ih l pos e x hn.1 a
        have hr := ih r pos e x hn.2.1 a
        by_cases hp : pos.testBit h = true
        · rw [if_pos hp, mkNode_mem, hr, hp, mem]
          by_cases ha : a.testBit h = true <;> simp [ha]
        · rw [if_neg hp, mkNode_mem, hl, mem]
          by_cases ha : a.testBit h = true <;> simp [ha, hp]

/-- Adding what is already there changes nothing, values included. -/
theorem addN_covered (merge : V → V → V) (h : Nat) : ∀ (t : Node V) (pos e : Nat) (x : V), Norm t h →
    (∀ a, (∀ i, e ≤ i → i < h → a.testBit i = pos.testBit i) → mem t h a) → addN merge t pos h e x = t := by
  induction h with
  | zero =>
    intro t pos e x hn hm
    have := hm pos (fun _ _ _ => rfl)
    cases t with
    | all v => simp [addN]
    | none => simp [mem] at this
    | tree l r => simp [mem] at this
  | succ h ih =>
    intro t pos e x hn hm
    cases t with
    | all v => simp [addN]
    | none => exact absurd (hm pos (fun _ _ _ => rfl)) (by simp [mem])
    | tree l r =>
      by_cases he : h + 1 ≤ e
      · obtain ⟨v, hv⟩ := full_all _ (.tree l r) hn (fun a => hm a (fun i h1 h2 => by omega))
        cases hv
      · rw [addN, if_neg he]
        have key : ∀ c : Node V, Norm c h → (∀ a, a.testBit h = pos.testBit h → (mem (.tree l r) (h + 1) a ↔ mem c h a)) →
            addN merge c pos h e x = c := by
          intro c hc hmc
          refine ih c pos e x hc (fun a ha => ?_)
          obtain ⟨a', h1, h2⟩ := exists_bit a h (pos.testBit h)
          rw [← mem_congr h c a' a h2, ← hmc a' h1]
          apply hm
          rw [bits_succ _ _ _ _ (by omega)]
          exact ⟨h1, fun i hi1 hi2 => by rw [h2 i hi2, ha i hi1 hi2]⟩
        by_cases hp : pos.testBit h = true
        · rw [if_pos hp, key r hn.2.1 (fun a ha => by rw [mem, ha, if_pos hp])]
          have := hn.2.2.1
          cases l <;> cases r <;> simp_all [mkNode]
        · rw [if_neg hp, key l hn.1 (fun a ha => by rw [mem, ha, if_neg hp])]
          have := hn.2.2.1
          cases l <;> cases r <;> simp_all [mkNode]

/-- The values in a tree. -/
def hasVal : Node V → V → Prop
  | .all v, w => v = w
  | .none, _ => False
  | .tree l r, w => hasVal l w ∨ hasVal r w

theorem mkNode_vals (merge : V → V → V) (P : V → Prop) (hP : ∀ a b, P a → P b → P (merge a b)) {l r : Node V}
    (hl : ∀ w, hasVal l w → P w) (hr : ∀ w, hasVal r w → P w) : ∀ w, hasVal (mkNode merge l r) w → P w := by
  intro w
  cases l <;> cases r <;> simp_all [mkNode, hasVal] <;> aesop

theorem addN_vals (merge : V → V → V) (P : V → Prop) (hP : ∀ a b, P a → P b → P (merge a b)) (h : Nat) :
    ∀ (t : Node V) (pos e : Nat) (x : V), P x → (∀ w, hasVal t w → P w) →
    ∀ w, hasVal (addN merge t pos h e x) w → P w := by
  induction h with
  | zero =>
    intro t pos e x hx ht w
    cases t with
    | all v => simpa [addN] using ht w
    | none => simp only [addN, hasVal]; rintro rfl; exact hx
    | tree l r => simp only [addN, hasVal]; rintro rfl; exact hx
  | succ h ih =>
    intro t pos e x hx ht
    cases t with
    | all v => simpa [addN] using ht
    | none =>
      have hn : ∀ w, hasVal (.none : Node V) w → P w := fun _ h => h.elim
      rw [addN]
      split
      · rintro w rfl; exact hx
      · split
        · exact mkNode_vals merge P hP hn (ih _ _ _ _ hx hn)
        · exact mkNode_vals merge P hP (ih _ _ _ _ hx hn) hn
    | tree l r =>
      have hl : ∀ w, hasVal l w → P w := fun w h => ht w (.inl h)
      have hr : ∀ w, hasVal r w → P w := fun w h => ht w (.inr h)
      rw [addN]
      split
      · rintro w rfl; exact hx
      · split
        · exact mkNode_vals merge P hP hl (ih _ _ _ _ hx hr)
        · exact mkNode_vals merge P hP (ih _ _ _ _ hx hl) hr

/-! ## Blocks -/

/-- The `all` nodes of a tree in order: first address, height, value. -/
def blocks : Node V → (h p : Nat) → List (Nat × Nat × V)
  | .all v, h, p => [(p, h, v)]
  | .none, _, _ => []
  | .tree _ _, 0, _ => []
  | .tree l r, h + 1, p => blocks l h p ++ blocks r h (p + 2 ^ h)

theorem each_eq (h : Nat) : ∀ (t : Node V) (p : Nat), Norm t h → h ≤ 32 → 2 ^ h ∣ p → p < 2 ^ 32 →
    t.each (BitVec.ofNat 32 p) (BitVec.ofNat 8 (h + 255)) =
      (blocks t h p).map fun b => (BitVec.ofNat 32 b.1, BitVec.ofNat 8 (32 - b.2.1), b.2.2) := by
  have hall : ∀ h : Fin 33, 31#8 - BitVec.ofNat 8 (h.1 + 255) = BitVec.ofNat 8 (32 - h.1) := by decide +kernel
  induction h with
  | zero =>
    intro t p hn _ _ _
    cases t with
    | all v => simp [Node.each, blocks]
    | none => rfl
    | tree l r => exact hn.elim
  | succ h ih =>
    intro t p hn hh hd hp
    cases t with
    | all v =>
      have := hall ⟨h + 1, by omega⟩
      simp only at this
      simp [Node.each, blocks, this]
    | none => rfl
    | tree l r =>
      have e1 : BitVec.ofNat 8 (h + 1 + 255) - 1#8 = BitVec.ofNat 8 (h + 255) := by
        apply BitVec.eq_of_toNat_eq
        simp only [BitVec.toNat_sub, BitVec.toNat_ofNat]; omega
      have e2 : (BitVec.ofNat 8 (h + 1 + 255)).toNat = h := by simp only [BitVec.toNat_ofNat]; omega
      obtain ⟨q, rfl⟩ := hd
      have hpow : 2 ^ (h + 1) * q + 2 ^ h < 2 ^ 32 := by
        have hk : 2 ^ 32 = 2 ^ (h + 1) * 2 ^ (31 - h) := by rw [← Nat.pow_add]; congr 1; omega
        rw [hk] at hp ⊢
        have hq : q < 2 ^ (31 - h) := Nat.lt_of_mul_lt_mul_left hp
        calc 2 ^ (h + 1) * q + 2 ^ h < 2 ^ (h + 1) * q + 2 ^ (h + 1) := by
              have := Nat.pow_lt_pow_right (a := 2) (by omega) (show h < h + 1 by omega); omega
          _ = 2 ^ (h + 1) * (q + 1) := by ring
          _ ≤ _ := Nat.mul_le_mul_left _ hq
      have e3 : BitVec.ofNat 32 (2 ^ (h + 1) * q) ||| 1#32 <<< h = BitVec.ofNat 32 (2 ^ (h + 1) * q + 2 ^ h) := by
        have hlt : 2 ^ h < 2 ^ 32 := Nat.pow_lt_pow_right (by omega) (by omega)
        apply BitVec.eq_of_toNat_eq
        simp only [BitVec.toNat_or, BitVec.toNat_shiftLeft, BitVec.toNat_ofNat]
        rw [Nat.mod_eq_of_lt hp, Nat.mod_eq_of_lt hpow]
        rw [show 1 % 2 ^ 32 = 1 by rfl, Nat.shiftLeft_eq, Nat.one_mul, Nat.mod_eq_of_lt hlt]
        exact (Nat.two_pow_add_eq_or_of_lt (Nat.pow_lt_pow_right (by omega) (by omega)) q).symm
      rw [Node.each, blocks, e1, e2, e3, List.map_append]
      rw [ih l _ hn.1 (by omega) (Dvd.dvd.mul_right (Nat.pow_dvd_pow 2 (by omega)) q) hp]
      rw [ih r _ hn.2.1 (by omega) (Nat.dvd_add (Dvd.dvd.mul_right (Nat.pow_dvd_pow 2 (by omega)) q) (dvd_refl _)) hpow]

theorem ListCidr_eq (t : Node V) (hn : Norm t 32) : ListCidr t = (blocks t 32 0).map fun b =>
    (⟨Ipv4FromUint (BitVec.ofNat 32 b.1), MaskFromByte (BitVec.ofNat 8 (32 - b.2.1))⟩, b.2.2) := by
  have := each_eq 32 t 0 hn (by omega) (by simp) (by omega)
  rw [ListCidr]
  rw [show (0#32) = BitVec.ofNat 32 0 from rfl, show (31#8) = BitVec.ofNat 8 (32 + 255) by decide, this, List.map_map]
  rfl

theorem blocks_bounds (h : Nat) : ∀ (t : Node V) (p : Nat), 2 ^ h ∣ p → ∀ b ∈ blocks t h p,
    b.2.1 ≤ h ∧ 2 ^ b.2.1 ∣ b.1 ∧ p ≤ b.1 ∧ b.1 + 2 ^ b.2.1 ≤ p + 2 ^ h := by
  induction h with
  | zero =>
    intro t p hd b hb
    cases t with
    | all v => simp only [blocks, List.mem_singleton] at hb; subst hb; simp
    | none => simp [blocks] at hb
    | tree l r => simp [blocks] at hb
  | succ h ih =>
    intro t p hd b hb
    cases t with
    | all v => simp only [blocks, List.mem_singleton] at hb; subst hb; simp [hd]
    | none => simp [blocks] at hb
    | tree l r =>
      have hd' : 2 ^ h ∣ p := Dvd.dvd.trans (Nat.pow_dvd_pow 2 (by omega)) hd
      rw [blocks, List.mem_append] at hb
      rw [Nat.pow_succ]
      rcases hb with hb | hb
      · obtain ⟨h1, h2, h3, h4⟩ := ih l p hd' b hb
        exact ⟨by omega, h2, h3, by omega⟩
      · obtain ⟨h1, h2, h3, h4⟩ := ih r _ (Nat.dvd_add hd' (dvd_refl _)) b hb
        exact ⟨by omega, h2, by omega, by omega⟩

theorem blocks_sorted (h : Nat) : ∀ (t : Node V) (p : Nat), 2 ^ h ∣ p →
    (blocks t h p).Pairwise fun x y => x.1 + 2 ^ x.2.1 ≤ y.1 := by
  induction h with
  | zero => intro t p _; cases t <;> simp [blocks]
  | succ h ih =>
    intro t p hd
    cases t with
    | all v => simp [blocks]
    | none => simp [blocks]
    | tree l r =>
      have hd' : 2 ^ h ∣ p := Dvd.dvd.trans (Nat.pow_dvd_pow 2 (by omega)) hd
      have hd2 : 2 ^ h ∣ p + 2 ^ h := Nat.dvd_add hd' (dvd_refl _)
      rw [blocks, List.pairwise_append]
      refine ⟨ih l p hd', ih r _ hd2, ?_⟩
      intro x hx y hy
      have := blocks_bounds h l p hd' x hx
      have := blocks_bounds h r _ hd2 y hy
      omega

theorem testBit_block (h q a : Nat) (h1 : 2 ^ (h + 1) * q ≤ a) (h2 : a < 2 ^ (h + 1) * q + 2 ^ (h + 1)) :
    a.testBit h = decide (2 ^ (h + 1) * q + 2 ^ h ≤ a) := by
  obtain ⟨r, rfl⟩ := Nat.exists_eq_add_of_le h1
  rw [Nat.pow_succ] at h2
  have hp : 0 < 2 ^ h := Nat.pow_pos (by omega)
  rw [Nat.testBit_eq_decide_div_mod_eq, Nat.pow_succ, Nat.mul_assoc, Nat.mul_add_div hp]
  rcases Nat.lt_or_ge r (2 ^ h) with hr | hr
  · rw [Nat.div_eq_of_lt hr]; simp; omega
  · rw [show r / 2 ^ h = 1 from Nat.div_eq_of_lt_le (by omega) (by omega)]; simp; omega

theorem blocks_mem (h : Nat) : ∀ (t : Node V) (p : Nat), 2 ^ h ∣ p → Norm t h → ∀ a, p ≤ a → a < p + 2 ^ h →
    ((∃ b ∈ blocks t h p, b.1 ≤ a ∧ a < b.1 + 2 ^ b.2.1) ↔ mem t h a) := by
  induction h with
  | zero =>
    intro t p _ _ a h1 h2
    cases t with
    | all v => simp only [blocks, List.mem_singleton, exists_eq_left, mem, iff_true]; exact ⟨h1, h2⟩
    | none => simp [blocks, mem]
    | tree l r => simp [blocks, mem]
  | succ h ih =>
    intro t p hd hn a h1 h2
    cases t with
    | all v => simp only [blocks, List.mem_singleton, exists_eq_left, mem, iff_true]; exact ⟨h1, h2⟩
    | none => simp [blocks, mem]
    | tree l r =>
      have hd' : 2 ^ h ∣ p := Dvd.dvd.trans (Nat.pow_dvd_pow 2 (by omega)) hd
      have hd2 : 2 ^ h ∣ p + 2 ^ h := Nat.dvd_add hd' (dvd_refl _)
      obtain ⟨q, rfl⟩ := hd
      have ht := testBit_block h q a h1 h2
      generalize 2 ^ (h + 1) * q = p at *
      rw [Nat.pow_succ] at h2
      rw [blocks, mem, ht]
      by_cases hc : p + 2 ^ h ≤ a
      · rw [decide_eq_true hc, if_pos rfl, ← ih r _ hd2 hn.2.1 a hc (by omega)]
        constructor
        · rintro ⟨b, hb, hb1, hb2⟩
          rcases List.mem_append.mp hb with hb | hb
          · have := blocks_bounds h l p hd' b hb; omega
          · exact ⟨b, hb, hb1, hb2⟩
        · rintro ⟨b, hb, hb1⟩; exact ⟨b, List.mem_append_right _ hb, hb1⟩
      · rw [decide_eq_false hc, if_neg (by simp), ← ih l _ hd' hn.1 a h1 (by omega)]
        constructor
        · rintro ⟨b, hb, hb1, hb2⟩
          rcases List.mem_append.mp hb with hb | hb
          · exact ⟨b, hb, hb1, hb2⟩
          · have := blocks_bounds h r _ hd2 b hb; omega
        · rintro ⟨b, hb, hb1⟩; exact ⟨b, List.mem_append_left _ hb, hb1⟩

theorem blocks_vals (h : Nat) : ∀ (t : Node V) (p : Nat), ∀ b ∈ blocks t h p, hasVal t b.2.2 := by
  induction h with
  | zero =>
    intro t p b hb
    cases t with
    | all v => simp only [blocks, List.mem_singleton] at hb; subst hb; rfl
    | none => simp [blocks] at hb
    | tree l r => simp [blocks] at hb
  | succ h ih =>
    intro t p b hb
    cases t with
    | all v => simp only [blocks, List.mem_singleton] at hb; subst hb; rfl
    | none => simp [blocks] at hb
    | tree l r =>
      rw [blocks, List.mem_append] at hb
      rcases hb with hb | hb
      · exact .inl (ih l p b hb)
      · exact .inr (ih r _ b hb)

theorem blocks_shape {W : Type} (h : Nat) : ∀ (t : Node V) (t' : Node W) (p : Nat), shape t = shape t' →
    (blocks t h p).map (fun b => (b.1, b.2.1)) = (blocks t' h p).map (fun b => (b.1, b.2.1)) := by
  induction h with
  | zero => intro t t' p hs; cases t <;> cases t' <;> simp_all [shape, blocks]
  | succ h ih =>
    intro t t' p hs
    cases t <;> cases t' <;> simp_all [shape, blocks]
    rename_i l r l' r'
    rw [ih l l' p hs.1, ih r r' _ hs.2]

/-! ## Minimality -/

/-- Aligned block: start and height. -/
abbrev Blk := Nat × Nat
def Blk.Has (b : Blk) (a : Nat) : Prop := a / 2 ^ b.2 = b.1 / 2 ^ b.2

/-- Two aligned blocks are nested or disjoint. -/
theorem Blk.nested (b : Blk) (h q : Nat) : (∀ a, b.Has a → a / 2 ^ h = q) ∨ (∀ a, a / 2 ^ h = q → b.Has a) ∨
    (∀ a, b.Has a → a / 2 ^ h ≠ q) := by
  rcases Nat.le_total b.2 h with hle | hle
  · have key : ∀ a, b.Has a → a / 2 ^ h = b.1 / 2 ^ h := by
      intro a ha
      have e : 2 ^ h = 2 ^ b.2 * 2 ^ (h - b.2) := by rw [← Nat.pow_add]; congr 1; omega
      rw [e, ← Nat.div_div_eq_div_mul, ha, Nat.div_div_eq_div_mul]
    by_cases hq : b.1 / 2 ^ h = q
    · left; intro a ha; rw [key a ha, hq]
    · right; right; intro a ha; rw [key a ha]; exact hq
  · have e : 2 ^ b.2 = 2 ^ h * 2 ^ (b.2 - h) := by rw [← Nat.pow_add]; congr 1; omega
    have key : ∀ a, a / 2 ^ h = q → a / 2 ^ b.2 = q / 2 ^ (b.2 - h) := by
      intro a ha; rw [e, ← Nat.div_div_eq_div_mul, ha]
    by_cases hq : q / 2 ^ (b.2 - h) = b.1 / 2 ^ b.2
    · right; left; intro a ha; rw [Blk.Has, key a ha, hq]
    · right; right; intro a ha h'; apply hq; rw [← key a h', ha]

/-- Lower bound: any cover of the members of a normal tree within the block `q` of height `h`, by aligned blocks that stay
within the members, needs at least as many blocks meeting that block as the tree has. -/
theorem blocks_minimal (h : Nat) : ∀ (t : Node V) (q : Nat), Norm t h → ∀ C : List Blk,
    (∀ a, a / 2 ^ h = q → (mem t h a ↔ ∃ b ∈ C, b.Has a)) →
    ∀ P : Blk → Bool, (∀ b ∈ C, (∃ a, b.Has a ∧ a / 2 ^ h = q) → P b = true) →
    (blocks t h (2 ^ h * q)).length ≤ C.countP P := by
  induction h with
  | zero =>
    intro t q hn C hC P hP
    cases t with
    | all v =>
      obtain ⟨b, hb, ha⟩ := (hC q (by simp)).mp trivial
      simp only [blocks, List.length_singleton]
      exact List.countP_pos_iff.mpr ⟨b, hb, hP b hb ⟨q, ha, by simp⟩⟩
    | none => simp [blocks]
    | tree l r => simp [blocks]
  | succ h ih =>
    intro t q hn C hC P hP
    have hpos : 0 < 2 ^ h := Nat.pow_pos (by omega)
    cases t with
    | all v =>
      have hq : 2 ^ (h + 1) * q / 2 ^ (h + 1) = q := Nat.mul_div_cancel_left _ (Nat.pow_pos (by omega))
      obtain ⟨b, hb, ha⟩ := (hC (2 ^ (h + 1) * q) hq).mp trivial
      simp only [blocks, List.length_singleton]
      exact List.countP_pos_iff.mpr ⟨b, hb, hP b hb ⟨_, ha, hq⟩⟩
    | none => simp [blocks]
    | tree l r =>
      have hdiv : ∀ a, a / 2 ^ (h + 1) = a / 2 ^ h / 2 := by
        intro a; rw [Nat.pow_succ, ← Nat.div_div_eq_div_mul]
      have hbit : ∀ a, a.testBit h = decide (a / 2 ^ h % 2 = 1) := fun a => Nat.testBit_eq_decide_div_mod_eq
      -- no block of the cover contains the whole
      have hnot : ∀ b ∈ C, ¬ ∀ a, a / 2 ^ (h + 1) = q → b.Has a := by
        intro b hb hall
        obtain ⟨v, e⟩ := full_all _ (.tree l r) hn (fun a => by
          have hq : (2 ^ (h + 1) * q + a % 2 ^ (h + 1)) / 2 ^ (h + 1) = q := by
            rw [Nat.mul_add_div (Nat.pow_pos (by omega)), Nat.div_eq_of_lt (Nat.mod_lt _ (Nat.pow_pos (by omega)))]; rfl
          rw [mem_congr (h + 1) (.tree l r) a (2 ^ (h + 1) * q + a % 2 ^ (h + 1))]
          · exact (hC _ hq).mpr ⟨b, hb, hall _ hq⟩
          · intro i hi
            rw [Nat.testBit_two_pow_mul_add _ (Nat.mod_lt _ (Nat.pow_pos (by omega))), if_pos hi, Nat.testBit_mod_two_pow]
            simp [hi])
        cases e
      -- predicates: meets the left half, meets the right half
      classical
      let PL : Blk → Bool := fun b => decide (∃ a, b.Has a ∧ a / 2 ^ h = 2 * q)
      let PR : Blk → Bool := fun b => decide (∃ a, b.Has a ∧ a / 2 ^ h = 2 * q + 1)
      have hL := ih l (2 * q) hn.1 C (fun a ha => by
        rw [← hC a (by rw [hdiv, ha]; omega), mem, hbit, ha]
        simp) PL (fun b _ hb => by simp only [PL, decide_eq_true_eq]; exact hb)
      have hR := ih r (2 * q + 1) hn.2.1 C (fun a ha => by
        rw [← hC a (by rw [hdiv, ha]; omega), mem, hbit, ha]
        simp [Nat.add_mod]) PR (fun b _ hb => by simp only [PR, decide_eq_true_eq]; exact hb)
      have hsum : C.countP PL + C.countP PR ≤ C.countP P := by
        clear hL hR hC ih
        induction C with
        | nil => simp
        | cons b C ihC =>
          have := ihC (fun b hb => hP b (List.mem_cons_of_mem _ hb)) (fun b hb => hnot b (List.mem_cons_of_mem _ hb))
          rw [List.countP_cons, List.countP_cons, List.countP_cons]
          have hPb := hP b List.mem_cons_self
          have hnb := hnot b List.mem_cons_self
          have h1 : PL b = true → PR b = false := by
            intro hl
            by_contra hr
            simp only [PL, decide_eq_true_eq] at hl
            simp only [PR, Bool.not_eq_false, decide_eq_true_eq] at hr
            obtain ⟨a, ha1, ha2⟩ := hl
            obtain ⟨c, hc1, hc2⟩ := hr
            apply hnb
            rcases Blk.nested b (h + 1) q with hN | hN | hN
            · -- b inside the block of height h+1 but meeting both halves: it is the whole block
              intro x hx
              have hk : h < b.2 := by
                by_contra hk
                have e : 2 ^ h = 2 ^ b.2 * 2 ^ (h - b.2) := by rw [← Nat.pow_add]; congr 1; omega
                have k1 : a / 2 ^ h = c / 2 ^ h := by
                  rw [e, ← Nat.div_div_eq_div_mul, ← Nat.div_div_eq_div_mul, show a / 2 ^ b.2 = c / 2 ^ b.2 from ha1.trans hc1.symm]
                omega
              have e : 2 ^ b.2 = 2 ^ (h + 1) * 2 ^ (b.2 - (h + 1)) := by rw [← Nat.pow_add]; congr 1; omega
              have hqa : a / 2 ^ (h + 1) = q := hN a ha1
              rw [Blk.Has, ← (show a / 2 ^ b.2 = _ from ha1), e, ← Nat.div_div_eq_div_mul, ← Nat.div_div_eq_div_mul, hx, hqa]
            · exact hN
            · exact absurd (by rw [hdiv, ha2]; omega) (hN a ha1)
          have h2 : PL b = true → P b = true := by
            intro hl
            simp only [PL, decide_eq_true_eq] at hl
            obtain ⟨a, ha1, ha2⟩ := hl
            exact hPb ⟨a, ha1, by rw [hdiv, ha2]; omega⟩
          have h3 : PR b = true → P b = true := by
            intro hl
            simp only [PR, decide_eq_true_eq] at hl
            obtain ⟨a, ha1, ha2⟩ := hl
            exact hPb ⟨a, ha1, by rw [hdiv, ha2]; omega⟩
          cases hpl : PL b <;> cases hpr : PR b <;> simp_all <;> omega
      rw [blocks, List.length_append]
      have e1 : 2 ^ (h + 1) * q = 2 ^ h * (2 * q) := by rw [Nat.pow_succ]; ring
      have e2 : 2 ^ (h + 1) * q + 2 ^ h = 2 ^ h * (2 * q + 1) := by rw [Nat.pow_succ]; ring
      rw [e2, e1]
      omega

end Net
