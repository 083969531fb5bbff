import Verif.Props.NetValues
import Verif.Lemmas.IpOrder
import Verif.Lemmas.IpOnce

/-! # Calls that add the same addresses -/
namespace Net
open NetSpec
variable {V : Type} {merge : V → V → V}

/-- `addN` looks at the bits of the position from `e` up only. -/
theorem addN_bits (merge : V → V → V) : ∀ (h : Nat) (t : Node V) (p q e : Nat) (x : V), (∀ i, e ≤ i → i < h → p.testBit i = q.testBit i) →
    addN merge t p h e x = addN merge t q h e x
  | 0, t, p, q, e, x, _ => by cases t <;> simp [addN]
  | h + 1, t, p, q, e, x, hb => by
    by_cases he : h + 1 ≤ e
    · cases t <;> simp [addN, he]
    · have ih := fun s => addN_bits merge h s p q e x fun i h1 h2 => hb i h1 (by omega)
      have hh := hb h (by omega) (by omega)
      cases t <;> simp [addN, he, ih, hh]

theorem addTo_aligned (merge : V → V → V) (t : Node V) (u ones : Nat) (x : V) :
    addTo merge t (⟨u, ones⟩, x) = addTo merge t (⟨2 ^ (32 - ones) * (u / 2 ^ (32 - ones)), ones⟩, x) := by
  refine addN_bits merge 32 t _ _ _ x fun i h1 _ => ?_
  have h1 : 32 - ones ≤ i := h1
  show u.testBit i = _
  rw [Nat.testBit_two_pow_mul, decide_eq_true h1, Bool.true_and, Nat.testBit_div_two_pow, Nat.sub_add_cancel h1]

/-- The greedy split of an aligned block is the block. -/
theorem block_greedy {k lo : Nat} (hk : k ≤ 32) (hd : 2 ^ k ∣ lo) : Greedy (lo + 2 ^ k - 1) lo [⟨lo, 32 - k⟩] := by
  have pk : 0 < 2 ^ k := Nat.pow_pos (by omega)
  refine .next hk hd (by omega) (fun j _ _ h => ?_) (.done (by omega))
  by_contra hj
  have : 2 ^ k < 2 ^ j := Nat.pow_lt_pow_right (by omega) (by omega)
  omega

/-- What a call with IPv4 arguments does: it adds the greedy split of an interval. -/
theorem Step_interval {op : Op V} (h4 : IPv4Args op) {t t' : Node V} (h : Step merge t op t') :
    ∃ lo hi cs, (∀ a, Adds a op ↔ lo ≤ a ∧ a ≤ hi) ∧ Greedy hi lo cs ∧ t' = (cs.map fun c => (c, valueOf op)).foldl (addTo merge) t := by
  cases op with
  | addIp ip x =>
    obtain ⟨u, hu⟩ := h4
    refine ⟨u, u, [⟨u, 32⟩], fun a => ⟨fun ha => ?_, fun ha => ?_⟩, block_greedy (k := 0) (by omega) (by simp), ?_⟩
    · have := IPv4_unique ha hu
      omega
    · rw [show a = u by omega]
      exact hu
    · obtain ⟨pos, hp, e⟩ := AddIp_eq merge t hu x
      have h : AddIp merge t ip x = .ok t' := h
      rw [e, add_eq merge 32 t pos 32#8 0#8 x rfl, hp] at h
      cases h
      rfl
  | addCidr n x =>
    obtain ⟨⟨u, hu⟩, hl, ones, hc⟩ := h4
    have hle := (mask_val_of_contiguous hl hc).1
    have hlt := IPv4_lt hu
    have hp : 0 < 2 ^ (32 - ones) := Nat.pow_pos (by omega)
    have hd : 2 ^ (32 - ones) ∣ 2 ^ (32 - ones) * (u / 2 ^ (32 - ones)) := Nat.dvd_mul_right _ _
    have hroom := dvd_room (by omega) hd (Nat.lt_of_le_of_lt (Nat.mul_div_le _ _) hlt)
    have g := block_greedy (by omega) hd
    rw [show 32 - (32 - ones) = ones by omega] at g
    refine ⟨_, _, _, fun a => ?_, g, ?_⟩
    · show Contains n a ↔ _
      rw [contains_iff hu hl hc, Nat.div_eq_iff hp, Nat.mul_comm (u / 2 ^ (32 - ones))]
      omega
    · have h : AddCidr merge t n x = .ok t' := h
      rw [AddCidr_addTo merge t hu hl hc x] at h
      cases h
      exact addTo_aligned merge t u ones x
  | addRange s e x =>
    obtain ⟨⟨us, hus⟩, ue, hue⟩ := h4
    obtain ⟨ns, h1, h2, -, h3⟩ := C66_greedy x hus hue h
    refine ⟨us, ue, _, fun a => ⟨?_, fun ha => ⟨us, ue, hus, hue, ha.1, ha.2⟩⟩, h2, Runs_cidrs merge x ns t t' h1 h3⟩
    rintro ⟨us', ue', hs', he', h⟩
    rw [IPv4_unique hus hs', IPv4_unique hue he']
    exact h

/-- The greedy split of an interval depends on its addresses only. -/
theorem Greedy_same {lo hi lo' hi' : Nat} {cs cs' : List Cidr} (g1 : Greedy hi lo cs) (g2 : Greedy hi' lo' cs')
    (key : ∀ a, lo ≤ a ∧ a ≤ hi ↔ lo' ≤ a ∧ a ≤ hi') : cs = cs' := by
  have none : ∀ {lo hi : Nat} {cs : List Cidr}, Greedy hi lo cs → hi < lo → cs = [] := by
    intro lo hi cs g hl
    cases g with
    | done => rfl
    | @next _ k _ _ _ h =>
      have : 0 < 2 ^ k := Nat.pow_pos (by omega)
      omega
  by_cases hl : hi < lo
  · have hl' : hi' < lo' := by
      by_contra hn
      have := (key lo').mpr ⟨le_refl _, by omega⟩
      omega
    rw [none g1 hl, none g2 hl']
  · have k1 := (key lo).mp ⟨le_refl _, by omega⟩
    have k2 := (key hi).mp ⟨by omega, le_refl _⟩
    have k3 := (key lo').mpr ⟨le_refl _, by omega⟩
    have k4 := (key hi').mpr ⟨by omega, le_refl _⟩
    have e1 : lo' = lo := by omega
    have e2 : hi' = hi := by omega
    subst e1 e2
    exact Greedy_unique g2 _ g1

/-- Two calls that add the same addresses with the same value do the same. -/
theorem Step_same {op op' : Op V} (h4 : IPv4Args op) (h4' : IPv4Args op') (hv : valueOf op = valueOf op') (ha : ∀ a, Adds a op ↔ Adds a op')
    {t s s' : Node V} (h : Step merge t op s) (h' : Step merge t op' s') : s = s' := by
  obtain ⟨lo, hi, cs, i1, g1, e1⟩ := Step_interval h4 h
  obtain ⟨lo', hi', cs', i2, g2, e2⟩ := Step_interval h4' h'
  have key : ∀ a, lo ≤ a ∧ a ≤ hi ↔ lo' ≤ a ∧ a ≤ hi' := fun a => by rw [← i1, ← i2, ha]
  rw [e1, e2, Greedy_same g1 g2 key, hv]

theorem Runs_same {ops ops' : List (Op V)} (hs : List.Forall₂ (fun op op' => IPv4Args op ∧ IPv4Args op' ∧ valueOf op = valueOf op' ∧ ∀ a, Adds a op ↔ Adds a op') ops ops') :
    ∀ {t s s' : Node V}, Runs merge t ops s → Runs merge t ops' s' → s = s' := by
  induction hs with
  | nil => exact fun h h' => h.trans h'.symm
  | cons h _ ih =>
    rintro t s s' ⟨t₁, h₁, h₂⟩ ⟨t₂, h₃, h₄⟩
    cases Step_same h.1 h.2.1 h.2.2.1 h.2.2.2 h₁ h₃
    exact ih h₂ h₄

end Net
