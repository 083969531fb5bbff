import Verif.Lemmas.IpSize
import Verif.Props.NetOrder

/-!
# Property C107: how large and how high a tree gets
-/
namespace Net
open NetSpec
variable {V : Type} {merge : V → V → V}

theorem listed_len (t : Node V) (hn : Norm t 32) : ((listed (ListCidr t)).map fun c => c.1.len) = (blocks t 32 0).map fun b => 32 - b.2.1 := by
  rw [listed_blocks t hn, List.map_map]; rfl

/-- **C107** The memory that a tree takes is bounded by its list: it has at most two nodes for every bit of every prefix listed, and one more. -/
theorem C107_nodes (ops : List (Op V)) {t : Node V} (h : Runs merge New ops t) :
    nodes t ≤ 2 * ((listed (ListCidr t)).map fun c => c.1.len).sum + 1 := by
  have hn := Runs_norm ops (show Norm New 32 from trivial) h
  have := branches_le 32 t 0 hn
  rw [listed_len t hn, nodes_eq]
  omega

/-- **C107** The tree is exactly as high as the longest prefix listed, so never higher than 32. -/
theorem C107_height (ops : List (Op V)) {t : Node V} (h : Runs merge New ops t) :
    height t ≤ 32 ∧ (∀ c ∈ listed (ListCidr t), c.1.len ≤ height t) ∧ (ListCidr t ≠ [] → ∃ c ∈ listed (ListCidr t), c.1.len = height t) := by
  have hn := Runs_norm ops (show Norm New 32 from trivial) h
  obtain ⟨h1, h2, h3⟩ := height_blocks 32 t 0 hn
  rw [listed_blocks t hn]
  refine ⟨h2, ?_, fun hne => ?_⟩
  · intro c hc
    obtain ⟨b, hb, rfl⟩ := List.mem_map.mp hc
    exact h1 b hb
  · obtain ⟨b, hb, e⟩ := h3 (by rintro rfl; exact hne rfl)
    exact ⟨_, List.mem_map_of_mem hb, show 32 - b.2.1 = _ by omega⟩

/-- **C107** One call makes the tree larger by at most 64 nodes for every CIDR that it adds. -/
theorem C107_call {op : Op V} (h4 : IPv4Args op) {t t' : Node V} (h : Step merge t op t') : nodes t' ≤ nodes t + 64 * mostAdded op := by
  have fold : ∀ (L : List (Cidr × V)) (t : Node V), branches (L.foldl (addTo merge) t) ≤ branches t + 32 * L.length := by
    intro L
    induction L with
    | nil => intro t; simp
    | cons c L ih =>
      intro t
      have h1 := ih (addTo merge t c)
      have h2 : branches (addTo merge t c) ≤ branches t + (32 - (32 - c.1.len)) := branches_addN merge 32 t _ _ _
      rw [List.foldl_cons, List.length_cons]
      omega
  rw [nodes_eq, nodes_eq]
  cases op with
  | addIp ip x =>
    obtain ⟨u, hu⟩ := h4
    obtain ⟨pos, hp, e⟩ := AddIp_eq merge t hu x
    have h : AddIp merge t ip x = .ok t' := h
    rw [e, add_eq merge 32 t pos 32#8 0#8 x rfl] at h
    cases h
    have := branches_addN merge 32 t pos.toNat 0 x
    show _ ≤ _ + 64 * 1
    have e0 : (0#8).toNat = 0 := rfl
    rw [e0]
    omega
  | addCidr n x =>
    obtain ⟨⟨u, hu⟩, hl, ones, hc⟩ := h4
    have h : AddCidr merge t n x = .ok t' := h
    rw [AddCidr_addTo merge t hu hl hc x] at h
    cases h
    refine Nat.le_trans (Nat.add_le_add_right (Nat.mul_le_mul_left 2 (branches_addN merge 32 t _ _ _)) 1) ?_
    show _ ≤ _ + 64 * 1
    omega
  | addRange s e x =>
    obtain ⟨⟨us, hus⟩, ue, hue⟩ := h4
    obtain ⟨ps, pe, hps, hpe, eq⟩ := AddRange_eq merge t hus hue
    obtain ⟨fuel, hf⟩ := h
    rw [eq] at hf
    have hf : rangeLoop merge pe x fuel ps t = some t' := by injection hf
    by_cases hne : pe = 0xffffffff#32
    · rw [hne, rangeLoop_forever] at hf; cases hf
    · obtain ⟨ns, g1, g2, g3⟩ := rangeLoop_greedy merge pe hne x fuel ps t t' hf
      have hlt : pe.toNat + 1 < 2 ^ 32 := by
        have := pe.isLt
        rcases Nat.lt_or_ge (pe.toNat + 1) (2 ^ 32) with h | h
        · exact h
        · exact absurd (BitVec.eq_of_toNat_eq (by show _ = 4294967295; omega)) hne
      have hlen := Greedy_length_le g2 hlt
      rw [Runs_cidrs merge x ns t t' g1 g3]
      have := fold ((ns.map cidrOf).map fun c => (c, x)) t
      rw [List.length_map] at this
      show _ ≤ _ + 64 * 62
      omega

/-- **C107** So the memory is linear in the calls, however long the program runs. -/
theorem C107_calls (ops : List (Op V)) (h4 : ∀ op ∈ ops, IPv4Args op) {t : Node V} (h : Runs merge New ops t) :
    nodes t ≤ 64 * (ops.map mostAdded).sum + 1 := by
  have key : ∀ (ops : List (Op V)) (t t' : Node V), (∀ op ∈ ops, IPv4Args op) → Runs merge t ops t' →
      nodes t' ≤ nodes t + 64 * (ops.map mostAdded).sum := by
    intro ops
    induction ops with
    | nil => intro t t' _ h; cases h; simp
    | cons op ops ih =>
      intro t t' h4 h
      obtain ⟨t1, h1, h2⟩ := h
      have i := ih t1 t' (fun op hop => h4 op (by simp [hop])) h2
      have i1 := C107_call (h4 op (by simp)) h1
      rw [List.map_cons, List.sum_cons]
      omega
  have := key ops New t h4 h
  simpa [New, nodes, Nat.add_comm] using this

/-- The bounds are reached by one address, which is 32 levels down and takes 65 nodes. Two addresses that differ in their last two bits take 67. -/
example : (∃ t : Node Nat, Runs (· + ·) New [.addIp [10, 0, 0, 1] 1] t ∧ nodes t = 65 ∧ height t = 32) ∧
    ∃ t : Node Nat, Runs (· + ·) New [.addIp [10, 0, 0, 1] 1, .addIp [10, 0, 0, 2] 1] t ∧ nodes t = 67 ∧ height t = 32 := by
  refine ⟨⟨_, ⟨_, rfl, rfl⟩, ?_, ?_⟩, ⟨_, ⟨_, rfl, _, rfl, rfl⟩, ?_, ?_⟩⟩ <;> decide +kernel

end Net
