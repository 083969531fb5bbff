import Verif.Lemmas.IpOrder

/-!
# Properties C73, C74: order of disjoint additions, length of the list
-/
namespace Net
open NetSpec
variable {V : Type} {merge : V → V → V}

/-- **C73** If no address is added by two of the calls, then the list, with its values, does not depend on the order of the calls,
whatever the merge function is (it need not be commutative or associative). -/
theorem C73_order {ops ops' : List (Op V)} (hp : ops.Perm ops') (h4 : ∀ op ∈ ops, IPv4Args op)
    (hd : ops.Pairwise fun p q => ∀ a, Adds a p → ¬ Adds a q) {t t' : Node V} (h : Runs merge New ops t)
    (h' : Runs merge New ops' t') : ListCidr t = ListCidr t' := by
  rw [Runs_perm merge hp h4 hd h h']

/-- Without that condition the values do depend on the order: 10.0.0.4/31 before or after its two addresses. -/
theorem C73_overlap : ∃ t t' : Node String,
    Runs (· ++ ·) New [.addCidr ⟨[10, 0, 0, 4], [255, 255, 255, 254]⟩ "a", .addIp [10, 0, 0, 4] "b", .addIp [10, 0, 0, 5] "c"] t ∧
    Runs (· ++ ·) New [.addIp [10, 0, 0, 4] "b", .addIp [10, 0, 0, 5] "c", .addCidr ⟨[10, 0, 0, 4], [255, 255, 255, 254]⟩ "a"] t' ∧
    listed (ListCidr t) = [(⟨0x0a000004, 31⟩, "a")] ∧ listed (ListCidr t') = [(⟨0x0a000004, 31⟩, "bc")] := by
  refine ⟨_, _, ⟨_, rfl, _, rfl, _, rfl, rfl⟩, ⟨_, rfl, _, rfl, _, rfl, rfl⟩, ?_, ?_⟩ <;> decide +kernel

/-- **C74** The list is never longer than the number of `AddIp` and `AddCidr` calls plus 62 for every `AddRange`. -/
theorem C74_length (ops : List (Op V)) (h4 : ∀ op ∈ ops, IPv4Args op) {t : Node V} (h : Runs merge New ops t) :
    (ListCidr t).length ≤ (ops.map mostAdded).sum := by
  have key : ∀ (ops : List (Op V)) (t t' : Node V), (∀ op ∈ ops, IPv4Args op) → Runs merge t ops t' →
      count t' ≤ count t + (ops.map mostAdded).sum := by
    intro ops
    induction ops with
    | nil => intro t t' _ h; cases h; simp
    | cons op ops ih =>
      intro t t' h4 h
      obtain ⟨t1, h1, h2⟩ := h
      have i := ih t1 t' (fun op hop => h4 op (by simp [hop])) h2
      have i1 : count t1 ≤ count t + mostAdded op := count_step (h4 op (by simp)) h1
      rw [List.map_cons, List.sum_cons]
      omega
  rw [ListCidr_count]
  have := key ops New t h4 h
  simpa [New, count] using this

/-- The bound is reached. -/
example : ∃ t : Node Nat, Runs (· + ·) New [.addIp [10, 0, 0, 1] 1, .addIp [10, 0, 0, 2] 1] t ∧ (ListCidr t).length = 2 := by
  refine ⟨_, ⟨_, rfl, _, rfl, rfl⟩, ?_⟩
  decide +kernel

/-- Three disjoint calls: the values of 10.0.0.4/30 are merged by position, in any order of the calls. -/
theorem exampleDisjoint : [Op.addIp [10, 0, 0, 5] "b", .addIp [10, 0, 0, 4] "a",
    .addCidr ⟨[10, 0, 0, 6], [255, 255, 255, 254]⟩ "c"].Pairwise fun p q => ∀ a, Adds a p → ¬ Adds a q := by
  have h5 : ∀ a, IPv4 [10, 0, 0, 5] a → a = 0x0a000005 := fun a h => IPv4_unique h ⟨10, 0, 0, 5, .inl rfl, rfl⟩
  have h4 : ∀ a, IPv4 [10, 0, 0, 4] a → a = 0x0a000004 := fun a h => IPv4_unique h ⟨10, 0, 0, 4, .inl rfl, rfl⟩
  have h6 : ∀ a, Contains ⟨[10, 0, 0, 6], [255, 255, 255, 254]⟩ a → a / 2 = 0x0a000006 / 2 := by
    intro a h
    exact ((contains_iff (n := ⟨[10, 0, 0, 6], [255, 255, 255, 254]⟩) (u := 0x0a000006) (ones := 31)
      ⟨10, 0, 0, 6, .inl rfl, rfl⟩ rfl ⟨1, by decide⟩ a).mp h).2
  simp only [List.pairwise_cons, List.mem_cons, List.not_mem_nil, or_false, forall_eq_or_imp, forall_eq, Adds]
  refine ⟨⟨fun a h h' => ?_, fun a h h' => ?_⟩, fun a h h' => ?_, by simp⟩
  · have := h5 a h; have := h4 a h'; omega
  · have := h5 a h; have := h6 a h'; omega
  · have := h4 a h; have := h6 a h'; omega

end Net
