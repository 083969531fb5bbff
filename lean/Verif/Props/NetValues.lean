import Verif.Lemmas.IpGrow

/-!
# Properties C65, C66: the values in the IP tree and the blocks of a range
-/
namespace Net
open NetSpec
variable {V : Type} {merge : V → V → V}

/-- **C65** A call for one CIDR that lies within a listed one changes nothing. -/
theorem C65_within (ops : List (Op V)) {t t' : Node V} (h : Runs merge New ops t) (op : Op V) {c : Cidr} (hc : Target op c)
    (hs : Step merge t op t') (hin : ∃ d ∈ listed (ListCidr t), c.Within d.1) : ListCidr t' = ListCidr t := by
  have hn : Norm t 32 := Runs_norm ops (t := New) trivial h
  obtain ⟨⟨d, w⟩, hd, hcd⟩ := hin
  rw [listed_blocks t hn, List.mem_map] at hd
  obtain ⟨⟨s, k, w'⟩, hb, e⟩ := hd
  rw [Prod.mk.injEq] at e
  obtain ⟨k1, ⟨q, hq⟩, _, _⟩ := block_ok hb
  dsimp only at k1 hq e hcd
  rw [← e.1, hq] at hcd
  have key : ∀ a, a < 2 ^ 32 → c.Has a → mem t 32 a := by
    intro a ha hca
    have := (toCidr_has k1 a).mp (hcd a hca)
    exact (blocks_mem 32 t 0 (by simp) hn a (by omega) (by omega)).mp ⟨_, hb, by dsimp only; omega⟩
  suffices t' = t by rw [this]
  cases op with
  | addIp ip x =>
    obtain ⟨u, hu, rfl⟩ := hc
    obtain ⟨pos, hp, e⟩ := AddIp_eq merge t hu x
    have hs : AddIp merge t ip x = .ok t' := hs
    rw [e] at hs; cases hs
    apply add_covered merge t hn
    intro a ha hab
    rw [hp] at hab
    exact key a ha hab
  | addCidr n x =>
    obtain ⟨u, ones, hu, hl, ho, rfl⟩ := hc
    obtain ⟨pos, e, hp, he, eq⟩ := AddCidr_eq merge t hu hl ho x
    have hs : AddCidr merge t n x = .ok t' := hs
    rw [eq] at hs; cases hs
    apply add_covered merge t hn
    intro a ha hab
    rw [hp, he] at hab
    apply key a ha
    rw [Cidr.Has, hab]
    exact (Nat.mul_div_cancel_left _ (Nat.pow_pos (by omega))).symm
  | addRange s e x => exact hc.elim

/-- **C65** A call for one CIDR `c` that does not lie within a listed one: with `d` and `u` what `c` and its value become
by joining with listed buddies, the new list has the CIDRs of the old one that are not within `d`, with their values,
and `d` with value `u`. (The order is that of the addresses, C17.) -/
theorem C65_step (ops : List (Op V)) {t t' : Node V} (h : Runs merge New ops t) (op : Op V) {c : Cidr} (hc : Target op c)
    (hs : Step merge t op t') (hout : ¬ ∃ d ∈ listed (ListCidr t), c.Within d.1) :
    ∃ d u, Grows merge (listed (ListCidr t)) c (valueOf op) d u ∧
      ∀ b, b ∈ listed (ListCidr t') ↔ (b ∈ listed (ListCidr t) ∧ ¬ b.1.Within d) ∨ b = (d, u) := by
  have hn : Norm t 32 := Runs_norm ops (t := New) trivial h
  cases op with
  | addIp ip x =>
    obtain ⟨u, hu, rfl⟩ := hc
    obtain ⟨pos, hp, e⟩ := AddIp_eq merge t hu x
    have hs : AddIp merge t ip x = .ok t' := hs
    rw [e] at hs; cases hs
    have e1 : toCidr (2 ^ (0#8).toNat * (pos.toNat / 2 ^ (0#8).toNat)) (0#8).toNat = ⟨u, 32⟩ := by simp [toCidr, hp]
    have := add_grow merge t hn pos 0#8 (by simp) x (by rw [e1]; exact hout)
    rw [e1] at this
    exact this
  | addCidr n x =>
    obtain ⟨u, ones, hu, hl, ho, rfl⟩ := hc
    obtain ⟨pos, e, hp, he, eq⟩ := AddCidr_eq merge t hu hl ho x
    have hs : AddCidr merge t n x = .ok t' := hs
    rw [eq] at hs; cases hs
    have hle := Contiguous_le ho
    rw [hl] at hle
    have e1 : toCidr (2 ^ e.toNat * (pos.toNat / 2 ^ e.toNat)) e.toNat =
        ⟨2 ^ (32 - ones) * (u / 2 ^ (32 - ones)), ones⟩ := by
      rw [he, hp, toCidr, show 32 - (32 - ones) = ones by omega]
    have := add_grow merge t hn pos e (by omega) x (by rw [e1]; exact hout)
    rw [e1] at this
    exact this
  | addRange s e x => exact hc.elim

/-- **C65** The joined CIDR and its value are determined by the list. -/
theorem C65_determined (ops : List (Op V)) {t : Node V} (h : Runs merge New ops t) {c d d' : Cidr} {v u u' : V}
    (g : Grows merge (listed (ListCidr t)) c v d u) (g' : Grows merge (listed (ListCidr t)) c v d' u') : d = d' ∧ u = u' := by
  have hn : Norm t 32 := Runs_norm ops (t := New) trivial h
  induction g with
  | stop hs =>
    cases g' with
    | stop _ => exact ⟨rfl, rfl⟩
    | low h1 h2 _ _ => rcases hs with hs | hs; exact absurd hs h1; exact absurd h2 (hs _)
    | high h1 h2 _ _ => rcases hs with hs | hs; exact absurd hs h1; exact absurd h2 (hs _)
  | low h1 h2 h3 _ ih =>
    cases g' with
    | stop hs => rcases hs with hs | hs; exact absurd hs h1; exact absurd h2 (hs _)
    | low _ h2' _ g' => rw [listed_value hn h2' h2] at g'; exact ih g'
    | high _ _ h3' _ => omega
  | high h1 h2 h3 _ ih =>
    cases g' with
    | stop hs => rcases hs with hs | hs; exact absurd hs h1; exact absurd h2 (hs _)
    | low _ _ h3' _ => omega
    | high _ h2' _ g' => rw [listed_value hn h2' h2] at g'; exact ih g'

/-- The tree of 10.0.0.4 (value "a") and 10.0.0.6/31 (value "b"). -/
theorem exampleValues : ∃ t, Runs (· ++ ·) New [.addIp [10, 0, 0, 4] "a", .addCidr ⟨[10, 0, 0, 6], [255, 255, 255, 254]⟩ "b"] t ∧
    listed (ListCidr t) = [(⟨0x0a000004, 32⟩, "a"), (⟨0x0a000006, 31⟩, "b")] := by
  refine ⟨_, ⟨_, rfl, _, rfl, rfl⟩, ?_⟩
  decide +kernel

/-- Adding 10.0.0.5 with value "x" joins both: 10.0.0.4/30 with value "axb". -/
example : Grows (· ++ ·) [(⟨0x0a000004, 32⟩, "a"), (⟨0x0a000006, 31⟩, "b")] ⟨0x0a000005, 32⟩ "x" ⟨0x0a000004, 30⟩ "axb" := by
  refine .high (w := "a") (by decide) (by decide) (by decide) ?_
  refine .low (w := "b") (by decide) (by decide) (by decide) ?_
  exact .stop (.inr (by intro w; simp [Cidr.buddy, Cidr.parent]))

example : Target (.addIp [10, 0, 0, 5] "x") ⟨0x0a000005, 32⟩ := ⟨_, ⟨10, 0, 0, 5, .inl rfl, rfl⟩, rfl⟩

/-- **C66** `AddRange` is `AddCidr`, in ascending order, of the CIDRs that split the range greedily; there are at most 62. -/
theorem C66_greedy {t t' : Node V} {s e : List U8} {us ue : Nat} (x : V)
    (hs : IPv4 s us) (he : IPv4 e ue) (hstep : Step merge t (.addRange s e x) t') :
    ∃ ns : List IPNet, (∀ n ∈ ns, CanonicalNet n) ∧ Greedy ue us (ns.map cidrOf) ∧ ns.length ≤ 62 ∧
      Runs merge t (ns.map fun n => .addCidr n x) t' := by
  obtain ⟨ps, pe, hps, hpe, eq⟩ := AddRange_eq merge t hs he
  obtain ⟨fuel, hf⟩ := hstep
  rw [eq] at hf
  have hf : rangeLoop merge pe x fuel ps t = some t' := by injection hf
  by_cases hne : pe = 0xffffffff#32
  · rw [hne, rangeLoop_forever] at hf; cases hf
  · obtain ⟨ns, h1, h2, h3⟩ := rangeLoop_greedy merge pe hne x fuel ps t t' hf
    rw [hps, hpe] at h2
    refine ⟨ns, h1, h2, ?_, h3⟩
    have hlt : ue + 1 < 2 ^ 32 := by
      have := pe.isLt
      rcases Nat.lt_or_ge (ue + 1) (2 ^ 32) with h | h
      · exact h
      · exact absurd (BitVec.eq_of_toNat_eq (by show _ = 4294967295; omega)) hne
    have := Greedy_length_le h2 hlt
    rwa [List.length_map] at this

/-- **C66** The greedy split is determined by the range and covers exactly the range. -/
theorem C66_split {e s : Nat} {cs : List Cidr} (h : Greedy e s cs) : (∀ cs', Greedy e s cs' → cs' = cs) ∧
    ∀ a, (∃ c ∈ cs, c.Has a) ↔ s ≤ a ∧ a ≤ e := by
  induction h with
  | done hlt =>
    refine ⟨?_, fun a => by simp; omega⟩
    intro cs' h'
    cases h' with
    | done _ => rfl
    | @next _ k _ _ _ h3 _ _ => have : 0 < 2 ^ k := Nat.pow_pos (by omega); omega
  | @next s k cs hk hd hfit hmax _ ih =>
    have hp : 0 < 2 ^ k := Nat.pow_pos (by omega)
    constructor
    · intro cs' h'
      cases h' with
      | done _ => omega
      | @next _ k' cs'' hk' hd' hfit' hmax' h' =>
        have : k' = k := Nat.le_antisymm (hmax k' hk' hd' hfit') (hmax' k hk hd hfit)
        subst this
        rw [ih.1 _ h']
    · intro a
      have := ih.2 a
      simp only [List.mem_cons, exists_eq_or_imp]
      rw [this]
      obtain ⟨q, rfl⟩ := hd
      have hh := toCidr_has (q := q) hk a
      rw [toCidr] at hh
      rw [hh]; omega

/-- 10.0.0.1 to 10.0.0.4 is split into a /32, a /31 and a /32. -/
example : Greedy 0x0a000004 0x0a000001 [⟨0x0a000001, 32⟩, ⟨0x0a000002, 31⟩, ⟨0x0a000004, 32⟩] := by
  have h0 : ∀ s e j : Nat, e + 1 - s < 2 ^ (j + 1) → s ≤ e → ∀ i, i ≤ 32 → 2 ^ i ∣ s → s + 2 ^ i ≤ e + 1 → i ≤ j := by
    intro s e j h _ i _ _ h3
    by_contra hc
    have := Nat.pow_le_pow_right (n := 2) (by omega) (show j + 1 ≤ i by omega)
    omega
  refine .next (k := 0) (by omega) (by omega) (by omega) ?_ (.next (k := 1) (by omega) (by omega) (by omega)
    (h0 _ _ 1 (by omega) (by omega)) (.next (k := 0) (by omega) (by omega) (by omega) (h0 _ _ 0 (by omega) (by omega)) (.done (by omega))))
  intro i _ hd _
  by_contra hc
  have := Dvd.dvd.trans (Nat.pow_dvd_pow 2 (show 1 ≤ i by omega)) hd
  omega

end Net
