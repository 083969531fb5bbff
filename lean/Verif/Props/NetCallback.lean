import Verif.Lemmas.IpCallback

/-!
# Property C72: the IP tree with any merge callback

The callback may panic, have side effects and use the tree while a call on the tree runs. A state is the tree (`s.1`) and everything
else (`s.2`).
-/
namespace Net
open NetSpec
variable {V σ : Type}

/-- The trees that calls which return can produce from a new one, with any callbacks in any states. -/
inductive Reach : Node V → Prop
  | new : Reach New
  | step {σ : Type} {merge : V → V → Eff (Node V × σ) V} {s s' : Node V × σ} {op : Op V} :
      Reach s.1 → StepC merge s op (some ()) s' → Reach s'.1

theorem Reach.norm {t : Node V} (h : Reach t) : Norm t 32 := by
  induction h with
  | new => trivial
  | step _ h ih => exact StepC_norm _ ih h

variable {merge : V → V → Eff (Node V × σ) V}

/-- **C72** A call for one CIDR that lies within a listed one returns, does not call the callback and changes nothing at all. -/
theorem C72_within {s : Node V × σ} (hr : Reach s.1) {op : Op V} {c : Cidr} (hc : Target op c)
    (hin : ∃ d ∈ listed (ListCidr s.1), c.Within d.1) {o : Option Unit} {s' : Node V × σ} :
    StepC merge s op o s' ↔ o = some () ∧ s' = s := by
  have hn := hr.norm
  obtain ⟨pos, e, he, rfl, hstep⟩ := StepC_eq merge hc
  obtain ⟨⟨d, w⟩, hd, hcd⟩ := hin
  rw [listed_blocks s.1 hn, List.mem_map] at hd
  obtain ⟨⟨p, k, w'⟩, hb, eq⟩ := hd
  rw [Prod.mk.injEq] at eq
  obtain ⟨k1, ⟨q, hq⟩, _, _⟩ := block_ok hb
  dsimp only at k1 hq eq hcd
  rw [← eq.1, hq] at hcd
  have hcov := addC_covered merge s.1 hn pos e (valueOf op) (by
    intro a ha hab
    have hp : 0 < 2 ^ e.toNat := Nat.pow_pos (by omega)
    have hdm := Nat.div_add_mod a (2 ^ e.toNat)
    have hlt := Nat.mod_lt a hp
    rw [hab] at hdm
    have := (toCidr_has k1 a).mp (hcd a ((toCidr_has he a).mpr (by omega)))
    exact (blocks_mem 32 s.1 0 (by simp) hn a (by omega) (by omega)).mp ⟨_, hb, by dsimp only; omega⟩)
  rw [hstep, assignC_some merge (congrFun hcov s), Prod.mk.injEq]
  exact ⟨fun h => ⟨h.1.symm, h.2.symm⟩, fun h => ⟨h.1.symm, h.2.symm⟩⟩

/-- **C72** A call for one CIDR that does not lie within a listed one calls the callback once for every join with a listed buddy, from
the smallest on, with the two values in address order, and not otherwise. If the callback panics, so does the call, and the state is
the one the callback left: the call itself has changed nothing. If it does not, the call returns, everything outside the tree is as
the callback left it, and the new list is that of C65, made from the list at the beginning of the call (what the callback may have
added to the tree meanwhile is gone). -/
theorem C72_step {s : Node V × σ} (hr : Reach s.1) {op : Op V} {c : Cidr} (hc : Target op c)
    (hout : ¬ ∃ d ∈ listed (ListCidr s.1), c.Within d.1) {o : Option Unit} {s' : Node V × σ} (h : StepC merge s op o s') :
    ∃ out s2, Joins merge (listed (ListCidr s.1)) c (valueOf op) s out s2 ∧
      ((out = none ∧ o = none ∧ s' = s2) ∨
        ∃ d u, out = some (d, u) ∧ o = some () ∧ s'.2 = s2.2 ∧
          ∀ b, b ∈ listed (ListCidr s'.1) ↔ (b ∈ listed (ListCidr s.1) ∧ ¬ b.1.Within d) ∨ b = (d, u)) := by
  obtain ⟨pos, e, he, rfl, hstep⟩ := StepC_eq merge hc
  rw [hstep] at h
  obtain ⟨out, s2, hj, hcase⟩ := addC_grow merge s.1 hr.norm pos e he (valueOf op) s hout
  refine ⟨out, s2, hj, ?_⟩
  rcases hcase with ⟨ho, ha⟩ | ⟨d, u, t', ho, ha, hl⟩
  · rw [assignC, ha] at h
    cases h
    exact .inl ⟨ho, rfl, rfl⟩
  · rw [assignC_some merge ha] at h
    cases h
    exact .inr ⟨d, u, ho, rfl, rfl, hl⟩

/-- **C72** What the callback is called with and how the call ends are determined by the list and the state. -/
theorem C72_determined {t : Node V} (hr : Reach t) {c : Cidr} {v : V} {s s1 s2 : Node V × σ} {o1 o2 : Option (Cidr × V)}
    (g : Joins merge (listed (ListCidr t)) c v s o1 s1) (g' : Joins merge (listed (ListCidr t)) c v s o2 s2) : o1 = o2 ∧ s1 = s2 := by
  have hv := fun {c : Cidr} {v w : V} (h1 : (c, v) ∈ listed (ListCidr t)) (h2 : (c, w) ∈ listed (ListCidr t)) =>
    listed_value hr.norm h1 h2
  induction g with
  | stop hs =>
    cases g' with
    | stop _ => exact ⟨rfl, rfl⟩
    | low h1 h2 _ _ _ => rcases hs with hs | hs; exact absurd hs h1; exact absurd h2 (hs _)
    | high h1 h2 _ _ _ => rcases hs with hs | hs; exact absurd hs h1; exact absurd h2 (hs _)
    | lowPanic h1 h2 _ _ => rcases hs with hs | hs; exact absurd hs h1; exact absurd h2 (hs _)
    | highPanic h1 h2 _ _ => rcases hs with hs | hs; exact absurd hs h1; exact absurd h2 (hs _)
  | low h1 h2 h3 hm _ ih =>
    cases g' with
    | stop hs => rcases hs with hs | hs; exact absurd hs h1; exact absurd h2 (hs _)
    | low _ h2' _ hm' g' => rw [hv h2' h2, hm] at hm'; cases hm'; exact ih g'
    | high _ _ h3' _ _ => omega
    | lowPanic _ h2' _ hm' => rw [hv h2' h2, hm] at hm'; cases hm'
    | highPanic _ _ h3' _ => omega
  | high h1 h2 h3 hm _ ih =>
    cases g' with
    | stop hs => rcases hs with hs | hs; exact absurd hs h1; exact absurd h2 (hs _)
    | low _ _ h3' _ _ => omega
    | high _ h2' _ hm' g' => rw [hv h2' h2, hm] at hm'; cases hm'; exact ih g'
    | lowPanic _ _ h3' _ => omega
    | highPanic _ h2' _ hm' => rw [hv h2' h2, hm] at hm'; cases hm'
  | lowPanic h1 h2 h3 hm =>
    cases g' with
    | stop hs => rcases hs with hs | hs; exact absurd hs h1; exact absurd h2 (hs _)
    | low _ h2' _ hm' g' => rw [hv h2' h2, hm] at hm'; cases hm'
    | high _ _ h3' _ _ => omega
    | lowPanic _ h2' _ hm' => rw [hv h2' h2, hm] at hm'; cases hm'; exact ⟨rfl, rfl⟩
    | highPanic _ _ h3' _ => omega
  | highPanic h1 h2 h3 hm =>
    cases g' with
    | stop hs => rcases hs with hs | hs; exact absurd hs h1; exact absurd h2 (hs _)
    | low _ _ h3' _ _ => omega
    | high _ h2' _ hm' g' => rw [hv h2' h2, hm] at hm'; cases hm'
    | lowPanic _ _ h3' _ => omega
    | highPanic _ h2' _ hm' => rw [hv h2' h2, hm] at hm'; cases hm'; exact ⟨rfl, rfl⟩

/-- **C72** If the callback does not touch the tree, a call for one CIDR that panics leaves the tree as it was. -/
theorem C72_panic {s : Node V × σ} (hr : Reach s.1) {op : Op V} {c : Cidr} (hc : Target op c)
    (hm : ∀ a b s, (merge a b s).2.1 = s.1) {s' : Node V × σ} (h : StepC merge s op none s') : s'.1 = s.1 := by
  by_cases hin : ∃ d ∈ listed (ListCidr s.1), c.Within d.1
  · exact absurd ((C72_within hr hc hin).mp h).1 (by simp)
  · obtain ⟨out, s2, hj, ⟨rfl, _, rfl⟩ | ⟨_, _, _, ho, _⟩⟩ := C72_step hr hc hin h
    · have key : ∀ {L : List (Cidr × V)} {c : Cidr} {v : V} {s s2 : Node V × σ} {out : Option (Cidr × V)},
          Joins merge L c v s out s2 → s2.1 = s.1 := by
        intro L c v s s2 out hj
        have hmm : ∀ {a b : V} {s s2 : Node V × σ} {r : Option V}, merge a b s = (r, s2) → s2.1 = s.1 := by
          intro a b s s2 r h
          have := hm a b s
          rwa [h] at this
        induction hj with
        | stop _ => rfl
        | low _ _ _ h _ ih => rw [ih]; exact hmm h
        | high _ _ _ h _ ih => rw [ih]; exact hmm h
        | lowPanic _ _ _ h => exact hmm h
        | highPanic _ _ _ h => exact hmm h
      exact key hj
    · cases ho

/-- **C72** `AddRange` over a range that does not end with 255.255.255.255 ends whatever the callback does. It is `AddCidr`, in
ascending order, of the CIDRs that split the range greedily, up to the first that panics; those added before that stay in the tree. -/
theorem C72_range {s : Node V × σ} {a e : List U8} {us ue : Nat} (x : V) (hs : IPv4 a us) (he : IPv4 e ue) (hne : ue ≠ 2 ^ 32 - 1) :
    (∃ o s', StepC merge s (.addRange a e x) o s') ∧
    ∀ o s', StepC merge s (.addRange a e x) o s' →
      ∃ ns : List IPNet, (∀ n ∈ ns, CanonicalNet n) ∧ Greedy ue us (ns.map cidrOf) ∧
        RunsC merge s (ns.map fun n => .addCidr n x) o s' := by
  obtain ⟨ps, hps, rfl⟩ := Ipv4ToUint_of hs
  obtain ⟨pe, hpe, rfl⟩ := Ipv4ToUint_of he
  have hne : pe ≠ 0xffffffff#32 := by rintro rfl; exact hne rfl
  constructor
  · obtain ⟨⟨o, s'⟩, h⟩ := rangeLoopC_ends merge pe hne x _ ps s (Nat.le_refl _)
    exact ⟨o, s', _, by rw [AddRangeC, hps, hpe]; exact h⟩
  · rintro o s' ⟨fuel, h⟩
    rw [AddRangeC, hps, hpe] at h
    exact rangeLoopC_greedy merge pe hne x fuel ps s o s' h

/-- **C72** `AddRange` with the end 255.255.255.255 never returns (C21); only a panic of the callback can end it. -/
theorem C72_range_last {s s' : Node V × σ} {a e : List U8} {us : Nat} {x : V} (hs : IPv4 a us) (he : IPv4 e (2 ^ 32 - 1))
    (o : Option Unit) (h : StepC merge s (.addRange a e x) o s') : o = none := by
  obtain ⟨ps, hps, rfl⟩ := Ipv4ToUint_of hs
  obtain ⟨pe, hpe, hv⟩ := Ipv4ToUint_of he
  have : pe = 0xffffffff#32 := BitVec.eq_of_toNat_eq hv
  subst this
  obtain ⟨fuel, h⟩ := h
  rw [AddRangeC, hps, hpe] at h
  cases o with
  | none => rfl
  | some _ => exact absurd h (rangeLoopC_forever merge x fuel ps s s')

/-- **C72** With a callback that returns `f a b` and does nothing else, every call does what it does in `Model/Net`, where C16 to C23,
C65 and C66 are proved: it never panics, and what is outside the tree does not change. -/
theorem C72_pure (f : V → V → V) (t t' : Node V) (s s' : σ) (op : Op V) (o : Option Unit) :
    StepC (pureMerge f) (t, s) op o (t', s') ↔ o = some () ∧ s' = s ∧ Step f t op t' := by
  have key : ∀ (x : V) (pos : U32) (e : U8), assignC (pureMerge f) pos e x (t, s) = (o, (t', s')) ↔
      o = some () ∧ s' = s ∧ add f t pos 32#8 e x = t' := by
    intro x pos e
    rw [assignC_pure, Prod.mk.injEq, Prod.mk.injEq]
    exact ⟨fun h => ⟨h.1.symm, h.2.2.symm, h.2.1⟩, fun h => ⟨h.1.symm, h.2.2, h.2.1.symm⟩⟩
  cases op with
  | addIp ip x =>
    obtain ⟨v, hv⟩ := Ipv4ToUint_total ip
    have h1 : AddIpC (σ := σ) (pureMerge f) ip x = assignC (pureMerge f) v 0#8 x := by rw [AddIpC, hv]; rfl
    have h2 : AddIp f t ip x = .ok (add f t v 32#8 0#8 x) := by rw [AddIp, hv]; rfl
    show AddIpC (pureMerge f) ip x (t, s) = _ ↔ _ ∧ _ ∧ AddIp f t ip x = _
    rw [h1, h2, key]
    simp
  | addCidr n x =>
    obtain ⟨v, hv⟩ := Ipv4ToUint_total n.ip
    have h1 : AddCidrC (σ := σ) (pureMerge f) (some n) x = assignC (pureMerge f) v (32#8 - MaskToByte n.mask) x := by
      rw [AddCidrC]; simp only [hv]; rfl
    have h2 : AddCidr f t n x = .ok (add f t v 32#8 (32#8 - MaskToByte n.mask) x) := by rw [AddCidr, hv]; rfl
    show AddCidrC (pureMerge f) (some n) x (t, s) = _ ↔ _ ∧ _ ∧ AddCidr f t n x = _
    rw [h1, h2, key]
    simp
  | addRange a e x =>
    obtain ⟨v, hv⟩ := Ipv4ToUint_total a
    obtain ⟨w, hw⟩ := Ipv4ToUint_total e
    have h1 : ∀ fuel, AddRangeC (pureMerge f) fuel a e x (t, s) = (rangeLoop f w x fuel v t).map fun t' => (some (), (t', s)) := by
      intro fuel; rw [AddRangeC, hv, hw]; exact rangeLoopC_pure f w x fuel v t s
    have h2 : ∀ fuel, AddRange f fuel t a e x = .ok (rangeLoop f w x fuel v t) := by intro fuel; rw [AddRange, hv, hw]; rfl
    show (∃ fuel, AddRangeC (pureMerge f) fuel a e x (t, s) = _) ↔ _ ∧ _ ∧ ∃ fuel, AddRange f fuel t a e x = _
    simp only [h1, h2, Option.map_eq_some_iff, Prod.mk.injEq, Res.ok.injEq]
    constructor
    · rintro ⟨fuel, t1, h, h3, rfl, h4⟩
      exact ⟨h3.symm, h4.symm, fuel, h⟩
    · rintro ⟨rfl, rfl, fuel, h⟩
      exact ⟨fuel, t', h, rfl, rfl, rfl⟩

/-- **C72** With a nil callback a call for one CIDR panics exactly when the CIDR is not within a listed one and its buddy is listed;
nothing is changed then. -/
theorem C72_nil {s : Node V × σ} (hr : Reach s.1) {op : Op V} {c : Cidr} (hc : Target op c) {o : Option Unit} {s' : Node V × σ}
    (h : StepC nilMerge s op o s') :
    (o = none ↔ (¬ ∃ d ∈ listed (ListCidr s.1), c.Within d.1) ∧ c.len ≠ 0 ∧ ∃ w, (c.buddy, w) ∈ listed (ListCidr s.1)) ∧
    (o = none → s' = s) := by
  by_cases hin : ∃ d ∈ listed (ListCidr s.1), c.Within d.1
  · obtain ⟨rfl, rfl⟩ := (C72_within hr hc hin).mp h
    simp [hin]
  · obtain ⟨out, s2, hj, hcase⟩ := C72_step hr hc hin h
    cases hj with
    | stop hs =>
      rcases hcase with ⟨ho, _⟩ | ⟨d, u, _, rfl, _⟩
      · cases ho
      · refine ⟨⟨nofun, ?_⟩, nofun⟩
        rintro ⟨_, h1, w, h2⟩
        rcases hs with hs | hs
        · exact absurd hs h1
        · exact absurd h2 (hs w)
    | low _ _ _ hm _ => cases hm
    | high _ _ _ hm _ => cases hm
    | lowPanic h1 h2 _ hm =>
      cases hm
      rcases hcase with ⟨_, rfl, rfl⟩ | ⟨_, _, ho, _⟩
      · exact ⟨⟨fun _ => ⟨hin, h1, _, h2⟩, fun _ => rfl⟩, fun _ => rfl⟩
      · cases ho
    | highPanic h1 h2 _ hm =>
      cases hm
      rcases hcase with ⟨_, rfl, rfl⟩ | ⟨_, _, ho, _⟩
      · exact ⟨⟨fun _ => ⟨hin, h1, _, h2⟩, fun _ => rfl⟩, fun _ => rfl⟩
      · cases ho

/-- **C72** `AddCidr` of a nil `*net.IPNet` panics and changes nothing. -/
theorem C72_nil_net (x : V) (s : Node V × σ) : AddCidrC merge none x s = (none, s) := rfl

/-! ## Examples -/

/-- Adds 0.0.0.0 to a tree. -/
def addZero (t : Node String) : Node String := add (· ++ ·) t 0#32 32#8 0#8 "z"

/-- A callback that logs its arguments, adds an address to the tree itself, and panics when the log is full. -/
def exampleCallback : String → String → Eff (Node String × List (String × String)) String := fun a b s =>
  (if s.2.length < 2 then some (a ++ b) else none, (addZero s.1, s.2 ++ [(a, b)]))

/-- The tree of 10.0.0.4 ("a") and 10.0.0.6/31 ("b"), made without a call of the callback. -/
theorem exampleReach : ∃ t : Node String, Reach t ∧
    listed (ListCidr t) = [(⟨0x0a000004, 32⟩, "a"), (⟨0x0a000006, 31⟩, "b")] := by
  obtain ⟨t, hr, hl⟩ : ∃ t : Node String, Runs (· ++ ·) New
      [.addIp [10, 0, 0, 4] "a", .addCidr ⟨[10, 0, 0, 6], [255, 255, 255, 254]⟩ "b"] t ∧
      listed (ListCidr t) = [(⟨0x0a000004, 32⟩, "a"), (⟨0x0a000006, 31⟩, "b")] := by
    refine ⟨_, ⟨_, rfl, _, rfl, rfl⟩, ?_⟩
    decide +kernel
  obtain ⟨t1, h1, t2, h2, h3⟩ := hr
  cases h3
  refine ⟨t, ?_, hl⟩
  have r1 : Reach t1 := .step (s := (New, ())) (s' := (t1, ())) .new ((C72_pure _ _ _ _ _ _ _).mpr ⟨rfl, rfl, h1⟩)
  exact .step (s := (t1, ())) (s' := (t, ())) r1 ((C72_pure _ _ _ _ _ _ _).mpr ⟨rfl, rfl, h2⟩)

/-- Adding 10.0.0.5 ("x") to it calls the callback with ("a", "x"), then with ("ax", "b"). -/
example (t : Node String) : Joins exampleCallback [(⟨0x0a000004, 32⟩, "a"), (⟨0x0a000006, 31⟩, "b")] ⟨0x0a000005, 32⟩ "x" (t, [])
    (some (⟨0x0a000004, 30⟩, "axb")) (addZero (addZero t), [("a", "x"), ("ax", "b")]) := by
  refine .high (w := "a") (by decide) (by decide) (by decide) rfl ?_
  refine .low (w := "b") (by decide) (by decide) (by decide) rfl ?_
  exact .stop (.inr (by intro w; simp [Cidr.buddy, Cidr.parent]))

/-- With one entry in the log the second call panics. -/
example (t : Node String) : Joins exampleCallback [(⟨0x0a000004, 32⟩, "a"), (⟨0x0a000006, 31⟩, "b")] ⟨0x0a000005, 32⟩ "x"
    (t, [("p", "q")]) none (addZero (addZero t), [("p", "q"), ("a", "x"), ("ax", "b")]) := by
  refine .high (w := "a") (by decide) (by decide) (by decide) rfl ?_
  exact .lowPanic (w := "b") (by decide) (by decide) (by decide) rfl

end Net
