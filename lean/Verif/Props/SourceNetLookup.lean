import Verif.Props.SourceNetRanges
import Mathlib.Data.Set.Card
import Mathlib.Order.Interval.Set.Nat
import Mathlib.Order.Interval.Finset.Nat

/-!
# C131: addresses looked up and counted in a list of networks, run from the text

A program keeps of every entry that `ListCidr` returns the numbers of its first and last address, found with `FirstIpv4`, `LastIpv4` and
`Ipv4ToUint`. The first numbers ascend, so there is one place in the list, to be found by halving, before which they are at most the number of
an address and from which on they are greater. Whether the address was added, and its value, then follow from the one entry before that
place. The sizes of the entries add up to the number of addresses added.
-/
namespace Source
open GoLang NetSpec
open _root_.Net (IPNet Op)

/-- The program `R` has found the numbers of the first and the last address of the network of an entry. -/
def NumbersOf (R : Prog) (n : IPNet × Val) (b : U32 × U32) : Prop :=
  ∃ h h' v vi w, NetAt h v n.1 ∧ Returns R Net.path 0 (n! "FirstIpv4") [v] h [vi] h ∧ Returns R Net.path 0 (n! "Ipv4ToUint") [vi] h [.u32 b.1] h ∧
    Returns R Net.path 0 (n! "LastIpv4") [v] h [w] h' ∧ Returns R Net.path 0 (n! "Ipv4ToUint") [w] h' [.u32 b.2] h'

/-- Before the place `i` the first numbers are at most `a`, from there on greater. -/
def Place (bs : List (U32 × U32)) (a i : Nat) : Prop :=
  i ≤ bs.length ∧ ∀ j b, bs[j]? = some b → (b.1.toNat ≤ a ↔ j < i)

theorem numbers_iff {R : Prog} (hR : HostsNet R) {h : List Val} {v : Val} {n : IPNet × Val} (hv : NetAt h v n.1) (hc : CanonicalNet n.1) :
    ∃ b : U32 × U32, NumbersOf R n b ∧ b.1.toNat ≤ b.2.toNat ∧ ∀ a, Contains n.1 a ↔ b.1.toNat ≤ a ∧ a ≤ b.2.toNat := by
  obtain ⟨vi, first, last, lo, hi, q1, hb, q2, i1, i2, hcc⟩ := C92_bounds hR _ hv hc
  obtain ⟨x, hx, rfl⟩ := (C92_numbers hR h hb 0).1 lo i1
  have hl : IsBytes (h ++ [.arr (last.map .u8)]) (.slice h.length [] 0 last.length last.length) last := isBytes_all (by simp)
  obtain ⟨y, hy, rfl⟩ := (C92_numbers hR _ hl 0).1 hi i2
  refine ⟨(x, y), ⟨_, _, _, _, _, hv, q1, hx, q2, hy⟩, ?_, hcc⟩
  obtain ⟨k, -, -, -, -, -, ck⟩ := _root_.Net.canonical_block hc
  have := (hcc _).mp ((ck _).mpr ⟨Nat.le_refl _, by have : 0 < 2 ^ k := Nat.pow_pos (by omega); omega⟩)
  simp only
  omega

theorem NumbersOf.is {R : Prog} (hR : HostsNet R) {n : IPNet × Val} {b : U32 × U32} (h : NumbersOf R n b) (hc : CanonicalNet n.1) :
    b.1.toNat ≤ b.2.toNat ∧ ∀ a, Contains n.1 a ↔ b.1.toNat ≤ a ∧ a ≤ b.2.toNat := by
  obtain ⟨h, h', v, vi, w, hv, r1, r2, r3, r4⟩ := h
  obtain ⟨vi', first, last, lo, hi, q1, hb, q2, i1, i2, hcc⟩ := C92_bounds hR _ hv hc
  obtain ⟨x, hx, rfl⟩ := (C92_numbers hR h hb 0).1 lo i1
  have hl : IsBytes (h ++ [.arr (last.map .u8)]) (.slice h.length [] 0 last.length last.length) last := isBytes_all (by simp)
  obtain ⟨y, hy, rfl⟩ := (C92_numbers hR _ hl 0).1 hi i2
  have e1 := (r1.unique q1).1
  cases e1
  obtain ⟨e3, e4⟩ := r3.unique q2
  cases e3
  subst e4
  have e2 := (r2.unique hx).1
  have e5 := (r4.unique hy).1
  simp only [List.cons.injEq, Val.u32.injEq, and_true] at e2 e5
  rw [e2, e5]
  obtain ⟨k, -, -, -, -, -, ck⟩ := _root_.Net.canonical_block hc
  have := (hcc _).mp ((ck _).mpr ⟨Nat.le_refl _, by have : 0 < 2 ^ k := Nat.pow_pos (by omega); omega⟩)
  exact ⟨by omega, hcc⟩

/-- Numbers that ascend have one place for each number. -/
theorem place_of : ∀ {bs : List (U32 × U32)}, bs.Pairwise (fun x y => x.1.toNat < y.1.toNat) → ∀ a, ∃ i, Place bs a i
  | [], _, a => ⟨0, by simp [Place]⟩
  | b :: bs, hp, a => by
    obtain ⟨i, hi, hj⟩ := place_of hp.of_cons a
    by_cases hb : b.1.toNat ≤ a
    · refine ⟨i + 1, by simpa using hi, fun j c hc => ?_⟩
      cases j with
      | zero => cases hc; simp [hb]
      | succ j => rw [hj j c hc]; omega
    · refine ⟨0, by simp, fun j c hc => ?_⟩
      cases j with
      | zero => cases hc; simp [hb]
      | succ j =>
        have := List.rel_of_pairwise_cons hp (List.mem_of_getElem? hc)
        omega

theorem Place.once {bs : List (U32 × U32)} {a i j : Nat} (h : Place bs a i) (h' : Place bs a j) : i = j := by
  by_contra hne
  rcases Nat.lt_or_gt_of_ne hne with hlt | hlt
  · have hl : i < bs.length := Nat.lt_of_lt_of_le hlt h'.1
    have h1 := h.2 i _ (List.getElem?_eq_getElem hl)
    have h2 := h'.2 i _ (List.getElem?_eq_getElem hl)
    omega
  · have hl : j < bs.length := Nat.lt_of_lt_of_le hlt h.1
    have h1 := h.2 j _ (List.getElem?_eq_getElem hl)
    have h2 := h'.2 j _ (List.getElem?_eq_getElem hl)
    omega

section
variable {P : Prog} (hP : HostsNet P) {f : Val} {merge : Val → Val → Val} (hf : ∀ t, Computes P t f merge) {R : Prog} (hR : HostsNet R)
  {ops : List (Op Val)} {l : List (IPNet × Val)} (hl : Gives P f ops l)
include hP hf hR hl

/-- **C131** Whatever a tree lists, any program can find the numbers of all entries. -/
theorem C131_numbers : ∃ bs, List.Forall₂ (NumbersOf R) l bs := by
  have key : ∀ l : List (IPNet × Val), (∀ n ∈ l, CanonicalNet n.1) → ∃ bs, List.Forall₂ (NumbersOf R) l bs := by
    intro l
    induction l with
    | nil => exact fun _ => ⟨[], .nil⟩
    | cons n l ih =>
      intro hc
      obtain ⟨bs, hb⟩ := ih fun m hm => hc m (.tail _ hm)
      obtain ⟨new, fn, args, v, -, -, hv, -⟩ := makes_new [] (.addCidr n.1 (.int 1)) trivial
      obtain ⟨b, h1, -⟩ := numbers_iff hR hv (hc n (.head _))
      exact ⟨b :: bs, .cons h1 hb⟩
  exact key l (C110_any hP hf hl).2.1

variable {bs : List (U32 × U32)} (hb : List.Forall₂ (NumbersOf R) l bs)
include hb

theorem numbers_at {i : Nat} {n : IPNet × Val} {b : U32 × U32} (hn : l[i]? = some n) (h : bs[i]? = some b) :
    b.1.toNat ≤ b.2.toNat ∧ ∀ a, Contains n.1 a ↔ b.1.toNat ≤ a ∧ a ≤ b.2.toNat := by
  have hc := (C110_any hP hf hl).2.1 n (List.mem_of_getElem? hn)
  obtain ⟨h1, rfl⟩ := List.getElem?_eq_some_iff.mp hn
  obtain ⟨h2, rfl⟩ := List.getElem?_eq_some_iff.mp h
  exact (hb.get h1 h2).is hR hc

/-- **C131** The entries are in order and apart: every last number is less than the first number of every later entry. -/
theorem C131_ordered : bs.Pairwise fun x y => x.1.toNat ≤ x.2.toNat ∧ x.2.toNat < y.1.toNat := by
  rw [List.pairwise_iff_getElem]
  intro i j hi hj hij
  have li : i < l.length := by rw [hb.length_eq]; exact hi
  have lj : j < l.length := by rw [hb.length_eq]; exact hj
  obtain ⟨a1, a2⟩ := numbers_at hP hf hR hl hb (List.getElem?_eq_getElem li) (List.getElem?_eq_getElem hi)
  obtain ⟨b1, b2⟩ := numbers_at hP hf hR hl hb (List.getElem?_eq_getElem lj) (List.getElem?_eq_getElem hj)
  exact ⟨a1, (List.pairwise_iff_getElem.mp (C110_any hP hf hl).1) i j li lj hij _ _ ((a2 _).mpr ⟨a1, Nat.le_refl _⟩) ((b2 _).mpr ⟨Nat.le_refl _, b1⟩)⟩

/-- **C131** Every number has exactly one place in the list. -/
theorem C131_place (a : Nat) : ∃! i, Place bs a i := by
  obtain ⟨i, hi⟩ := place_of ((C131_ordered hP hf hR hl hb).imp fun h => Nat.lt_of_le_of_lt h.1 h.2) a
  exact ⟨i, hi, fun j hj => hj.once hi⟩

/-- **C131** The entry before the place of an address decides: it contains the address if its last number is not less, and else no entry does. -/
theorem C131_lookup {a i : Nat} (hi : Place bs a i) (n : IPNet × Val) :
    (n ∈ l ∧ Contains n.1 a) ↔ ∃ j b, i = j + 1 ∧ l[j]? = some n ∧ bs[j]? = some b ∧ a ≤ b.2.toNat := by
  constructor
  · rintro ⟨hn, ha⟩
    obtain ⟨j, hj, rfl⟩ := List.getElem_of_mem hn
    have hj' : j < bs.length := by rw [← hb.length_eq]; exact hj
    have hc := ((numbers_at hP hf hR hl hb (List.getElem?_eq_getElem hj) (List.getElem?_eq_getElem hj')).2 a).mp ha
    have h1 := (hi.2 j _ (List.getElem?_eq_getElem hj')).mp hc.1
    refine ⟨j, bs[j], ?_, List.getElem?_eq_getElem hj, List.getElem?_eq_getElem hj', hc.2⟩
    by_contra hne
    have h2 : j + 1 < bs.length := by have := hi.1; omega
    have h3 := (hi.2 (j + 1) _ (List.getElem?_eq_getElem h2)).mpr (by omega)
    have h4 := (List.pairwise_iff_getElem.mp (C131_ordered hP hf hR hl hb)) j (j + 1) hj' h2 (by omega)
    omega
  · rintro ⟨j, b, rfl, hn, h, ha⟩
    exact ⟨List.mem_of_getElem? hn, ((numbers_at hP hf hR hl hb hn h).2 a).mpr ⟨(hi.2 j b h).mpr (by omega), ha⟩⟩

variable (h4 : ∀ op ∈ ops, IPv4Args op)
include h4

/-- **C131** So one comparison tells whether the address was added. -/
theorem C131_added {a i : Nat} (hi : Place bs a i) : (∃ op ∈ ops, Adds a op) ↔ ∃ j b, i = j + 1 ∧ bs[j]? = some b ∧ a ≤ b.2.toNat := by
  obtain ⟨r, hr, e⟩ := hl.runs hP hf
  rw [← _root_.Net.C16_exact ops h4 hr a, ← e]
  constructor
  · rintro ⟨n, hn⟩
    obtain ⟨j, b, h1, -, h2, h3⟩ := (C131_lookup hP hf hR hl hb hi n).mp hn
    exact ⟨j, b, h1, h2, h3⟩
  · rintro ⟨j, b, h1, h2, h3⟩
    have hj : j < l.length := by rw [hb.length_eq]; exact (List.getElem?_eq_some_iff.mp h2).1
    exact ⟨l[j], (C131_lookup hP hf hR hl hb hi _).mpr ⟨j, b, h1, List.getElem?_eq_getElem hj, h2, h3⟩⟩

/-- **C131** The sizes of the entries, from their numbers, add up to the number of addresses added. -/
theorem C131_count : (bs.map fun b => b.2.toNat - b.1.toNat + 1).sum = {a | ∃ op ∈ ops, Adds a op}.ncard := by
  have hs : {a | ∃ op ∈ ops, Adds a op} = {a | ∃ b ∈ bs, b.1.toNat ≤ a ∧ a ≤ b.2.toNat} := by
    obtain ⟨r, hr, e⟩ := hl.runs hP hf
    ext a
    simp only [Set.mem_ofPred_eq]
    rw [← _root_.Net.C16_exact ops h4 hr a, ← e]
    constructor
    · rintro ⟨n, hn, ha⟩
      obtain ⟨j, hj, rfl⟩ := List.getElem_of_mem hn
      have hj' : j < bs.length := by rw [← hb.length_eq]; exact hj
      exact ⟨bs[j], List.getElem_mem _, ((numbers_at hP hf hR hl hb (List.getElem?_eq_getElem hj) (List.getElem?_eq_getElem hj')).2 a).mp ha⟩
    · rintro ⟨b, hn, ha⟩
      obtain ⟨j, hj', rfl⟩ := List.getElem_of_mem hn
      have hj : j < l.length := by rw [hb.length_eq]; exact hj'
      exact ⟨l[j], List.getElem_mem _, ((numbers_at hP hf hR hl hb (List.getElem?_eq_getElem hj) (List.getElem?_eq_getElem hj')).2 a).mpr ha⟩
  have hle : ∀ b ∈ bs, b.1.toNat ≤ b.2.toNat := by
    intro b hn
    obtain ⟨j, hj', rfl⟩ := List.getElem_of_mem hn
    have hj : j < l.length := by rw [hb.length_eq]; exact hj'
    exact (numbers_at hP hf hR hl hb (List.getElem?_eq_getElem hj) (List.getElem?_eq_getElem hj')).1
  have ho := C131_ordered hP hf hR hl hb
  rw [hs]
  clear hs hb
  induction bs with
  | nil => simp
  | cons b bs ih =>
    have e : {a | ∃ c ∈ b :: bs, c.1.toNat ≤ a ∧ a ≤ c.2.toNat} = Set.Icc b.1.toNat b.2.toNat ∪ {a | ∃ c ∈ bs, c.1.toNat ≤ a ∧ a ≤ c.2.toNat} := by
      ext a; simp
    have fin : {a | ∃ c ∈ bs, c.1.toNat ≤ a ∧ a ≤ c.2.toNat}.Finite :=
      (Set.finite_Iio (2 ^ 32)).subset (by rintro a ⟨c, -, -, h⟩; exact Nat.lt_of_le_of_lt h c.2.isLt)
    rw [e, Set.ncard_union_eq ?_ (Set.finite_Icc _ _) fin, ← ih (fun c hc => hle c (.tail _ hc)) ho.of_cons]
    · have h1 := hle b (.head _)
      have h2 : (Set.Icc b.1.toNat b.2.toNat).ncard = b.2.toNat - b.1.toNat + 1 := by
        rw [← Finset.coe_Icc, Set.ncard_coe_finset, Nat.card_Icc]; omega
      rw [h2]; simp
    · rw [Set.disjoint_left]
      rintro a ⟨-, h1⟩ ⟨c, hc, h2, -⟩
      have := List.rel_of_pairwise_cons ho hc
      omega

end

/-! ## Examples -/

/-- The numbers of the two entries of `copy_list`. -/
theorem twoNets_numbers {bs : List (U32 × U32)} (hb : List.Forall₂ (NumbersOf netProg)
    [((⟨[9, 9, 9, 9], [255, 255, 255, 255]⟩ : IPNet), Val.int 7), (⟨[10, 0, 0, 4], [255, 255, 255, 254]⟩, .int 3)] bs) :
    bs = [(0x09090909, 0x09090909), (0x0a000004, 0x0a000005)] := by
  have hc := (C110_any netProg_hosts netProg_computes copy_list).2.1
  obtain _ | ⟨h1, _ | ⟨h2, ⟨⟩⟩⟩ := hb
  rename_i b c
  have key (n : IPNet) (lo hi : U32) (b : U32 × U32) (hlh : lo.toNat ≤ hi.toNat) (hn : ∀ a, Contains n a ↔ lo.toNat ≤ a ∧ a ≤ hi.toNat)
      (hb : b.1.toNat ≤ b.2.toNat ∧ ∀ a, Contains n a ↔ b.1.toNat ≤ a ∧ a ≤ b.2.toNat) : b = (lo, hi) := by
    obtain ⟨x, y⟩ := b
    have e1 := (hn _).mp ((hb.2 _).mpr ⟨Nat.le_refl _, hb.1⟩)
    have e2 := (hn _).mp ((hb.2 _).mpr ⟨hb.1, Nat.le_refl _⟩)
    have e3 := (hb.2 _).mp ((hn _).mpr ⟨Nat.le_refl _, hlh⟩)
    have e4 := (hb.2 _).mp ((hn _).mpr ⟨hlh, Nat.le_refl _⟩)
    simp only at e1 e2 e3 e4
    rw [BitVec.eq_of_toNat_eq (by omega : x.toNat = lo.toNat), BitVec.eq_of_toNat_eq (by omega : y.toNat = hi.toNat)]
  have block (ip : List U8) (u ones zeros : Nat) (m : List U8) (hi : IPv4 ip u) (hm : m.length = 4) (h : Contiguous m ones) (a : Nat) :=
    _root_.Net.contains_iff (n := ⟨ip, m⟩) (a := a) hi hm h
  rw [key _ 0x09090909 0x09090909 b (by decide) (fun a => by
      rw [block [9, 9, 9, 9] _ 32 0 _ (_root_.Net.IPv4_of_len4 rfl) rfl ⟨0, by decide⟩]
      simp [beVal]; omega) (h1.is netProg_hosts (hc _ (.head _))),
    key _ 0x0a000004 0x0a000005 c (by decide) (fun a => by
      rw [block [10, 0, 0, 4] _ 31 1 _ (_root_.Net.IPv4_of_len4 rfl) rfl ⟨1, by decide⟩]
      simp [beVal]; omega) (h2.is netProg_hosts (hc _ (.tail _ (.head _))))]

/-- The address 10.0.0.5 has the place 2, so it is in the second entry; 10.0.0.6 too, and it was not added. Three addresses were added. -/
example : (∃ op ∈ [Op.addIp [10, 0, 0, 4] (Val.int 1), .addIp [10, 0, 0, 5] (.int 2), .addIp [9, 9, 9, 9] (.int 7)], Adds 0x0a000005 op) ∧
    ¬ (∃ op ∈ [Op.addIp [10, 0, 0, 4] (Val.int 1), .addIp [10, 0, 0, 5] (.int 2), .addIp [9, 9, 9, 9] (.int 7)], Adds 0x0a000006 op) ∧
    {a | ∃ op ∈ [Op.addIp [10, 0, 0, 4] (Val.int 1), .addIp [10, 0, 0, 5] (.int 2), .addIp [9, 9, 9, 9] (.int 7)], Adds a op}.ncard = 3 := by
  obtain ⟨bs, hb⟩ := C131_numbers netProg_hosts netProg_computes netProg_hosts copy_list
  obtain rfl := twoNets_numbers hb
  have h4 : ∀ op ∈ [Op.addIp [10, 0, 0, 4] (Val.int 1), .addIp [10, 0, 0, 5] (.int 2), .addIp [9, 9, 9, 9] (.int 7)], IPv4Args op := by
    rintro op (_ | ⟨_, _ | ⟨_, _ | ⟨_, ⟨⟩⟩⟩⟩) <;> exact ⟨_, _root_.Net.IPv4_of_len4 rfl⟩
  have place (a : Nat) (ha : 0x0a000004 ≤ a) : Place [(0x09090909#32, 0x09090909#32), (0x0a000004, 0x0a000005)] a 2 := by
    refine ⟨by decide, fun j b h => ?_⟩
    match j, h with
    | 0, h => cases h; simp; omega
    | 1, h => cases h; simp; omega
    | j + 2, h => simp at h
  refine ⟨(C131_added netProg_hosts netProg_computes netProg_hosts copy_list hb h4 (place _ (by decide))).mpr ⟨1, _, rfl, rfl, by decide⟩, fun h => ?_,
    (C131_count netProg_hosts netProg_computes netProg_hosts copy_list hb h4).symm.trans (by decide)⟩
  obtain ⟨j, b, e, h1, h2⟩ := (C131_added netProg_hosts netProg_computes netProg_hosts copy_list hb h4 (place _ (by decide))).mp h
  obtain rfl : j = 1 := by omega
  cases h1
  revert h2
  decide

/-- The value found for 10.0.0.5 is 3. -/
example : ∃ n : IPNet × Val, n.2 = .int 3 ∧ Contains n.1 0x0a000005 := by
  obtain ⟨bs, hb⟩ := C131_numbers netProg_hosts netProg_computes netProg_hosts copy_list
  obtain ⟨i, hi, -⟩ := C131_place netProg_hosts netProg_computes netProg_hosts copy_list hb 0x0a000005
  obtain rfl := twoNets_numbers hb
  have h1 := hi.1
  have h2 := (hi.2 1 _ rfl).mp (by decide)
  simp only [List.length_cons, List.length_nil] at h1
  exact ⟨_, rfl, ((C131_lookup netProg_hosts netProg_computes netProg_hosts copy_list hb hi (⟨[10, 0, 0, 4], [255, 255, 255, 254]⟩, .int 3)).mpr
    ⟨1, _, by omega, rfl, rfl, by decide⟩).2⟩

end Source
