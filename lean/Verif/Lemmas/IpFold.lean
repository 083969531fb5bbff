import Mathlib.Data.List.Forall2
import Verif.Lemmas.IpSame

/-! # The values of disjoint blocks, in address order -/
namespace Net
open NetSpec
variable {V : Type} {merge : V → V → V}

/-- `v` is the merge of the values of the list, from left to right. -/
def Folded (merge : V → V → V) (D : List (Nat × V)) (v : V) : Prop := ∃ b M, D = b :: M ∧ v = M.foldl (fun u c => merge u c.2) b.2

theorem foldl_assoc (ha : ∀ a b c, merge (merge a b) c = merge a (merge b c)) (a b : V) : ∀ M : List (Nat × V),
    M.foldl (fun u c => merge u c.2) (merge a b) = merge a (M.foldl (fun u c => merge u c.2) b)
  | [] => rfl
  | c :: M => by rw [List.foldl_cons, List.foldl_cons, ha, foldl_assoc ha a _ M]

theorem Folded.append (ha : ∀ a b c, merge (merge a b) c = merge a (merge b c)) {L R : List (Nat × V)} {v w : V} (hl : Folded merge L v) (hr : Folded merge R w) :
    Folded merge (L ++ R) (merge v w) := by
  obtain ⟨b, M, rfl, rfl⟩ := hl
  obtain ⟨c, N, rfl, rfl⟩ := hr
  refine ⟨b, M ++ c :: N, rfl, ?_⟩
  rw [List.foldl_append, List.foldl_cons, foldl_assoc ha]

/-- The node holds the blocks that begin at the places of `D`, with these values, and has merged those it has joined from left to right. -/
def Rep (merge : V → V → V) : Node V → (h p : Nat) → List (Nat × V) → Prop
  | .none, _, _, D => D = []
  | .all v, h, p, D => (∀ b ∈ D, p ≤ b.1 ∧ b.1 < p + 2 ^ h) ∧ Folded merge D v
  | .tree _ _, 0, _, _ => False
  | .tree l r, h + 1, p, D => ∃ L R, D = L ++ R ∧ Rep merge l h p L ∧ Rep merge r h (p + 2 ^ h) R

theorem Rep.bounds : ∀ {h : Nat} {t : Node V} {p : Nat} {D : List (Nat × V)}, Rep merge t h p D → ∀ b ∈ D, p ≤ b.1 ∧ b.1 < p + 2 ^ h
  | _, .none, _, _, hr => by rw [show _ = [] from hr]; simp
  | _, .all _, _, _, hr => hr.1
  | 0, .tree _ _, _, _, hr => hr.elim
  | h + 1, .tree l r, p, _, ⟨L, R, e, h1, h2⟩ => by
    subst e
    intro b hb
    rw [Nat.pow_succ]
    rcases List.mem_append.mp hb with hb | hb
    · have := h1.bounds b hb
      omega
    · have := h2.bounds b hb
      omega

theorem Rep.mk (ha : ∀ a b c, merge (merge a b) c = merge a (merge b c)) {l r : Node V} {h p : Nat} {L R : List (Nat × V)} (hl : Rep merge l h p L)
    (hr : Rep merge r h (p + 2 ^ h) R) : Rep merge (mkNode merge l r) (h + 1) p (L ++ R) := by
  by_cases hc : (∃ a, l = .all a) ∧ ∃ b, r = .all b
  · obtain ⟨⟨a, rfl⟩, b, rfl⟩ := hc
    have ht : Rep merge (.tree (.all a) (.all b)) (h + 1) p (L ++ R) := ⟨L, R, rfl, hl, hr⟩
    exact ⟨ht.bounds, hl.2.append ha hr.2⟩
  · rw [mkNode_tree hc]
    exact ⟨L, R, rfl, hl, hr⟩

theorem Rep.add (ha : ∀ a b c, merge (merge a b) c = merge a (merge b c)) (h : Nat) : ∀ {t : Node V} {p q e : Nat} {D : List (Nat × V)} (x : V),
    Rep merge t h p D → Norm t h → 2 ^ h ∣ p → p ≤ q → q < p + 2 ^ h → (∀ a, Agree q e h a → ¬ mem t h a) →
    ∃ A C, D = A ++ C ∧ (∀ b ∈ A, b.1 < q) ∧ (∀ b ∈ C, q < b.1) ∧ Rep merge (addN merge t q h e x) h p (A ++ (q, x) :: C) := by
  induction h with
  | zero =>
    intro t p q e D x hr hn _ h1 h2 hf
    cases empty_none 0 t hn fun a => hf a fun i _ h => by omega
    rw [show D = [] from hr]
    refine ⟨[], [], rfl, by simp, by simp, ?_⟩
    rw [addN]
    · exact ⟨by simpa using ⟨h1, h2⟩, _, _, rfl, rfl⟩
    · intros; simp_all
  | succ h ih =>
    intro t p q e D x hr hn hd h1 h2 hf
    have ht : ∀ v, t ≠ .all v := by rintro v rfl; exact hf q (fun _ _ _ => rfl) trivial
    by_cases he : h + 1 ≤ e
    · cases empty_none (h + 1) t hn fun a => hf a fun i _ h => by omega
      rw [show D = [] from hr]
      refine ⟨[], [], rfl, by simp, by simp, ?_⟩
      rw [addN, if_pos he]
      exact ⟨by simpa using ⟨h1, h2⟩, _, _, rfl, rfl⟩
    -- the halves of the node
    obtain ⟨l, r, L, R, rfl, hl, hr', nl, nr, hmem, hadd⟩ : ∃ l r : Node V, ∃ L R, D = L ++ R ∧ Rep merge l h p L ∧ Rep merge r h (p + 2 ^ h) R ∧ Norm l h ∧ Norm r h ∧
        (∀ a, mem t (h + 1) a ↔ if a.testBit h then mem r h a else mem l h a) ∧
        addN merge t q (h + 1) e x = if q.testBit h then mkNode merge l (addN merge r q h e x) else mkNode merge (addN merge l q h e x) r := by
      cases t with
      | all v => exact absurd rfl (ht v)
      | none => exact ⟨.none, .none, [], [], hr, rfl, rfl, trivial, trivial, fun a => by simp [mem], by rw [addN, if_neg he]⟩
      | tree l r =>
        obtain ⟨L, R, e1, e2, e3⟩ := hr
        exact ⟨l, r, L, R, e1, e2, e3, hn.1, hn.2.1, fun a => by rw [mem], by rw [addN, if_neg he]⟩
    have hfree : ∀ a, Agree q e h a → ¬ mem (if q.testBit h then r else l) h a := by
      intro a ha hm
      obtain ⟨a', k1, k2⟩ := exists_bit a h (q.testBit h)
      refine hf a' (fun i hi1 hi2 => ?_) ?_
      · rcases Nat.lt_or_ge i h with hi | hi
        · rw [k2 i hi, ha i hi1 hi]
        · obtain rfl : i = h := by omega
          exact k1
      · rw [hmem, k1]
        rw [← mem_congr h _ a' a k2] at hm
        split at hm <;> rename_i hc <;> simp only [hc] <;> exact hm
    have hbit : q.testBit h = decide (p + 2 ^ h ≤ q) := by
      obtain ⟨m, rfl⟩ := hd
      exact testBit_block h m q h1 h2
    have hd1 : 2 ^ h ∣ p := Nat.dvd_trans (Nat.pow_dvd_pow 2 (by omega)) hd
    have hp2 : 2 ^ (h + 1) = 2 ^ h + 2 ^ h := by rw [Nat.pow_succ]; omega
    have hpos : 0 < 2 ^ h := Nat.pow_pos (by omega)
    rw [hadd]
    by_cases hc : p + 2 ^ h ≤ q
    · rw [hbit, decide_eq_true hc, if_pos rfl] at hfree
      rw [hbit, decide_eq_true hc, if_pos rfl]
      obtain ⟨A, C, rfl, g1, g2, g3⟩ := ih x hr' nr (Nat.dvd_add hd1 (Nat.dvd_refl _)) hc (by omega) hfree
      refine ⟨L ++ A, C, by rw [List.append_assoc], fun b hb => ?_, g2, ?_⟩
      · rcases List.mem_append.mp hb with hb | hb
        · have := hl.bounds b hb
          omega
        · exact g1 b hb
      · rw [List.append_assoc]
        exact hl.mk ha g3
    · rw [hbit, decide_eq_false hc, if_neg (by decide)] at hfree
      rw [hbit, decide_eq_false hc, if_neg (by decide)]
      obtain ⟨A, C, rfl, g1, g2, g3⟩ := ih x hl nl hd1 h1 (by omega) hfree
      refine ⟨A, C ++ R, by rw [List.append_assoc], g1, fun b hb => ?_, ?_⟩
      · rcases List.mem_append.mp hb with hb | hb
        · exact g2 b hb
        · have := hr'.bounds b hb
          omega
      · have := g3.mk ha hr'
        rwa [List.append_assoc, List.cons_append] at this

/-- The value of a block of the tree: the merge of the values of what begins in it. -/
theorem Rep.block (h : Nat) : ∀ {t : Node V} {p : Nat} {D : List (Nat × V)}, Rep merge t h p D → 2 ^ h ∣ p → ∀ b ∈ blocks t h p,
    ∃ A M C, D = A ++ M ++ C ∧ (∀ d ∈ A, d.1 < b.1) ∧ (∀ d ∈ M, b.1 ≤ d.1 ∧ d.1 < b.1 + 2 ^ b.2.1) ∧ (∀ d ∈ C, b.1 + 2 ^ b.2.1 ≤ d.1) ∧ Folded merge M b.2.2 := by
  induction h with
  | zero =>
    intro t p D hr _ b hb
    cases t with
    | none => simp [blocks] at hb
    | tree l r => exact hr.elim
    | all v =>
      simp only [blocks, List.mem_singleton] at hb
      subst hb
      exact ⟨[], D, [], by simp, by simp, hr.1, by simp, hr.2⟩
  | succ h ih =>
    intro t p D hr hd b hb
    cases t with
    | none => simp [blocks] at hb
    | all v =>
      simp only [blocks, List.mem_singleton] at hb
      subst hb
      exact ⟨[], D, [], by simp, by simp, hr.1, by simp, hr.2⟩
    | tree l r =>
      obtain ⟨L, R, rfl, hl, hr⟩ := hr
      have hd1 : 2 ^ h ∣ p := Nat.dvd_trans (Nat.pow_dvd_pow 2 (by omega)) hd
      have hd2 : 2 ^ h ∣ p + 2 ^ h := Nat.dvd_add hd1 (Nat.dvd_refl _)
      rw [blocks, List.mem_append] at hb
      rcases hb with hb | hb
      · obtain ⟨_, _, _, k⟩ := blocks_bounds h l p hd1 b hb
        obtain ⟨A, M, C, rfl, g1, g2, g3, g4⟩ := ih hl hd1 b hb
        refine ⟨A, M, C ++ R, by simp, g1, g2, fun d hd => ?_, g4⟩
        rcases List.mem_append.mp hd with hd | hd
        · exact g3 d hd
        · have := hr.bounds d hd
          omega
      · obtain ⟨_, _, k, _⟩ := blocks_bounds h r _ hd2 b hb
        obtain ⟨A, M, C, rfl, g1, g2, g3, g4⟩ := ih hr hd2 b hb
        refine ⟨L ++ A, M, C, by simp, fun d hd => ?_, g2, g3, g4⟩
        rcases List.mem_append.mp hd with hd | hd
        · have := hl.bounds d hd
          omega
        · exact g1 d hd

/-- Disjoint blocks added to a tree: the tree then holds them all. -/
theorem foldl_rep (ha : ∀ a b c, merge (merge a b) c = merge a (merge b c)) : ∀ (L : List (Cidr × V)) {t : Node V} {D : List (Nat × V)}, Norm t 32 →
    (∀ c ∈ L, Cidr4 c.1) → L.Pairwise (fun c d => ∀ a, c.1.Has a → ¬ d.1.Has a) → (∀ c ∈ L, Free t c.1) → Rep merge t 32 0 D →
    D.Pairwise (fun b c => b.1 < c.1) →
    ∃ D', D'.Perm (L.map (fun c => (c.1.base, c.2)) ++ D) ∧ D'.Pairwise (fun b c => b.1 < c.1) ∧ Rep merge (L.foldl (addTo merge) t) 32 0 D'
  | [], _, D, _, _, _, _, hr, hs => ⟨D, List.Perm.refl _, hs, hr⟩
  | c :: L, t, D, hn, h4, hd, hf, hr, hs => by
    rw [List.pairwise_cons] at hd
    have hc := h4 c (by simp)
    obtain ⟨A, C, rfl, g1, g2, g3⟩ := Rep.add ha 32 c.2 hr hn (Nat.dvd_zero _) (Nat.zero_le _) (by rw [Nat.zero_add]; exact hc) (free_agree hc (hf c (by simp)))
    have hs' : (A ++ (c.1.base, c.2) :: C).Pairwise (fun b c => b.1 < c.1) := by
      rw [List.pairwise_append] at hs ⊢
      refine ⟨hs.1, List.pairwise_cons.mpr ⟨g2, hs.2.1⟩, fun a ha b hb => ?_⟩
      rcases List.mem_cons.mp hb with rfl | hb
      · exact g1 a ha
      · exact hs.2.2 a ha b hb
    obtain ⟨D', p1, p2, p3⟩ := foldl_rep ha L (addTo_norm merge hn c) (fun d hd' => h4 d (by simp [hd'])) hd.2 (fun d hd' =>
      addTo_free merge hn hc (h4 d (by simp [hd'])) (hd.1 d hd') (hf d (by simp [hd']))) g3 hs'
    refine ⟨D', p1.trans ?_, p2, p3⟩
    rw [List.map_cons, List.cons_append]
    refine (List.Perm.append_left _ List.perm_middle).trans ?_
    exact List.perm_middle

/-- The block of a call on a single network. -/
theorem Target_has {op : Op V} {c : Cidr} (hc : Target op c) : IPv4Args op ∧ Cidr4 c ∧ ∀ a, Adds a op ↔ c.Has a := by
  cases op with
  | addRange s e x => exact hc.elim
  | addIp ip x =>
    obtain ⟨u, hu, rfl⟩ := hc
    refine ⟨⟨u, hu⟩, IPv4_lt hu, fun a => ?_⟩
    simp only [Cidr.Has, Nat.sub_self, Nat.pow_zero, Nat.div_one]
    exact ⟨fun h => IPv4_unique h hu, fun h => h ▸ hu⟩
  | addCidr n x =>
    obtain ⟨u, ones, hu, hl, ho, rfl⟩ := hc
    have hp : 0 < 2 ^ (32 - ones) := Nat.pow_pos (by omega)
    have h4 : Cidr4 ⟨2 ^ (32 - ones) * (u / 2 ^ (32 - ones)), ones⟩ := Nat.lt_of_le_of_lt (Nat.mul_div_le _ _) (IPv4_lt hu)
    refine ⟨⟨⟨u, hu⟩, hl, ones, ho⟩, h4, fun a => ?_⟩
    show Contains n a ↔ _
    rw [contains_iff hu hl ho]
    constructor
    · rintro ⟨-, h⟩
      rw [Cidr.Has, h, Nat.mul_div_cancel_left _ hp]
    · intro h
      refine ⟨has_lt h4 h, ?_⟩
      rwa [Cidr.Has, Nat.mul_div_cancel_left _ hp] at h

theorem Step_target {op : Op V} {c : Cidr} (hc : Target op c) {t t' : Node V} (h : Step merge t op t') : t' = addTo merge t (c, valueOf op) := by
  cases op with
  | addRange s e x => exact hc.elim
  | addIp ip x =>
    obtain ⟨u, hu, rfl⟩ := hc
    obtain ⟨pos, hp, e⟩ := AddIp_eq merge t hu x
    have h : AddIp merge t ip x = .ok t' := h
    rw [e, add_eq merge 32 t pos 32#8 0#8 x rfl, hp] at h
    cases h
    rfl
  | addCidr n x =>
    obtain ⟨u, ones, hu, hl, ho, rfl⟩ := hc
    have h : AddCidr merge t n x = .ok t' := h
    rw [AddCidr_addTo merge t hu hl ho x] at h
    cases h
    exact addTo_aligned merge t u ones x

theorem Runs_targets {ops : List (Op V)} {L : List (Cidr × V)} (hL : List.Forall₂ (fun op c => Target op c.1 ∧ c.2 = valueOf op) ops L) :
    ∀ {t t' : Node V}, Runs merge t ops t' → t' = L.foldl (addTo merge) t := by
  induction hL with
  | nil => exact fun h => h
  | @cons op c ops L h _ ih =>
    rintro t t' ⟨t₁, h₁, h₂⟩
    have e := Step_target h.1 h₁
    rw [← h.2] at e
    rw [ih h₂, e]
    rfl

theorem targets_disjoint {ops : List (Op V)} {L : List (Cidr × V)} (hL : List.Forall₂ (fun op c => Target op c.1 ∧ c.2 = valueOf op) ops L)
    (hd : ops.Pairwise fun p q => ∀ a, Adds a p → ¬ Adds a q) : (∀ c ∈ L, Cidr4 c.1) ∧ (L.Pairwise fun c d => ∀ a, c.1.Has a → ¬ d.1.Has a) ∧
      ∀ d ∈ L, ∃ q ∈ ops, ∀ a, Adds a q ↔ d.1.Has a := by
  induction hL with
  | nil => simp
  | @cons op c ops L h _ ih =>
    rw [List.pairwise_cons] at hd
    obtain ⟨i1, i2, i3⟩ := ih hd.2
    obtain ⟨-, k1, k2⟩ := Target_has h.1
    refine ⟨fun d hd => ?_, List.pairwise_cons.mpr ⟨fun d hd' a h1 h2 => ?_, i2⟩, fun d hd => ?_⟩
    · rcases List.mem_cons.mp hd with rfl | hd
      · exact k1
      · exact i1 d hd
    · obtain ⟨q, hq, e⟩ := i3 d hd'
      exact hd.1 q hq a ((k2 a).mpr h1) ((e a).mpr h2)
    · rcases List.mem_cons.mp hd with rfl | hd
      · exact ⟨op, by simp, k2⟩
      · obtain ⟨q, hq, e⟩ := i3 d hd
        exact ⟨q, by simp [hq], e⟩

/-- What is listed of a tree that disjoint blocks were added to. -/
theorem values_of_blocks (ha : ∀ a b c, merge (merge a b) c = merge a (merge b c)) {L : List (Cidr × V)} (h4 : ∀ c ∈ L, Cidr4 c.1)
    (hdis : L.Pairwise fun c d => ∀ a, c.1.Has a → ¬ d.1.Has a) {t : Node V} (ht : t = L.foldl (addTo merge) New) (hn : Norm t 32) :
    ∃ D, D.Perm (L.map fun c => (c.1.base, c.2)) ∧ D.Pairwise (fun b c => b.1 < c.1) ∧ ∀ n ∈ ListCidr t, ∃ A b M C, D = A ++ b :: M ++ C ∧
      (∀ d ∈ A ++ C, ¬ Contains n.1 d.1) ∧ (∀ d ∈ b :: M, Contains n.1 d.1) ∧ n.2 = M.foldl (fun u d => merge u d.2) b.2 := by
  obtain ⟨D, p1, p2, p3⟩ := foldl_rep ha L (t := New) (D := []) trivial h4 hdis (fun _ _ _ _ hm => hm) rfl (by simp)
  rw [← ht] at p3
  rw [List.append_nil] at p1
  refine ⟨D, p1, p2, fun n hn' => ?_⟩
  rw [ListCidr_blocks t hn, List.mem_map] at hn'
  obtain ⟨k, hk, rfl⟩ := hn'
  obtain ⟨k1, k2, k3, k4⟩ := block_ok hk
  obtain ⟨A, M, C, e, g1, g2, g3, b, M', rfl, g4⟩ := p3.block 32 (Nat.dvd_zero _) k hk
  have hcon := fun a => blockNet_contains k.1 k.2.1 a k3 k1 k2
  refine ⟨A, b, M', C, e, fun d hd => ?_, fun d hd => ?_, g4⟩
  · rw [hcon]
    rcases List.mem_append.mp hd with hd | hd
    · have := g1 d hd
      omega
    · have := g3 d hd
      omega
  · have := g2 d hd
    rw [hcon]
    omega

/-- Calls on disjoint networks, with an associative callback: the value of a network of the list is the merge of the values of the calls in it, from the
lowest address up. -/
theorem Runs_values (ha : ∀ a b c, merge (merge a b) c = merge a (merge b c)) {ops : List (Op V)} {B : List (Nat × V)}
    (hB : List.Forall₂ (fun op b => ∃ c, Target op c ∧ b = (c.base, valueOf op)) ops B) (hd : ops.Pairwise fun p q => ∀ a, Adds a p → ¬ Adds a q)
    {t : Node V} (h : Runs merge New ops t) :
    ∃ D, D.Perm B ∧ D.Pairwise (fun b c => b.1 < c.1) ∧ ∀ n ∈ ListCidr t, ∃ A b M C, D = A ++ b :: M ++ C ∧ (∀ d ∈ A ++ C, ¬ Contains n.1 d.1) ∧
      (∀ d ∈ b :: M, Contains n.1 d.1) ∧ n.2 = M.foldl (fun u d => merge u d.2) b.2 := by
  obtain ⟨L, hL, rfl⟩ : ∃ L : List (Cidr × V), List.Forall₂ (fun op c => Target op c.1 ∧ c.2 = valueOf op) ops L ∧ B = L.map fun c => (c.1.base, c.2) := by
    clear h hd
    induction hB with
    | nil => exact ⟨[], .nil, rfl⟩
    | cons h _ ih =>
      obtain ⟨c, hc, rfl⟩ := h
      obtain ⟨L, hL, rfl⟩ := ih
      exact ⟨(c, _) :: L, .cons ⟨hc, rfl⟩ hL, rfl⟩
  obtain ⟨h4, hdis, -⟩ := targets_disjoint hL hd
  exact values_of_blocks ha h4 hdis (Runs_targets hL h) (Runs_norm ops (t := New) trivial h)

theorem Greedy_lt {lo hi : Nat} {cs : List Cidr} (g : Greedy hi lo cs) (hh : lo ≤ hi → hi < 2 ^ 32) : ∀ c ∈ cs, Cidr4 c := by
  intro c hc
  obtain ⟨-, h2⟩ := (Greedy_pairwise g).1 c hc
  have := h2 c.base rfl
  show c.base < 2 ^ 32
  have := hh (by omega)
  omega

/-- The same with ranges, whose value counts once for every network of the greedy split. -/
theorem Runs_values_ranges (ha : ∀ a b c, merge (merge a b) c = merge a (merge b c)) {ops : List (Op V)} {B : List (List (Nat × V))}
    (hB : List.Forall₂ (fun op b => IPv4Args op ∧ ∃ lo hi cs, (∀ a, Adds a op ↔ lo ≤ a ∧ a ≤ hi) ∧ Greedy hi lo cs ∧ b = cs.map fun c => (c.base, valueOf op)) ops B)
    (hd : ops.Pairwise fun p q => ∀ a, Adds a p → ¬ Adds a q) {t : Node V} (h : Runs merge New ops t) :
    ∃ D, D.Perm B.flatten ∧ D.Pairwise (fun b c => b.1 < c.1) ∧ ∀ n ∈ ListCidr t, ∃ A b M C, D = A ++ b :: M ++ C ∧ (∀ d ∈ A ++ C, ¬ Contains n.1 d.1) ∧
      (∀ d ∈ b :: M, Contains n.1 d.1) ∧ n.2 = M.foldl (fun u d => merge u d.2) b.2 := by
  have key : ∀ {t t' : Node V}, Runs merge t ops t' → ∃ L : List (Cidr × V), B.flatten = L.map (fun c => (c.1.base, c.2)) ∧ (∀ c ∈ L, Cidr4 c.1) ∧
      (L.Pairwise fun c d => ∀ a, c.1.Has a → ¬ d.1.Has a) ∧ (∀ d ∈ L, ∀ a, d.1.Has a → ∃ q ∈ ops, Adds a q) ∧ t' = L.foldl (addTo merge) t := by
    clear h
    induction hB with
    | nil => intro t t' h; exact ⟨[], rfl, by simp, .nil, by simp, h⟩
    | @cons op b ops B hb hB ih =>
      rintro t t' ⟨t₁, h₁, h₂⟩
      rw [List.pairwise_cons] at hd
      obtain ⟨L, l1, l2, l3, l4, l5⟩ := ih hd.2 h₂
      obtain ⟨i4, lo, hi, cs, c1, g, rfl⟩ := hb
      obtain ⟨lo', hi', cs', c2, g', e⟩ := Step_interval i4 h₁
      have same : cs' = cs := by
        have k : ∀ a, lo ≤ a ∧ a ≤ hi ↔ lo' ≤ a ∧ a ≤ hi' := fun a => by rw [← c1, ← c2]
        exact Greedy_same g' g fun a => (k a).symm
      subst same
      have lt : lo ≤ hi → hi < 2 ^ 32 := fun hl => Adds_lt ((c1 hi).mpr ⟨hl, le_refl _⟩)
      obtain ⟨g1, g2⟩ := Greedy_pairwise g
      have adds : ∀ c ∈ cs', ∀ a, c.Has a → Adds a op := fun c hc a h => (c1 a).mpr ((g1 c hc).2 a h)
      refine ⟨(cs'.map fun c => (c, valueOf op)) ++ L, ?_, fun c hc => ?_, ?_, fun d hd a h => ?_, ?_⟩
      · rw [List.flatten_cons, l1, List.map_append, List.map_map]
        rfl
      · rcases List.mem_append.mp hc with hc | hc
        · obtain ⟨c', hc', rfl⟩ := List.mem_map.mp hc
          exact Greedy_lt g lt c' hc'
        · exact l2 c hc
      · refine List.pairwise_append.mpr ⟨List.pairwise_map.mpr g2, l3, fun c hc d hd' a h1 h2 => ?_⟩
        obtain ⟨c', hc', rfl⟩ := List.mem_map.mp hc
        obtain ⟨q, hq, h3⟩ := l4 d hd' a h2
        exact hd.1 q hq a (adds c' hc' a h1) h3
      · rcases List.mem_append.mp hd with hd | hd
        · obtain ⟨c', hc', rfl⟩ := List.mem_map.mp hd
          exact ⟨op, by simp, adds c' hc' a h⟩
        · obtain ⟨q, hq, h3⟩ := l4 d hd a h
          exact ⟨q, by simp [hq], h3⟩
      · rw [List.foldl_append, ← e]
        exact l5
  obtain ⟨L, l1, l2, l3, -, l5⟩ := key h
  rw [l1]
  exact values_of_blocks ha l2 l3 l5 (Runs_norm ops (t := New) trivial h)

/-! ## Each call once -/

/-- An aligned block of addresses of the tree lies in one block of the list. -/
theorem block_in_one (h : Nat) : ∀ {t : Node V} {p s k : Nat}, Norm t h → 2 ^ h ∣ p → 2 ^ k ∣ s → k ≤ h → p ≤ s → s + 2 ^ k ≤ p + 2 ^ h →
    (∀ a, s ≤ a → a < s + 2 ^ k → mem t h a) → ∃ b ∈ blocks t h p, b.1 ≤ s ∧ s + 2 ^ k ≤ b.1 + 2 ^ b.2.1 := by
  induction h with
  | zero =>
    intro t p s k hn hd hs hk h1 h2 hm
    cases t with
    | all v => exact ⟨_, List.mem_singleton_self _, h1, h2⟩
    | none => exact (hm s (le_refl _) (by have : 0 < 2 ^ k := Nat.pow_pos (by omega); omega)).elim
    | tree l r => exact hn.elim
  | succ h ih =>
    intro t p s k hn hd hs hk h1 h2 hm
    have pk : 0 < 2 ^ k := Nat.pow_pos (by omega)
    cases t with
    | all v => exact ⟨_, List.mem_singleton_self _, h1, h2⟩
    | none => exact (hm s (le_refl _) (by omega)).elim
    | tree l r =>
      have hd1 : 2 ^ h ∣ p := Nat.dvd_trans (Nat.pow_dvd_pow 2 (by omega)) hd
      have hp2 : 2 ^ (h + 1) = 2 ^ h + 2 ^ h := by rw [Nat.pow_succ]; omega
      by_cases hkh : k = h + 1
      · subst hkh
        obtain ⟨v, hv⟩ := full_all (h + 1) _ hn fun a => by
          refine (mem_congr (h + 1) _ (p + a % 2 ^ (h + 1)) a fun i hi => ?_).mp (hm _ (by omega) (by
            have := Nat.mod_lt a pk
            omega))
          obtain ⟨m, rfl⟩ := hd
          rw [Nat.testBit_two_pow_mul_add _ (Nat.mod_lt a pk), if_pos hi, Nat.testBit_mod_two_pow]
          simp [hi]
        cases hv
      · have hbit : ∀ a, s ≤ a → a < s + 2 ^ k → a.testBit h = decide (p + 2 ^ h ≤ a) := by
          obtain ⟨m, rfl⟩ := hd
          intro a ha1 ha2
          exact testBit_block h m a (by omega) (by omega)
        -- the block does not cross the middle
        have hside : s + 2 ^ k ≤ p + 2 ^ h ∨ p + 2 ^ h ≤ s := by
          have hdm : 2 ^ k ∣ p + 2 ^ h := Nat.dvd_trans (Nat.pow_dvd_pow 2 (by omega)) (Nat.dvd_add hd1 (Nat.dvd_refl _))
          obtain ⟨x, hx⟩ := hs
          obtain ⟨y, hy⟩ := hdm
          rcases Nat.lt_or_ge x y with hxy | hxy
          · left
            rw [hx, hy, ← Nat.mul_succ]
            exact Nat.mul_le_mul_left _ hxy
          · right
            rw [hx, hy]
            exact Nat.mul_le_mul_left _ hxy
        rw [blocks]
        rcases hside with hside | hside
        · obtain ⟨b, hb, e⟩ := ih hn.1 hd1 hs (by omega) h1 hside fun a ha1 ha2 => by
            have := hm a ha1 ha2
            rw [mem, hbit a ha1 ha2, decide_eq_false (by omega), if_neg (by decide)] at this
            exact this
          exact ⟨b, List.mem_append_left _ hb, e⟩
        · obtain ⟨b, hb, e⟩ := ih hn.2.1 (Nat.dvd_add hd1 (Nat.dvd_refl _)) hs (by omega) hside (by omega) fun a ha1 ha2 => by
            have := hm a ha1 ha2
            rw [mem, hbit a ha1 ha2, decide_eq_true (by omega), if_pos rfl] at this
            exact this
          exact ⟨b, List.mem_append_right _ hb, e⟩

/-- What a greedy split consists of. -/
theorem Greedy_parts {e s : Nat} {cs : List Cidr} (g : Greedy e s cs) : cs.Pairwise (fun c d => c.base < d.base) ∧
    (∀ a, s ≤ a → a ≤ e → ∃ c ∈ cs, c.Has a) ∧ ∀ c ∈ cs, ∃ k, k ≤ 32 ∧ 2 ^ k ∣ c.base ∧ s ≤ c.base ∧ c.base + 2 ^ k ≤ e + 1 ∧ ∀ a, c.Has a ↔ c.base ≤ a ∧ a < c.base + 2 ^ k := by
  induction g with
  | done h => exact ⟨.nil, fun a _ _ => by omega, by simp⟩
  | @next s k cs hk hd hfit _ _ ih =>
    have pk : 0 < 2 ^ k := Nat.pow_pos (by omega)
    obtain ⟨q, rfl⟩ := hd
    have hh : ∀ a, (Cidr.mk (2 ^ k * q) (32 - k)).Has a ↔ 2 ^ k * q ≤ a ∧ a < 2 ^ k * q + 2 ^ k := toCidr_has hk
    obtain ⟨i1, i2, i3⟩ := ih
    refine ⟨List.pairwise_cons.mpr ⟨fun d hd => ?_, i1⟩, fun a h1 h2 => ?_, fun c hc => ?_⟩
    · obtain ⟨_, _, _, h, _⟩ := i3 d hd
      show 2 ^ k * q < _
      omega
    · by_cases ha : a < 2 ^ k * q + 2 ^ k
      · exact ⟨_, .head _, (hh a).mpr ⟨h1, ha⟩⟩
      · obtain ⟨c, hc, h⟩ := i2 a (by omega) h2
        exact ⟨c, .tail _ hc, h⟩
    · rcases List.mem_cons.mp hc with rfl | hc
      · exact ⟨k, hk, Nat.dvd_mul_right _ _, le_refl _, hfit, hh⟩
      · obtain ⟨j, h1, h2, h3, h4⟩ := i3 c hc
        exact ⟨j, h1, h2, by omega, h4⟩

/-- The fold of lists of equal values, some empty. -/
theorem Folded.each (ha : ∀ a b c, merge (merge a b) c = merge a (merge b c)) (hi : ∀ a, merge a a = a) {α : Type} (val : α → V) (F : α → List (Nat × V))
    (p : α → Bool) (hp : ∀ x, p x = true ↔ F x ≠ []) (hv : ∀ x, ∀ d ∈ F x, d.2 = val x) : ∀ (l : List α) {v : V}, Folded merge (l.flatMap F) v →
    ∃ b M, l.filter p = b :: M ∧ v = M.foldl (fun u x => merge u (val x)) (val b) := by
  have one : ∀ (x : α) (D : List (Nat × V)) (w : V), (∀ d ∈ D, d.2 = val x) → D.foldl (fun u c => merge u c.2) (merge w (val x)) = merge w (val x) := by
    intro x D
    induction D with
    | nil => intros; rfl
    | cons d D ih =>
      intro w h
      rw [List.foldl_cons, h d (by simp), ha, hi]
      exact ih w fun d hd => h d (by simp [hd])
  have rest : ∀ (l : List α) (w : V), (l.flatMap F).foldl (fun u c => merge u c.2) w = (l.filter p).foldl (fun u x => merge u (val x)) w := by
    intro l
    induction l with
    | nil => intro w; rfl
    | cons x l ih =>
      intro w
      rw [List.flatMap_cons, List.foldl_append, ih]
      by_cases hx : p x = true
      · rw [List.filter_cons_of_pos hx, List.foldl_cons]
        congr 1
        cases hF : F x with
        | nil => exact absurd hF ((hp x).mp hx)
        | cons d D =>
          have := hv x
          rw [hF] at this
          rw [List.foldl_cons, this d (by simp)]
          exact one x D w fun d hd => this d (by simp [hd])
      · rw [List.filter_cons_of_neg hx, not_not.mp (mt (hp x).mpr hx)]
        rfl
  intro l
  induction l with
  | nil => rintro v ⟨b, M, e, -⟩; simp at e
  | cons x l ih =>
    rintro v ⟨b, M, e, rfl⟩
    by_cases hx : p x = true
    · refine ⟨x, l.filter p, List.filter_cons_of_pos hx, ?_⟩
      cases hF : F x with
      | nil => exact absurd hF ((hp x).mp hx)
      | cons d D =>
        have := hv x
        rw [hF] at this
        rw [List.flatMap_cons, hF, List.cons_append, List.cons.injEq] at e
        obtain ⟨rfl, rfl⟩ := e
        rw [List.foldl_append, rest, this d (by simp)]
        congr 1
        have h := one x D (val x) fun d hd => this d (by simp [hd])
        rwa [hi] at h
    · rw [List.flatMap_cons, not_not.mp (mt (hp x).mpr hx), List.nil_append] at e
      rw [List.filter_cons_of_neg hx]
      exact ih ⟨b, M, e, rfl⟩

open Classical in
/-- With a callback that is also idempotent, calls of all kinds count once in every listed network that they add an address of. -/
theorem Runs_values_once (ha : ∀ a b c, merge (merge a b) c = merge a (merge b c)) (hi : ∀ a, merge a a = a) {ops ops' : List (Op V)}
    (hp : ops'.Perm ops) (h4 : ∀ op ∈ ops, IPv4Args op) (hs : ops'.Pairwise fun p q => ∀ a b, Adds a p → Adds b q → a < b) {t : Node V}
    (h : Runs merge New ops t) : ∀ n ∈ ListCidr t, ∃ b M, ops'.filter (fun op => decide (∃ a, Contains n.1 a ∧ Adds a op)) = b :: M ∧
      n.2 = M.foldl (fun u op => merge u (valueOf op)) (valueOf b) := by
  have hn : Norm t 32 := Runs_norm ops (t := New) trivial h
  have hpc : ∀ op, ∃ cs : List Cidr, op ∈ ops → ∃ lo hi, (∀ a, Adds a op ↔ lo ≤ a ∧ a ≤ hi) ∧ Greedy hi lo cs := by
    intro op
    by_cases ho : op ∈ ops
    · obtain ⟨s, s', hstep⟩ := Runs_step ops _ _ h op ho
      obtain ⟨lo, hi, cs, h1, h2, -⟩ := Step_interval (h4 op ho) hstep
      exact ⟨cs, fun _ => ⟨lo, hi, h1, h2⟩⟩
    · exact ⟨[], fun h => absurd h ho⟩
  choose pc hpc using hpc
  let F : Op V → List (Nat × V) := fun op => (pc op).map fun c => (c.base, valueOf op)
  have hdis : ops.Pairwise fun p q => ∀ a, Adds a p → ¬ Adds a q := by
    refine (hp.pairwise_iff (fun h a h1 h2 => h a h2 h1)).mp (hs.imp fun h a h1 h2 => ?_)
    exact absurd (h a a h1 h2) (by omega)
  obtain ⟨D, d1, d2, d3⟩ := Runs_values_ranges ha (B := ops.map F) (by
    rw [List.forall₂_map_right_iff]
    refine List.forall₂_same.mpr fun op ho => ?_
    obtain ⟨lo, hi, e1, e2⟩ := hpc op ho
    exact ⟨h4 op ho, lo, hi, pc op, e1, e2, rfl⟩) hdis h
  have mem' : ∀ {op}, op ∈ ops' → op ∈ ops := fun h => hp.mem_iff.mp h
  -- the pieces of a call are added by it
  have padds : ∀ op ∈ ops, ∀ c ∈ pc op, ∀ a, c.Has a → Adds a op := by
    intro op ho c hc a hca
    obtain ⟨lo, hi, e1, e2⟩ := hpc op ho
    exact (e1 a).mpr (((Greedy_pairwise e2).1 c hc).2 a hca)
  have hsorted : (ops'.flatMap F).Pairwise fun b c => b.1 < c.1 := by
    rw [List.pairwise_flatMap]
    constructor
    · intro op ho
      obtain ⟨lo, hi, e1, e2⟩ := hpc op (mem' ho)
      exact List.pairwise_map.mpr (Greedy_parts e2).1
    · refine hs.imp_of_mem fun hop hoq hlt x hx y hy => ?_
      obtain ⟨c, hc, rfl⟩ := List.mem_map.mp hx
      obtain ⟨d, hd, rfl⟩ := List.mem_map.mp hy
      exact hlt _ _ (padds _ (mem' hop) c hc _ rfl) (padds _ (mem' hoq) d hd _ rfl)
  have hD : D = ops'.flatMap F := by
    refine List.Perm.eq_of_pairwise (le := fun b c => b.1 < c.1) (fun a b _ _ h1 h2 => absurd h1 (by omega)) d2 hsorted ?_
    rw [← List.flatMap_def] at d1
    exact d1.trans (hp.flatMap_right F).symm
  intro n hn'
  obtain ⟨A, b, M, C, e, g1, g2, g3⟩ := d3 n hn'
  have hfil : (ops'.flatMap F).filter (fun d => decide (Contains n.1 d.1)) = b :: M := by
    rw [← hD, e, List.filter_append, List.filter_append]
    have f1 : A.filter (fun d => decide (Contains n.1 d.1)) = [] := List.filter_eq_nil_iff.mpr fun d hd => by simpa using g1 d (List.mem_append_left _ hd)
    have f2 : C.filter (fun d => decide (Contains n.1 d.1)) = [] := List.filter_eq_nil_iff.mpr fun d hd => by simpa using g1 d (List.mem_append_right _ hd)
    have f3 : (b :: M).filter (fun d => decide (Contains n.1 d.1)) = b :: M := List.filter_eq_self.mpr fun d hd => by simpa using g2 d hd
    rw [f1, f2, f3]
    simp
  rw [List.filter_flatMap] at hfil
  obtain ⟨b', M', k1, k2⟩ := Folded.each ha hi valueOf (fun op => (F op).filter fun d => decide (Contains n.1 d.1))
    (fun op => decide ((F op).filter (fun d => decide (Contains n.1 d.1)) ≠ [])) (fun op => by simp) (fun op d hd => by
      obtain ⟨c, -, rfl⟩ := List.mem_map.mp (List.mem_filter.mp hd |>.1)
      rfl) ops' (v := n.2) ⟨b, M, hfil, g3⟩
  refine ⟨b', M', ?_, k2⟩
  rw [← k1]
  refine List.filter_congr fun op ho => ?_
  rw [decide_eq_decide]
  constructor
  · rintro ⟨a, h1, h2⟩ hnil
    obtain ⟨lo, hi, e1, e2⟩ := hpc op (mem' ho)
    obtain ⟨-, q2, q3⟩ := Greedy_parts e2
    obtain ⟨r1, r2⟩ := (e1 a).mp h2
    obtain ⟨c, hc, hca⟩ := q2 a r1 r2
    obtain ⟨k, hk, hkd, hk1, hk2, hk3⟩ := q3 c hc
    have pk : 0 < 2 ^ k := Nat.pow_pos (by omega)
    have hlt := Adds_lt ((e1 hi).mpr ⟨by omega, le_refl _⟩)
    -- the piece lies in one network of the list, which is this one
    obtain ⟨z, hz, z1, z2⟩ := block_in_one 32 (t := t) (p := 0) hn (Nat.dvd_zero _) hkd hk (by omega) (by omega) fun x hx1 hx2 => by
      refine (Runs_mem ops (t := New) trivial h4 h x (by omega)).mpr (.inr ⟨op, mem' ho, ?_⟩)
      exact padds op (mem' ho) c hc x ((hk3 x).mpr ⟨hx1, hx2⟩)
    obtain ⟨w1, w2, w3, w4⟩ := block_ok hz
    rw [ListCidr_blocks t hn, List.mem_map] at hn'
    obtain ⟨y, hy, rfl⟩ := hn'
    obtain ⟨y1, y2, y3, y4⟩ := block_ok hy
    rw [blockNet_contains y.1 y.2.1 a y3 y1 y2] at h1
    have hca := (hk3 a).mp hca
    have hyz : y = z := by
      by_contra hne
      have srt := blocks_sorted 32 t 0 (Nat.dvd_zero _)
      have tot : ∀ x ∈ blocks t 32 0, ∀ y ∈ blocks t 32 0, x ≠ y → x.1 + 2 ^ x.2.1 ≤ y.1 ∨ y.1 + 2 ^ y.2.1 ≤ x.1 := by
        intro x hx y hy hne
        obtain ⟨i, hi, rfl⟩ := List.getElem_of_mem hx
        obtain ⟨j, hj, rfl⟩ := List.getElem_of_mem hy
        rw [List.pairwise_iff_getElem] at srt
        rcases Nat.lt_trichotomy i j with hij | hij | hij
        · exact .inl (srt i j hi hj hij)
        · subst hij
          exact absurd rfl hne
        · exact .inr (srt j i hj hi hij)
      rcases tot y hy z hz hne with h | h <;> omega
    subst hyz
    rw [List.filter_eq_nil_iff] at hnil
    have := hnil (c.base, valueOf op) (List.mem_map_of_mem hc)
    refine this (decide_eq_true ?_)
    rw [blockNet_contains y.1 y.2.1 _ y3 y1 y2]
    show c.base < _ ∧ _ ≤ c.base ∧ c.base < _
    omega
  · intro hne
    obtain ⟨d, hd⟩ := List.exists_mem_of_ne_nil _ hne
    obtain ⟨h1, h2⟩ := List.mem_filter.mp hd
    obtain ⟨c, hc, rfl⟩ := List.mem_map.mp h1
    exact ⟨c.base, of_decide_eq_true h2, padds op (mem' ho) c hc _ rfl⟩

end Net
