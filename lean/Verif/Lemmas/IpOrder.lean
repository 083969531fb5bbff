import Verif.Lemmas.IpGrow

/-!
# Additions of disjoint blocks commute; the number of blocks
-/
namespace Net
open NetSpec
variable {V : Type}

/-- `a` is an address of the block of `p`, by the bits below `h`. -/
def Agree (p e h a : Nat) : Prop := ∀ i, e ≤ i → i < h → a.testBit i = p.testBit i

theorem mkNode_tree {merge : V → V → V} {l r : Node V} (h : ¬ ((∃ a, l = .all a) ∧ ∃ b, r = .all b)) : mkNode merge l r = .tree l r := by
  cases l <;> cases r <;> simp_all [mkNode]

/-- `addN` on a node that is not `all`, by its two halves. -/
theorem addN_halves (merge : V → V → V) {t : Node V} {h : Nat} (hn : Norm t (h + 1)) (ht : ∀ v, t ≠ .all v) :
    ∃ l r : Node V, Norm l h ∧ Norm r h ∧ (∀ a, mem t (h + 1) a ↔ if a.testBit h then mem r h a else mem l h a) ∧
      ∀ p e x, addN merge t p (h + 1) e x = if h + 1 ≤ e then .all x
        else if p.testBit h then mkNode merge l (addN merge r p h e x) else mkNode merge (addN merge l p h e x) r := by
  cases t with
  | all v => exact absurd rfl (ht v)
  | none => exact ⟨.none, .none, trivial, trivial, fun a => by simp [mem], fun p e x => by rw [addN]⟩
  | tree l r => exact ⟨l, r, hn.1, hn.2.1, fun a => by rw [mem], fun p e x => by rw [addN]⟩

theorem addN_comm (merge : V → V → V) (h : Nat) : ∀ (t : Node V) (p e : Nat) (x : V) (q f : Nat) (y : V), Norm t h →
    (∀ a, Agree p e h a → ¬ Agree q f h a) → (∀ a, Agree p e h a → ¬ mem t h a) → (∀ a, Agree q f h a → ¬ mem t h a) →
    addN merge (addN merge t p h e x) q h f y = addN merge (addN merge t q h f y) p h e x := by
  induction h with
  | zero =>
    intro t p e x q f y _ hd _ _
    exact absurd (fun i _ h => by omega) (hd p (fun i _ h => by omega))
  | succ h ih =>
    intro t p e x q f y hn hd hp hq
    have hself : ∀ p e h, Agree p e h p := fun _ _ _ _ _ _ => rfl
    have htop : ∀ {p e}, h + 1 ≤ e → ∀ a, Agree p e (h + 1) a := fun he a i h1 h2 => by omega
    have hext : ∀ {p e a a'}, a'.testBit h = p.testBit h → (∀ i, i < h → a'.testBit i = a.testBit i) → Agree p e h a →
        Agree p e (h + 1) a' := by
      intro p e a a' h1 h2 ha i hi1 hi2
      rcases Nat.lt_or_ge i h with hi | hi
      · rw [h2 i hi, ha i hi1 hi]
      · obtain rfl : i = h := by omega
        exact h1
    have ht : ∀ v, t ≠ .all v := by rintro v rfl; exact hp p (hself _ _ _) trivial
    have hpe : ¬ h + 1 ≤ e := fun he => hd q (htop he q) (hself _ _ _)
    have hqf : ¬ h + 1 ≤ f := fun hf => hd p (hself _ _ _) (htop hf p)
    obtain ⟨l, r, nl, nr, hmem, hadd⟩ := addN_halves merge hn ht
    -- the halves: what is disjoint from the node is disjoint from the half it is in
    have hhalf : ∀ {p e : Nat}, (∀ a, Agree p e (h + 1) a → ¬ mem t (h + 1) a) →
        ∀ a, Agree p e h a → ¬ mem (if p.testBit h then r else l) h a := by
      intro p e hp a ha hm
      obtain ⟨a', h1, h2⟩ := exists_bit a h (p.testBit h)
      apply hp a' (hext h1 h2 ha)
      rw [hmem, h1]
      rw [← mem_congr h _ a' a h2] at hm
      split at hm <;> rename_i hc <;> simp only [hc] <;> exact hm
    have hp' := hhalf hp
    have hq' := hhalf hq
    have notall : ∀ {c : Node V} {p e : Nat}, (∀ a, Agree p e h a → ¬ mem c h a) → ∀ v, c ≠ .all v := by
      rintro c p e hc v rfl
      exact hc p (hself _ _ _) trivial
    have next : ∀ (l r : Node V) (p e : Nat) (x : V), ¬ h + 1 ≤ e → addN merge (.tree l r) p (h + 1) e x =
        if p.testBit h then mkNode merge l (addN merge r p h e x) else mkNode merge (addN merge l p h e x) r := by
      intro l r p e x he; rw [addN, if_neg he]
    rw [hadd p e x, hadd q f y, if_neg hpe, if_neg hqf]
    by_cases hbp : p.testBit h = true <;> by_cases hbq : q.testBit h = true
    · simp only [hbp, hbq, if_true] at hp' hq' ⊢
      have hd' : ∀ a, Agree p e h a → ¬ Agree q f h a := by
        intro a h1 h2
        obtain ⟨a', g1, g2⟩ := exists_bit a h (p.testBit h)
        exact hd a' (hext g1 g2 h1) (hext (by rw [g1, hbp, hbq]) g2 h2)
      have n1 : ∀ v, addN merge r p h e x ≠ .all v := notall (p := q) (e := f) (fun a ha hm => by
        rcases (addN_mem merge h r p e x nr a).mp hm with hm | hm
        · exact hq' a ha hm
        · exact hd' a hm ha)
      have n2 : ∀ v, addN merge r q h f y ≠ .all v := notall (p := p) (e := e) (fun a ha hm => by
        rcases (addN_mem merge h r q f y nr a).mp hm with hm | hm
        · exact hp' a ha hm
        · exact hd' a ha hm)
      rw [mkNode_tree (by rintro ⟨_, v, hv⟩; exact n1 v hv), mkNode_tree (by rintro ⟨_, v, hv⟩; exact n2 v hv),
        next _ _ _ _ _ hqf, next _ _ _ _ _ hpe, if_pos hbp, if_pos hbq, ih r p e x q f y nr hd' hp' hq']
    · simp only [hbp, hbq, if_true] at hp' hq' ⊢
      have n1 := notall (c := l) (p := q) (e := f) hq'
      have n2 := notall (c := r) (p := p) (e := e) hp'
      rw [if_neg (by decide), mkNode_tree (by rintro ⟨⟨v, hv⟩, _⟩; exact n1 v hv),
        mkNode_tree (by rintro ⟨_, v, hv⟩; exact n2 v hv), next _ _ _ _ _ hqf, next _ _ _ _ _ hpe, if_pos hbp, if_neg hbq]
    · simp only [hbp, hbq, if_true] at hp' hq' ⊢
      have n1 := notall (c := r) (p := q) (e := f) hq'
      have n2 := notall (c := l) (p := p) (e := e) hp'
      rw [if_neg (by decide), mkNode_tree (by rintro ⟨_, v, hv⟩; exact n1 v hv),
        mkNode_tree (by rintro ⟨⟨v, hv⟩, _⟩; exact n2 v hv), next _ _ _ _ _ hqf, next _ _ _ _ _ hpe, if_neg hbp, if_pos hbq]
    · simp only [hbp, hbq] at hp' hq' ⊢
      simp only [if_false, Bool.false_eq_true] at hp' hq' ⊢
      have hd' : ∀ a, Agree p e h a → ¬ Agree q f h a := by
        intro a h1 h2
        obtain ⟨a', g1, g2⟩ := exists_bit a h (p.testBit h)
        have hbp : p.testBit h = false := by simpa using hbp
        have hbq : q.testBit h = false := by simpa using hbq
        exact hd a' (hext g1 g2 h1) (hext (by rw [g1, hbp, hbq]) g2 h2)
      have n1 : ∀ v, addN merge l p h e x ≠ .all v := notall (p := q) (e := f) (fun a ha hm => by
        rcases (addN_mem merge h l p e x nl a).mp hm with hm | hm
        · exact hq' a ha hm
        · exact hd' a hm ha)
      have n2 : ∀ v, addN merge l q h f y ≠ .all v := notall (p := p) (e := e) (fun a ha hm => by
        rcases (addN_mem merge h l q f y nl a).mp hm with hm | hm
        · exact hp' a ha hm
        · exact hd' a ha hm)
      rw [mkNode_tree (by rintro ⟨⟨v, hv⟩, _⟩; exact n1 v hv), mkNode_tree (by rintro ⟨⟨v, hv⟩, _⟩; exact n2 v hv),
        next _ _ _ _ _ hqf, next _ _ _ _ _ hpe, if_neg hbp, if_neg hbq, ih l p e x q f y nl hd' hp' hq']

/-! ## Lists of blocks -/

/-- Add a CIDR with a value. -/
def addTo (merge : V → V → V) (t : Node V) (c : Cidr × V) : Node V := addN merge t c.1.base 32 (32 - c.1.len) c.2

def Cidr4 (c : Cidr) : Prop := c.base < 2 ^ 32

theorem has_lt {c : Cidr} (hc : Cidr4 c) {a : Nat} (h : c.Has a) : a < 2 ^ 32 := by
  rw [Cidr.Has] at h
  have hp : 0 < 2 ^ (32 - c.len) := Nat.pow_pos (by omega)
  have e : 2 ^ 32 = 2 ^ (32 - c.len) * 2 ^ (32 - (32 - c.len)) := by rw [← Nat.pow_add]; congr 1; omega
  have hb : c.base / 2 ^ (32 - c.len) < 2 ^ (32 - (32 - c.len)) := by
    apply Nat.div_lt_of_lt_mul; rw [← e]; exact hc
  rw [← h] at hb
  have := (Nat.div_lt_iff_lt_mul hp).mp hb
  rw [Nat.mul_comm, ← e] at this
  exact this

theorem agree_has {c : Cidr} (hc : Cidr4 c) {a : Nat} (ha : a < 2 ^ 32) : Agree c.base (32 - c.len) 32 a ↔ c.Has a :=
  agree_iff a c.base (32 - c.len) ha hc

theorem agree_mod {p e a : Nat} (h : Agree p e 32 a) : Agree p e 32 (a % 2 ^ 32) := by
  intro i h1 h2
  rw [Nat.testBit_mod_two_pow, ← h i h1 h2]; simp [h2]

theorem mem_mod (t : Node V) (a : Nat) : mem t 32 (a % 2 ^ 32) ↔ mem t 32 a := by
  apply mem_congr
  intro i hi
  rw [Nat.testBit_mod_two_pow]; simp [hi]

/-- No address of `c` is in the tree. -/
def Free (t : Node V) (c : Cidr) : Prop := ∀ a, c.Has a → ¬ mem t 32 a

theorem free_agree {t : Node V} {c : Cidr} (hc : Cidr4 c) (h : Free t c) : ∀ a, Agree c.base (32 - c.len) 32 a → ¬ mem t 32 a := by
  intro a ha hm
  exact h _ ((agree_has hc (Nat.mod_lt _ (by omega))).mp (agree_mod ha)) ((mem_mod t a).mpr hm)

theorem addTo_norm (merge : V → V → V) {t : Node V} (hn : Norm t 32) (c : Cidr × V) : Norm (addTo merge t c) 32 :=
  (addN_norm merge 32 t _ _ _ hn).1

theorem addTo_free (merge : V → V → V) {t : Node V} (hn : Norm t 32) {c : Cidr × V} {d : Cidr} (hc : Cidr4 c.1) (hd : Cidr4 d)
    (hcd : ∀ a, c.1.Has a → ¬ d.Has a) (hf : Free t d) : Free (addTo merge t c) d := by
  intro a ha hm
  rcases (addN_mem merge 32 t _ _ _ hn a).mp hm with h | h
  · exact hf a ha h
  · exact hcd a ((agree_has hc (has_lt hd ha)).mp h) ha

theorem addTo_comm (merge : V → V → V) {t : Node V} (hn : Norm t 32) {c d : Cidr × V} (hc : Cidr4 c.1) (hd : Cidr4 d.1)
    (hcd : ∀ a, c.1.Has a → ¬ d.1.Has a) (hfc : Free t c.1) (hfd : Free t d.1) :
    addTo merge (addTo merge t c) d = addTo merge (addTo merge t d) c := by
  apply addN_comm merge 32 t _ _ _ _ _ _ hn
  · intro a h1 h2
    have hlt : a % 2 ^ 32 < 2 ^ 32 := Nat.mod_lt _ (by omega)
    exact hcd _ ((agree_has hc hlt).mp (agree_mod h1)) ((agree_has hd hlt).mp (agree_mod h2))
  · exact free_agree hc hfc
  · exact free_agree hd hfd

theorem foldl_perm (merge : V → V → V) {L L' : List (Cidr × V)} (hp : L.Perm L') : ∀ t : Node V, Norm t 32 → (∀ c ∈ L, Cidr4 c.1) →
    L.Pairwise (fun c d => ∀ a, c.1.Has a → ¬ d.1.Has a) → (∀ c ∈ L, Free t c.1) →
    L.foldl (addTo merge) t = L'.foldl (addTo merge) t := by
  induction hp with
  | nil => intros; rfl
  | cons c hp ih =>
    intro t hn h4 hd hf
    rw [List.pairwise_cons] at hd
    exact ih _ (addTo_norm merge hn c) (fun d hd' => h4 d (by simp [hd'])) hd.2 (fun d hd' =>
      addTo_free merge hn (h4 c (by simp)) (h4 d (by simp [hd'])) (hd.1 d hd') (hf d (by simp [hd'])))
  | swap c d L =>
    intro t hn h4 hd hf
    rw [List.foldl_cons, List.foldl_cons, List.foldl_cons, List.foldl_cons]
    rw [List.pairwise_cons] at hd
    rw [addTo_comm merge hn (h4 d (by simp)) (h4 c (by simp)) (hd.1 c (by simp)) (hf d (by simp)) (hf c (by simp))]
  | trans h1 _ ih1 ih2 =>
    intro t hn h4 hd hf
    rw [ih1 t hn h4 hd hf]
    apply ih2 t hn (fun c hc => h4 c (h1.mem_iff.mpr hc)) _ (fun c hc => hf c (h1.mem_iff.mpr hc))
    exact (h1.pairwise_iff (fun h a h1 h2 => h a h2 h1)).mp hd

/-! ## Calls as lists of blocks -/

theorem AddCidr_addTo (merge : V → V → V) (t : Node V) {n : IPNet} {u ones : Nat} (hi : IPv4 n.ip u) (hl : n.mask.length = 4)
    (hc : Contiguous n.mask ones) (x : V) : AddCidr merge t n x = .ok (addTo merge t (⟨u, ones⟩, x)) := by
  obtain ⟨pos, e, hp, he, eq⟩ := AddCidr_eq merge t hi hl hc x
  rw [eq, add_eq merge 32 t pos 32#8 e x rfl, hp, he]; rfl

theorem Runs_cidrs (merge : V → V → V) (x : V) : ∀ (ns : List IPNet) (t t' : Node V), (∀ n ∈ ns, CanonicalNet n) →
    Runs merge t (ns.map fun n => .addCidr n x) t' → t' = ((ns.map cidrOf).map fun c => (c, x)).foldl (addTo merge) t
  | [], _, _, _, h => h
  | n :: ns, t, t', hc, h => by
    obtain ⟨t1, h1, h2⟩ := h
    have h1 : AddCidr merge t n x = .ok t1 := h1
    obtain ⟨hl, hm, ⟨ones, hones⟩, _⟩ := hc n (by simp)
    rw [AddCidr_addTo merge t (IPv4_of_len4 hl) hm hones x] at h1
    have e : cidrOf n = ⟨beVal n.ip, ones⟩ := by
      obtain ⟨z, hz⟩ := hones
      rw [cidrOf, hz]
      congr 1
      simp
    cases h1
    rw [List.map_cons, List.map_cons, List.foldl_cons, e]
    exact Runs_cidrs merge x ns _ t' (fun n hn => hc n (by simp [hn])) h2

theorem Greedy_pairwise {e s : Nat} {cs : List Cidr} (h : Greedy e s cs) : (∀ c ∈ cs, s ≤ c.base ∧ ∀ a, c.Has a → s ≤ a ∧ a ≤ e) ∧
    cs.Pairwise fun c d => ∀ a, c.Has a → ¬ d.Has a := by
  induction h with
  | done _ => simp
  | @next s k cs hk hd hfit _ _ ih =>
    have hp : 0 < 2 ^ k := Nat.pow_pos (by omega)
    obtain ⟨q, rfl⟩ := hd
    have hh : ∀ a, (Cidr.mk (2 ^ k * q) (32 - k)).Has a ↔ 2 ^ k * q ≤ a ∧ a < 2 ^ k * q + 2 ^ k := toCidr_has hk
    constructor
    · intro c hc
      rcases List.mem_cons.mp hc with rfl | hc
      · exact ⟨Nat.le_refl _, fun a ha => by have := (hh a).mp ha; omega⟩
      · obtain ⟨h1, h2⟩ := ih.1 c hc
        exact ⟨by omega, fun a ha => by have := h2 a ha; omega⟩
    · rw [List.pairwise_cons]
      refine ⟨fun d hd a ha hda => ?_, ih.2⟩
      have := (hh a).mp ha
      have := (ih.1 d hd).2 a hda
      omega

theorem Greedy_unique {e s : Nat} {cs : List Cidr} (h : Greedy e s cs) : ∀ cs', Greedy e s cs' → cs' = cs := by
  induction h with
  | done hlt =>
    intro cs' h'
    cases h' with
    | done _ => rfl
    | @next _ k _ _ _ h3 _ _ => have : 0 < 2 ^ k := Nat.pow_pos (by omega); omega
  | @next s k cs hk hd hfit hmax _ ih =>
    have hp : 0 < 2 ^ k := Nat.pow_pos (by omega)
    intro cs' h'
    cases h' with
    | done _ => omega
    | @next _ k' cs'' hk' hd' hfit' hmax' h' =>
      have : k' = k := Nat.le_antisymm (hmax k' hk' hd' hfit') (hmax' k hk hd hfit)
      subst this
      rw [ih _ h']

/-- A call that returns is the addition of a list of disjoint blocks that depends on the call only. -/
theorem Step_cidrs (merge : V → V → V) (op : Op V) (h4 : IPv4Args op) (hs : ∃ t t', Step merge t op t') :
    ∃ cs : List Cidr, (∀ c ∈ cs, Cidr4 c) ∧ cs.Pairwise (fun c d => ∀ a, c.Has a → ¬ d.Has a) ∧
      (∀ c ∈ cs, ∀ a, c.Has a → Adds a op) ∧
      ∀ t t', Step merge t op t' → t' = (cs.map fun c => (c, valueOf op)).foldl (addTo merge) t := by
  cases op with
  | addIp ip x =>
    obtain ⟨u, hu⟩ := h4
    refine ⟨[⟨u, 32⟩], by simpa [Cidr4] using IPv4_lt hu, by simp, ?_, ?_⟩
    · intro c hc a ha
      rw [List.mem_singleton] at hc
      subst hc
      simp only [Cidr.Has, Nat.sub_self, Nat.pow_zero, Nat.div_one] at ha
      rw [ha]; exact hu
    · intro t t' h
      obtain ⟨pos, hp, e⟩ := AddIp_eq merge t hu x
      have h : AddIp merge t ip x = .ok t' := h
      rw [e, add_eq merge 32 t pos 32#8 0#8 x rfl, hp] at h
      cases h
      rfl
  | addCidr n x =>
    obtain ⟨⟨u, hu⟩, hl, ones, hc⟩ := h4
    have hlt := IPv4_lt hu
    refine ⟨[⟨u, ones⟩], by simpa [Cidr4] using hlt, by simp, ?_, ?_⟩
    · intro c hcm a ha
      rw [List.mem_singleton] at hcm
      subst hcm
      have ha' := has_lt (c := ⟨u, ones⟩) hlt ha
      exact (contains_iff hu hl hc a).mpr ⟨ha', ha⟩
    · intro t t' h
      have h : AddCidr merge t n x = .ok t' := h
      rw [AddCidr_addTo merge t hu hl hc x] at h
      cases h
      rfl
  | addRange s e x =>
    obtain ⟨⟨us, hus⟩, ue, hue⟩ := h4
    have hlt := IPv4_lt hue
    have get : ∀ t t', Step merge t (.addRange s e x) t' → ∃ ns : List IPNet, (∀ n ∈ ns, CanonicalNet n) ∧
        Greedy ue us (ns.map cidrOf) ∧ Runs merge t (ns.map fun n => .addCidr n x) t' := by
      intro t t' hstep
      obtain ⟨ps, pe, hps, hpe, eq⟩ := AddRange_eq merge t hus hue
      obtain ⟨fuel, hf⟩ := hstep
      rw [eq] at hf
      have hf : rangeLoop merge pe x fuel ps t = some t' := by injection hf
      by_cases hne : pe = 0xffffffff#32
      · rw [hne, rangeLoop_forever] at hf; cases hf
      · have := rangeLoop_greedy merge pe hne x fuel ps t t' hf
        rwa [hps, hpe] at this
    obtain ⟨t, t', hstep⟩ := hs
    obtain ⟨ns, h1, h2, _⟩ := get t t' hstep
    obtain ⟨h3, h3'⟩ := Greedy_pairwise h2
    refine ⟨ns.map cidrOf, ?_, h3', ?_, ?_⟩
    · intro c hc
      obtain ⟨n, hn, rfl⟩ := List.mem_map.mp hc
      obtain ⟨hl, _⟩ := h1 n hn
      exact IPv4_lt (IPv4_of_len4 hl)
    · intro c hc a ha
      have := (h3 c hc).2 a ha
      exact ⟨us, ue, hus, hue, this.1, this.2⟩
    · intro t t' hstep
      obtain ⟨ns', g1, g2, g3⟩ := get t t' hstep
      rw [Runs_cidrs merge x ns' t t' g1 g3, Greedy_unique h2 _ g2]
      rfl

theorem Runs_cidrs_all (merge : V → V → V) (cs : Op V → List Cidr) : ∀ (ops : List (Op V)) (t t' : Node V),
    (∀ op ∈ ops, ∀ t t', Step merge t op t' → t' = ((cs op).map fun c => (c, valueOf op)).foldl (addTo merge) t) →
    Runs merge t ops t' → t' = (ops.flatMap fun op => (cs op).map fun c => (c, valueOf op)).foldl (addTo merge) t
  | [], _, _, _, h => h
  | op :: ops, t, t', hs, h => by
    obtain ⟨t1, h1, h2⟩ := h
    rw [List.flatMap_cons, List.foldl_append, ← hs op (by simp) t t1 h1]
    exact Runs_cidrs_all merge cs ops t1 t' (fun op hop => hs op (by simp [hop])) h2

theorem Runs_step {merge : V → V → V} : ∀ (ops : List (Op V)) (t t' : Node V), Runs merge t ops t' →
    ∀ op ∈ ops, ∃ t t', Step merge t op t'
  | [], _, _, _, _, h => by cases h
  | op :: ops, t, t', h, op', hop => by
    obtain ⟨t1, h1, h2⟩ := h
    rcases List.mem_cons.mp hop with rfl | hop
    · exact ⟨t, t1, h1⟩
    · exact Runs_step ops t1 t' h2 op' hop

theorem Runs_perm (merge : V → V → V) {ops ops' : List (Op V)} (hp : ops.Perm ops') (h4 : ∀ op ∈ ops, IPv4Args op)
    (hd : ops.Pairwise fun p q => ∀ a, Adds a p → ¬ Adds a q) {t t' : Node V} (h : Runs merge .none ops t)
    (h' : Runs merge .none ops' t') : t = t' := by
  have key : ∀ op : Op V, ∃ cs : List Cidr, op ∈ ops → ((∀ c ∈ cs, Cidr4 c) ∧
      cs.Pairwise (fun c d => ∀ a, c.Has a → ¬ d.Has a) ∧ (∀ c ∈ cs, ∀ a, c.Has a → Adds a op) ∧
      ∀ t t', Step merge t op t' → t' = (cs.map fun c => (c, valueOf op)).foldl (addTo merge) t) := by
    intro op
    by_cases hop : op ∈ ops
    · obtain ⟨cs, hcs⟩ := Step_cidrs merge op (h4 op hop) (Runs_step ops _ _ h op hop)
      exact ⟨cs, fun _ => hcs⟩
    · exact ⟨[], fun h => absurd h hop⟩
  choose cs hcs using key
  rw [Runs_cidrs_all merge cs ops _ _ (fun op hop => (hcs op hop).2.2.2) h,
    Runs_cidrs_all merge cs ops' _ _ (fun op hop => (hcs op (hp.mem_iff.mpr hop)).2.2.2) h']
  apply foldl_perm merge (hp.flatMap_right _) .none trivial
  · intro c hc
    obtain ⟨op, hop, hc⟩ := List.mem_flatMap.mp hc
    obtain ⟨c', hc', rfl⟩ := List.mem_map.mp hc
    exact (hcs op hop).1 c' hc'
  · rw [List.pairwise_flatMap]
    constructor
    · intro op hop
      rw [List.pairwise_map]
      exact (hcs op hop).2.1
    · apply hd.imp_of_mem
      intro p q hp' hq' hpq c hc d hd' a ha hb
      obtain ⟨c', hc', rfl⟩ := List.mem_map.mp hc
      obtain ⟨d', hdm, rfl⟩ := List.mem_map.mp hd'
      exact hpq a ((hcs p hp').2.2.1 c' hc' a ha) ((hcs q hq').2.2.1 d' hdm a hb)
  · intro c _ a _ hm
    exact hm

/-! ## The number of blocks -/

/-- The number of `all` nodes. -/
def count : Node V → Nat
  | .all _ => 1
  | .none => 0
  | .tree l r => count l + count r

theorem count_mkNode (merge : V → V → V) (l r : Node V) : count (mkNode merge l r) ≤ count l + count r := by
  cases l <;> cases r <;> simp [mkNode, count]

theorem count_addN (merge : V → V → V) (h : Nat) : ∀ (t : Node V) (p e : Nat) (x : V),
    count (addN merge t p h e x) ≤ count t + 1 := by
  induction h with
  | zero => intro t p e x; cases t <;> simp [addN, count]
  | succ h ih =>
    intro t p e x
    cases t with
    | all v => simp [addN, count]
    | none =>
      rw [addN]
      have h1 := ih .none p e x
      split
      · simp [count]
      · split
        · exact Nat.le_trans (count_mkNode merge _ _) (by simp only [count] at *; omega)
        · exact Nat.le_trans (count_mkNode merge _ _) (by simp only [count] at *; omega)
    | tree l r =>
      rw [addN]
      have h1 := ih l p e x
      have h2 := ih r p e x
      split
      · simp [count]
      · split
        · exact Nat.le_trans (count_mkNode merge _ _) (by simp only [count] at *; omega)
        · exact Nat.le_trans (count_mkNode merge _ _) (by simp only [count] at *; omega)

theorem ListCidr_count (t : Node V) : (ListCidr t).length = count t := by
  have : ∀ (t : Node V) (p : U32) (m : U8), (t.each p m).length = count t := by
    intro t
    induction t with
    | all v => intro p m; rfl
    | none => intro p m; rfl
    | tree l r ihl ihr => intro p m; rw [Node.each, List.length_append, ihl, ihr, count]
  rw [ListCidr, List.length_map, this]

theorem count_foldl (merge : V → V → V) : ∀ (L : List (Cidr × V)) (t : Node V), count (L.foldl (addTo merge) t) ≤ count t + L.length
  | [], t => by simp
  | c :: L, t => by
    have h1 := count_foldl merge L (addTo merge t c)
    have h2 : count (addTo merge t c) ≤ count t + 1 := count_addN merge 32 t _ _ _
    rw [List.foldl_cons, List.length_cons]; omega

theorem count_step {merge : V → V → V} {op : Op V} (h4 : IPv4Args op) {t t' : Node V} (h : Step merge t op t') :
    count t' ≤ count t + mostAdded op := by
  cases op with
  | addIp ip x =>
    obtain ⟨u, hu⟩ := h4
    obtain ⟨pos, hp, e⟩ := AddIp_eq merge t hu x
    have h : AddIp merge t ip x = .ok t' := h
    rw [e, add_eq merge 32 t pos 32#8 0#8 x rfl] at h
    cases h
    exact count_addN merge 32 t _ _ _
  | addCidr n x =>
    obtain ⟨⟨u, hu⟩, hl, ones, hc⟩ := h4
    have h : AddCidr merge t n x = .ok t' := h
    rw [AddCidr_addTo merge t hu hl hc x] at h
    cases h
    exact count_addN merge 32 t _ _ _
  | addRange s e x =>
    obtain ⟨⟨us, hus⟩, ue, hue⟩ := h4
    obtain ⟨ps, pe, hps, hpe, eq⟩ := AddRange_eq merge t hus hue
    obtain ⟨fuel, hf⟩ := h
    rw [eq] at hf
    have hf : rangeLoop merge pe x fuel ps t = some t' := by injection hf
    by_cases hne : pe = 0xffffffff#32
    · rw [hne, rangeLoop_forever] at hf; cases hf
    · obtain ⟨ns, g1, g2, g3⟩ := rangeLoop_greedy merge pe hne x fuel ps t t' hf
      have hlt : pe.toNat + 1 < 2 ^ 32 := by
        have := pe.isLt
        rcases Nat.lt_or_ge (pe.toNat + 1) (2 ^ 32) with h | h
        · exact h
        · exact absurd (BitVec.eq_of_toNat_eq (by show _ = 4294967295; omega)) hne
      have hlen := Greedy_length_le g2 hlt
      rw [Runs_cidrs merge x ns t t' g1 g3]
      have := count_foldl merge ((ns.map cidrOf).map fun c => (c, x)) t
      rw [List.length_map] at this
      show _ ≤ _ + 62
      omega

end Net
