import Verif.Lemmas.IpCallback

/-!
# The IP tree with a callback that may panic and does nothing else
-/
namespace Net
open NetSpec
variable {V σ : Type}

/-- A callback that returns `some` or panics (`none`), and changes nothing. -/
def partialMerge (m : V → V → Option V) : V → V → Eff σ V := fun a b s => (m a b, s)

/-- It changes nothing. -/
def Eff.Still {α : Type} (q : Eff σ α) : Prop := ∀ s, (q s).2 = s

theorem Eff.Still.bind {α β : Type} {q : Eff σ α} {f : α → Eff σ β} (hq : q.Still) (hf : ∀ a, (f a).Still) : (q >>= f).Still := by
  intro s
  have := hq s
  match h : q s with
  | (some a, s1) =>
    rw [h] at this
    rw [Eff.bind_some h]
    exact (hf a s1).trans this
  | (none, s1) =>
    rw [h] at this
    rw [Eff.bind_none h]
    exact this

theorem eval_still (m : V → V → Option V) : ∀ e : Expr V, (e.eval (σ := σ) (partialMerge m)).Still
  | .leaf _ => fun _ => rfl
  | .join a b => (eval_still m a).bind fun _ => (eval_still m b).bind fun _ _ => rfl

theorem evalN_still (m : V → V → Option V) : ∀ n : Node (Expr V), (evalN (σ := σ) (partialMerge m) n).Still
  | .all e => (eval_still m e).bind fun _ _ => rfl
  | .none => fun _ => rfl
  | .tree l r => (evalN_still m l).bind fun _ => (evalN_still m r).bind fun _ _ => rfl

theorem addC_still (m : V → V → Option V) (t : Node V) (pos : U32) (e : U8) (x : V) : (addC (σ := σ) (partialMerge m) t pos 32#8 e x).Still := by
  rw [addC_eq _ 32 t pos 32#8 e x rfl]
  exact evalN_still m _

theorem mem_shape {W : Type} : ∀ (t : Node V) (t' : Node W) (h a : Nat), shape t = shape t' → (mem t h a ↔ mem t' h a)
  | .all _, t', h, a, e => by
    obtain ⟨v, rfl⟩ := shape_all e.symm
    cases h <;> rfl
  | .none, t', h, a, e => by
    obtain rfl := shape_none e.symm
    cases h <;> rfl
  | .tree l r, t', h, a, e => by
    cases t' with
    | all v => cases e
    | none => cases e
    | tree l' r' =>
      injection e with e1 e2
      cases h with
      | zero => rfl
      | succ h =>
        rw [mem, mem]
        split
        · exact mem_shape r r' h a e2
        · exact mem_shape l l' h a e1

section
variable {m : V → V → Option V} {r r' : Node V}

/-- An assignment to the root that ends. -/
theorem assignC_partial {pos : U32} {e : U8} {x : V} {o : Option Unit} (hn : Norm r 32)
    (h : assignC (partialMerge m) pos e x (r, ()) = (o, (r', ()))) : Norm r' 32 ∧ (o = none → r' = r) ∧
      (o = some () → ∀ a, a < 2 ^ 32 → (mem r' 32 a ↔ mem r 32 a ∨ a / 2 ^ e.toNat = pos.toNat / 2 ^ e.toNat)) := by
  rw [assignC] at h
  split at h
  · rename_i root s' h1
    cases h
    refine ⟨addC_norm _ r hn pos e x h1, nofun, fun _ a ha => ?_⟩
    rw [addC_eq _ 32 r pos 32#8 e x rfl] at h1
    rw [mem_shape _ _ 32 a (evalN_shape _ _ _ _ _ h1), add_mem _ _ (Norm_shape 32 r r.leaves (shape_leaves r).symm hn) _ _ _ a ha,
      mem_leaves_iff]
  · rename_i s' h1
    cases h
    have := addC_still m r pos e x (r, ())
    dsimp only at h1
    rw [h1] at this
    cases this
    exact ⟨hn, fun _ => rfl, nofun⟩

/-- One turn of the loop of `AddRange` (`range_turn`), for any end. -/
theorem range_turn_any {fuel : Nat} {u uEnd m : U32} (h : shrink u uEnd fuel ((u - 1#32) &&& ~~~u) = some m) : ∃ j, j ≤ 32 ∧
      (bitCount m 0#8).toNat = j ∧ u.toNat + 2 ^ j ≤ uEnd.toNat + 1 ∧
      ((u + (m + 1#32)).toNat = u.toNat + 2 ^ j ∨ u + (m + 1#32) = 0#32 ∧ uEnd = 0xffffffff#32) ∧
      ∀ a, a / 2 ^ j = u.toNat / 2 ^ j ↔ u.toNat ≤ a ∧ a < u.toNat + 2 ^ j := by
  by_cases hne : uEnd = 0xffffffff#32
  · subst hne
    obtain ⟨k, hk, hd, hm0⟩ := initial_m u
    obtain ⟨j, hj, hm, hend⟩ := shrink_some u _ fuel _ m k hk hd hm0 h
    have hdj : 2 ^ j ∣ u.toNat := Dvd.dvd.trans (Nat.pow_dvd_pow 2 hj) hd
    have hp : 0 < 2 ^ j := Nat.pow_pos (by omega)
    have hroom := dvd_room (by omega) hdj u.isLt
    refine ⟨j, by omega, ?_, by simp; omega, ?_, ?_⟩
    · rw [bitCount_eq j m _ hm]; simp; omega
    · have hs : (u + (m + 1#32)).toNat = (u.toNat + 2 ^ j - 1 + 1) % 2 ^ 32 := by
        rw [← BitVec.add_assoc, BitVec.toNat_add, sum_toNat u m (by omega) hdj hm]
        rfl
      rw [show u.toNat + 2 ^ j - 1 + 1 = u.toNat + 2 ^ j by omega] at hs
      rcases Nat.lt_or_ge (u.toNat + 2 ^ j) (2 ^ 32) with hlt | hge
      · left
        rw [hs, Nat.mod_eq_of_lt hlt]
      · right
        refine ⟨BitVec.eq_of_toNat_eq ?_, rfl⟩
        rw [hs, show u.toNat + 2 ^ j = 2 ^ 32 by omega]
        rfl
    · intro a
      obtain ⟨q, hq⟩ := hdj
      rw [hq, Nat.mul_div_cancel_left _ hp, Nat.div_eq_iff hp]
      rw [Nat.mul_comm q]
      omega
  · obtain ⟨j, h1, _, h3, h4, h5, h6⟩ := range_turn hne h
    exact ⟨j, h1, h3, h4, .inl h5, h6⟩

/-- Once the start has wrapped around to 0.0.0.0 the loop neither returns nor panics. -/
theorem rangeLoopC_wrapped (merge : V → V → Eff (Node V × σ) V) (x : V) (fuel : Nat) : ∀ s : Node V × σ,
    rangeLoopC merge 0xffffffff#32 x fuel 0#32 s = none := by
  have hs : ∀ fuel, shrink 0#32 0xffffffff#32 fuel ((0#32 - 1#32) &&& ~~~0#32) = some 0xffffffff#32 := by
    intro fuel
    cases fuel <;> rfl
  have hb : bitCount 0xffffffff#32 0#8 = 32#8 := bitCount_eq 32 _ _ rfl
  have ha : ∀ s : Node V × σ, ∃ root, addC merge s.1 0#32 32#8 32#8 x s = (some root, s) := by
    rintro ⟨t, w⟩
    cases t <;> (rw [addC.eq_def]; exact ⟨_, rfl⟩)
  induction fuel with
  | zero => intro s; rfl
  | succ fuel ih =>
    intro s
    rw [rangeLoopC, if_pos (by decide), hs]
    dsimp only
    obtain ⟨root, hr⟩ := ha s
    rw [hb, assignC_some merge hr]
    exact ih _

theorem rangeLoopC_partial (uEnd : U32) (x : V) (fuel : Nat) : ∀ (u : U32) (r r' : Node V) (o : Option Unit), Norm r 32 →
    rangeLoopC (partialMerge m) uEnd x fuel u (r, ()) = some (o, (r', ())) → Norm r' 32 ∧
      ∀ a, a < 2 ^ 32 → (mem r 32 a → mem r' 32 a) ∧ (o = some () → u.toNat ≤ a ∧ a ≤ uEnd.toNat → mem r' 32 a) ∧
        (mem r' 32 a → mem r 32 a ∨ (u.toNat ≤ a ∧ a ≤ uEnd.toNat)) := by
  have hdone : ∀ (u : U32) (r : Node V), Norm r 32 → ¬ u ≤ uEnd → Norm r 32 ∧
      ∀ a, a < 2 ^ 32 → (mem r 32 a → mem r 32 a) ∧ (some () = some () → u.toNat ≤ a ∧ a ≤ uEnd.toNat → mem r 32 a) ∧
        (mem r 32 a → mem r 32 a ∨ (u.toNat ≤ a ∧ a ≤ uEnd.toNat)) := by
    intro u r hn hc
    rw [BitVec.le_def] at hc
    exact ⟨hn, fun a _ => ⟨id, fun _ h => by omega, .inl⟩⟩
  induction fuel with
  | zero =>
    intro u r r' o hn h
    rw [rangeLoopC] at h
    split at h
    · cases h
    · rename_i hc; cases h
      exact hdone u _ hn hc
  | succ fuel ih =>
    intro u r r' o hn h
    rw [rangeLoopC] at h
    split at h
    · split at h
      · cases h
      · rename_i m' hm
        obtain ⟨j, hj, hb, hend, hnext, hblk⟩ := range_turn_any hm
        have hp : 0 < 2 ^ j := Nat.pow_pos (by omega)
        dsimp only at h
        split at h
        · rename_i h1
          cases h
          obtain ⟨k1, k2, _⟩ := assignC_partial hn h1
          cases k2 rfl
          exact ⟨hn, fun a _ => ⟨id, nofun, .inl⟩⟩
        · rename_i s1 h1
          obtain ⟨r1, ⟨⟩⟩ := s1
          obtain ⟨k1, _, k3⟩ := assignC_partial hn h1
          rcases hnext with hnext | ⟨hz, rfl⟩
          · obtain ⟨i1, i2⟩ := ih _ _ _ _ k1 h
            refine ⟨i1, fun a ha => ?_⟩
            obtain ⟨j1, j2, j3⟩ := i2 a ha
            have k := k3 rfl a ha
            rw [hb, hblk] at k
            rw [hnext] at j2 j3
            refine ⟨fun h => j1 (k.mpr (.inl h)), fun ho h => ?_, fun h => ?_⟩
            · by_cases hlt : a < u.toNat + 2 ^ j
              · exact j1 (k.mpr (.inr ⟨h.1, hlt⟩))
              · exact j2 ho ⟨by omega, h.2⟩
            · rcases j3 h with h | h
              · rcases k.mp h with h | h
                · exact .inl h
                · exact .inr ⟨h.1, by omega⟩
              · exact .inr ⟨by omega, h.2⟩
          · rw [hz, rangeLoopC_wrapped] at h
            cases h
    · rename_i hc; cases h
      exact hdone u _ hn hc

/-- What a call that ends does to the addresses. -/
theorem StepC_partial {op : Op V} {o : Option Unit} (hn : Norm r 32) (h : StepC (partialMerge m) (r, ()) op o (r', ())) : Norm r' 32 ∧
    (o = none → (∃ a e x, op = .addRange a e x) ∨ r' = r) ∧
    (IPv4Args op → ∀ a, a < 2 ^ 32 → (mem r 32 a → mem r' 32 a) ∧ (o = some () → Adds a op → mem r' 32 a) ∧
      (mem r' 32 a → mem r 32 a ∨ Adds a op)) := by
  have key : ∀ (op : Op V) (pos : U32) (e : U8) (x : V), assignC (partialMerge m) pos e x (r, ()) = (o, (r', ())) →
      (IPv4Args op → ∀ a, a < 2 ^ 32 → (Adds a op ↔ a / 2 ^ e.toNat = pos.toNat / 2 ^ e.toNat)) → Norm r' 32 ∧
        (o = none → (∃ a e x, op = .addRange a e x) ∨ r' = r) ∧
        (IPv4Args op → ∀ a, a < 2 ^ 32 → (mem r 32 a → mem r' 32 a) ∧ (o = some () → Adds a op → mem r' 32 a) ∧
          (mem r' 32 a → mem r 32 a ∨ Adds a op)) := by
    intro op pos e x h hop
    obtain ⟨k1, k2, k3⟩ := assignC_partial hn h
    refine ⟨k1, fun ho => .inr (k2 ho), fun h4 a ha => ?_⟩
    rw [hop h4 a ha]
    cases o with
    | none =>
      cases k2 rfl
      exact ⟨id, nofun, .inl⟩
    | some u =>
      rw [k3 rfl a ha]
      exact ⟨.inl, fun _ => .inr, id⟩
  cases op with
  | addIp ip x =>
    obtain ⟨v, hv⟩ := Ipv4ToUint_total ip
    have h : AddIpC _ ip x (r, ()) = _ := h
    rw [AddIpC, hv] at h
    refine key (.addIp ip x) v 0#8 x h ?_
    rintro ⟨u, hu⟩ a ha
    obtain ⟨v', hv', e⟩ := Ipv4ToUint_of hu
    rw [hv] at hv'
    cases hv'
    simp only [Adds, BitVec.toNat_ofNat, Nat.zero_mod, Nat.pow_zero, Nat.div_one, e]
    constructor
    · exact fun h => IPv4_unique h hu
    · rintro rfl
      exact hu
  | addCidr c x =>
    obtain ⟨v, hv⟩ := Ipv4ToUint_total c.ip
    have h : AddCidrC _ (some c) x (r, ()) = _ := h
    rw [AddCidrC] at h
    simp only [hv] at h
    refine key (.addCidr c x) v _ x h ?_
    rintro ⟨⟨u, hu⟩, hl, ones, hc⟩ a ha
    obtain ⟨v', hv', e'⟩ := Ipv4ToUint_of hu
    rw [hv] at hv'
    cases hv'
    rw [Adds, contains_iff hu hl hc, show (32#8 - MaskToByte c.mask).toNat = 32 - ones from ?_, e']
    · simp only [ha, true_and]
    · have hle := Contiguous_le hc
      rw [hl] at hle
      rw [MaskToByte_of hc, BitVec.toNat_sub_of_le (by rw [BitVec.le_def]; simp; omega)]
      simp
      omega
  | addRange s e x =>
    obtain ⟨v, hv⟩ := Ipv4ToUint_total s
    obtain ⟨w, hw⟩ := Ipv4ToUint_total e
    obtain ⟨fuel, h⟩ := h
    rw [AddRangeC, hv, hw] at h
    obtain ⟨k1, k2⟩ := rangeLoopC_partial w x fuel v r r' o hn h
    refine ⟨k1, fun _ => .inl ⟨_, _, _, rfl⟩, ?_⟩
    rintro ⟨⟨us, hs⟩, ue, he⟩ a ha
    obtain ⟨v', hv', e1⟩ := Ipv4ToUint_of hs
    obtain ⟨w', hw', e2⟩ := Ipv4ToUint_of he
    rw [hv] at hv'
    rw [hw] at hw'
    cases hv'
    cases hw'
    obtain ⟨j1, j2, j3⟩ := k2 a ha
    rw [e1, e2] at j2 j3
    refine ⟨j1, ?_, fun h => ?_⟩
    · rintro ho ⟨us', ue', hs', he', h1, h2⟩
      rw [IPv4_unique hs' hs] at h1
      rw [IPv4_unique he' he] at h2
      exact j2 ho ⟨h1, h2⟩
    · rcases j3 h with h | h
      · exact .inl h
      · exact .inr ⟨us, ue, hs, he, h.1, h.2⟩

end

/-- More steps change nothing. -/
theorem shrink_more {u uEnd m' : U32} (fuel : Nat) : ∀ (k : Nat) (m : U32), shrink u uEnd fuel m = some m' → shrink u uEnd (fuel + k) m = some m' := by
  induction fuel with
  | zero =>
    intro k m h
    rw [shrink] at h
    split at h
    · cases h
    · rename_i hc
      cases k with
      | zero => rw [shrink, if_neg hc]; exact h
      | succ k => rw [Nat.zero_add, shrink, if_neg hc]; exact h
  | succ fuel ih =>
    intro k m h
    rw [shrink] at h
    rw [Nat.add_right_comm, shrink]
    split
    · rename_i hc
      rw [if_pos hc] at h
      exact ih k _ h
    · rename_i hc
      rw [if_neg hc] at h
      exact h

theorem rangeLoopC_more (merge : V → V → Eff (Node V × σ) V) (uEnd : U32) (x : V) (fuel : Nat) : ∀ (k : Nat) (u : U32) (s : Node V × σ) (r : _),
    rangeLoopC merge uEnd x fuel u s = some r → rangeLoopC merge uEnd x (fuel + k) u s = some r := by
  induction fuel with
  | zero =>
    intro k u s r h
    rw [rangeLoopC] at h
    split at h
    · cases h
    · rename_i hc
      cases k with
      | zero => rw [rangeLoopC, if_neg hc]; exact h
      | succ k => rw [Nat.zero_add, rangeLoopC, if_neg hc]; exact h
  | succ fuel ih =>
    intro k u s r h
    rw [rangeLoopC] at h
    rw [Nat.add_right_comm, rangeLoopC]
    split
    · rename_i hc
      rw [if_pos hc] at h
      split at h
      · cases h
      · rename_i m hm
        rw [shrink_more fuel k _ hm]
        dsimp only at h ⊢
        split at h
        · exact h
        · exact ih k _ _ _ h
    · rename_i hc
      rw [if_neg hc] at h
      exact h

/-- A call ends in one way only. -/
theorem StepC_unique {merge : V → V → Eff (Node V × σ) V} {s s₁ s₂ : Node V × σ} {op : Op V} {o₁ o₂ : Option Unit}
    (h₁ : StepC merge s op o₁ s₁) (h₂ : StepC merge s op o₂ s₂) : o₁ = o₂ ∧ s₁ = s₂ := by
  cases op with
  | addIp ip x =>
    have := (show AddIpC merge ip x s = _ from h₁).symm.trans h₂
    simpa using this
  | addCidr c x =>
    have := (show AddCidrC merge (some c) x s = _ from h₁).symm.trans h₂
    simpa using this
  | addRange a e x =>
    obtain ⟨v, hv⟩ := Ipv4ToUint_total a
    obtain ⟨w, hw⟩ := Ipv4ToUint_total e
    obtain ⟨f₁, h₁⟩ := h₁
    obtain ⟨f₂, h₂⟩ := h₂
    rw [AddRangeC, hv, hw] at h₁ h₂
    have h₁ := rangeLoopC_more merge w x f₁ f₂ v s _ h₁
    have h₂ := rangeLoopC_more merge w x f₂ f₁ v s _ h₂
    rw [Nat.add_comm, h₁] at h₂
    simpa using h₂

/-- A call ends, unless it is for a range that ends at 255.255.255.255. -/
theorem StepC_ends (merge : V → V → Eff (Node V × σ) V) (s : Node V × σ) {op : Op V}
    (h : ∀ a e v, op = .addRange a e v → ¬ IPv4 e 0xffffffff) : ∃ o s', StepC merge s op o s' := by
  cases op with
  | addIp ip x => exact ⟨(AddIpC merge ip x s).1, (AddIpC merge ip x s).2, rfl⟩
  | addCidr c x => exact ⟨(AddCidrC merge (some c) x s).1, (AddCidrC merge (some c) x s).2, rfl⟩
  | addRange a e x =>
    obtain ⟨v, hv⟩ := Ipv4ToUint_total a
    obtain ⟨w, hw⟩ := Ipv4ToUint_total e
    have hne : w ≠ 0xffffffff#32 := by
      rintro rfl
      by_cases he : ∃ u, IPv4 e u
      · obtain ⟨u, hu⟩ := he
        obtain ⟨w, hw', e'⟩ := Ipv4ToUint_of hu
        rw [hw'] at hw; cases hw
        rw [← e'] at hu
        exact h a e x rfl hu
      · rw [Ipv4ToUint_not he] at hw; cases hw
    obtain ⟨⟨o, s'⟩, hr⟩ := rangeLoopC_ends merge w hne x _ v s (Nat.le_refl _)
    exact ⟨o, s', _, by rw [AddRangeC, hv, hw]; exact hr⟩

/-- A list from a tree in normal form: ascending, well-formed, and as short as possible. -/
theorem ListCidr_norm (t : Node V) (hn : Norm t 32) :
    ((ListCidr t).Pairwise fun x y => ∀ a b, Contains x.1 a → Contains y.1 b → a < b) ∧ (∀ c ∈ ListCidr t, CanonicalNet c.1) ∧
    ∀ C : List IPNet, (∀ c ∈ C, IPv4Net c) → (∀ a, (∃ c ∈ C, Contains c a) ↔ ∃ c ∈ ListCidr t, Contains c.1 a) → (ListCidr t).length ≤ C.length := by
  refine ⟨?_, ?_, fun C hC hs => ListCidr_minimal t hn C hC fun a ha => ?_⟩
  · rw [ListCidr_blocks t hn, List.pairwise_map]
    have hs := blocks_sorted 32 t 0 (by simp)
    refine List.Pairwise.imp_of_mem ?_ hs
    intro x y hx hy hxy a b ha hb
    obtain ⟨x1, x2, x3, x4⟩ := block_ok hx
    obtain ⟨y1, y2, y3, y4⟩ := block_ok hy
    rw [blockNet_contains _ _ _ x3 x1 x2] at ha
    rw [blockNet_contains _ _ _ y3 y1 y2] at hb
    omega
  · intro c hc
    rw [ListCidr_blocks t hn] at hc
    obtain ⟨b, hb, rfl⟩ := List.mem_map.mp hc
    obtain ⟨h1, ⟨q, hq⟩, h3, h4⟩ := block_ok hb
    exact blockNet_canonical _ _ h3 h1 ⟨q, hq⟩
  · rw [hs a, ListCidr_contains t hn]
    simp only [ha, true_and]

end Net
