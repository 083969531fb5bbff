import Verif.Model.NetZero
import Verif.Props.NetCallback

/-!
# Property C85: the zero value of `Tree`, nil trees
-/
namespace Net
open NetSpec

variable {V : Type}

/-- The node that a root stands for: a nil interface stands for an empty tree. -/
def asNode (z : Option (Node V)) : Node V := z.getD .none

/-- Two calls that change no state and have the same result. -/
def Eff.Same {σ τ α : Type} (m : Eff σ α) (n : Eff τ α) : Prop := ∃ o, (∀ s, m s = (o, s)) ∧ ∀ s, n s = (o, s)

theorem Eff.Same.bind {σ τ α β : Type} {m : Eff σ α} {n : Eff τ α} {f : α → Eff σ β} {g : α → Eff τ β} (h : Same m n)
    (h' : ∀ a, Same (f a) (g a)) : Same (m >>= f) (n >>= g) := by
  obtain ⟨o, h1, h2⟩ := h
  cases o with
  | none => exact ⟨none, fun s => Eff.bind_none (h1 s), fun s => Eff.bind_none (h2 s)⟩
  | some a =>
    obtain ⟨o', h3, h4⟩ := h' a
    exact ⟨o', fun s => (Eff.bind_some (h1 s)).trans (h3 s), fun s => (Eff.bind_some (h2 s)).trans (h4 s)⟩

theorem Eff.Same.pure {σ τ α : Type} (a : α) : Same (pure a : Eff σ α) (pure a : Eff τ α) := ⟨some a, fun _ => rfl, fun _ => rfl⟩

theorem eval_same {σ τ : Type} (e : Expr V) : Eff.Same (e.eval (nilMerge (σ := σ))) (e.eval (nilMerge (σ := τ))) := by
  induction e with
  | leaf v => exact .pure v
  | join a b iha ihb => exact iha.bind fun x => ihb.bind fun y => ⟨none, fun _ => rfl, fun _ => rfl⟩

theorem evalN_same {σ τ : Type} (t : Node (Expr V)) : Eff.Same (evalN (nilMerge (σ := σ)) t) (evalN (nilMerge (σ := τ)) t) := by
  induction t with
  | all e => exact (eval_same e).bind fun v => .pure _
  | none => exact .pure _
  | tree l r ihl ihr => exact ihl.bind fun l => ihr.bind fun r => .pure _

theorem addC_same {σ τ : Type} (p : Node V) (pos : U32) (m e : U8) (v : V) :
    Eff.Same (addC (nilMerge (σ := σ)) p pos m e v) (addC (nilMerge (σ := τ)) p pos m e v) := by
  rw [addC_eq _ _ p pos m e v rfl, addC_eq _ _ p pos m e v rfl]
  exact evalN_same _

theorem addZ_eq (z : Option (Node V)) (pos : U32) (m e : U8) (v : V) :
    addZ z pos m e v = (addC nilMerge (asNode z) pos m e v ()).1 := by
  cases z with
  | some p => rfl
  | none =>
    rw [asNode, Option.getD_none, addC, addZ]
    split
    · rfl
    · dsimp only
      match hm : addC (nilMerge (σ := Unit)) Node.none pos (m - 1#8) e v () with
      | (some x, ()) =>
        split
        · rw [Eff.bind_some hm]
        · rw [Eff.bind_some hm]
      | (none, ()) =>
        split
        · rw [Eff.bind_none hm]
        · rw [Eff.bind_none hm]

theorem assignC_none {σ : Type} {merge : V → V → Eff (Node V × σ) V} {pos : U32} {e : U8} {x : V} {s s' : Node V × σ}
    (h : addC merge s.1 pos 32#8 e x s = (none, s')) : assignC merge pos e x s = (none, s') := by
  rw [assignC, h]

theorem assignZ_some {pos : U32} {e : U8} {x : V} {z : Option (Node V)} {r : Node V} (h : addZ z pos 32#8 e x = some r) :
    assignZ pos e x (some z) = (some (), some (some r)) := by
  simp only [assignZ]; rw [h]

theorem assignZ_none {pos : U32} {e : U8} {x : V} {z : Option (Node V)} (h : addZ z pos 32#8 e x = none) :
    assignZ pos e x (some z) = (none, some z) := by
  simp only [assignZ]; rw [h]

theorem addZ_addC (z : Option (Node V)) (pos : U32) (m e : U8) (v : V) :
    (∃ r, r ≠ .none ∧ addZ z pos m e v = some r ∧ ∀ s : Node V × Unit, addC nilMerge (asNode z) pos m e v s = (some r, s)) ∨
    (addZ z pos m e v = none ∧ ∀ s : Node V × Unit, addC nilMerge (asNode z) pos m e v s = (none, s)) := by
  obtain ⟨o, h1, h2⟩ := addC_same (σ := Unit) (τ := Node V × Unit) (asNode z) pos m e v
  have a1 : addZ z pos m e v = o := by rw [addZ_eq, h1]
  have a3 := addC_not_none nilMerge (asNode z) pos m e v () ()
  rw [h1] at a3
  cases o with
  | none => exact .inr ⟨a1, h2⟩
  | some r => exact .inl ⟨r, fun hr => a3 (by rw [hr]), a1, h2⟩

/-- One assignment: as for the tree made by `New`. -/
theorem assignZ_eq (pos : U32) (e : U8) (v : V) (z : Option (Node V)) :
    (∃ r, r ≠ .none ∧ assignZ pos e v (some z) = (some (), some (some r)) ∧
      assignC (σ := Unit) nilMerge pos e v (asNode z, ()) = (some (), (r, ()))) ∨
    (assignZ pos e v (some z) = (none, some z) ∧ assignC (σ := Unit) nilMerge pos e v (asNode z, ()) = (none, (asNode z, ()))) := by
  rcases addZ_addC z pos 32#8 e v with ⟨r, hr, h1, h2⟩ | ⟨h1, h2⟩
  · exact .inl ⟨r, hr, assignZ_some h1, assignC_some nilMerge (s := (asNode z, ())) (h2 _)⟩
  · exact .inr ⟨assignZ_none h1, assignC_none (s := (asNode z, ())) (h2 _)⟩

theorem assignC_nil_norm {pos : U32} {e : U8} {v : V} {r : Node V} {o : Option Unit} {s' : Node V × Unit} (hn : Norm r 32)
    (h : assignC (σ := Unit) nilMerge pos e v (r, ()) = (o, s')) : Norm s'.1 32 := by
  rcases assignZ_eq pos e v (some r) with ⟨n, _, _, h2⟩ | ⟨_, h2⟩
  · rw [asNode, Option.getD_some] at h2
    have h3 := assignC_norm nilMerge (s := (r, ())) hn h2
    rw [h] at h2
    cases h2
    exact h3
  · rw [asNode, Option.getD_some, h] at h2
    cases h2
    exact hn

theorem rangeLoopC_nil_norm (uEnd : U32) (v : V) (fuel : Nat) : ∀ (u : U32) (r : Node V) (q), Norm r 32 →
    rangeLoopC (σ := Unit) nilMerge uEnd v fuel u (r, ()) = some q → Norm q.2.1 32 := by
  induction fuel with
  | zero => intro u r q hn h; rw [rangeLoopC] at h; split at h <;> cases h; exact hn
  | succ fuel ih =>
    intro u r q hn h
    rw [rangeLoopC] at h
    split at h
    · match hs : shrink u uEnd fuel ((u - 1#32) &&& ~~~u) with
      | none => rw [hs] at h; cases h
      | some m =>
        rw [hs] at h
        dsimp only at h
        match ha : assignC (σ := Unit) nilMerge u (bitCount m 0#8) v (r, ()) with
        | (none, s) => rw [ha] at h; cases h; exact assignC_nil_norm hn ha
        | (some (), (s, ())) => rw [ha] at h; exact ih _ _ _ (assignC_nil_norm hn ha) h
    · cases h; exact hn

/-- The state of a tree made by `New(nil)` that corresponds to a zero tree. -/
def corr (r : Option Unit × Option (Option (Node V))) : Option Unit × Option (Node V) := (r.1, r.2.map asNode)

/-- That state, and no outside state. -/
def corrC (r : Option Unit × (Node V × Unit)) : Option Unit × Option (Node V) := (r.1, some r.2.1)

theorem rangeLoopZ_eq (uEnd : U32) (v : V) (fuel : Nat) : ∀ (u : U32) (z : Option (Node V)),
    (rangeLoopZ uEnd v fuel u (some z)).map corr = (rangeLoopC (σ := Unit) nilMerge uEnd v fuel u (asNode z, ())).map corrC := by
  induction fuel with
  | zero => intro u z; rw [rangeLoopZ, rangeLoopC]; split <;> rfl
  | succ fuel ih =>
    intro u z
    rw [rangeLoopZ, rangeLoopC]
    split
    · match shrink u uEnd fuel ((u - 1#32) &&& ~~~u) with
      | none => rfl
      | some m =>
        dsimp only
        rcases assignZ_eq u (bitCount m 0#8) v z with ⟨r, _, h1, h2⟩ | ⟨h1, h2⟩
        · rw [h1, h2]; exact ih _ _
        · rw [h1, h2]; rfl
    · rfl

/-- Roots that occur: nil, or a node other than the empty tree. -/
def Ok (t : Option (Option (Node V))) : Prop := t ≠ none ∧ t ≠ some (some .none)

theorem rangeLoopZ_ok (uEnd : U32) (v : V) (fuel : Nat) : ∀ (u : U32) (z : Option (Node V)) (r), Ok (some z) →
    rangeLoopZ uEnd v fuel u (some z) = some r → Ok r.2 := by
  induction fuel with
  | zero => intro u z r hz h; rw [rangeLoopZ] at h; split at h <;> cases h; exact hz
  | succ fuel ih =>
    intro u z r hz h
    rw [rangeLoopZ] at h
    split at h
    · match hs : shrink u uEnd fuel ((u - 1#32) &&& ~~~u) with
      | none => rw [hs] at h; cases h
      | some m =>
        rw [hs] at h
        dsimp only at h
        rcases assignZ_eq u (bitCount m 0#8) v z with ⟨n, hn, h1, h2⟩ | ⟨h1, h2⟩
        · rw [h1] at h; exact ih _ _ _ ⟨by simp, by simpa using hn⟩ h
        · rw [h1] at h; cases h; exact hz
    · cases h; exact hz

/-- One call on a zero tree is the same call on a tree made by `New(nil)`. -/
theorem StepZ_iff (z : Option (Node V)) (op : Op V) (o : Option Unit) :
    (∀ t', StepZ (some z) op o t' → ∃ z', t' = some z' ∧ StepC (σ := Unit) nilMerge (asNode z, ()) op o (asNode z', ())) ∧
    (∀ r', StepC (σ := Unit) nilMerge (asNode z, ()) op o (r', ()) → ∃ z', asNode z' = r' ∧ StepZ (some z) op o (some z')) ∧
    (∀ t', Ok (some z) → StepZ (some z) op o t' → Ok t') := by
  have key : ∀ (pos : U32) (e : U8) (v : V),
      (∀ t', assignZ pos e v (some z) = (o, t') → ∃ z', t' = some z' ∧ assignC (σ := Unit) nilMerge pos e v (asNode z, ()) = (o, (asNode z', ()))) ∧
      (∀ r', assignC (σ := Unit) nilMerge pos e v (asNode z, ()) = (o, (r', ())) → ∃ z', asNode z' = r' ∧ assignZ pos e v (some z) = (o, some z')) ∧
      (∀ t', Ok (some z) → assignZ pos e v (some z) = (o, t') → Ok t') := by
    intro pos e v
    rcases assignZ_eq pos e v z with ⟨n, hn, h1, h2⟩ | ⟨h1, h2⟩
    · rw [h1, h2]
      refine ⟨?_, ?_, ?_⟩
      · intro t' h; cases h; exact ⟨some n, rfl, rfl⟩
      · intro r' h; cases h; exact ⟨some n, rfl, rfl⟩
      · intro t' _ h; cases h; exact ⟨by simp, by simpa using hn⟩
    · rw [h1, h2]
      refine ⟨?_, ?_, ?_⟩
      · intro t' h; cases h; exact ⟨z, rfl, rfl⟩
      · intro r' h; cases h; exact ⟨z, rfl, rfl⟩
      · intro t' hz h; cases h; exact hz
  cases op with
  | addIp ip v =>
    obtain ⟨u, hu⟩ := Ipv4ToUint_total ip
    have e1 : ∀ t, AddIpZ ip v t = assignZ u 0#8 v t := fun t => by rw [AddIpZ, hu]
    have e2 : ∀ s, AddIpC (σ := Unit) nilMerge ip v s = assignC nilMerge u 0#8 v s := fun s => by
      rw [AddIpC, hu]; exact Eff.bind_some rfl
    simp only [StepZ, StepC, e1, e2]
    exact key u 0#8 v
  | addCidr c v =>
    obtain ⟨u, hu⟩ := Ipv4ToUint_total c.ip
    have e1 : ∀ t, AddCidrZ c v t = assignZ u (32#8 - MaskToByte c.mask) v t := fun t => by rw [AddCidrZ, hu]
    have e2 : ∀ s, AddCidrC (σ := Unit) nilMerge (some c) v s = assignC nilMerge u (32#8 - MaskToByte c.mask) v s := fun s => by
      rw [AddCidrC, hu]; exact Eff.bind_some rfl
    simp only [StepZ, StepC, e1, e2]
    exact key u _ v
  | addRange a e v =>
    obtain ⟨ua, ha⟩ := Ipv4ToUint_total a
    obtain ⟨ue, he⟩ := Ipv4ToUint_total e
    simp only [StepZ, StepC, AddRangeZ, AddRangeC, ha, he]
    refine ⟨?_, ?_, ?_⟩
    · rintro t' ⟨fuel, h⟩
      have hq := rangeLoopZ_eq ue v fuel ua z
      rw [h] at hq
      match hc : rangeLoopC (σ := Unit) nilMerge ue v fuel ua (asNode z, ()) with
      | none => rw [hc] at hq; cases hq
      | some (o', (r', ())) =>
        rw [hc] at hq
        simp only [Option.map_some, corr, corrC, Option.some.injEq, Prod.mk.injEq] at hq
        obtain ⟨rfl, hq⟩ := hq
        cases t' with
        | none => cases hq
        | some z' => cases hq; exact ⟨z', rfl, fuel, hc⟩
    · rintro r' ⟨fuel, h⟩
      have hq := rangeLoopZ_eq ue v fuel ua z
      rw [h] at hq
      match hc : rangeLoopZ ue v fuel ua (some z) with
      | none => rw [hc] at hq; cases hq
      | some (o', t') =>
        rw [hc] at hq
        simp only [Option.map_some, corr, corrC, Option.some.injEq, Prod.mk.injEq] at hq
        obtain ⟨rfl, hq⟩ := hq
        cases t' with
        | none => cases hq
        | some z' => cases hq; exact ⟨z', rfl, fuel, hc⟩
    · rintro t' hz ⟨fuel, h⟩
      exact rangeLoopZ_ok _ _ _ _ _ _ hz h

theorem RunsZ_runs (ops : List (Op V)) : ∀ (z : Option (Node V)) (os : List (Option Unit)),
    (∀ t', RunsZ (some z) ops os t' → ∃ z', t' = some z' ∧ RunsN (asNode z) ops os (asNode z')) ∧
    (∀ r', RunsN (asNode z) ops os r' → ∃ z', asNode z' = r' ∧ RunsZ (some z) ops os (some z')) ∧
    (∀ t', Ok (some z) → RunsZ (some z) ops os t' → Ok t') := by
  induction ops with
  | nil =>
    intro z os
    refine ⟨?_, ?_, ?_⟩
    · rintro t' ⟨rfl, rfl⟩; exact ⟨z, rfl, rfl, rfl⟩
    · rintro r' ⟨rfl, rfl⟩; exact ⟨z, rfl, rfl, rfl⟩
    · rintro t' hz ⟨rfl, rfl⟩; exact hz
  | cons op ops ih =>
    intro z os
    refine ⟨?_, ?_, ?_⟩
    · rintro t' ⟨o, t1, os', h1, h2, rfl⟩
      obtain ⟨z1, rfl, h3⟩ := (StepZ_iff z op o).1 t1 h1
      obtain ⟨z', rfl, h4⟩ := (ih z1 os').1 t' h2
      exact ⟨z', rfl, o, _, os', h3, h4, rfl⟩
    · rintro r' ⟨o, t1, os', h1, h2, rfl⟩
      obtain ⟨z1, rfl, h3⟩ := (StepZ_iff z op o).2.1 t1 h1
      obtain ⟨z', rfl, h4⟩ := (ih z1 os').2.1 r' h2
      exact ⟨z', rfl, o, _, os', h3, h4, rfl⟩
    · rintro t' hz ⟨o, t1, os', h1, h2, rfl⟩
      obtain ⟨z1, rfl, _⟩ := (StepZ_iff z op o).1 t1 h1
      exact (ih z1 os').2.2 t' ((StepZ_iff z op o).2.2 _ hz h1) h2

theorem StepC_nil_norm {r r' : Node V} {op : Op V} {o : Option Unit} (hn : Norm r 32)
    (h : StepC (σ := Unit) nilMerge (r, ()) op o (r', ())) : Norm r' 32 := by
  cases op with
  | addIp ip x =>
    obtain ⟨v, hv⟩ := Ipv4ToUint_total ip
    have h : AddIpC nilMerge ip x (r, ()) = _ := h
    rw [AddIpC, hv] at h
    exact assignC_nil_norm hn h
  | addCidr n x =>
    obtain ⟨v, hv⟩ := Ipv4ToUint_total n.ip
    have h : AddCidrC nilMerge (some n) x (r, ()) = _ := h
    rw [AddCidrC] at h
    simp only [hv] at h
    exact assignC_nil_norm hn h
  | addRange a e x =>
    obtain ⟨ua, ha⟩ := Ipv4ToUint_total a
    obtain ⟨ue, he⟩ := Ipv4ToUint_total e
    simp only [StepC, AddRangeC, ha, he] at h
    obtain ⟨fuel, h⟩ := h
    exact rangeLoopC_nil_norm _ _ _ _ _ _ hn h

theorem RunsN_norm (ops : List (Op V)) : ∀ (r r' : Node V) (os : List (Option Unit)), Norm r 32 → RunsN r ops os r' → Norm r' 32 := by
  induction ops with
  | nil => rintro r r' os hn ⟨_, rfl⟩; exact hn
  | cons op ops ih => rintro r r' os hn ⟨o, t1, os', h1, h2, _⟩; exact ih _ _ _ (StepC_nil_norm hn h1) h2

theorem each_ne_nil (h : Nat) : ∀ (r : Node V) (pos : U32) (m : U8), Norm r h → r ≠ .none → r.each pos m ≠ [] := by
  induction h with
  | zero => intro r pos m hn hr; cases r <;> simp_all [Norm, Node.each]
  | succ h ih =>
    intro r pos m hn hr
    cases r with
    | all v => simp [Node.each]
    | none => exact absurd rfl hr
    | tree a b =>
      obtain ⟨ha, hb, _, hne⟩ := hn
      rw [Node.each]
      intro he
      obtain ⟨h1, h2⟩ := List.append_eq_nil_iff.mp he
      apply hne
      constructor
      · by_contra hc; exact ih _ _ _ ha hc h1
      · by_contra hc; exact ih _ _ _ hb hc h2

/-- **C85** The zero `Tree` does in every sequence of additions what a tree made by `New(nil)` does: the same calls return, the same
panic, and afterwards both list the same, provided that there is something to list. If there is not, `ListCidr` of the zero `Tree`
panics. (Full statement: it then returns an empty list, as the tree made by `New(nil)`; false, see `C85_not`.) -/
theorem C85_partial (ops : List (Op V)) (os : List (Option Unit)) :
    (∀ t', RunsZ (some none) ops os t' → ∃ r', RunsN New ops os r' ∧
      ListCidrZ t' = if ListCidr r' = [] then .panic else .ok (ListCidr r')) ∧
    (∀ r', RunsN New ops os r' → ∃ t', RunsZ (some none) ops os t' ∧
      ListCidrZ t' = if ListCidr r' = [] then .panic else .ok (ListCidr r')) := by
  have hlist : ∀ z' : Option (Node V), RunsZ (some none) ops os (some z') → RunsN New ops os (asNode z') →
      ListCidrZ (some z') = if ListCidr (asNode z') = [] then .panic else .ok (ListCidr (asNode z')) := by
    intro z' hz hn
    have hok := (RunsZ_runs ops none os).2.2 _ ⟨by simp, by simp⟩ hz
    cases z' with
    | none => rfl
    | some r =>
      have hne : r ≠ .none := fun e => hok.2 (by rw [e])
      have := each_ne_nil 32 r 0#32 31#8 (RunsN_norm ops New _ _ trivial hn) hne
      have h2 : ListCidr r ≠ [] := by simpa [ListCidr] using this
      rw [asNode, Option.getD_some, if_neg h2]
      rfl
  constructor
  · intro t' h
    obtain ⟨z', rfl, h1⟩ := (RunsZ_runs ops none os).1 t' h
    exact ⟨_, h1, hlist z' h h1⟩
  · intro r' h
    obtain ⟨z', rfl, h1⟩ := (RunsZ_runs ops none os).2.1 r' h
    exact ⟨_, h1, hlist z' h1 h⟩

/-- **C85** The zero `Tree` is not in all cases like a tree made by `New(nil)`: before the first addition `ListCidr` panics. -/
theorem C85_not : ¬ ∀ (ops : List (Op Nat)) (os : List (Option Unit)) (t' : Option (Option (Node Nat))),
    RunsZ (some none) ops os t' → ∃ r', RunsN New ops os r' ∧ ListCidrZ t' = .ok (ListCidr r') := by
  intro h
  obtain ⟨r', _, h2⟩ := h [] [] (some none) ⟨rfl, rfl⟩
  cases h2

/-- **C85** A nil `*Tree`: listing panics; adding panics, except that `AddRange` returns when the range is empty. -/
theorem C85_nil (op : Op V) (o : Option Unit) (t' : Option (Option (Node V))) :
    ListCidrZ (none : Option (Option (Node V))) = .panic ∧
    ((∀ s e v, op ≠ .addRange s e v) → (StepZ none op o t' ↔ o = none ∧ t' = none)) ∧
    (∀ s e v us ue, op = .addRange s e v → IPv4 s us → IPv4 e ue →
      (StepZ none op o t' ↔ o = (if ue < us then some () else none) ∧ t' = none)) := by
  refine ⟨rfl, ?_, ?_⟩
  · intro h
    cases op with
    | addIp ip v =>
      obtain ⟨u, hu⟩ := Ipv4ToUint_total ip
      simp only [StepZ, AddIpZ, hu, assignZ, Prod.mk.injEq, eq_comm]
    | addCidr c v =>
      obtain ⟨u, hu⟩ := Ipv4ToUint_total c.ip
      simp only [StepZ, AddCidrZ, hu, assignZ, Prod.mk.injEq, eq_comm]
    | addRange s e v => exact absurd rfl (h s e v)
  · rintro s e v us ue rfl hs he
    obtain ⟨ps, hps, rfl⟩ := Ipv4ToUint_of hs
    obtain ⟨pe, hpe, rfl⟩ := Ipv4ToUint_of he
    simp only [StepZ, AddRangeZ, hps, hpe]
    have hcase : ps ≤ pe ↔ ¬ pe.toNat < ps.toNat := by rw [BitVec.le_def]; omega
    constructor
    · rintro ⟨fuel, h⟩
      cases fuel with
      | zero =>
        rw [rangeLoopZ] at h
        split at h
        · cases h
        · cases h; rename_i hc; rw [hcase, not_not] at hc; rw [if_pos hc]; exact ⟨rfl, rfl⟩
      | succ fuel =>
        rw [rangeLoopZ] at h
        split at h
        · rename_i hc
          rw [hcase] at hc
          rw [if_neg hc]
          split at h
          · cases h
          · cases h; exact ⟨rfl, rfl⟩
        · cases h; rename_i hc; rw [hcase, not_not] at hc; rw [if_pos hc]; exact ⟨rfl, rfl⟩
    · rintro ⟨rfl, rfl⟩
      obtain ⟨k, hk, hkd, hm0, _⟩ := initial_max ps
      by_cases hc : ps ≤ pe
      · obtain ⟨m', hm'⟩ := shrink_ends ps pe hc 32 _ k hk hm0
        refine ⟨33, ?_⟩
        rw [rangeLoopZ, if_pos hc, hm', if_neg (hcase.mp hc)]
        rfl
      · refine ⟨0, ?_⟩
        rw [rangeLoopZ, if_neg hc, if_pos (by rw [hcase, not_not] at hc; exact hc)]

/-- **C85** The functions of Cidr.go panic for nil networks, and otherwise are those of C12 to C15. -/
theorem C85_nets (a b : Option IPNet) :
    (CidrEqualP a b = .panic ↔ a = none ∨ b = none) ∧ (FirstIpv4P a = .panic ↔ a = none) ∧ (a = none → LastIpv4P a = .panic) ∧
    ∀ x y : IPNet, CidrEqualP (some x) (some y) = .ok (CidrEqual x y) ∧ FirstIpv4P (some x) = .ok (FirstIpv4 x) ∧
      LastIpv4P (some x) = LastIpv4 x := by
  refine ⟨?_, ?_, ?_, fun _ _ => ⟨rfl, rfl, rfl⟩⟩
  · cases a <;> cases b <;> simp [CidrEqualP]
  · cases a <;> simp [FirstIpv4P]
  · rintro rfl; rfl

/-- 10.0.0.4 is added to a zero `Tree`; then adding 10.0.0.5 would merge the two and panics; 10.0.0.4 is still listed. -/
example : ∃ t' : Option (Option (Node String)), RunsZ (some none) [.addIp [10, 0, 0, 4] "a", .addIp [10, 0, 0, 5] "x"] [some (), none] t' ∧
    ListCidrZ t' = .ok [(⟨[10, 0, 0, 4], [255, 255, 255, 255]⟩, "a")] := by
  have h : (AddIpZ [10, 0, 0, 5] "x" (AddIpZ [10, 0, 0, 4] "a" (some none)).2).1 = none ∧
      (AddIpZ [10, 0, 0, 4] "a" (some none)).1 = some () ∧
      ListCidrZ (AddIpZ [10, 0, 0, 5] "x" (AddIpZ [10, 0, 0, 4] "a" (some none)).2).2 =
        .ok [(⟨[10, 0, 0, 4], [255, 255, 255, 255]⟩, "a")] := by decide +kernel
  refine ⟨_, ⟨_, (AddIpZ [10, 0, 0, 4] "a" (some none)).2, _, ?_, ⟨_, _, _, ?_, ⟨rfl, rfl⟩, rfl⟩, rfl⟩, h.2.2⟩
  · exact Prod.ext h.2.1 rfl
  · exact Prod.ext h.1 rfl

end Net
