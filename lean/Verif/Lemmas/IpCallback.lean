import Verif.Lemmas.IpGrow
import Verif.Model.NetCallback
import Verif.Spec.NetCallback

/-!
# The tree with a callback that has effects

One addition is first done with values that are expressions (`Expr`) instead of merged values, which is an addition with a pure merge
function; then the expressions are evaluated.
-/
namespace Net
open NetSpec
variable {V σ : Type}

theorem Eff.pure_apply {α : Type} (a : α) (s : σ) : (pure a : Eff σ α) s = (some a, s) := rfl

theorem Eff.bind_some {α β : Type} {m : Eff σ α} {f : α → Eff σ β} {s s' : σ} {a : α} (h : m s = (some a, s')) :
    (m >>= f) s = f a s' := by
  show (match m s with | (some a, s) => f a s | (none, s) => (none, s)) = _
  rw [h]

theorem Eff.bind_none {α β : Type} {m : Eff σ α} {f : α → Eff σ β} {s s' : σ} (h : m s = (none, s')) :
    (m >>= f) s = (none, s') := by
  show (match m s with | (some a, s) => f a s | (none, s) => (none, s)) = _
  rw [h]

theorem Eff.pure_bind {α β : Type} (a : α) (f : α → Eff σ β) : ((pure a : Eff σ α) >>= f) = f a := rfl

theorem Eff.bind_assoc {α β γ : Type} (m : Eff σ α) (f : α → Eff σ β) (g : β → Eff σ γ) :
    ((m >>= f) >>= g) = (m >>= fun a => f a >>= g) := by
  funext s
  match h : m s with
  | (some a, s') =>
    rw [Eff.bind_some h]
    have h2 : (m >>= f) s = f a s' := Eff.bind_some h
    match h3 : f a s' with
    | (some b, s2) => rw [Eff.bind_some (h2.trans h3), Eff.bind_some h3]
    | (none, s2) => rw [Eff.bind_none (h2.trans h3), Eff.bind_none h3]
  | (none, s') => rw [Eff.bind_none h]; exact Eff.bind_none (Eff.bind_none h)

theorem Eff.bind_pure {α : Type} (m : Eff σ α) : (m >>= fun a => pure a) = m := by
  funext s
  match h : m s with
  | (some a, s') => rw [Eff.bind_some h]; rfl
  | (none, s') => rw [Eff.bind_none h]

/-- A value that is still to be merged. -/
inductive Expr (V : Type) where
  | leaf (v : V)
  | join (a b : Expr V)

/-- Merge from the inside out, left first. -/
def Expr.eval (merge : V → V → Eff σ V) : Expr V → Eff σ V
  | .leaf v => pure v
  | .join a b => do
    let x ← a.eval merge
    let y ← b.eval merge
    merge x y

def Node.leaves : Node V → Node (Expr V)
  | .all v => .all (.leaf v)
  | .none => .none
  | .tree l r => .tree l.leaves r.leaves

def evalN (merge : V → V → Eff σ V) : Node (Expr V) → Eff σ (Node V)
  | .all e => do
    let v ← e.eval merge
    pure (.all v)
  | .none => pure .none
  | .tree l r => do
    let l ← evalN merge l
    let r ← evalN merge r
    pure (.tree l r)

theorem evalN_leaves (merge : V → V → Eff σ V) : ∀ t : Node V, evalN merge t.leaves = pure t
  | .all _ => rfl
  | .none => rfl
  | .tree l r => by
    rw [Node.leaves, evalN, evalN_leaves merge l, evalN_leaves merge r]; rfl

theorem evalN_right (merge : V → V → Eff σ V) (l : Node V) (X : Node (Expr V)) :
    evalN merge (mkNode .join l.leaves X) = (evalN merge X >>= fun r => mkNodeC merge l r) := by
  have htree : ∀ l : Node V, (∀ a, l ≠ .all a) →
      evalN merge (.tree l.leaves X) = (evalN merge X >>= fun r => mkNodeC merge l r) := by
    intro l hl
    rw [evalN, evalN_leaves, Eff.pure_bind]
    congr 1
    funext r
    cases l with
    | all a => exact absurd rfl (hl a)
    | none => rfl
    | tree p q => rfl
  cases l with
  | none => exact htree .none (by simp)
  | tree p q => exact htree (.tree p q) (by simp)
  | all a =>
    cases X with
    | none => rfl
    | all e =>
      show (do let v ← Expr.eval merge (.join (.leaf a) e); pure (Node.all v)) = _
      rw [Expr.eval, Expr.eval, Eff.pure_bind, evalN, Eff.bind_assoc, Eff.bind_assoc]
      rfl
    | tree p q =>
      show evalN merge (.tree (Node.all a).leaves (.tree p q)) = _
      rw [evalN, evalN_leaves, Eff.pure_bind, evalN]
      simp only [Eff.bind_assoc]
      rfl

theorem evalN_left (merge : V → V → Eff σ V) (r : Node V) (X : Node (Expr V)) :
    evalN merge (mkNode .join X r.leaves) = (evalN merge X >>= fun l => mkNodeC merge l r) := by
  cases X with
  | none =>
    show evalN merge (.tree .none r.leaves) = _
    rw [evalN.eq_def merge (.tree _ _)]
    simp only [evalN_leaves, evalN]
    cases r <;> rfl
  | tree p q =>
    show evalN merge (.tree (.tree p q) r.leaves) = _
    rw [evalN, evalN_leaves, evalN]
    simp only [Eff.bind_assoc]
    rfl
  | all e =>
    cases r with
    | none =>
      show evalN merge (.tree (.all e) (Node.none).leaves) = _
      rw [evalN.eq_def merge (.tree _ _)]
      simp only [evalN_leaves, evalN, Eff.bind_assoc]
      rfl
    | tree p q =>
      show evalN merge (.tree (.all e) (Node.tree p q).leaves) = _
      rw [evalN.eq_def merge (.tree _ _)]
      simp only [evalN_leaves, evalN, Eff.bind_assoc]
      rfl
    | all b =>
      show (do let v ← Expr.eval merge (.join e (.leaf b)); pure (Node.all v)) = _
      rw [Expr.eval, evalN]
      simp only [Eff.bind_assoc]
      rfl

theorem addC_eq (merge : V → V → Eff σ V) (h : Nat) : ∀ (t : Node V) (pos : U32) (mask e : U8) (x : V), mask.toNat = h →
    addC merge t pos mask e x = evalN merge (add .join t.leaves pos mask e (.leaf x)) := by
  induction h with
  | zero =>
    intro t pos mask e x hm
    have hle : mask ≤ e := by rw [BitVec.le_def]; omega
    rw [addC.eq_def, add.eq_def]
    cases t with
    | all v => rfl
    | none => simp only [Node.leaves, dif_pos hle]; rfl
    | tree l r => simp only [Node.leaves, dif_pos hle]; rfl
  | succ h ih =>
    intro t pos mask e x hm
    have hs : (mask - 1#8).toNat = h := by
      rw [BitVec.toNat_sub_of_le (by rw [BitVec.le_def]; simp; omega), hm]; rfl
    rw [addC.eq_def, add.eq_def]
    cases t with
    | all v => rfl
    | none =>
      simp only [Node.leaves]
      split
      · rfl
      · split
        · rw [ih _ _ _ _ _ hs]; exact (evalN_right merge .none _).symm
        · rw [ih _ _ _ _ _ hs]; exact (evalN_left merge .none _).symm
    | tree l r =>
      simp only [Node.leaves]
      split
      · rfl
      · split
        · rw [ih _ _ _ _ _ hs]; exact (evalN_right merge l _).symm
        · rw [ih _ _ _ _ _ hs]; exact (evalN_left merge r _).symm

/-! ## Shape -/

theorem shape_leaves : ∀ t : Node V, shape t.leaves = shape t
  | .all _ => rfl
  | .none => rfl
  | .tree l r => by rw [Node.leaves, shape, shape, shape_leaves l, shape_leaves r]

theorem shape_all {t : Node V} (h : shape t = .all ()) : ∃ v, t = .all v := by
  cases t with
  | all v => exact ⟨v, rfl⟩
  | none => cases h
  | tree l r => cases h

theorem shape_none {t : Node V} (h : shape t = .none) : t = .none := by
  cases t with
  | all v => cases h
  | none => rfl
  | tree l r => cases h

theorem Norm_shape {W : Type} (h : Nat) : ∀ (t : Node V) (t' : Node W), shape t = shape t' → Norm t h → Norm t' h := by
  induction h with
  | zero =>
    intro t t' hs hn
    cases t' with
    | all v => trivial
    | none => trivial
    | tree l r => cases t <;> first | exact hn.elim | cases hs
  | succ h ih =>
    intro t t' hs hn
    cases t' with
    | all v => trivial
    | none => trivial
    | tree l' r' =>
      cases t with
      | all v => cases hs
      | none => cases hs
      | tree l r =>
        simp only [shape, Node.tree.injEq] at hs
        obtain ⟨n1, n2, n3, n4⟩ := hn
        refine ⟨ih _ _ hs.1 n1, ih _ _ hs.2 n2, ?_, ?_⟩
        · rintro ⟨⟨a, rfl⟩, ⟨b, rfl⟩⟩
          exact n3 ⟨shape_all hs.1, shape_all hs.2⟩
        · rintro ⟨rfl, rfl⟩
          exact n4 ⟨shape_none hs.1, shape_none hs.2⟩

theorem evalN_shape (merge : V → V → Eff σ V) : ∀ (n : Node (Expr V)) (n' : Node V) (s s' : σ),
    evalN merge n s = (some n', s') → shape n' = shape n
  | .all e, n', s, s', h => by
    rw [evalN] at h
    match he : e.eval merge s with
    | (some u, s1) => rw [Eff.bind_some he] at h; cases h; rfl
    | (none, s1) => rw [Eff.bind_none he] at h; cases h
  | .none, n', s, s', h => by cases h; rfl
  | .tree l r, n', s, s', h => by
    rw [evalN] at h
    match hl : evalN merge l s with
    | (none, s1) => rw [Eff.bind_none hl] at h; cases h
    | (some l', s1) =>
      rw [Eff.bind_some hl] at h
      match hr : evalN merge r s1 with
      | (none, s2) => rw [Eff.bind_none hr] at h; cases h
      | (some r', s2) =>
        rw [Eff.bind_some hr] at h
        cases h
        rw [shape, shape, evalN_shape merge l l' s s1 hl, evalN_shape merge r r' s1 _ hr]

/-! ## Blocks -/

/-- Evaluate the values of a list of blocks in order. -/
def evalL (merge : V → V → Eff σ V) : List (Nat × Nat × Expr V) → Eff σ (List (Nat × Nat × V))
  | [] => pure []
  | b :: l => do
    let v ← b.2.2.eval merge
    let l ← evalL merge l
    pure ((b.1, b.2.1, v) :: l)

theorem evalL_append (merge : V → V → Eff σ V) : ∀ A B : List (Nat × Nat × Expr V),
    evalL merge (A ++ B) = (do let a ← evalL merge A; let b ← evalL merge B; pure (a ++ b))
  | [], B => by rw [List.nil_append, evalL, Eff.pure_bind]; exact (Eff.bind_pure _).symm
  | x :: A, B => by
    rw [List.cons_append, evalL, evalL, evalL_append merge A B]
    simp only [Eff.bind_assoc]
    rfl

theorem evalN_blocks (merge : V → V → Eff σ V) (h : Nat) : ∀ (n : Node (Expr V)) (p : Nat), Norm n h →
    (do let n' ← evalN merge n; pure (blocks n' h p)) = evalL merge (blocks n h p) := by
  induction h with
  | zero =>
    intro n p hn
    cases n with
    | all e => rw [evalN, blocks, evalL, evalL]; simp only [Eff.bind_assoc]; rfl
    | none => rfl
    | tree l r => exact hn.elim
  | succ h ih =>
    intro n p hn
    cases n with
    | all e => rw [evalN, blocks, evalL, evalL]; simp only [Eff.bind_assoc]; rfl
    | none => rfl
    | tree l r =>
      obtain ⟨n1, n2, _, _⟩ := hn
      rw [evalN, blocks, evalL_append, ← ih l p n1, ← ih r _ n2]
      simp only [Eff.bind_assoc]
      rfl

/-- The value of a leaf. -/
def Expr.val : Expr V → V
  | .leaf v => v
  | .join a _ => a.val

theorem evalL_leaf (merge : V → V → Eff σ V) : ∀ A : List (Nat × Nat × Expr V), (∀ b ∈ A, ∃ w, b.2.2 = .leaf w) →
    evalL merge A = pure (A.map fun b => (b.1, b.2.1, b.2.2.val))
  | [], _ => rfl
  | b :: A, h => by
    obtain ⟨w, hw⟩ := h b (by simp)
    rw [evalL, hw, Expr.eval, Eff.pure_bind, evalL_leaf merge A (fun b hb => h b (by simp [hb])), List.map_cons, hw]
    rfl

theorem blocks_leaves (h : Nat) : ∀ (t : Node V) (p : Nat),
    blocks t.leaves h p = (blocks t h p).map fun b => (b.1, b.2.1, Expr.leaf b.2.2) := by
  induction h with
  | zero => intro t p; cases t <;> rfl
  | succ h ih =>
    intro t p
    cases t with
    | all v => rfl
    | none => rfl
    | tree l r => rw [Node.leaves, blocks, blocks, ih, ih, List.map_append]

theorem listed_leaves (t : Node V) (hn : Norm t 32) :
    listed (ListCidr t.leaves) = (listed (ListCidr t)).map fun b => (b.1, Expr.leaf b.2) := by
  rw [listed_blocks _ (Norm_shape 32 t t.leaves (shape_leaves t).symm hn), listed_blocks t hn, blocks_leaves, List.map_map, List.map_map]
  rfl

/-! ## One addition -/

theorem mem_leaves {L : List (Cidr × V)} {c : Cidr} {e : Expr V} (h : (c, e) ∈ L.map fun b => (b.1, Expr.leaf b.2)) :
    ∃ w, e = .leaf w ∧ (c, w) ∈ L := by
  obtain ⟨b, hb, he⟩ := List.mem_map.mp h
  cases he
  exact ⟨_, rfl, hb⟩

theorem joins_of_grows (merge : V → V → Eff σ V) (L : List (Cidr × V)) {c d : Cidr} {e0 e : Expr V}
    (g : Grows .join (L.map fun b => (b.1, Expr.leaf b.2)) c e0 d e) :
    (∀ s s1, e0.eval merge s = (none, s1) → e.eval merge s = (none, s1)) ∧
    ∀ s v s1, e0.eval merge s = (some v, s1) → ∃ o s2, Joins merge L c v s1 o s2 ∧
      ((o = none ∧ e.eval merge s = (none, s2)) ∨ ∃ u, o = some (d, u) ∧ e.eval merge s = (some u, s2)) := by
  induction g with
  | @stop c e0 hs =>
    refine ⟨fun _ _ h => h, fun s v s1 h => ⟨_, s1, .stop ?_, .inr ⟨v, rfl, h⟩⟩⟩
    refine hs.imp id fun hs w hw => hs (.leaf w) (List.mem_map.mpr ⟨_, hw, rfl⟩)
  | @low c d e0 w e h1 h2 h3 _ ih =>
    obtain ⟨w, rfl, hw⟩ := mem_leaves h2
    refine ⟨fun s s1 h => ih.1 s s1 (Eff.bind_none h), fun s v s1 h => ?_⟩
    have hj : (Expr.join e0 (.leaf w)).eval merge s = merge v w s1 := by rw [Expr.eval, Eff.bind_some h]; rfl
    match hm : merge v w s1 with
    | (none, s2) =>
      exact ⟨none, s2, .lowPanic h1 hw h3 hm, .inl ⟨rfl, ih.1 s s2 (hj.trans hm)⟩⟩
    | (some u, s2) =>
      obtain ⟨o, s3, j, r⟩ := ih.2 s u s2 (hj.trans hm)
      exact ⟨o, s3, .low h1 hw h3 hm j, r⟩
  | @high c d e0 w e h1 h2 h3 _ ih =>
    obtain ⟨w, rfl, hw⟩ := mem_leaves h2
    have hj : ∀ s, (Expr.join (.leaf w) e0).eval merge s = (e0.eval merge >>= fun y => merge w y) s := fun _ => rfl
    refine ⟨fun s s1 h => ih.1 s s1 ((hj s).trans (Eff.bind_none h)), fun s v s1 h => ?_⟩
    have hj' : (Expr.join (.leaf w) e0).eval merge s = merge w v s1 := by rw [hj, Eff.bind_some h]
    match hm : merge w v s1 with
    | (none, s2) =>
      exact ⟨none, s2, .highPanic h1 hw h3 hm, .inl ⟨rfl, ih.1 s s2 (hj'.trans hm)⟩⟩
    | (some u, s2) =>
      obtain ⟨o, s3, j, r⟩ := ih.2 s u s2 (hj'.trans hm)
      exact ⟨o, s3, .high h1 hw h3 hm j, r⟩

theorem addC_norm (merge : V → V → Eff σ V) (t : Node V) (hn : Norm t 32) (pos : U32) (e : U8) (x : V) {t' : Node V} {s s' : σ}
    (h : addC merge t pos 32#8 e x s = (some t', s')) : Norm t' 32 := by
  rw [addC_eq merge 32 t pos 32#8 e x rfl] at h
  exact Norm_shape 32 _ _ (evalN_shape merge _ _ _ _ h).symm
    (add_norm _ _ (Norm_shape 32 t t.leaves (shape_leaves t).symm hn) _ _ _)

theorem mem_leaves_iff : ∀ (t : Node V) (h a : Nat), mem t.leaves h a ↔ mem t h a
  | .all _, h, a => by cases h <;> rfl
  | .none, h, a => by cases h <;> rfl
  | .tree l r, 0, a => Iff.rfl
  | .tree l r, h + 1, a => by
    rw [Node.leaves, mem, mem, mem_leaves_iff l, mem_leaves_iff r]

theorem addC_covered (merge : V → V → Eff σ V) (t : Node V) (hn : Norm t 32) (pos : U32) (e : U8) (x : V)
    (h : ∀ a, a < 2 ^ 32 → a / 2 ^ e.toNat = pos.toNat / 2 ^ e.toNat → mem t 32 a) : addC merge t pos 32#8 e x = pure t := by
  rw [addC_eq merge 32 t pos 32#8 e x rfl, add_covered .join t.leaves (Norm_shape 32 t t.leaves (shape_leaves t).symm hn),
    evalN_leaves]
  intro a ha hb
  exact (mem_leaves_iff t 32 a).mpr (h a ha hb)

/-- A pure callback. -/
theorem addC_pure (f : V → V → V) (h : Nat) : ∀ (t : Node V) (pos : U32) (mask e : U8) (x : V), mask.toNat = h →
    addC (σ := σ) (pureMerge f) t pos mask e x = pure (add f t pos mask e x) := by
  have hmk : ∀ l r : Node V, mkNodeC (σ := σ) (pureMerge f) l r = pure (mkNode f l r) := by
    intro l r
    cases l <;> cases r <;> rfl
  induction h with
  | zero =>
    intro t pos mask e x hm
    have hle : mask ≤ e := by rw [BitVec.le_def]; omega
    rw [addC.eq_def, add.eq_def]
    cases t with
    | all v => rfl
    | none => simp only [dif_pos hle]
    | tree l r => simp only [dif_pos hle]
  | succ h ih =>
    intro t pos mask e x hm
    have hs : (mask - 1#8).toNat = h := by
      rw [BitVec.toNat_sub_of_le (by rw [BitVec.le_def]; simp; omega), hm]; rfl
    rw [addC.eq_def, add.eq_def]
    cases t with
    | all v => rfl
    | none =>
      dsimp only
      split
      · rfl
      · split <;> rw [ih _ _ _ _ _ hs, Eff.pure_bind, hmk]
    | tree l r =>
      dsimp only
      split
      · rfl
      · split <;> rw [ih _ _ _ _ _ hs, Eff.pure_bind, hmk]

/-- The outcome of one addition of a block that is not within a listed one. -/
theorem addC_grow (merge : V → V → Eff σ V) (t : Node V) (hn : Norm t 32) (pos : U32) (e : U8) (he : e.toNat ≤ 32) (x : V) (s : σ)
    (hnc : ¬ ∃ d ∈ listed (ListCidr t), (toCidr (2 ^ e.toNat * (pos.toNat / 2 ^ e.toNat)) e.toNat).Within d.1) :
    ∃ o s', Joins merge (listed (ListCidr t)) (toCidr (2 ^ e.toNat * (pos.toNat / 2 ^ e.toNat)) e.toNat) x s o s' ∧
      ((o = none ∧ addC merge t pos 32#8 e x s = (none, s')) ∨
        ∃ d u t', o = some (d, u) ∧ addC merge t pos 32#8 e x s = (some t', s') ∧
          ∀ b, b ∈ listed (ListCidr t') ↔ (b ∈ listed (ListCidr t) ∧ ¬ b.1.Within d) ∨ b = (d, u)) := by
  have hnl := Norm_shape 32 t t.leaves (shape_leaves t).symm hn
  have hl := listed_leaves t hn
  obtain ⟨d, ex, g, hmem⟩ := add_grow .join t.leaves hnl pos e he (.leaf x) (by
    rintro ⟨⟨d, w⟩, hd, hw⟩
    rw [hl] at hd
    obtain ⟨w', rfl, hd'⟩ := mem_leaves hd
    exact hnc ⟨(d, w'), hd', hw⟩)
  have hnn := add_norm .join t.leaves hnl pos e (.leaf x)
  rw [hl] at g hmem
  obtain ⟨o, s', hj, hr⟩ := (joins_of_grows merge _ g).2 s x s rfl
  refine ⟨o, s', hj, ?_⟩
  rw [addC_eq merge 32 t pos 32#8 e x rfl]
  have hsh : ∀ n' s s', evalN merge (add Expr.join t.leaves pos 32#8 e (.leaf x)) s = (some n', s') → Norm n' 32 :=
    fun n' s s' h => Norm_shape 32 _ _ (evalN_shape merge _ _ _ _ h).symm hnn
  have hbl := evalN_blocks merge 32 (add Expr.join t.leaves pos 32#8 e (.leaf x)) 0 hnn
  have hsorted := blocks_sorted 32 (add Expr.join t.leaves pos 32#8 e (.leaf x)) 0 (by simp)
  have hok := fun b => block_ok (t := add Expr.join t.leaves pos 32#8 e (.leaf x)) (b := b)
  rw [listed_blocks _ hnn] at hmem
  generalize add Expr.join t.leaves pos 32#8 e (.leaf x) = n at *
  obtain ⟨b0, hb0, eb0⟩ := List.mem_map.mp ((hmem (d, ex)).mpr (.inr rfl))
  obtain ⟨A, C, hAC⟩ := List.append_of_mem hb0
  obtain ⟨s0, k0, e0⟩ := b0
  rw [Prod.mk.injEq] at eb0
  obtain ⟨ed, rfl⟩ := eb0
  dsimp only at ed hr hmem g
  -- the other blocks are old ones
  have hother : ∀ b, b ∈ A ∨ b ∈ C → toCidr b.1 b.2.1 ≠ d ∧ ∃ w, b.2.2 = .leaf w ∧
      (toCidr b.1 b.2.1, w) ∈ listed (ListCidr t) ∧ ¬ (toCidr b.1 b.2.1).Within d := by
    intro b hb
    have hbm : b ∈ blocks n 32 0 := by rw [hAC]; rcases hb with h | h <;> simp [h]
    have hne : toCidr b.1 b.2.1 ≠ d := by
      intro hc
      obtain ⟨h1, h2⟩ := toCidr_inj (hok b hbm).1 (hok _ hb0).1 (hc.trans ed.symm)
      dsimp only at h1 h2
      rw [hAC, List.pairwise_append, List.pairwise_cons] at hsorted
      have hp : 0 < 2 ^ k0 := Nat.pow_pos (by omega)
      have hp' : 0 < 2 ^ b.2.1 := Nat.pow_pos (by omega)
      rcases hb with h | h
      · have := hsorted.2.2 b h (s0, k0, e0) (by simp); dsimp only at this; omega
      · have := hsorted.2.1.1 b h; dsimp only at this; omega
    refine ⟨hne, ?_⟩
    rcases (hmem _).mp (List.mem_map.mpr ⟨b, hbm, rfl⟩) with ⟨h1, h2⟩ | h
    · obtain ⟨w, hw, hm⟩ := mem_leaves h1
      exact ⟨w, hw, hm, h2⟩
    · rw [Prod.mk.injEq] at h
      exact absurd h.1 hne
  have hA := evalL_leaf merge A (fun b hb => by obtain ⟨_, w, hw, _⟩ := hother b (.inl hb); exact ⟨w, hw⟩)
  have hC := evalL_leaf merge C (fun b hb => by obtain ⟨_, w, hw, _⟩ := hother b (.inr hb); exact ⟨w, hw⟩)
  rw [hAC, evalL_append, evalL, hA, hC] at hbl
  simp only [Eff.pure_bind, Eff.bind_assoc] at hbl
  have hbl := congrFun hbl s
  rcases hr with ⟨ho, hev⟩ | ⟨u, ho, hev⟩
  · left
    refine ⟨ho, ?_⟩
    rw [Eff.bind_none hev] at hbl
    match hn' : evalN merge n s with
    | (none, s2) =>
      rw [Eff.bind_none hn'] at hbl
      rw [Prod.mk.injEq] at hbl
      rw [hbl.2]
    | (some n', s2) =>
      rw [Eff.bind_some hn'] at hbl
      cases hbl
  · right
    rw [Eff.bind_some hev] at hbl
    match hn' : evalN merge n s with
    | (none, s2) =>
      rw [Eff.bind_none hn'] at hbl
      cases hbl
    | (some n', s2) =>
      rw [Eff.bind_some hn', Eff.pure_apply, Eff.pure_apply, Prod.mk.injEq, Option.some.injEq] at hbl
      refine ⟨d, u, n', ho, by rw [hbl.2], ?_⟩
      rintro ⟨c, w⟩
      rw [listed_blocks n' (hsh _ _ _ hn'), hbl.1, List.map_append, List.map_cons, List.mem_append, List.mem_cons, List.map_map,
        List.map_map, List.mem_map, List.mem_map]
      have hto : ∀ b, b ∈ A ∨ b ∈ C → ((fun b : Nat × Nat × V => (toCidr b.1 b.2.1, b.2.2)) ∘
          fun b : Nat × Nat × Expr V => (b.1, b.2.1, b.2.2.val)) b = (c, w) →
          (c, w) ∈ listed (ListCidr t) ∧ ¬ c.Within d := by
        intro b hb he
        obtain ⟨_, w', hw', hm, hnw⟩ := hother b hb
        simp only [Function.comp, hw', Expr.val, Prod.mk.injEq] at he
        rw [he.1, he.2] at hm
        rw [he.1] at hnw
        exact ⟨hm, hnw⟩
      constructor
      · rintro (⟨b, hb, he⟩ | he | ⟨b, hb, he⟩)
        · exact .inl (hto b (.inl hb) he)
        · right; rw [he, ed]
        · exact .inl (hto b (.inr hb) he)
      · rintro (⟨h1, h2⟩ | h)
        · have := (hmem (c, .leaf w)).mpr (.inl ⟨List.mem_map.mpr ⟨_, h1, rfl⟩, h2⟩)
          rw [hAC, List.mem_map] at this
          obtain ⟨b, hb, he⟩ := this
          rw [Prod.mk.injEq] at he
          rcases List.mem_append.mp hb with hb | hb
          · exact .inl ⟨b, hb, by simp [he.1, he.2, Expr.val]⟩
          · rcases List.mem_cons.mp hb with hb | hb
            · exfalso
              rw [hb, ed] at he
              exact h2 (by rw [← he.1]; exact fun a h => h)
            · exact .inr (.inr ⟨b, hb, by simp [he.1, he.2, Expr.val]⟩)
        · right; left
          rw [h, ed]

/-! ## Calls -/

section
variable (merge : V → V → Eff (Node V × σ) V)

theorem AddIpC_eq {ip : List U8} {u : Nat} (hi : IPv4 ip u) (x : V) :
    ∃ pos : U32, pos.toNat = u ∧ AddIpC merge ip x = assignC merge pos 0#8 x := by
  obtain ⟨v, hv, e⟩ := Ipv4ToUint_of hi
  exact ⟨v, e, by rw [AddIpC, hv]; rfl⟩

theorem AddCidrC_eq {n : IPNet} {u ones : Nat} (hi : IPv4 n.ip u) (hl : n.mask.length = 4)
    (hc : Contiguous n.mask ones) (x : V) : ∃ pos : U32, ∃ e : U8, pos.toNat = u ∧ e.toNat = 32 - ones ∧
      AddCidrC merge (some n) x = assignC merge pos e x := by
  obtain ⟨v, hv, e⟩ := Ipv4ToUint_of hi
  have hle := Contiguous_le hc
  rw [hl] at hle
  refine ⟨v, 32#8 - BitVec.ofNat 8 ones, e, ?_, ?_⟩
  · rw [BitVec.toNat_sub_of_le (by rw [BitVec.le_def]; simp; omega)]; simp; omega
  · rw [AddCidrC]; simp only [hv, MaskToByte_of hc]; rfl

theorem AddCidrC_blockNet (u : U32) (e : U8) (he : e.toNat ≤ 32) (x : V) :
    AddCidrC merge (some (blockNet u.toNat e.toNat)) x = assignC merge u e x := by
  have h1 : Ipv4ToUint (blockNet u.toNat e.toNat).ip = .ok u := by
    have hi := IPv4_of_len4 (blockNet_ip u.toNat e.toNat u.isLt).1
    rw [(blockNet_ip u.toNat e.toNat u.isLt).2] at hi
    obtain ⟨v, hv, e'⟩ := Ipv4ToUint_of hi
    rw [hv, BitVec.eq_of_toNat_eq e']
  have h2 : 32#8 - MaskToByte (blockNet u.toNat e.toNat).mask = e := by
    show 32#8 - MaskToByte (MaskFromByte (BitVec.ofNat 8 (32 - e.toNat))) = e
    rw [MaskToByte_of (MaskFromByte_contiguous (32 - e.toNat) (by omega))]
    apply BitVec.eq_of_toNat_eq
    rw [BitVec.toNat_sub_of_le (by rw [BitVec.le_def]; simp; omega)]
    simp; omega
  rw [AddCidrC]
  simp only [h1, h2]
  rfl

/-- A call for one CIDR is one addition. -/
theorem StepC_eq {op : Op V} {c : Cidr} (hc : Target op c) : ∃ pos : U32, ∃ e : U8, e.toNat ≤ 32 ∧
    c = toCidr (2 ^ e.toNat * (pos.toNat / 2 ^ e.toNat)) e.toNat ∧
    ∀ s o s', StepC merge s op o s' ↔ assignC merge pos e (valueOf op) s = (o, s') := by
  cases op with
  | addIp ip x =>
    obtain ⟨u, hu, rfl⟩ := hc
    obtain ⟨pos, hp, e⟩ := AddIpC_eq merge hu x
    exact ⟨pos, 0#8, by simp, by simp [toCidr, hp], fun s o s' => iff_of_eq (congrArg (· = (o, s')) (congrFun e s))⟩
  | addCidr n x =>
    obtain ⟨u, ones, hu, hl, ho, rfl⟩ := hc
    obtain ⟨pos, e, hp, he, eq⟩ := AddCidrC_eq merge hu hl ho x
    have hle := Contiguous_le ho
    rw [hl] at hle
    refine ⟨pos, e, by omega, ?_, fun s o s' => iff_of_eq (congrArg (· = (o, s')) (congrFun eq s))⟩
    rw [he, hp, toCidr, show 32 - (32 - ones) = ones by omega]
  | addRange s e x => exact hc.elim

theorem assignC_norm {pos : U32} {e : U8} {x : V} {s s' : Node V × σ} (hn : Norm s.1 32)
    (h : assignC merge pos e x s = (some (), s')) : Norm s'.1 32 := by
  rw [assignC] at h
  split at h
  · rename_i h1
    cases h
    exact addC_norm merge s.1 hn pos e x h1
  · cases h

theorem rangeLoopC_norm (uEnd : U32) (x : V) (fuel : Nat) : ∀ (u : U32) (s s' : Node V × σ), Norm s.1 32 →
    rangeLoopC merge uEnd x fuel u s = some (some (), s') → Norm s'.1 32 := by
  induction fuel with
  | zero =>
    intro u s s' hn h
    rw [rangeLoopC] at h
    split at h
    · cases h
    · cases h; exact hn
  | succ fuel ih =>
    intro u s s' hn h
    rw [rangeLoopC] at h
    split at h
    · split at h
      · cases h
      · dsimp only at h
        split at h
        · cases h
        · rename_i h1
          exact ih _ _ _ (assignC_norm merge hn h1) h
    · cases h; exact hn

theorem StepC_norm {op : Op V} {s s' : Node V × σ} (hn : Norm s.1 32) (h : StepC merge s op (some ()) s') : Norm s'.1 32 := by
  cases op with
  | addIp ip x =>
    obtain ⟨v, hv⟩ := Ipv4ToUint_total ip
    have h : AddIpC merge ip x s = _ := h
    rw [AddIpC, hv] at h
    exact assignC_norm merge hn h
  | addCidr n x =>
    obtain ⟨v, hv⟩ := Ipv4ToUint_total n.ip
    have h : AddCidrC merge (some n) x s = _ := h
    rw [AddCidrC] at h
    simp only [hv] at h
    exact assignC_norm merge hn h
  | addRange a b x =>
    obtain ⟨v, hv⟩ := Ipv4ToUint_total a
    obtain ⟨w, hw⟩ := Ipv4ToUint_total b
    obtain ⟨fuel, h⟩ := h
    rw [AddRangeC, hv, hw] at h
    exact rangeLoopC_norm merge w x fuel v s s' hn h

theorem greedy_nets (uEnd : U32) (hne : uEnd ≠ 0xffffffff#32) (u : U32) :
    ∃ ns : List IPNet, (∀ n ∈ ns, CanonicalNet n) ∧ Greedy uEnd.toNat u.toNat (ns.map cidrOf) := by
  obtain ⟨t, ht⟩ := rangeLoop_ends (fun _ _ => ()) uEnd hne () _ u .none (Nat.le_refl _)
  obtain ⟨ns, h1, h2, _⟩ := rangeLoop_greedy _ uEnd hne () _ u _ _ ht
  exact ⟨ns, h1, h2⟩

theorem rangeLoopC_greedy (uEnd : U32) (hne : uEnd ≠ 0xffffffff#32) (x : V) (fuel : Nat) :
    ∀ (u : U32) (s : Node V × σ) (o : Option Unit) (s' : Node V × σ), rangeLoopC merge uEnd x fuel u s = some (o, s') →
    ∃ ns : List IPNet, (∀ n ∈ ns, CanonicalNet n) ∧ Greedy uEnd.toNat u.toNat (ns.map cidrOf) ∧
      RunsC merge s (ns.map fun n => .addCidr n x) o s' := by
  have hdone : ∀ (u : U32) (s : Node V × σ), ¬ u ≤ uEnd → ∃ ns : List IPNet, (∀ n ∈ ns, CanonicalNet n) ∧
      Greedy uEnd.toNat u.toNat (ns.map cidrOf) ∧ RunsC merge s (ns.map fun n => .addCidr n x) (some ()) s := by
    intro u s hc
    rw [BitVec.le_def] at hc
    exact ⟨[], by simp, .done (by omega), rfl, rfl⟩
  induction fuel with
  | zero =>
    intro u s o s' h
    rw [rangeLoopC] at h
    split at h
    · cases h
    · rename_i hc; cases h
      exact hdone u _ hc
  | succ fuel ih =>
    intro u s o s' h
    rw [rangeLoopC] at h
    split at h
    · split at h
      · cases h
      · rename_i m hm
        obtain ⟨j, hj, hd, hb, hend, hnext, hblk⟩ := range_turn hne hm
        have hmax := bitCount_max hm
        have hblk := AddCidrC_blockNet merge u (bitCount m 0#8) (by omega) x
        rw [hb] at hblk
        have hcons : ∀ ns : List IPNet, (∀ n ∈ ns, CanonicalNet n) →
            Greedy uEnd.toNat (u + (m + 1#32)).toNat (ns.map cidrOf) →
            (∀ n ∈ blockNet u.toNat j :: ns, CanonicalNet n) ∧ Greedy uEnd.toNat u.toNat ((blockNet u.toNat j :: ns).map cidrOf) := by
          intro ns i1 i2
          constructor
          · intro n hn'
            rcases List.mem_cons.mp hn' with rfl | hn'
            · exact blockNet_canonical _ _ u.isLt hj hd
            · exact i1 n hn'
          · rw [List.map_cons, cidrOf_blockNet _ _ u.isLt hj]
            rw [hnext] at i2
            refine .next hj hd hend (fun i h1 h2 h3 => ?_) i2
            have := hmax i h1 h2 h3
            omega
        dsimp only at h
        split at h
        · rename_i h1
          cases h
          obtain ⟨ns, i1, i2⟩ := greedy_nets uEnd hne (u + (m + 1#32))
          obtain ⟨k1, k2⟩ := hcons ns i1 i2
          refine ⟨_, k1, k2, .inr ⟨?_, rfl⟩⟩
          show AddCidrC _ _ _ _ = _
          rw [hblk]; exact h1
        · rename_i h1
          obtain ⟨ns, i1, i2, i3⟩ := ih _ _ _ _ h
          obtain ⟨k1, k2⟩ := hcons ns i1 i2
          refine ⟨_, k1, k2, .inl ⟨_, ?_, i3⟩⟩
          show AddCidrC _ _ _ _ = _
          rw [hblk]; exact h1
    · rename_i hc; cases h
      exact hdone u _ hc

theorem rangeLoopC_ends (uEnd : U32) (hne : uEnd ≠ 0xffffffff#32) (x : V) (fuel : Nat) :
    ∀ (u : U32) (s : Node V × σ), 33 + (uEnd.toNat + 1 - u.toNat) ≤ fuel → ∃ r, rangeLoopC merge uEnd x fuel u s = some r := by
  induction fuel with
  | zero => intro u t h; omega
  | succ fuel ih =>
    intro u s hf
    rw [rangeLoopC]
    split
    · rename_i hc
      obtain ⟨k, hk, hd, hm0⟩ := initial_m u
      obtain ⟨m, hm⟩ := shrink_ends u uEnd hc fuel _ k (by omega) hm0
      rw [hm]
      obtain ⟨j, hj, hd, hb, hend, hnext, hblk⟩ := range_turn hne hm
      have hp : 0 < 2 ^ j := Nat.pow_pos (by omega)
      rw [BitVec.le_def] at hc
      dsimp only
      split
      · exact ⟨_, rfl⟩
      · exact ih _ _ (by rw [hnext]; omega)
    · exact ⟨_, rfl⟩

theorem rangeLoopC_forever (x : V) (fuel : Nat) : ∀ (u : U32) (s s' : Node V × σ),
    rangeLoopC merge 0xffffffff#32 x fuel u s ≠ some (some (), s') := by
  have hle : ∀ u : U32, u ≤ 0xffffffff#32 := fun u => by rw [BitVec.le_def]; have := u.isLt; simp; omega
  induction fuel with
  | zero => intro u s s'; rw [rangeLoopC, if_pos (hle u)]; simp
  | succ fuel ih =>
    intro u s s'
    rw [rangeLoopC, if_pos (hle u)]
    cases shrink u 0xffffffff#32 fuel ((u - 1#32) &&& ~~~u) with
    | none => simp
    | some m =>
      dsimp only
      split
      · simp
      · exact ih _ _ _

theorem assignC_some {pos : U32} {e : U8} {x : V} {s s' : Node V × σ} {root : Node V}
    (h : addC merge s.1 pos 32#8 e x s = (some root, s')) : assignC merge pos e x s = (some (), (root, s'.2)) := by
  rw [assignC, h]

theorem assignC_pure (f : V → V → V) (pos : U32) (e : U8) (x : V) (s : Node V × σ) :
    assignC (pureMerge f) pos e x s = (some (), (add f s.1 pos 32#8 e x, s.2)) :=
  assignC_some _ (congrFun (addC_pure f 32 s.1 pos 32#8 e x rfl) s)

theorem rangeLoopC_pure (f : V → V → V) (uEnd : U32) (x : V) (fuel : Nat) : ∀ (u : U32) (t : Node V) (s : σ),
    rangeLoopC (pureMerge f) uEnd x fuel u (t, s) =
      (rangeLoop f uEnd x fuel u t).map fun t' => (some (), (t', s)) := by
  induction fuel with
  | zero => intro u t s; rw [rangeLoopC, rangeLoop]; split <;> rfl
  | succ fuel ih =>
    intro u t s
    rw [rangeLoopC, rangeLoop]
    split
    · cases shrink u uEnd fuel ((u - 1#32) &&& ~~~u) with
      | none => rfl
      | some m => dsimp only; rw [assignC_pure]; exact ih _ _ _
    · rfl

end

theorem addC_not_none {σ : Type} (merge : V → V → Eff σ V) (p : Node V) (pos : U32) (m e : U8) (v : V) (s s' : σ) :
    addC merge p pos m e v s ≠ (some .none, s') := by
  have hmk : ∀ (l r : Node V) (s s' : σ), mkNodeC merge l r s ≠ (some .none, s') := by
    intro l r s s' h
    have ht : ∀ l r : Node V, (pure (Node.tree l r) : Eff σ (Node V)) s ≠ (some .none, s') := fun _ _ h => by cases h
    cases l <;> cases r <;> first | exact ht _ _ h | skip
    rename_i a b
    have h : ((merge a b) >>= fun x => pure (Node.all x) : Eff σ (Node V)) s = (some .none, s') := h
    match hm : merge a b s with
    | (some x, s1) => rw [Eff.bind_some hm] at h; cases h
    | (none, s1) => rw [Eff.bind_none hm] at h; cases h
  have hb : ∀ (q : Eff σ (Node V)) (f : Node V → Eff σ (Node V)), (∀ n s s', f n s ≠ (some .none, s')) →
      (q >>= f) s ≠ (some .none, s') := by
    intro q f hf h
    match hm : q s with
    | (some x, s1) => rw [Eff.bind_some hm] at h; exact hf _ _ _ h
    | (none, s1) => rw [Eff.bind_none hm] at h; cases h
  rw [addC.eq_def]
  cases p with
  | all v => intro h; cases h
  | none =>
    dsimp only
    split
    · intro h; cases h
    · split
      · exact hb _ _ fun n s s' => hmk _ _ s s'
      · exact hb _ _ fun n s s' => hmk _ _ s s'
  | tree l r =>
    dsimp only
    split
    · intro h; cases h
    · split
      · exact hb _ _ fun n s s' => hmk _ _ s s'
      · exact hb _ _ fun n s s' => hmk _ _ s s'

end Net
