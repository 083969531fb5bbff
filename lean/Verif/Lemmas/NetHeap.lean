import Verif.Model.NetHeap
import Verif.Lemmas.HashHeap

namespace NetHeap
open Net HashHeap

variable {V : Type}

/-- The slices `listLoop` puts into new networks. -/
def newNets : Nat → Nat → List (Slice × Slice)
  | _, 0 => []
  | x, k + 1 => (⟨x, 4⟩, ⟨x + 4, 4⟩) :: newNets (x + 8) k

/-- The pointers `listLoop` returns. -/
def ptrs : Nat → List (U32 × U8 × V) → List (Nat × V)
  | _, [] => []
  | n, p :: l => (n, p.2.2) :: ptrs (n + 1) l

theorem newNets_length (x k : Nat) : (newNets x k).length = k := by
  induction k generalizing x with
  | zero => rfl
  | succ k ih => simp [newNets, ih]

theorem newNets_get (x k i : Nat) (h : i < k) : (newNets x k)[i]? = some (⟨x + 8 * i, 4⟩, ⟨x + 8 * i + 4, 4⟩) := by
  induction k generalizing x i with
  | zero => omega
  | succ k ih =>
    cases i with
    | zero => simp [newNets]
    | succ i =>
      rw [newNets, List.getElem?_cons_succ, ih _ _ (by omega)]
      rw [show x + 8 + 8 * i = x + 8 * (i + 1) by omega]

theorem ptrs_length (n : Nat) (l : List (U32 × U8 × V)) : (ptrs n l).length = l.length := by
  induction l generalizing n with
  | nil => rfl
  | cons p l ih => simp [ptrs, ih]

theorem ptrs_fst (n : Nat) (l : List (U32 × U8 × V)) : (ptrs n l).map Prod.fst = (List.range l.length).map (n + ·) := by
  induction l generalizing n with
  | nil => rfl
  | cons p l ih =>
    rw [ptrs, List.map_cons, ih, List.length_cons, List.range_succ_eq_map, List.map_cons, List.map_map]
    congr 1
    apply List.map_congr_left
    intro a _
    simp only [Function.comp]
    omega

/-- Everything `listLoop` does. -/
theorem listLoop_spec (l : List (U32 × U8 × V)) : ∀ w : World V,
    (listLoop w l).1.trees = w.trees ∧ (listLoop w l).1.top = w.top + 8 * l.length ∧
    (∀ x, x < w.top → (listLoop w l).1.mem x = w.mem x) ∧ (listLoop w l).1.nets = w.nets ++ newNets w.top l.length ∧
    (listLoop w l).2 = ptrs w.nets.length l ∧
    bytesAll (listLoop w l).1 (listLoop w l).2 = l.map fun p => (⟨Ipv4FromUint p.1, MaskFromByte p.2.1⟩, p.2.2) := by
  induction l with
  | nil => intro w; simp [listLoop, newNets, ptrs, bytesAll]
  | cons p l ih =>
    intro w
    obtain ⟨position, bit, value⟩ := p
    have l4 : (Ipv4FromUint position).length = 4 := rfl
    have m4 : (MaskFromByte bit).length = 4 := rfl
    simp only [listLoop]
    generalize hw1 : (newNet (alloc (alloc w (Ipv4FromUint position)).1 (MaskFromByte bit)).1
      (alloc w (Ipv4FromUint position)).2 (alloc (alloc w (Ipv4FromUint position)).1 (MaskFromByte bit)).2).1 = w1
    have htop : w1.top = w.top + 8 := by rw [← hw1]; simp [newNet, alloc, l4, m4]
    have htr : w1.trees = w.trees := by rw [← hw1]; rfl
    have hnets : w1.nets = w.nets ++ [(⟨w.top, 4⟩, ⟨w.top + 4, 4⟩)] := by rw [← hw1]; simp [newNet, alloc, l4, m4]
    have hmem : w1.mem = store (store w.mem w.top (Ipv4FromUint position)) (w.top + 4) (MaskFromByte bit) := by
      rw [← hw1]; simp [newNet, alloc, l4]
    have hn : (newNet (alloc (alloc w (Ipv4FromUint position)).1 (MaskFromByte bit)).1
      (alloc w (Ipv4FromUint position)).2 (alloc (alloc w (Ipv4FromUint position)).1 (MaskFromByte bit)).2).2 = w.nets.length := rfl
    rw [hn]
    obtain ⟨h1, h2, h3, h4, h5, h6⟩ := ih w1
    refine ⟨h1.trans htr, ?_, ?_, ?_, ?_, ?_⟩
    · rw [h2, htop, List.length_cons]; omega
    · intro x hx
      rw [h3 x (by omega), hmem, store_lt (by omega), store_lt hx]
    · rw [h4, hnets, htop, List.length_cons, newNets]; simp
    · rw [h5, hnets]; simp [ptrs]
    · rw [bytesAll, List.map_cons]
      rw [bytesAll] at h6
      rw [h6, List.map_cons]
      congr 1
      rw [h4, hnets]
      have : (w.nets ++ [((⟨w.top, 4⟩ : Slice), (⟨w.top + 4, 4⟩ : Slice))] ++ newNets w1.top l.length).getD w.nets.length (⟨0, 0⟩, ⟨0, 0⟩)
          = (⟨w.top, 4⟩, ⟨w.top + 4, 4⟩) := by simp [List.getD]
      dsimp only
      rw [this, bytesOf]
      have c1 : Slice.content (listLoop w1 l).1.mem ⟨w.top, 4⟩ = Ipv4FromUint position := by
        rw [content_congr (m' := store w.mem w.top (Ipv4FromUint position ++ []))]
        · exact content_store w.mem w.top (Ipv4FromUint position) []
        · rintro y ⟨ya, yb⟩
          dsimp only at ya yb
          rw [h3 y (by omega), hmem, store_lt (by omega), List.append_nil]
      have c2 : Slice.content (listLoop w1 l).1.mem ⟨w.top + 4, 4⟩ = MaskFromByte bit := by
        rw [content_congr (m' := store (store w.mem w.top (Ipv4FromUint position)) (w.top + 4) (MaskFromByte bit ++ []))]
        · exact content_store _ (w.top + 4) (MaskFromByte bit) []
        · rintro y ⟨ya, yb⟩
          dsimp only at ya yb
          rw [h3 y (by omega), hmem, List.append_nil]
      rw [c1, c2]

theorem listLoop_bytes (w : World V) (r : Node V) :
    bytesAll (listLoop w (r.each 0#32 31#8)).1 (listLoop w (r.each 0#32 31#8)).2 = ListCidr r := (listLoop_spec _ w).2.2.2.2.2

theorem alloc_content (w : World V) (d : List U8) : Slice.content (alloc w d).1.mem (alloc w d).2 = d := by
  have := content_store w.mem w.top d []
  rwa [List.append_nil] at this

theorem goIdx_of_some {α : Type} {l : List α} {i : Nat} {x : α} (h : l[i]? = some x) : goIdx l i = .ok x := by
  unfold goIdx; rw [h]

theorem Runs_append {merge : V → V → V} (a b : List (Op V)) {r s t : Node V} (h : Runs merge r a s) (h' : Runs merge s b t) :
    Runs merge r (a ++ b) t := by
  induction a generalizing r with
  | nil => rw [show s = r from h] at h'; exact h'
  | cons op a ih => obtain ⟨r1, h1, h2⟩ := h; exact ⟨r1, h1, ih h2⟩

theorem opsOf_append (t : Nat) (a b : List (Event V)) : opsOf t (a ++ b) = opsOf t a ++ opsOf t b := List.filterMap_append

/-- What a call is, seen from outside: which trees change, how memory and networks change, what is returned. -/
inductive Effect (merge : V → V → V) (w : World V) : Call V → World V → List (Event V) → Prop
  | new : Effect merge w .new { w with trees := w.trees ++ [New] } []
  | add {c t op r r'} : (∀ t', c ≠ .list t') → (∀ x v, c ≠ .set x v) → (∀ n i m, c ≠ .setNet n i m) → w.trees[t]? = some r →
      Step merge r op r' → Effect merge w c (setTree w t r') [.added t op]
  | list {t r} : w.trees[t]? = some r → Effect merge w (.list t) (listLoop w (r.each 0#32 31#8)).1
      [.listed t (listLoop w (r.each 0#32 31#8)).2 (ListCidr r)]
  | quiet {c ev} : (∀ t', c ≠ .list t') → (∀ x v, c ≠ .set x v) → (∀ n i m, c ≠ .setNet n i m) → (∀ t op, ev ≠ .added t op) →
      (∀ t r b, ev ≠ .listed t r b) → Effect merge w c w [ev]
  | fresh {c d ev} : (∀ t', c ≠ .list t') → (∀ x v, c ≠ .set x v) → (∀ n i m, c ≠ .setNet n i m) →
      (ev = [] ∨ ev = [.slice (alloc w d).2 d]) → Effect merge w c (alloc w d).1 ev
  | set {x v} : Effect merge w (.set x v) { w with mem := store w.mem x [v] } []
  | mkNet {i m} : Effect merge w (.mkNet i m) (newNet w i m).1 []
  | setNet {n i m} : Effect merge w (.setNet n i m) { w with nets := w.nets.set n (i, m) } []

theorem bind_ok' {α β : Type} {x : Res α} {f : α → Res β} {b : β} (h : (x >>= f) = .ok b) : ∃ a, x = .ok a ∧ f a = .ok b := by
  cases x with
  | ok a => exact ⟨a, rfl, h⟩
  | panic => cases h

theorem Does_effect {merge : V → V → V} {w w' : World V} {c : Call V} {ev : List (Event V)} (h : Does merge w c w' ev) :
    Effect merge w c w' ev := by
  obtain ⟨fuel, h⟩ := h
  cases c with
  | new => simp only [step] at h; cases h; exact .new
  | addIp t ip v =>
    simp only [step] at h
    obtain ⟨r, hr, h⟩ := bind_ok' h
    obtain ⟨r', hr', h⟩ := bind_ok' h
    cases h
    exact .add (by simp) (by simp) (by simp) (goIdx_some hr) hr'
  | addRange t s e v =>
    simp only [step] at h
    obtain ⟨r, hr, h⟩ := bind_ok' h
    obtain ⟨r', hr', h⟩ := bind_ok' h
    cases r' with
    | none => cases h
    | some r' =>
      cases h
      exact .add (by simp) (by simp) (by simp) (goIdx_some hr) ⟨fuel, hr'⟩
  | addCidr t n v =>
    simp only [step] at h
    obtain ⟨r, hr, h⟩ := bind_ok' h
    obtain ⟨n, hn, h⟩ := bind_ok' h
    obtain ⟨r', hr', h⟩ := bind_ok' h
    cases h
    exact .add (by simp) (by simp) (by simp) (goIdx_some hr) hr'
  | list t =>
    simp only [step] at h
    obtain ⟨r, hr, h⟩ := bind_ok' h
    cases h
    rw [listLoop_bytes]
    exact .list (goIdx_some hr)
  | first n =>
    simp only [step] at h
    obtain ⟨n, hn, h⟩ := bind_ok' h
    cases h
    exact .quiet (by simp) (by simp) (by simp) (by simp) (by simp)
  | last n =>
    simp only [step] at h
    obtain ⟨n, hn, h⟩ := bind_ok' h
    obtain ⟨d, hd, h⟩ := bind_ok' h
    cases h
    exact .fresh (by simp) (by simp) (by simp) (.inr (by rw [alloc_content]))
  | equal a b =>
    simp only [step] at h
    obtain ⟨a, ha, h⟩ := bind_ok' h
    obtain ⟨b, hb, h⟩ := bind_ok' h
    cases h
    exact .quiet (by simp) (by simp) (by simp) (by simp) (by simp)
  | fromUint u =>
    simp only [step] at h
    cases h
    exact .fresh (by simp) (by simp) (by simp) (.inr (by rw [alloc_content]))
  | toUint ip =>
    simp only [step] at h
    obtain ⟨u, hu, h⟩ := bind_ok' h
    cases h
    exact .quiet (by simp) (by simp) (by simp) (by simp) (by simp)
  | fromByte u =>
    simp only [step] at h
    cases h
    exact .fresh (by simp) (by simp) (by simp) (.inr (by rw [alloc_content]))
  | toByte ip =>
    simp only [step] at h
    cases h
    exact .quiet (by simp) (by simp) (by simp) (by simp) (by simp)
  | set x v => simp only [step] at h; cases h; exact .set
  | make k => simp only [step] at h; cases h; exact .fresh (by simp) (by simp) (by simp) (.inl rfl)
  | mkNet i m => simp only [step] at h; cases h; exact .mkNet
  | setNet n i m => simp only [step] at h; cases h; exact .setNet

/-- How a call changes a tree. -/
theorem Effect.tree {merge : V → V → V} {w w' : World V} {c : Call V} {ev : List (Event V)} (h : Effect merge w c w' ev)
    {t : Nat} {r' : Node V} (ht : w'.trees[t]? = some r') :
    (∃ r, w.trees[t]? = some r ∧ Runs merge r (opsOf t ev) r') ∨ (t = w.trees.length ∧ r' = New ∧ opsOf t ev = []) := by
  cases h with
  | new =>
    dsimp only at ht
    rw [List.getElem?_append] at ht
    split at ht
    · exact .inl ⟨r', ht, rfl⟩
    · right
      rename_i hn
      obtain ⟨h1, h2⟩ := List.getElem?_eq_some_iff.mp ht
      simp only [List.length_singleton] at h1
      refine ⟨by omega, ?_, rfl⟩
      rw [← h2]; simp
  | @add _ t1 op r r1 _ _ _ hr hs =>
    left
    simp only [setTree, List.getElem?_set] at ht
    split at ht
    · rename_i he
      subst he
      split at ht
      · cases ht
        have e : opsOf t1 [Event.added t1 op] = [op] := by simp [opsOf]
        exact ⟨r, hr, e ▸ ⟨r', hs, rfl⟩⟩
      · cases ht
    · rename_i he
      exact ⟨r', ht, by simp [opsOf, he, Runs]⟩
  | list hr => left; rw [(listLoop_spec _ w).1] at ht; exact ⟨r', ht, rfl⟩
  | quiet _ _ _ h1 h2 =>
    left
    refine ⟨r', ht, ?_⟩
    rename_i e _ _ _
    cases e <;> first | rfl | (exact absurd rfl (h1 _ _))
  | fresh _ _ _ he => left; refine ⟨r', ht, ?_⟩; rcases he with rfl | rfl <;> rfl
  | set => exact .inl ⟨r', ht, rfl⟩
  | mkNet => exact .inl ⟨r', ht, rfl⟩
  | setNet => exact .inl ⟨r', ht, rfl⟩

/-- A call other than a store leaves allocated memory as it is. -/
theorem Effect.mem {merge : V → V → V} {w w' : World V} {c : Call V} {ev : List (Event V)} (h : Effect merge w c w' ev)
    (hc : ∀ x v, c ≠ .set x v) {x : Nat} (hx : x < w.top) : w'.mem x = w.mem x := by
  cases h with
  | list hr => exact (listLoop_spec _ w).2.2.1 x hx
  | fresh => exact store_lt hx
  | set => exact absurd rfl (hc _ _)
  | _ => rfl

/-- A call other than an assignment to fields leaves the networks as they are. -/
theorem Effect.net {merge : V → V → V} {w w' : World V} {c : Call V} {ev : List (Event V)} (h : Effect merge w c w' ev)
    {n : Nat} (hc : ∀ i m, c ≠ .setNet n i m) (hn : n < w.nets.length) : w'.nets[n]? = w.nets[n]? := by
  cases h with
  | list hr => rw [(listLoop_spec _ w).2.2.2.1, List.getElem?_append_left hn]
  | mkNet => exact List.getElem?_append_left hn
  | @setNet n' i m =>
    have : n' ≠ n := fun e => hc i m (by rw [e])
    exact List.getElem?_set_ne this
  | _ => rfl

theorem Effect.grows {merge : V → V → V} {w w' : World V} {c : Call V} {ev : List (Event V)} (h : Effect merge w c w' ev) :
    w.top ≤ w'.top ∧ w.nets.length ≤ w'.nets.length := by
  cases h with
  | list hr => rw [(listLoop_spec _ w).2.1, (listLoop_spec _ w).2.2.2.1, List.length_append]; omega
  | fresh => exact ⟨Nat.le_add_right _ _, Nat.le_refl _⟩
  | mkNet => exact ⟨Nat.le_refl _, by simp [newNet]⟩
  | setNet => exact ⟨Nat.le_refl _, by simp⟩
  | _ => exact ⟨Nat.le_refl _, Nat.le_refl _⟩

end NetHeap
