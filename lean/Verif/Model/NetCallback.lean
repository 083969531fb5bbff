import Verif.Model.Net

/-!
# Model of `net/IpTree.go` with an arbitrary merge callback

In `Model/Net` the callback of `New` is a pure function. Here it is any Go function: it may panic, it may have side effects, and it
may use the tree itself. What it can see or change is the state: the tree's `root` field and anything else (`σ`).
A nil callback is one that panics on every call (calling a nil function panics).

`treeNode` is a struct held by value in an interface: `ret, isTree := parent.(treeNode)` copies it, so `ret.l = …` and `ret.r = …`
(IpTree.go:78, 80) never change a node of the existing tree. Only the assignments to `t.root` do.
-/
namespace Net

/-- A call that may change the state: its result (`none`: it panicked) and the state after it. -/
def Eff (σ α : Type) := σ → Option α × σ

instance {σ : Type} : Monad (Eff σ) where
  pure a := fun s => (some a, s)
  bind m f := fun s => match m s with
    | (some a, s) => f a s
    | (none, s) => (none, s)

variable {V σ : Type}

/-- A nil callback. -/
def nilMerge : V → V → Eff σ V := fun _ _ s => (none, s)

/-- A callback that returns `f a b` and does nothing else. -/
def pureMerge (f : V → V → V) : V → V → Eff σ V := fun a b => pure (f a b)

/-- The end of `add`, IpTree.go:83-92. -/
def mkNodeC (merge : V → V → Eff σ V) : Node V → Node V → Eff σ (Node V)
  | .all a, .all b => do return .all (← merge a b)
  | l, r => return .tree l r

/-- `add`, IpTree.go:58-93. -/
def addC (merge : V → V → Eff σ V) (parent : Node V) (pos : U32) (mask end_ : U8) (value : V) : Eff σ (Node V) :=
  match parent with
  | .all v => return .all v
  | .none =>
    if _h : mask ≤ end_ then return .all value
    else
      let mask' := mask - 1#8
      if (pos >>> mask'.toNat) &&& 1#32 = 1#32 then do
        mkNodeC merge .none (← addC merge .none pos mask' end_ value)
      else do mkNodeC merge (← addC merge .none pos mask' end_ value) .none
  | .tree l r =>
    if _h : mask ≤ end_ then return .all value
    else
      let mask' := mask - 1#8
      if (pos >>> mask'.toNat) &&& 1#32 = 1#32 then do
        mkNodeC merge l (← addC merge r pos mask' end_ value)
      else do mkNodeC merge (← addC merge l pos mask' end_ value) r
termination_by mask.toNat
decreasing_by
  all_goals
    have h0 : end_.toNat < mask.toNat := by simpa [BitVec.le_def] using _h
    have h1 : (mask - 1#8).toNat = mask.toNat - 1 := by
      rw [BitVec.toNat_sub_of_le (by rw [BitVec.le_def]; simp; omega)]; rfl
    omega

/-- `t.root = add(t.root, pos, 32, end, value, t.merge)`, IpTree.go:108, 127, 141: `t.root` is read before the call and assigned
after it returned; if it panics nothing is assigned. -/
def assignC (merge : V → V → Eff (Node V × σ) V) (pos : U32) (end_ : U8) (value : V) : Eff (Node V × σ) Unit := fun s =>
  match addC merge s.1 pos 32#8 end_ value s with
  | (some root, s') => (some (), (root, s'.2))
  | (none, s') => (none, s')

/-- A panic or result of a function without state. -/
def Eff.lift {α : Type} (r : Res α) : Eff σ α := fun s =>
  match r with
  | .ok a => (some a, s)
  | .panic => (none, s)

/-- `Tree.AddIp`, IpTree.go:106-109. -/
def AddIpC (merge : V → V → Eff (Node V × σ) V) (ip : List U8) (value : V) : Eff (Node V × σ) Unit := do
  let u ← Eff.lift (Ipv4ToUint ip)
  assignC merge u 0#8 value

/-- `Tree.AddCidr`, IpTree.go:138-142; a nil pointer (`none`) panics at `cidr.IP`. -/
def AddCidrC (merge : V → V → Eff (Node V × σ) V) (cidr : Option IPNet) (value : V) : Eff (Node V × σ) Unit :=
  match cidr with
  | none => fun s => (none, s)
  | some cidr => do
    let u ← Eff.lift (Ipv4ToUint cidr.ip)
    let b := MaskToByte cidr.mask
    assignC merge u (32#8 - b) value

/-- Outer loop of `AddRange`, IpTree.go:115-129, for at most `fuel` steps of each loop; `none` = not finished. -/
def rangeLoopC (merge : V → V → Eff (Node V × σ) V) (uEnd : U32) (value : V) :
    (fuel : Nat) → (uStart : U32) → (s : Node V × σ) → Option (Option Unit × (Node V × σ))
  | 0, uStart, s => if uStart ≤ uEnd then none else some (some (), s)
  | fuel + 1, uStart, s =>
    if uStart ≤ uEnd then
      match shrink uStart uEnd fuel ((uStart - 1#32) &&& ~~~uStart) with
      | none => none
      | some m =>
        let bit := bitCount m 0#8
        match assignC merge uStart bit value s with
        | (none, s) => some (none, s)
        | (some (), s) => rangeLoopC merge uEnd value fuel (uStart + (m + 1#32)) s
    else some (some (), s)

/-- `Tree.AddRange`, IpTree.go:112-130, with `fuel` bounding the loops: `none` = still running. -/
def AddRangeC (merge : V → V → Eff (Node V × σ) V) (fuel : Nat) (start end_ : List U8) (value : V) (s : Node V × σ) :
    Option (Option Unit × (Node V × σ)) :=
  match Ipv4ToUint start, Ipv4ToUint end_ with
  | .ok uStart, .ok uEnd => rangeLoopC merge uEnd value fuel uStart s
  | _, _ => some (none, s)

/-- A call takes the state `s` to `s'` and ends, by returning (`some ()`) or by panicking (`none`). -/
def StepC (merge : V → V → Eff (Node V × σ) V) (s : Node V × σ) (op : Op V) (o : Option Unit) (s' : Node V × σ) : Prop :=
  match op with
  | .addIp ip v => AddIpC merge ip v s = (o, s')
  | .addRange a e v => ∃ fuel, AddRangeC merge fuel a e v s = some (o, s')
  | .addCidr c v => AddCidrC merge (some c) v s = (o, s')

/-- A sequence of calls that ends: each returns, or one panics and those after it are not made. -/
def RunsC (merge : V → V → Eff (Node V × σ) V) : (s : Node V × σ) → List (Op V) → Option Unit → (s' : Node V × σ) → Prop
  | s, [], o, s' => o = some () ∧ s' = s
  | s, op :: ops, o, s' => (∃ s1, StepC merge s op (some ()) s1 ∧ RunsC merge s1 ops o s') ∨
      (StepC merge s op none s' ∧ o = none)

end Net
