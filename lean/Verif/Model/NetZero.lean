import Verif.Model.NetCallback

/-!
# Trees that were not made with `New`

The fields of `Tree` are not exported, so another package can make a `Tree` without `New` only as the zero value, whose `root` is a
nil interface and whose `merge` is nil; and it can have a nil `*Tree`. Here the state is what a `*Tree` points to: `none` for a nil
pointer, otherwise the root, which is `none` for a nil interface. The callback is nil throughout.
-/
namespace Net

variable {V : Type}

/-- `add`, IpTree.go:58-93, with a nil callback and a parent that may be the nil interface. A type assertion with two results on a
nil interface gives false (59, 68), so a nil parent is replaced with a new node (70). `none` = panic. The parent in the calls of `add`
within `add` is a child of a `treeNode`, which is never nil (47, 78, 80). -/
def addZ (parent : Option (Node V)) (pos : U32) (mask end_ : U8) (value : V) : Option (Node V) :=
  match parent with
  | some p => (addC nilMerge p pos mask end_ value ()).1
  | none =>
    if mask ≤ end_ then some (.all value)
    else
      let mask' := mask - 1#8
      if (pos >>> mask'.toNat) &&& 1#32 = 1#32 then
        match (addC nilMerge .none pos mask' end_ value ()).1 with
        | none => none
        | some r => (mkNodeC nilMerge .none r ()).1
      else
        match (addC nilMerge .none pos mask' end_ value ()).1 with
        | none => none
        | some l => (mkNodeC nilMerge l .none ()).1

/-- `t.root = add(t.root, pos, 32, end, value, t.merge)`, IpTree.go:108, 127, 141. A nil `t` panics. -/
def assignZ (pos : U32) (end_ : U8) (value : V) (t : Option (Option (Node V))) : Option Unit × Option (Option (Node V)) :=
  match t with
  | none => (none, none)
  | some root =>
    match addZ root pos 32#8 end_ value with
    | none => (none, some root)
    | some r => (some (), some (some r))

/-- `Tree.AddIp`, IpTree.go:106-109. -/
def AddIpZ (ip : List U8) (value : V) (t : Option (Option (Node V))) : Option Unit × Option (Option (Node V)) :=
  match Ipv4ToUint ip with
  | .ok u => assignZ u 0#8 value t
  | .panic => (none, t)

/-- `Tree.AddCidr`, IpTree.go:138-142. -/
def AddCidrZ (cidr : IPNet) (value : V) (t : Option (Option (Node V))) : Option Unit × Option (Option (Node V)) :=
  match Ipv4ToUint cidr.ip with
  | .ok u => assignZ u (32#8 - MaskToByte cidr.mask) value t
  | .panic => (none, t)

/-- Outer loop of `AddRange`, IpTree.go:115-129, for at most `fuel` steps of each loop; `none` = not finished. -/
def rangeLoopZ (uEnd : U32) (value : V) :
    (fuel : Nat) → (uStart : U32) → (t : Option (Option (Node V))) → Option (Option Unit × Option (Option (Node V)))
  | 0, uStart, t => if uStart ≤ uEnd then none else some (some (), t)
  | fuel + 1, uStart, t =>
    if uStart ≤ uEnd then
      match shrink uStart uEnd fuel ((uStart - 1#32) &&& ~~~uStart) with
      | none => none
      | some m =>
        match assignZ uStart (bitCount m 0#8) value t with
        | (none, t) => some (none, t)
        | (some (), t) => rangeLoopZ uEnd value fuel (uStart + (m + 1#32)) t
    else some (some (), t)

/-- `Tree.AddRange`, IpTree.go:112-130, with `fuel` bounding the loops: `none` = still running. -/
def AddRangeZ (fuel : Nat) (start end_ : List U8) (value : V) (t : Option (Option (Node V))) :
    Option (Option Unit × Option (Option (Node V))) :=
  match Ipv4ToUint start, Ipv4ToUint end_ with
  | .ok uStart, .ok uEnd => rangeLoopZ uEnd value fuel uStart t
  | _, _ => some (none, t)

/-- `Tree.ListCidr`, IpTree.go:145-154: `t.root` panics for a nil `t`, and the method call for a nil root. -/
def ListCidrZ (t : Option (Option (Node V))) : Res (List (IPNet × V)) :=
  match t with
  | some (some r) => .ok (ListCidr r)
  | _ => .panic

/-- A call takes `t` to `t'` and ends, by returning (`some ()`) or by panicking (`none`). -/
def StepZ (t : Option (Option (Node V))) (op : Op V) (o : Option Unit) (t' : Option (Option (Node V))) : Prop :=
  match op with
  | .addIp ip v => AddIpZ ip v t = (o, t')
  | .addRange a e v => ∃ fuel, AddRangeZ fuel a e v t = some (o, t')
  | .addCidr c v => AddCidrZ c v t = (o, t')

/-- A sequence of calls that end; a panic is recovered, and the calls after it are made. `os` are their ends. -/
def RunsZ : (t : Option (Option (Node V))) → List (Op V) → List (Option Unit) → (t' : Option (Option (Node V))) → Prop
  | t, [], os, t' => os = [] ∧ t' = t
  | t, op :: ops, os, t' => ∃ o t1 os', StepZ t op o t1 ∧ RunsZ t1 ops os' t' ∧ os = o :: os'

/-- The same for a tree made by `New(nil)`. -/
def RunsN : (t : Node V) → List (Op V) → List (Option Unit) → (t' : Node V) → Prop
  | t, [], os, t' => os = [] ∧ t' = t
  | t, op :: ops, os, t' => ∃ o t1 os', StepC nilMerge (t, ()) op o (t1, ()) ∧ RunsN t1 ops os' t' ∧ os = o :: os'

/-- `CidrEqual`, net/Cidr.go:12-21: `a.Mask`, `b.Mask` panic for nil pointers. -/
def CidrEqualP (a b : Option IPNet) : Res Bool :=
  match a, b with
  | some a, some b => .ok (CidrEqual a b)
  | _, _ => .panic

/-- `FirstIpv4`, net/Cidr.go:24-31. -/
def FirstIpv4P (n : Option IPNet) : Res (List U8) :=
  match n with
  | some n => .ok (FirstIpv4 n)
  | none => .panic

/-- `LastIpv4`, net/Cidr.go:34-41. -/
def LastIpv4P (n : Option IPNet) : Res (List U8) :=
  match n with
  | some n => LastIpv4 n
  | none => .panic

end Net
