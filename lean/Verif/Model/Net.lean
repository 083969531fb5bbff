import Verif.Go.Basic

/-!
# Model of package `net`

`net.IP` and `net.IPMask` are byte lists (a nil slice is the empty list; the code never distinguishes them).
Pointers to `net.IPNet` are assumed non-nil.
-/
namespace Net

/-! ## Standard library (`net`, `encoding/binary`, `bytes`) -/

/-- `net.IP.To4`: the address itself if 4 bytes; the last 4 of 16 bytes with prefix `::ffff:`; otherwise nil (`none`). -/
def To4 (ip : List U8) : Option (List U8) :=
  if ip.length = 4 then some ip
  else if ip.length = 16 ∧ ip.take 10 = List.replicate 10 0#8 ∧ ip[10]? = some 0xff#8 ∧ ip[11]? = some 0xff#8 then
    some (ip.drop 12)
  else none

/-- Counting the leading ones of one byte: `for v&0x80 != 0 { n++; v <<= 1 }`; returns the count and what is left of `v`. -/
def leadingOnes : Nat → U8 → Nat × U8
  | 0, v => (0, v)
  | fuel + 1, v => if v &&& 0x80#8 ≠ 0#8 then
      let (n, v) := leadingOnes fuel (v <<< 1)
      (n + 1, v)
    else (0, v)

/-- `net.simpleMaskLength`: number of leading ones, or `none` (-1) when a one follows a zero. -/
def simpleMaskLength : List U8 → Option Nat
  | [] => some 0
  | v :: mask =>
    if v = 0xff#8 then (simpleMaskLength mask).map (· + 8)
    else
      let (n, v) := leadingOnes 8 v
      if v ≠ 0#8 then none
      else if mask.all (· = 0#8) then some n
      else none

/-- `net.IPMask.Size`, first result: number of leading ones; 0 when not of the form ones followed by zeros. -/
def maskSizeOnes (m : List U8) : Nat := (simpleMaskLength m).getD 0

/-- `binary.BigEndian.Uint32` (panics on fewer than 4 bytes). -/
def beUint32 (b : List U8) : Res U32 := do
  let b3 ← goIdx b 3
  let b0 ← goIdx b 0
  let b1 ← goIdx b 1
  let b2 ← goIdx b 2
  return b3.setWidth 32 ||| b2.setWidth 32 <<< 8 ||| b1.setWidth 32 <<< 16 ||| b0.setWidth 32 <<< 24

/-- `binary.BigEndian.PutUint32` into a fresh 4-byte slice. -/
def bePutUint32 (v : U32) : List U8 :=
  [(v >>> 24).setWidth 8, (v >>> 16).setWidth 8, (v >>> 8).setWidth 8, v.setWidth 8]

/-- `net.IPNet`. -/
structure IPNet where
  ip : List U8
  mask : List U8
  deriving DecidableEq, Repr

/-! ## net/Ipv4.go, net/Mask.go, net/Cidr.go -/

/-- `Ipv4ToUint`, net/Ipv4.go:12-18. -/
def Ipv4ToUint (ip : List U8) : Res U32 :=
  match To4 ip with
  | none => .ok 0#32
  | some i4 => beUint32 i4

/-- `Ipv4FromUint`, net/Ipv4.go:21-25. -/
def Ipv4FromUint (u : U32) : List U8 := bePutUint32 u

/-- `MaskFromByte`, net/Mask.go:12-17. `0xffffffff` takes the type `uint32`, the shift count is the byte `32 - b`
(wrapping), and Go shifts by 32 or more give 0. -/
def MaskFromByte (b : U8) : List U8 :=
  bePutUint32 (0xffffffff#32 <<< (32#8 - b).toNat)

/-- `MaskToByte`, net/Mask.go:20-23. -/
def MaskToByte (m : List U8) : U8 := BitVec.ofNat 8 (maskSizeOnes m)

/-- `CidrEqual`, net/Cidr.go:12-21. `bytes.Compare` is 0 iff the contents are equal (nil equals empty). -/
def CidrEqual (a b : IPNet) : Bool :=
  if a.mask ≠ b.mask then false
  else decide ((To4 a.ip).getD [] = (To4 b.ip).getD [])

/-- `FirstIpv4`, net/Cidr.go:24-31. -/
def FirstIpv4 (n : IPNet) : List U8 := n.ip

/-- `LastIpv4`, net/Cidr.go:34-41. -/
def LastIpv4 (n : IPNet) : Res (List U8) := do
  let r0 := (← goIdx n.ip 0) ||| ~~~(← goIdx n.mask 0)
  let r1 := (← goIdx n.ip 1) ||| ~~~(← goIdx n.mask 1)
  let r2 := (← goIdx n.ip 2) ||| ~~~(← goIdx n.mask 2)
  let r3 := (← goIdx n.ip 3) ||| ~~~(← goIdx n.mask 3)
  return [r0, r1, r2, r3]

/-! ## net/IpTree.go -/

/-- The three implementations of `iTreeNode`: `all` (IpTree.go:16-18), `none` (32), `treeNode` (42-44). `none{}` and
`&none{}` behave alike: both fail the type assertions to `all` and `treeNode`. -/
inductive Node (V : Type) where
  | all (value : V)
  | none
  | tree (l r : Node V)
  deriving DecidableEq, Repr

variable {V : Type}

/-- `each` of the three node types, IpTree.go:23-25, 37-39, 54-57; `output` calls are collected in a list.
Byte arithmetic wraps; `1<<mask` is a `uint32` shift. -/
def Node.each : Node V → (position : U32) → (mask : U8) → List (U32 × U8 × V)
  | .all v, position, mask => [(position, 31#8 - mask, v)]
  | .none, _, _ => []
  | .tree l r, position, mask =>
    l.each position (mask - 1#8) ++ r.each (position ||| (1#32 <<< mask.toNat)) (mask - 1#8)

/-- The end of `add`, IpTree.go:83-92: two `all` children are merged. -/
def mkNode (merge : V → V → V) : Node V → Node V → Node V
  | .all a, .all b => .all (merge a b)
  | l, r => .tree l r

/-- `add`, IpTree.go:58-93. `mask` only decreases while above `end`, so `mask -= 1` does not wrap (and the recursion ends). -/
def add (merge : V → V → V) (parent : Node V) (pos : U32) (mask end_ : U8) (value : V) : Node V :=
  match parent with
  | .all v => .all v
  | .none =>
    if _h : mask ≤ end_ then .all value
    else
      let mask' := mask - 1#8
      if (pos >>> mask'.toNat) &&& 1#32 = 1#32 then
        mkNode merge .none (add merge .none pos mask' end_ value)
      else mkNode merge (add merge .none pos mask' end_ value) .none
  | .tree l r =>
    if _h : mask ≤ end_ then .all value
    else
      let mask' := mask - 1#8
      if (pos >>> mask'.toNat) &&& 1#32 = 1#32 then
        mkNode merge l (add merge r pos mask' end_ value)
      else mkNode merge (add merge l pos mask' end_ value) r
termination_by mask.toNat
decreasing_by
  all_goals
    have h0 : end_.toNat < mask.toNat := by simpa [BitVec.le_def] using _h
    have h1 : (mask - 1#8).toNat = mask.toNat - 1 := by
      rw [BitVec.toNat_sub_of_le (by rw [BitVec.le_def]; simp; omega)]; rfl
    omega

/-- `Tree.AddIp`, IpTree.go:106-109. (`t.root` is the receiver's only changing field.) -/
def AddIp (merge : V → V → V) (root : Node V) (ip : List U8) (value : V) : Res (Node V) := do
  let u ← Ipv4ToUint ip
  return add merge root u 32#8 0#8 value

/-- Inner loop of `AddRange`, IpTree.go:117-119: `for uStart+m > uEnd { m >>= 1 }`, at most `fuel` times;
`none` = not finished. -/
def shrink (uStart uEnd : U32) : (fuel : Nat) → (m : U32) → Option U32
  | 0, m => if uStart + m > uEnd then Option.none else some m
  | fuel + 1, m => if uStart + m > uEnd then shrink uStart uEnd fuel (m >>> 1) else some m

/-- The bit-counting loop of `AddRange`, IpTree.go:120-126: `for temp != 0 { bit += 1; temp >>= 1 }`. -/
def bitCount (temp : U32) (bit : U8) : U8 :=
  if _h : temp ≠ 0#32 then bitCount (temp >>> 1) (bit + 1#8) else bit
termination_by temp.toNat
decreasing_by
  have : temp.toNat ≠ 0 := fun h => _h (BitVec.eq_of_toNat_eq h)
  rw [BitVec.toNat_ushiftRight, Nat.shiftRight_eq_div_pow]; omega

/-- Outer loop of `AddRange`, IpTree.go:115-129, for at most `fuel` steps of each loop; `none` = not finished. -/
def rangeLoop (merge : V → V → V) (uEnd : U32) (value : V) : (fuel : Nat) → (uStart : U32) → Node V → Option (Node V)
  | 0, uStart, root => if uStart ≤ uEnd then Option.none else some root
  | fuel + 1, uStart, root =>
    if uStart ≤ uEnd then
      match shrink uStart uEnd fuel ((uStart - 1#32) &&& ~~~uStart) with
      | Option.none => Option.none
      | some m =>
        let bit := bitCount m 0#8
        rangeLoop merge uEnd value fuel (uStart + (m + 1#32)) (add merge root uStart 32#8 bit value)
    else some root

/-- `Tree.AddRange`, IpTree.go:112-130, with `fuel` bounding the loops: `ok none` = still running. -/
def AddRange (merge : V → V → V) (fuel : Nat) (root : Node V) (start end_ : List U8) (value : V) : Res (Option (Node V)) := do
  let uStart ← Ipv4ToUint start
  let uEnd ← Ipv4ToUint end_
  return rangeLoop merge uEnd value fuel uStart root

/-- `Tree.AddCidr`, IpTree.go:138-142 (`32-b` is byte arithmetic). -/
def AddCidr (merge : V → V → V) (root : Node V) (cidr : IPNet) (value : V) : Res (Node V) := do
  let u ← Ipv4ToUint cidr.ip
  let b := MaskToByte cidr.mask
  return add merge root u 32#8 (32#8 - b) value

/-- `Tree.ListCidr`, IpTree.go:145-154; a `CidrValue` (132-135) is a pair. -/
def ListCidr (root : Node V) : List (IPNet × V) :=
  (root.each 0#32 31#8).map fun (position, bit, value) => (⟨Ipv4FromUint position, MaskFromByte bit⟩, value)

/-- A call on a `Tree`. -/
inductive Op (V : Type) where
  | addIp (ip : List U8) (value : V)
  | addRange (start end_ : List U8) (value : V)
  | addCidr (cidr : IPNet) (value : V)

/-- A call takes the tree `root` to `root'` and returns (after some number of loop steps). -/
def Step (merge : V → V → V) (root : Node V) (op : Op V) (root' : Node V) : Prop :=
  match op with
  | .addIp ip v => AddIp merge root ip v = .ok root'
  | .addRange s e v => ∃ fuel, AddRange merge fuel root s e v = .ok (some root')
  | .addCidr c v => AddCidr merge root c v = .ok root'

/-- A sequence of calls, each of which returns. -/
def Runs (merge : V → V → V) : (root : Node V) → List (Op V) → (root' : Node V) → Prop
  | root, [], root' => root' = root
  | root, op :: ops, root' => ∃ root1, Step merge root op root1 ∧ Runs merge root1 ops root'

/-- `New`, IpTree.go:100-103. -/
def New : Node V := .none

end Net
