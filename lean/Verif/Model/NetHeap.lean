import Verif.Go.Mem
import Verif.Model.Net
import Verif.Model.HashHeap

/-!
# Package `net` and the caller's memory

`net.IP` and `net.IPMask` are slices, `*net.IPNet` points to a variable with two slices, and a program may change the bytes of a slice
and the fields of such a variable between calls, also those it got from the package. Here the programs keep this memory.
Capacities are not modelled: the package never appends to a slice of bytes. The slice `[]CidrValue` that `ListCidr` makes is a list of
pointers and values here: it is new in every call (net/IpTree.go:146) and `append` only ever moves it to new memory.
-/
namespace NetHeap
open Net

/-- The variables of a program: memory, of which the addresses below `top` are allocated; the `net.IPNet` variables (the two slices
in them), addressed by number; the root of each `Tree`. -/
structure World (V : Type) where
  mem : Mem
  top : Nat
  nets : List (Slice × Slice)
  trees : List (Node V)

variable {V : Type}

/-- `make([]byte, len(d))` and filling it with `d`. -/
def alloc (w : World V) (d : List U8) : World V × Slice :=
  ({ w with mem := HashHeap.store w.mem w.top d, top := w.top + d.length }, ⟨w.top, d.length⟩)

/-- `&net.IPNet{IP: ip, Mask: mask}`: a new variable; the pointer is its number. -/
def newNet (w : World V) (ip mask : Slice) : World V × Nat :=
  ({ w with nets := w.nets ++ [(ip, mask)] }, w.nets.length)

/-- The bytes of a network. -/
def bytesOf (m : Mem) (n : Slice × Slice) : IPNet := ⟨Slice.content m n.1, Slice.content m n.2⟩

/-- The callback of `ListCidr`, IpTree.go:147-152, for each of the calls `each` makes. -/
def listLoop (w : World V) : List (U32 × U8 × V) → World V × List (Nat × V)
  | [] => (w, [])
  | (position, bit, value) :: rest =>
    let (w, ip) := alloc w (Ipv4FromUint position)
    let (w, mask) := alloc w (MaskFromByte bit)
    let (w, n) := newNet w ip mask
    let (w, ret) := listLoop w rest
    (w, (n, value) :: ret)

/-- What a program does: the calls of the package, storing a byte, allocating bytes, making a network, changing its fields. -/
inductive Call (V : Type) where
  | new
  | addIp (t : Nat) (ip : Slice) (value : V)
  | addRange (t : Nat) (start end_ : Slice) (value : V)
  | addCidr (t : Nat) (n : Nat) (value : V)
  | list (t : Nat)
  | first (n : Nat)
  | last (n : Nat)
  | equal (a b : Nat)
  | fromUint (u : U32)
  | toUint (ip : Slice)
  | fromByte (b : U8)
  | toByte (mask : Slice)
  | set (x : Nat) (v : U8)
  | make (k : Nat)
  | mkNet (ip mask : Slice)
  | setNet (n : Nat) (ip mask : Slice)
  deriving DecidableEq

/-- What is seen of a call: for additions the tree and the arguments with the bytes they had then; for `ListCidr` the pointers and the
bytes of the networks on return; slices and numbers returned. -/
inductive Event (V : Type) where
  | added (t : Nat) (op : Op V)
  | listed (t : Nat) (ret : List (Nat × V)) (bytes : List (IPNet × V))
  | slice (s : Slice) (bytes : List U8)
  | num (n : Nat)
  | flag (b : Bool)

/-- Replacing the root of a tree. -/
def setTree (w : World V) (t : Nat) (r : Node V) : World V := { w with trees := w.trees.set t r }

/-- The networks of a list of pointers. (A pointer always has a variable; `getD` is for totality.) -/
def bytesAll (w : World V) (l : List (Nat × V)) : List (IPNet × V) :=
  l.map fun p => (bytesOf w.mem (w.nets.getD p.1 (⟨0, 0⟩, ⟨0, 0⟩)), p.2)

/-- One call, with `fuel` bounding the loops of `AddRange`: `ok none` = still running. (A call on a tree or network that does not exist
cannot be written; it is a panic here.) -/
def step (merge : V → V → V) (fuel : Nat) (w : World V) : Call V → Res (Option (World V × List (Event V)))
  | .new => .ok (some ({ w with trees := w.trees ++ [New] }, []))
  | .addIp t ip v => do
    let r ← goIdx w.trees t
    let r ← AddIp merge r (Slice.content w.mem ip) v
    return some (setTree w t r, [.added t (.addIp (Slice.content w.mem ip) v)])
  | .addRange t s e v => do
    let r ← goIdx w.trees t
    let r ← AddRange merge fuel r (Slice.content w.mem s) (Slice.content w.mem e) v
    return r.map fun r => (setTree w t r, [.added t (.addRange (Slice.content w.mem s) (Slice.content w.mem e) v)])
  | .addCidr t n v => do
    let r ← goIdx w.trees t
    let n ← goIdx w.nets n
    let r ← AddCidr merge r (bytesOf w.mem n) v
    return some (setTree w t r, [.added t (.addCidr (bytesOf w.mem n) v)])
  | .list t => do
    let r ← goIdx w.trees t
    let (w, ret) := listLoop w (r.each 0#32 31#8)
    return some (w, [.listed t ret (bytesAll w ret)])
  | .first n => do
    let n ← goIdx w.nets n
    return some (w, [.slice n.1 (Slice.content w.mem n.1)])
  | .last n => do
    let n ← goIdx w.nets n
    let d ← LastIpv4 (bytesOf w.mem n)
    let (w, s) := alloc w d
    return some (w, [.slice s (Slice.content w.mem s)])
  | .equal a b => do
    let a ← goIdx w.nets a
    let b ← goIdx w.nets b
    return some (w, [.flag (CidrEqual (bytesOf w.mem a) (bytesOf w.mem b))])
  | .fromUint u =>
    let (w, s) := alloc w (Ipv4FromUint u)
    .ok (some (w, [.slice s (Slice.content w.mem s)]))
  | .toUint ip => do
    let u ← Ipv4ToUint (Slice.content w.mem ip)
    return some (w, [.num u.toNat])
  | .fromByte b =>
    let (w, s) := alloc w (MaskFromByte b)
    .ok (some (w, [.slice s (Slice.content w.mem s)]))
  | .toByte mask => .ok (some (w, [.num (MaskToByte (Slice.content w.mem mask)).toNat]))
  | .set x v => .ok (some ({ w with mem := HashHeap.store w.mem x [v] }, []))
  | .make k => .ok (some ((alloc w (List.replicate k 0#8)).1, []))
  | .mkNet ip mask => .ok (some ((newNet w ip mask).1, []))
  | .setNet n ip mask => .ok (some ({ w with nets := w.nets.set n (ip, mask) }, []))

/-- The call returns. -/
def Does (merge : V → V → V) (w : World V) (c : Call V) (w' : World V) (ev : List (Event V)) : Prop :=
  ∃ fuel, step merge fuel w c = .ok (some (w', ev))

/-- A slice of allocated memory. -/
def Alloc (w : World V) (s : Slice) : Prop := s.base + s.len ≤ w.top

/-- The call can be written: what it mentions exists. -/
def Legal (w : World V) : Call V → Prop
  | .new => True
  | .addIp t ip _ => t < w.trees.length ∧ Alloc w ip
  | .addRange t s e _ => t < w.trees.length ∧ Alloc w s ∧ Alloc w e
  | .addCidr t n _ => t < w.trees.length ∧ n < w.nets.length
  | .list t => t < w.trees.length
  | .first n => n < w.nets.length
  | .last n => n < w.nets.length
  | .equal a b => a < w.nets.length ∧ b < w.nets.length
  | .fromUint _ => True
  | .toUint ip => Alloc w ip
  | .fromByte _ => True
  | .toByte mask => Alloc w mask
  | .set x _ => x < w.top
  | .make _ => True
  | .mkNet ip mask => Alloc w ip ∧ Alloc w mask
  | .setNet n ip mask => n < w.nets.length ∧ Alloc w ip ∧ Alloc w mask

/-- A sequence of calls that can be written, each of which returns; with everything seen. -/
inductive Run (merge : V → V → V) : World V → List (Call V) → World V → List (Event V) → Prop
  | nil (w) : Run merge w [] w []
  | cons {w c w1 ev cs w2 evs} : Legal w c → Does merge w c w1 ev → Run merge w1 cs w2 evs →
      Run merge w (c :: cs) w2 (ev ++ evs)

/-- Nothing allocated. -/
def start : World V := ⟨fun _ => 0#8, 0, [], []⟩

/-- The additions to tree `t` among the events. -/
def opsOf (t : Nat) (evs : List (Event V)) : List (Op V) :=
  evs.filterMap fun | .added t' op => if t' = t then some op else none | _ => none

end NetHeap
