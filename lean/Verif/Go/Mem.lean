import Verif.Go.Basic

/-!
# Byte slices in memory

For code that writes through slices that may overlap. Memory is a function from addresses to bytes; a slice is a base
address and a length. Slices of different allocations have disjoint address ranges; slices of one array may overlap in any
way. Capacity is not modelled: the modelled code never reslices beyond the length. Addresses are unbounded numbers, so a
slice never wraps around the address space.
-/

/-- Memory. -/
abbrev Mem := Nat → U8

/-- A Go `[]byte` value: address of the first element and length. -/
structure Slice where
  base : Nat
  len : Nat
  deriving DecidableEq, Repr

namespace Slice

/-- `s[i]`. -/
def get (m : Mem) (s : Slice) (i : Nat) : Res U8 := if i < s.len then .ok (m (s.base + i)) else .panic

/-- `s[i] = v`. -/
def set (m : Mem) (s : Slice) (i : Nat) (v : U8) : Res Mem :=
  if i < s.len then .ok (fun x => if x = s.base + i then v else m x) else .panic

/-- `s[lo:hi]`, for `hi` at most the length. -/
def sub (s : Slice) (lo hi : Nat) : Res Slice := if lo ≤ hi ∧ hi ≤ s.len then .ok ⟨s.base + lo, hi - lo⟩ else .panic

/-- `s[lo:]`. -/
def drop (s : Slice) (lo : Nat) : Res Slice := s.sub lo s.len

/-- `copy(dst, src)`: copies `min(len(dst), len(src))` bytes as if through a buffer (overlap is allowed). -/
def copy (m : Mem) (dst src : Slice) : Mem := fun x =>
  if dst.base ≤ x ∧ x < dst.base + min dst.len src.len then m (src.base + (x - dst.base)) else m x

/-- `copy(dst, str)` from a string constant. -/
def copyStr (m : Mem) (dst : Slice) (str : List U8) : Mem := fun x =>
  if dst.base ≤ x ∧ x < dst.base + min dst.len str.length then str.getD (x - dst.base) 0#8 else m x

/-- The bytes of a slice. -/
def content (m : Mem) (s : Slice) : List U8 := (List.range s.len).map fun i => m (s.base + i)

/-- `x` is the address of an element. -/
def Has (s : Slice) (x : Nat) : Prop := s.base ≤ x ∧ x < s.base + s.len

/-- No common element. -/
def Disjoint (s t : Slice) : Prop := ∀ x, ¬ (s.Has x ∧ t.Has x)

end Slice
