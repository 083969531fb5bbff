import Verif.Model.Bytes

/-!
# The tables of bytes/Add_test.go, AddBE_test.go and pad_test.go

Generated by tools/gen_conformance.py. These are tests of the model, not proofs about the code.
-/
namespace Conformance

open Bytes

/-- Memory with `a` at address 1000, `b` at 2000 and zeros elsewhere. -/
def mem (a b : List U8) : Mem := fun x =>
  if x < 1000 then 0 else if x < 2000 then a.getD (x - 1000) 0 else b.getD (x - 2000) 0

/-- What `f(sum, a, b)` leaves in a fresh `sum` of `n` bytes, the carry and whether there was an error. -/
def added (f : Mem → Slice → Slice → Slice → Res (Mem × U8 × Bool)) (n : Nat) (a b : List U8) : Res (List U8 × U8 × Bool) := do
  let (m, c, e) ← f (mem a b) ⟨0, n⟩ ⟨1000, a.length⟩ ⟨2000, b.length⟩
  return (Slice.content m ⟨0, n⟩, c, e)

/-- What `f(sum, b, carry)` leaves in `sum`, and the carry. -/
def addedEq (f : Mem → Slice → Slice → U8 → Res (Mem × U8)) (s b : List U8) (c : U8) : Res (List U8 × U8) := do
  let (m, c) ← f (mem s b) ⟨1000, s.length⟩ ⟨2000, b.length⟩ c
  return (Slice.content m ⟨1000, s.length⟩, c)

/-- What padding leaves in a fresh `dst` of `n` bytes. -/
def padded (f : Mem → Slice → Slice → Nat → Res (Mem × Bool)) (n : Nat) (a : List U8) : Res (List U8 × Bool) := do
  let (m, e) ← f (mem a []) ⟨0, n⟩ ⟨1000, a.length⟩ n
  return (Slice.content m ⟨0, n⟩, e)

def addEq8Tests : List (List U8 × List U8 × U8 × List U8 × U8) := [
  ([0x00], [0x00], 0, [0x00], 0),
  ([0x00], [0x00], 0, [0x00], 0),
  ([0x00], [0x00], 1, [0x01], 0),
  ([0x00], [0x00], 1, [0x01], 0),
  ([0x00], [0x01], 0, [0x01], 0),
  ([0x01], [0x00], 0, [0x01], 0),
  ([0x01], [0x00], 0, [0x01], 0),
  ([0x00], [0x01], 0, [0x01], 0),
  ([0x00], [0x00], 2, [0x00], 0),
  ([0x00], [0x00], 2, [0x00], 0),
  ([0xfe], [0x01], 0, [0xff], 0),
  ([0x01], [0xfe], 0, [0xff], 0),
  ([0xfe], [0x02], 0, [0x00], 1),
  ([0x02], [0xfe], 0, [0x00], 1),
  ([0xfe], [0x01], 1, [0x00], 1),
  ([0x01], [0xfe], 1, [0x00], 1),
  ([0xff], [0xff], 0, [0xfe], 1),
  ([0xff], [0xff], 0, [0xfe], 1),
  ([0xff], [0xff], 1, [0xff], 1),
  ([0xff], [0xff], 1, [0xff], 1)]

/-- TestAddEq8. -/
example : ∀ r ∈ addEq8Tests, addedEq addEq8 r.1 r.2.1 r.2.2.1 = .ok r.2.2.2 := by decide +kernel

def addEq16LETests : List (List U8 × List U8 × U8 × List U8 × U8) := [
  ([0x00, 0x00], [0x00, 0x00], 0, [0x00, 0x00], 0),
  ([0x00, 0x00], [0x00, 0x00], 0, [0x00, 0x00], 0),
  ([0x00, 0x00], [0x00, 0x00], 1, [0x01, 0x00], 0),
  ([0x00, 0x00], [0x00, 0x00], 1, [0x01, 0x00], 0),
  ([0x00, 0x00], [0x01, 0x00], 0, [0x01, 0x00], 0),
  ([0x01, 0x00], [0x00, 0x00], 0, [0x01, 0x00], 0),
  ([0x01, 0x00], [0x00, 0x00], 0, [0x01, 0x00], 0),
  ([0x00, 0x00], [0x01, 0x00], 0, [0x01, 0x00], 0),
  ([0x00, 0x00], [0x00, 0x00], 2, [0x00, 0x00], 0),
  ([0x00, 0x00], [0x00, 0x00], 2, [0x00, 0x00], 0),
  ([0xfe, 0x00], [0x01, 0x00], 0, [0xff, 0x00], 0),
  ([0x01, 0x00], [0xfe, 0x00], 0, [0xff, 0x00], 0),
  ([0xfe, 0x00], [0x02, 0x00], 0, [0x00, 0x01], 0),
  ([0x02, 0x00], [0xfe, 0x00], 0, [0x00, 0x01], 0),
  ([0xfe, 0x00], [0x01, 0x00], 1, [0x00, 0x01], 0),
  ([0x01, 0x00], [0xfe, 0x00], 1, [0x00, 0x01], 0),
  ([0xff, 0x00], [0xff, 0x00], 0, [0xfe, 0x01], 0),
  ([0xff, 0x00], [0xff, 0x00], 0, [0xfe, 0x01], 0),
  ([0xff, 0x00], [0xff, 0x00], 1, [0xff, 0x01], 0),
  ([0xff, 0x00], [0xff, 0x00], 1, [0xff, 0x01], 0),
  ([0xfe, 0xff], [0x01, 0x00], 0, [0xff, 0xff], 0),
  ([0x01, 0x00], [0xfe, 0xff], 0, [0xff, 0xff], 0),
  ([0xfe, 0xff], [0x02, 0x00], 0, [0x00, 0x00], 1),
  ([0x02, 0x00], [0xfe, 0xff], 0, [0x00, 0x00], 1),
  ([0xfe, 0xff], [0x01, 0x00], 1, [0x00, 0x00], 1),
  ([0x01, 0x00], [0xfe, 0xff], 1, [0x00, 0x00], 1),
  ([0xff, 0xff], [0x00, 0x01], 0, [0xff, 0x00], 1),
  ([0x00, 0x01], [0xff, 0xff], 0, [0xff, 0x00], 1),
  ([0xff, 0xff], [0x00, 0x00], 0, [0xff, 0xff], 0),
  ([0x00, 0x00], [0xff, 0xff], 0, [0xff, 0xff], 0),
  ([0xf0, 0xf0], [0x0f, 0x0f], 0, [0xff, 0xff], 0),
  ([0x0f, 0x0f], [0xf0, 0xf0], 0, [0xff, 0xff], 0),
  ([0xff, 0xff], [0xff, 0xff], 0, [0xfe, 0xff], 1),
  ([0xff, 0xff], [0xff, 0xff], 0, [0xfe, 0xff], 1),
  ([0xff, 0xff], [0xff, 0xff], 1, [0xff, 0xff], 1),
  ([0xff, 0xff], [0xff, 0xff], 1, [0xff, 0xff], 1),
  ([0xff, 0xff], [], 0, [0xff, 0xff], 0),
  ([0x00, 0x00], [0xff, 0xff], 0, [0xff, 0xff], 0),
  ([0xff, 0xff], [0x00], 0, [0xff, 0xff], 0),
  ([0x00, 0x00], [0xff, 0xff], 0, [0xff, 0xff], 0),
  ([0xff, 0xff], [0x00, 0x00], 0, [0xff, 0xff], 0),
  ([0x00, 0x00], [0xff, 0xff], 0, [0xff, 0xff], 0),
  ([0xff, 0xff], [0x00, 0x00, 0x01], 0, [0xff, 0xff], 0),
  ([0x00, 0x00], [0xff, 0xff], 0, [0xff, 0xff], 0),
  ([0xff, 0xff], [0x01], 0, [0x00, 0x00], 1),
  ([0x01, 0x00], [0xff, 0xff], 0, [0x00, 0x00], 1),
  ([0xff, 0xff], [0x00, 0x01], 0, [0xff, 0x00], 1),
  ([0x00, 0x01], [0xff, 0xff], 0, [0xff, 0x00], 1),
  ([0xff, 0xff], [0x01, 0x00], 0, [0x00, 0x00], 1),
  ([0x01, 0x00], [0xff, 0xff], 0, [0x00, 0x00], 1)]

/-- TestAddEq16LE. -/
example : ∀ r ∈ addEq16LETests, addedEq addEq16LE r.1 r.2.1 r.2.2.1 = .ok r.2.2.2 := by decide +kernel

def addEq16BETests : List (List U8 × List U8 × U8 × List U8 × U8) := [
  ([0x00, 0x00], [0x00, 0x00], 0, [0x00, 0x00], 0),
  ([0x00, 0x00], [0x00, 0x00], 0, [0x00, 0x00], 0),
  ([0x00, 0x00], [0x00, 0x00], 1, [0x00, 0x01], 0),
  ([0x00, 0x00], [0x00, 0x00], 1, [0x00, 0x01], 0),
  ([0x00, 0x00], [0x00, 0x01], 0, [0x00, 0x01], 0),
  ([0x00, 0x01], [0x00, 0x00], 0, [0x00, 0x01], 0),
  ([0x00, 0x01], [0x00, 0x00], 0, [0x00, 0x01], 0),
  ([0x00, 0x00], [0x00, 0x01], 0, [0x00, 0x01], 0),
  ([0x00, 0x00], [0x00, 0x00], 2, [0x00, 0x00], 0),
  ([0x00, 0x00], [0x00, 0x00], 2, [0x00, 0x00], 0),
  ([0x00, 0xfe], [0x00, 0x01], 0, [0x00, 0xff], 0),
  ([0x00, 0x01], [0x00, 0xfe], 0, [0x00, 0xff], 0),
  ([0x00, 0xfe], [0x00, 0x02], 0, [0x01, 0x00], 0),
  ([0x00, 0x02], [0x00, 0xfe], 0, [0x01, 0x00], 0),
  ([0x00, 0xfe], [0x00, 0x01], 1, [0x01, 0x00], 0),
  ([0x00, 0x01], [0x00, 0xfe], 1, [0x01, 0x00], 0),
  ([0x00, 0xff], [0x00, 0xff], 0, [0x01, 0xfe], 0),
  ([0x00, 0xff], [0x00, 0xff], 0, [0x01, 0xfe], 0),
  ([0x00, 0xff], [0x00, 0xff], 1, [0x01, 0xff], 0),
  ([0x00, 0xff], [0x00, 0xff], 1, [0x01, 0xff], 0),
  ([0xff, 0xfe], [0x00, 0x01], 0, [0xff, 0xff], 0),
  ([0x00, 0x01], [0xff, 0xfe], 0, [0xff, 0xff], 0),
  ([0xff, 0xfe], [0x00, 0x02], 0, [0x00, 0x00], 1),
  ([0x00, 0x02], [0xff, 0xfe], 0, [0x00, 0x00], 1),
  ([0xff, 0xfe], [0x00, 0x01], 1, [0x00, 0x00], 1),
  ([0x00, 0x01], [0xff, 0xfe], 1, [0x00, 0x00], 1),
  ([0xff, 0xff], [0x01, 0x00], 0, [0x00, 0xff], 1),
  ([0x01, 0x00], [0xff, 0xff], 0, [0x00, 0xff], 1),
  ([0xff, 0xff], [0x00, 0x00], 0, [0xff, 0xff], 0),
  ([0x00, 0x00], [0xff, 0xff], 0, [0xff, 0xff], 0),
  ([0xf0, 0xf0], [0x0f, 0x0f], 0, [0xff, 0xff], 0),
  ([0x0f, 0x0f], [0xf0, 0xf0], 0, [0xff, 0xff], 0),
  ([0xff, 0xff], [0xff, 0xff], 0, [0xff, 0xfe], 1),
  ([0xff, 0xff], [0xff, 0xff], 0, [0xff, 0xfe], 1),
  ([0xff, 0xff], [0xff, 0xff], 1, [0xff, 0xff], 1),
  ([0xff, 0xff], [0xff, 0xff], 1, [0xff, 0xff], 1),
  ([0xff, 0xff], [], 0, [0xff, 0xff], 0),
  ([0x00, 0x00], [0xff, 0xff], 0, [0xff, 0xff], 0),
  ([0xff, 0xff], [0x00], 0, [0xff, 0xff], 0),
  ([0x00, 0x00], [0xff, 0xff], 0, [0xff, 0xff], 0),
  ([0xff, 0xff], [0x00, 0x00], 0, [0xff, 0xff], 0),
  ([0x00, 0x00], [0xff, 0xff], 0, [0xff, 0xff], 0),
  ([0xff, 0xff], [0x00, 0x00, 0x01], 0, [0xff, 0xff], 0),
  ([0x00, 0x00], [0xff, 0xff], 0, [0xff, 0xff], 0),
  ([0xff, 0xff], [0x01], 0, [0x00, 0x00], 1),
  ([0x00, 0x01], [0xff, 0xff], 0, [0x00, 0x00], 1),
  ([0xff, 0xff], [0x00, 0x01], 0, [0x00, 0x00], 1),
  ([0x00, 0x01], [0xff, 0xff], 0, [0x00, 0x00], 1),
  ([0xff, 0xff], [0x01, 0x00], 0, [0x00, 0xff], 1),
  ([0x01, 0x00], [0xff, 0xff], 0, [0x00, 0xff], 1)]

/-- TestAddEq16BE. -/
example : ∀ r ∈ addEq16BETests, addedEq addEq16BE r.1 r.2.1 r.2.2.1 = .ok r.2.2.2 := by decide +kernel

def addEq32LETests : List (List U8 × List U8 × U8 × List U8 × U8) := [
  ([0x00, 0x00, 0x00, 0x00], [0x00, 0x00, 0x00, 0x00], 0, [0x00, 0x00, 0x00, 0x00], 0),
  ([0x00, 0x00, 0x00, 0x00], [0x00, 0x00, 0x00, 0x00], 0, [0x00, 0x00, 0x00, 0x00], 0),
  ([0x00, 0x00, 0x00, 0x00], [0x00, 0x00, 0x00, 0x00], 1, [0x01, 0x00, 0x00, 0x00], 0),
  ([0x00, 0x00, 0x00, 0x00], [0x00, 0x00, 0x00, 0x00], 1, [0x01, 0x00, 0x00, 0x00], 0),
  ([0x00, 0x00, 0x00, 0x00], [0x01, 0x00, 0x00, 0x00], 0, [0x01, 0x00, 0x00, 0x00], 0),
  ([0x01, 0x00, 0x00, 0x00], [0x00, 0x00, 0x00, 0x00], 0, [0x01, 0x00, 0x00, 0x00], 0),
  ([0x01, 0x00, 0x00, 0x00], [0x00, 0x00, 0x00, 0x00], 0, [0x01, 0x00, 0x00, 0x00], 0),
  ([0x00, 0x00, 0x00, 0x00], [0x01, 0x00, 0x00, 0x00], 0, [0x01, 0x00, 0x00, 0x00], 0),
  ([0x00, 0x00, 0x00, 0x00], [0x00, 0x00, 0x00, 0x00], 2, [0x00, 0x00, 0x00, 0x00], 0),
  ([0x00, 0x00, 0x00, 0x00], [0x00, 0x00, 0x00, 0x00], 2, [0x00, 0x00, 0x00, 0x00], 0),
  ([0xfe, 0x00, 0x00, 0x00], [0x01, 0x00, 0x00, 0x00], 0, [0xff, 0x00, 0x00, 0x00], 0),
  ([0x01, 0x00, 0x00, 0x00], [0xfe, 0x00, 0x00, 0x00], 0, [0xff, 0x00, 0x00, 0x00], 0),
  ([0xfe, 0x00, 0x00, 0x00], [0x02, 0x00, 0x00, 0x00], 0, [0x00, 0x01, 0x00, 0x00], 0),
  ([0x02, 0x00, 0x00, 0x00], [0xfe, 0x00, 0x00, 0x00], 0, [0x00, 0x01, 0x00, 0x00], 0),
  ([0xfe, 0x00, 0x00, 0x00], [0x01, 0x00, 0x00, 0x00], 1, [0x00, 0x01, 0x00, 0x00], 0),
  ([0x01, 0x00, 0x00, 0x00], [0xfe, 0x00, 0x00, 0x00], 1, [0x00, 0x01, 0x00, 0x00], 0),
  ([0xff, 0x00, 0x00, 0x00], [0xff, 0x00, 0x00, 0x00], 0, [0xfe, 0x01, 0x00, 0x00], 0),
  ([0xff, 0x00, 0x00, 0x00], [0xff, 0x00, 0x00, 0x00], 0, [0xfe, 0x01, 0x00, 0x00], 0),
  ([0xff, 0x00, 0x00, 0x00], [0xff, 0x00, 0x00, 0x00], 1, [0xff, 0x01, 0x00, 0x00], 0),
  ([0xff, 0x00, 0x00, 0x00], [0xff, 0x00, 0x00, 0x00], 1, [0xff, 0x01, 0x00, 0x00], 0),
  ([0xfe, 0xff, 0x00, 0x00], [0x01, 0x00, 0x00, 0x00], 0, [0xff, 0xff, 0x00, 0x00], 0),
  ([0x01, 0x00, 0x00, 0x00], [0xfe, 0xff, 0x00, 0x00], 0, [0xff, 0xff, 0x00, 0x00], 0),
  ([0xfe, 0xff, 0x00, 0x00], [0x02, 0x00, 0x00, 0x00], 0, [0x00, 0x00, 0x01, 0x00], 0),
  ([0x02, 0x00, 0x00, 0x00], [0xfe, 0xff, 0x00, 0x00], 0, [0x00, 0x00, 0x01, 0x00], 0),
  ([0xfe, 0xff, 0x00, 0x00], [0x01, 0x00, 0x00, 0x00], 1, [0x00, 0x00, 0x01, 0x00], 0),
  ([0x01, 0x00, 0x00, 0x00], [0xfe, 0xff, 0x00, 0x00], 1, [0x00, 0x00, 0x01, 0x00], 0),
  ([0xff, 0xff, 0x00, 0x00], [0x00, 0x01, 0x00, 0x00], 0, [0xff, 0x00, 0x01, 0x00], 0),
  ([0x00, 0x01, 0x00, 0x00], [0xff, 0xff, 0x00, 0x00], 0, [0xff, 0x00, 0x01, 0x00], 0),
  ([0xff, 0xff, 0x00, 0x00], [0x00, 0x00, 0x00, 0x00], 0, [0xff, 0xff, 0x00, 0x00], 0),
  ([0x00, 0x00, 0x00, 0x00], [0xff, 0xff, 0x00, 0x00], 0, [0xff, 0xff, 0x00, 0x00], 0),
  ([0xf0, 0xf0, 0x00, 0x00], [0x0f, 0x0f, 0x00, 0x00], 0, [0xff, 0xff, 0x00, 0x00], 0),
  ([0x0f, 0x0f, 0x00, 0x00], [0xf0, 0xf0, 0x00, 0x00], 0, [0xff, 0xff, 0x00, 0x00], 0),
  ([0xff, 0xff, 0x00, 0x00], [0xff, 0xff, 0x00, 0x00], 0, [0xfe, 0xff, 0x01, 0x00], 0),
  ([0xff, 0xff, 0x00, 0x00], [0xff, 0xff, 0x00, 0x00], 0, [0xfe, 0xff, 0x01, 0x00], 0),
  ([0xff, 0xff, 0x00, 0x00], [0xff, 0xff, 0x00, 0x00], 1, [0xff, 0xff, 0x01, 0x00], 0),
  ([0xff, 0xff, 0x00, 0x00], [0xff, 0xff, 0x00, 0x00], 1, [0xff, 0xff, 0x01, 0x00], 0),
  ([0xff, 0xff, 0xff, 0xff], [0x00, 0x00, 0x00, 0x00], 0, [0xff, 0xff, 0xff, 0xff], 0),
  ([0x00, 0x00, 0x00, 0x00], [0xff, 0xff, 0xff, 0xff], 0, [0xff, 0xff, 0xff, 0xff], 0),
  ([0xf0, 0xf0, 0xf0, 0xf0], [0x0f, 0x0f, 0x0f, 0x0f], 0, [0xff, 0xff, 0xff, 0xff], 0),
  ([0x0f, 0x0f, 0x0f, 0x0f], [0xf0, 0xf0, 0xf0, 0xf0], 0, [0xff, 0xff, 0xff, 0xff], 0),
  ([0xff, 0xff, 0xff, 0xff], [0xff, 0xff, 0xff, 0xff], 0, [0xfe, 0xff, 0xff, 0xff], 1),
  ([0xff, 0xff, 0xff, 0xff], [0xff, 0xff, 0xff, 0xff], 0, [0xfe, 0xff, 0xff, 0xff], 1),
  ([0xff, 0xff, 0xff, 0xff], [0xff, 0xff, 0xff, 0xff], 1, [0xff, 0xff, 0xff, 0xff], 1),
  ([0xff, 0xff, 0xff, 0xff], [0xff, 0xff, 0xff, 0xff], 1, [0xff, 0xff, 0xff, 0xff], 1),
  ([0xff, 0xff, 0xff, 0xff], [], 0, [0xff, 0xff, 0xff, 0xff], 0),
  ([0x00, 0x00, 0x00, 0x00], [0xff, 0xff, 0xff, 0xff], 0, [0xff, 0xff, 0xff, 0xff], 0),
  ([0xff, 0xff, 0xff, 0xff], [0x00], 0, [0xff, 0xff, 0xff, 0xff], 0),
  ([0x00, 0x00, 0x00, 0x00], [0xff, 0xff, 0xff, 0xff], 0, [0xff, 0xff, 0xff, 0xff], 0),
  ([0xff, 0xff, 0xff, 0xff], [0x00, 0x00], 0, [0xff, 0xff, 0xff, 0xff], 0),
  ([0x00, 0x00, 0x00, 0x00], [0xff, 0xff, 0xff, 0xff], 0, [0xff, 0xff, 0xff, 0xff], 0),
  ([0xff, 0xff, 0xff, 0xff], [0x00, 0x00, 0x00], 0, [0xff, 0xff, 0xff, 0xff], 0),
  ([0x00, 0x00, 0x00, 0x00], [0xff, 0xff, 0xff, 0xff], 0, [0xff, 0xff, 0xff, 0xff], 0),
  ([0xff, 0xff, 0xff, 0xff], [0x00, 0x00, 0x00, 0x00], 0, [0xff, 0xff, 0xff, 0xff], 0),
  ([0x00, 0x00, 0x00, 0x00], [0xff, 0xff, 0xff, 0xff], 0, [0xff, 0xff, 0xff, 0xff], 0),
  ([0xff, 0xff, 0xff, 0xff], [0x00, 0x00, 0x00, 0x00, 0x01], 0, [0xff, 0xff, 0xff, 0xff], 0),
  ([0x00, 0x00, 0x00, 0x00], [0xff, 0xff, 0xff, 0xff], 0, [0xff, 0xff, 0xff, 0xff], 0),
  ([0xff, 0xff, 0xff, 0xff], [0x01], 0, [0x00, 0x00, 0x00, 0x00], 1),
  ([0x01, 0x00, 0x00, 0x00], [0xff, 0xff, 0xff, 0xff], 0, [0x00, 0x00, 0x00, 0x00], 1),
  ([0xff, 0xff, 0xff, 0xff], [0x00, 0x01], 0, [0xff, 0x00, 0x00, 0x00], 1),
  ([0x00, 0x01, 0x00, 0x00], [0xff, 0xff, 0xff, 0xff], 0, [0xff, 0x00, 0x00, 0x00], 1),
  ([0xff, 0xff, 0xff, 0xff], [0x00, 0x00, 0x01], 0, [0xff, 0xff, 0x00, 0x00], 1),
  ([0x00, 0x00, 0x01, 0x00], [0xff, 0xff, 0xff, 0xff], 0, [0xff, 0xff, 0x00, 0x00], 1),
  ([0xff, 0xff, 0xff, 0xff], [0x00, 0x00, 0x00, 0x01], 0, [0xff, 0xff, 0xff, 0x00], 1),
  ([0x00, 0x00, 0x00, 0x01], [0xff, 0xff, 0xff, 0xff], 0, [0xff, 0xff, 0xff, 0x00], 1),
  ([0xff, 0xff, 0xff, 0xff], [0x01, 0x00], 0, [0x00, 0x00, 0x00, 0x00], 1),
  ([0x01, 0x00, 0x00, 0x00], [0xff, 0xff, 0xff, 0xff], 0, [0x00, 0x00, 0x00, 0x00], 1)]

/-- TestAddEq32LE. -/
example : ∀ r ∈ addEq32LETests, addedEq addEq32LE r.1 r.2.1 r.2.2.1 = .ok r.2.2.2 := by decide +kernel

def addEq32BETests : List (List U8 × List U8 × U8 × List U8 × U8) := [
  ([0x00, 0x00, 0x00, 0x00], [0x00, 0x00, 0x00, 0x00], 0, [0x00, 0x00, 0x00, 0x00], 0),
  ([0x00, 0x00, 0x00, 0x00], [0x00, 0x00, 0x00, 0x00], 0, [0x00, 0x00, 0x00, 0x00], 0),
  ([0x00, 0x00, 0x00, 0x00], [0x00, 0x00, 0x00, 0x00], 1, [0x00, 0x00, 0x00, 0x01], 0),
  ([0x00, 0x00, 0x00, 0x00], [0x00, 0x00, 0x00, 0x00], 1, [0x00, 0x00, 0x00, 0x01], 0),
  ([0x00, 0x00, 0x00, 0x00], [0x00, 0x00, 0x00, 0x01], 0, [0x00, 0x00, 0x00, 0x01], 0),
  ([0x00, 0x00, 0x00, 0x01], [0x00, 0x00, 0x00, 0x00], 0, [0x00, 0x00, 0x00, 0x01], 0),
  ([0x00, 0x00, 0x00, 0x01], [0x00, 0x00, 0x00, 0x00], 0, [0x00, 0x00, 0x00, 0x01], 0),
  ([0x00, 0x00, 0x00, 0x00], [0x00, 0x00, 0x00, 0x01], 0, [0x00, 0x00, 0x00, 0x01], 0),
  ([0x00, 0x00, 0x00, 0x00], [0x00, 0x00, 0x00, 0x00], 2, [0x00, 0x00, 0x00, 0x00], 0),
  ([0x00, 0x00, 0x00, 0x00], [0x00, 0x00, 0x00, 0x00], 2, [0x00, 0x00, 0x00, 0x00], 0),
  ([0x00, 0x00, 0x00, 0xfe], [0x00, 0x00, 0x00, 0x01], 0, [0x00, 0x00, 0x00, 0xff], 0),
  ([0x00, 0x00, 0x00, 0x01], [0x00, 0x00, 0x00, 0xfe], 0, [0x00, 0x00, 0x00, 0xff], 0),
  ([0x00, 0x00, 0x00, 0xfe], [0x00, 0x00, 0x00, 0x02], 0, [0x00, 0x00, 0x01, 0x00], 0),
  ([0x00, 0x00, 0x00, 0x02], [0x00, 0x00, 0x00, 0xfe], 0, [0x00, 0x00, 0x01, 0x00], 0),
  ([0x00, 0x00, 0x00, 0xfe], [0x00, 0x00, 0x00, 0x01], 1, [0x00, 0x00, 0x01, 0x00], 0),
  ([0x00, 0x00, 0x00, 0x01], [0x00, 0x00, 0x00, 0xfe], 1, [0x00, 0x00, 0x01, 0x00], 0),
  ([0x00, 0x00, 0x00, 0xff], [0x00, 0x00, 0x00, 0xff], 0, [0x00, 0x00, 0x01, 0xfe], 0),
  ([0x00, 0x00, 0x00, 0xff], [0x00, 0x00, 0x00, 0xff], 0, [0x00, 0x00, 0x01, 0xfe], 0),
  ([0x00, 0x00, 0x00, 0xff], [0x00, 0x00, 0x00, 0xff], 1, [0x00, 0x00, 0x01, 0xff], 0),
  ([0x00, 0x00, 0x00, 0xff], [0x00, 0x00, 0x00, 0xff], 1, [0x00, 0x00, 0x01, 0xff], 0),
  ([0x00, 0x00, 0xff, 0xfe], [0x00, 0x00, 0x00, 0x01], 0, [0x00, 0x00, 0xff, 0xff], 0),
  ([0x00, 0x00, 0x00, 0x01], [0x00, 0x00, 0xff, 0xfe], 0, [0x00, 0x00, 0xff, 0xff], 0),
  ([0x00, 0x00, 0xff, 0xfe], [0x00, 0x00, 0x00, 0x02], 0, [0x00, 0x01, 0x00, 0x00], 0),
  ([0x00, 0x00, 0x00, 0x02], [0x00, 0x00, 0xff, 0xfe], 0, [0x00, 0x01, 0x00, 0x00], 0),
  ([0x00, 0x00, 0xff, 0xfe], [0x00, 0x00, 0x00, 0x01], 1, [0x00, 0x01, 0x00, 0x00], 0),
  ([0x00, 0x00, 0x00, 0x01], [0x00, 0x00, 0xff, 0xfe], 1, [0x00, 0x01, 0x00, 0x00], 0),
  ([0x00, 0x00, 0xff, 0xff], [0x00, 0x00, 0x01, 0x00], 0, [0x00, 0x01, 0x00, 0xff], 0),
  ([0x00, 0x00, 0x01, 0x00], [0x00, 0x00, 0xff, 0xff], 0, [0x00, 0x01, 0x00, 0xff], 0),
  ([0x00, 0x00, 0xff, 0xff], [0x00, 0x00, 0x00, 0x00], 0, [0x00, 0x00, 0xff, 0xff], 0),
  ([0x00, 0x00, 0x00, 0x00], [0x00, 0x00, 0xff, 0xff], 0, [0x00, 0x00, 0xff, 0xff], 0),
  ([0x00, 0x00, 0xf0, 0xf0], [0x00, 0x00, 0x0f, 0x0f], 0, [0x00, 0x00, 0xff, 0xff], 0),
  ([0x00, 0x00, 0x0f, 0x0f], [0x00, 0x00, 0xf0, 0xf0], 0, [0x00, 0x00, 0xff, 0xff], 0),
  ([0x00, 0x00, 0xff, 0xff], [0x00, 0x00, 0xff, 0xff], 0, [0x00, 0x01, 0xff, 0xfe], 0),
  ([0x00, 0x00, 0xff, 0xff], [0x00, 0x00, 0xff, 0xff], 0, [0x00, 0x01, 0xff, 0xfe], 0),
  ([0x00, 0x00, 0xff, 0xff], [0x00, 0x00, 0xff, 0xff], 1, [0x00, 0x01, 0xff, 0xff], 0),
  ([0x00, 0x00, 0xff, 0xff], [0x00, 0x00, 0xff, 0xff], 1, [0x00, 0x01, 0xff, 0xff], 0),
  ([0xff, 0xff, 0xff, 0xff], [0x00, 0x00, 0x00, 0x00], 0, [0xff, 0xff, 0xff, 0xff], 0),
  ([0x00, 0x00, 0x00, 0x00], [0xff, 0xff, 0xff, 0xff], 0, [0xff, 0xff, 0xff, 0xff], 0),
  ([0xf0, 0xf0, 0xf0, 0xf0], [0x0f, 0x0f, 0x0f, 0x0f], 0, [0xff, 0xff, 0xff, 0xff], 0),
  ([0x0f, 0x0f, 0x0f, 0x0f], [0xf0, 0xf0, 0xf0, 0xf0], 0, [0xff, 0xff, 0xff, 0xff], 0),
  ([0xff, 0xff, 0xff, 0xff], [0xff, 0xff, 0xff, 0xff], 0, [0xff, 0xff, 0xff, 0xfe], 1),
  ([0xff, 0xff, 0xff, 0xff], [0xff, 0xff, 0xff, 0xff], 0, [0xff, 0xff, 0xff, 0xfe], 1),
  ([0xff, 0xff, 0xff, 0xff], [0xff, 0xff, 0xff, 0xff], 1, [0xff, 0xff, 0xff, 0xff], 1),
  ([0xff, 0xff, 0xff, 0xff], [0xff, 0xff, 0xff, 0xff], 1, [0xff, 0xff, 0xff, 0xff], 1),
  ([0xff, 0xff, 0xff, 0xff], [], 0, [0xff, 0xff, 0xff, 0xff], 0),
  ([0x00, 0x00, 0x00, 0x00], [0xff, 0xff, 0xff, 0xff], 0, [0xff, 0xff, 0xff, 0xff], 0),
  ([0xff, 0xff, 0xff, 0xff], [0x00], 0, [0xff, 0xff, 0xff, 0xff], 0),
  ([0x00, 0x00, 0x00, 0x00], [0xff, 0xff, 0xff, 0xff], 0, [0xff, 0xff, 0xff, 0xff], 0),
  ([0xff, 0xff, 0xff, 0xff], [0x00, 0x00], 0, [0xff, 0xff, 0xff, 0xff], 0),
  ([0x00, 0x00, 0x00, 0x00], [0xff, 0xff, 0xff, 0xff], 0, [0xff, 0xff, 0xff, 0xff], 0),
  ([0xff, 0xff, 0xff, 0xff], [0x00, 0x00, 0x00], 0, [0xff, 0xff, 0xff, 0xff], 0),
  ([0x00, 0x00, 0x00, 0x00], [0xff, 0xff, 0xff, 0xff], 0, [0xff, 0xff, 0xff, 0xff], 0),
  ([0xff, 0xff, 0xff, 0xff], [0x00, 0x00, 0x00, 0x00], 0, [0xff, 0xff, 0xff, 0xff], 0),
  ([0x00, 0x00, 0x00, 0x00], [0xff, 0xff, 0xff, 0xff], 0, [0xff, 0xff, 0xff, 0xff], 0),
  ([0xff, 0xff, 0xff, 0xff], [0x00, 0x00, 0x00, 0x00, 0x01], 0, [0xff, 0xff, 0xff, 0xff], 0),
  ([0x00, 0x00, 0x00, 0x00], [0xff, 0xff, 0xff, 0xff], 0, [0xff, 0xff, 0xff, 0xff], 0),
  ([0xff, 0xff, 0xff, 0xff], [0x01], 0, [0x00, 0x00, 0x00, 0x00], 1),
  ([0x00, 0x00, 0x00, 0x01], [0xff, 0xff, 0xff, 0xff], 0, [0x00, 0x00, 0x00, 0x00], 1),
  ([0xff, 0xff, 0xff, 0xff], [0x00, 0x01], 0, [0x00, 0x00, 0x00, 0x00], 1),
  ([0x00, 0x00, 0x00, 0x01], [0xff, 0xff, 0xff, 0xff], 0, [0x00, 0x00, 0x00, 0x00], 1),
  ([0xff, 0xff, 0xff, 0xff], [0x00, 0x00, 0x01], 0, [0x00, 0x00, 0x00, 0x00], 1),
  ([0x00, 0x00, 0x00, 0x01], [0xff, 0xff, 0xff, 0xff], 0, [0x00, 0x00, 0x00, 0x00], 1),
  ([0xff, 0xff, 0xff, 0xff], [0x00, 0x00, 0x00, 0x01], 0, [0x00, 0x00, 0x00, 0x00], 1),
  ([0x00, 0x00, 0x00, 0x01], [0xff, 0xff, 0xff, 0xff], 0, [0x00, 0x00, 0x00, 0x00], 1),
  ([0xff, 0xff, 0xff, 0xff], [0x01, 0x00], 0, [0x00, 0x00, 0x00, 0xff], 1),
  ([0x00, 0x00, 0x01, 0x00], [0xff, 0xff, 0xff, 0xff], 0, [0x00, 0x00, 0x00, 0xff], 1)]

/-- TestAddEq32BE. -/
example : ∀ r ∈ addEq32BETests, addedEq addEq32BE r.1 r.2.1 r.2.2.1 = .ok r.2.2.2 := by decide +kernel

def add16LE : List (List U8 × List U8 × List U8 × U8) := [
  ([0x00, 0x00], [0x00, 0x00], [0x00, 0x00], 0),
  ([0x00, 0x00], [0x01, 0x00], [0x01, 0x00], 0),
  ([0x01, 0x00], [0x01, 0x00], [0x02, 0x00], 0),
  ([0xff, 0xff], [0x00, 0x00], [0xff, 0xff], 0),
  ([0xff, 0xff], [0x01, 0x00], [0x00, 0x00], 1),
  ([0x1d, 0x4e], [0xb3, 0x4b], [0xd0, 0x99], 0),
  ([0xff, 0xff], [0xff, 0xff], [0xfe, 0xff], 1),
  ([], [], [0x00, 0x00], 0),
  ([0x01], [], [0x01, 0x00], 0),
  ([], [0x01], [0x01, 0x00], 0),
  ([0x01, 0x02], [], [0x01, 0x02], 0),
  ([0x01, 0x02], [0x01], [0x02, 0x02], 0),
  ([0xff, 0x01], [0x01], [0x00, 0x02], 0),
  ([0xff, 0xff], [0x01], [0x00, 0x00], 1),
  ([0xff, 0xff], [0xff, 0xff], [0xfe, 0xff], 1)]

/-- TestAdd16LE, in both orders. -/
example : ∀ r ∈ add16LE, added Add16LE 2 r.1 r.2.1 = .ok (r.2.2.1, r.2.2.2, false) ∧
    added Add16LE 2 r.2.1 r.1 = .ok (r.2.2.1, r.2.2.2, false) := by decide +kernel

def add16BE : List (List U8 × List U8 × List U8 × U8) := [
  ([0x00, 0x00], [0x00, 0x00], [0x00, 0x00], 0),
  ([0x00, 0x00], [0x00, 0x01], [0x00, 0x01], 0),
  ([0x00, 0x01], [0x00, 0x01], [0x00, 0x02], 0),
  ([0xff, 0xff], [0x00, 0x00], [0xff, 0xff], 0),
  ([0xff, 0xff], [0x00, 0x01], [0x00, 0x00], 1),
  ([0x4e, 0x1d], [0x4b, 0xb3], [0x99, 0xd0], 0),
  ([0xff, 0xff], [0xff, 0xff], [0xff, 0xfe], 1),
  ([], [], [0x00, 0x00], 0),
  ([0x00], [], [0x00, 0x00], 0),
  ([0x00], [0x00], [0x00, 0x00], 0),
  ([0x00, 0x00], [], [0x00, 0x00], 0),
  ([0x00, 0x00], [0x00], [0x00, 0x00], 0),
  ([0x00, 0x00], [0x00, 0x00], [0x00, 0x00], 0),
  ([0x01], [], [0x00, 0x01], 0),
  ([0x01, 0x02], [], [0x01, 0x02], 0),
  ([0x01, 0x02], [0x01], [0x01, 0x03], 0),
  ([0xff, 0x01], [0x01], [0xff, 0x02], 0),
  ([0xff, 0xff], [0x01], [0x00, 0x00], 1),
  ([0xff, 0xff], [0xff, 0xff], [0xff, 0xfe], 1)]

/-- TestAdd16BE, in both orders. -/
example : ∀ r ∈ add16BE, added Add16BE 2 r.1 r.2.1 = .ok (r.2.2.1, r.2.2.2, false) ∧
    added Add16BE 2 r.2.1 r.1 = .ok (r.2.2.1, r.2.2.2, false) := by decide +kernel

def add32LE : List (List U8 × List U8 × List U8 × U8) := [
  ([0x00, 0x00, 0x00, 0x00], [0x00, 0x00, 0x00, 0x00], [0x00, 0x00, 0x00, 0x00], 0),
  ([0x00, 0x00, 0x00, 0x00], [0x01, 0x00, 0x00, 0x00], [0x01, 0x00, 0x00, 0x00], 0),
  ([0xff, 0xff, 0xff, 0xff], [0x00, 0x00, 0x00, 0x00], [0xff, 0xff, 0xff, 0xff], 0),
  ([0x44, 0x33, 0x22, 0x11], [0x00, 0x00, 0x00, 0x00], [0x44, 0x33, 0x22, 0x11], 0),
  ([0xff, 0xff, 0xff, 0xff], [0x01, 0x00, 0x00, 0x00], [0x00, 0x00, 0x00, 0x00], 1),
  ([0xff, 0xff, 0xff, 0xff], [0xff, 0xff, 0xff, 0xff], [0xfe, 0xff, 0xff, 0xff], 1),
  ([], [], [0x00, 0x00, 0x00, 0x00], 0),
  ([0x00], [], [0x00, 0x00, 0x00, 0x00], 0),
  ([0x00], [0x00], [0x00, 0x00, 0x00, 0x00], 0),
  ([0x00, 0x00], [], [0x00, 0x00, 0x00, 0x00], 0),
  ([0x00, 0x00], [0x00], [0x00, 0x00, 0x00, 0x00], 0),
  ([0x00, 0x00], [0x00, 0x00], [0x00, 0x00, 0x00, 0x00], 0),
  ([0x01], [], [0x01, 0x00, 0x00, 0x00], 0),
  ([0x01, 0x02], [], [0x01, 0x02, 0x00, 0x00], 0),
  ([0x01, 0x02], [0x01], [0x02, 0x02, 0x00, 0x00], 0),
  ([0xff, 0x01], [0x01], [0x00, 0x02, 0x00, 0x00], 0),
  ([0xff, 0xff], [0x01], [0x00, 0x00, 0x01, 0x00], 0),
  ([0xff, 0xff], [0xff, 0xff], [0xfe, 0xff, 0x01, 0x00], 0),
  ([0xff, 0xff, 0xff, 0xff], [], [0xff, 0xff, 0xff, 0xff], 0),
  ([0xff, 0xff, 0xff, 0xff], [0x00], [0xff, 0xff, 0xff, 0xff], 0),
  ([0xff, 0xff, 0xff, 0xff], [0x00, 0x00], [0xff, 0xff, 0xff, 0xff], 0),
  ([0xff, 0xff, 0xff, 0xff], [0x00, 0x00, 0x00], [0xff, 0xff, 0xff, 0xff], 0),
  ([0xff, 0xff, 0xff, 0xff], [0x00, 0x00, 0x00, 0x00], [0xff, 0xff, 0xff, 0xff], 0),
  ([0xff, 0xff, 0xff, 0xff], [0x00, 0x00, 0x00, 0x00, 0x01], [0xff, 0xff, 0xff, 0xff], 0),
  ([0xff, 0xff, 0xff, 0xff], [0x01], [0x00, 0x00, 0x00, 0x00], 1),
  ([0xff, 0xff, 0xff, 0xff], [0x00, 0x01], [0xff, 0x00, 0x00, 0x00], 1),
  ([0xff, 0xff, 0xff, 0xff], [0x00, 0x00, 0x01], [0xff, 0xff, 0x00, 0x00], 1),
  ([0xff, 0xff, 0xff, 0xff], [0x00, 0x00, 0x00, 0x01], [0xff, 0xff, 0xff, 0x00], 1),
  ([0xff, 0xff, 0xff, 0xff], [0x01, 0x00], [0x00, 0x00, 0x00, 0x00], 1),
  ([0xff, 0xff, 0xff, 0xff], [0x01, 0x00, 0x00], [0x00, 0x00, 0x00, 0x00], 1),
  ([0xff, 0xff, 0xff, 0xff], [0x01, 0x00, 0x00, 0x00], [0x00, 0x00, 0x00, 0x00], 1),
  ([0xff, 0xff, 0xff, 0xff], [0xff, 0xff, 0xff, 0xff], [0xfe, 0xff, 0xff, 0xff], 1)]

/-- TestAdd32LE, in both orders. -/
example : ∀ r ∈ add32LE, added Add32LE 4 r.1 r.2.1 = .ok (r.2.2.1, r.2.2.2, false) ∧
    added Add32LE 4 r.2.1 r.1 = .ok (r.2.2.1, r.2.2.2, false) := by decide +kernel

def add32BE : List (List U8 × List U8 × List U8 × U8) := [
  ([0x00, 0x00, 0x00, 0x00], [0x00, 0x00, 0x00, 0x00], [0x00, 0x00, 0x00, 0x00], 0),
  ([0x00, 0x00, 0x00, 0x00], [0x00, 0x00, 0x00, 0x01], [0x00, 0x00, 0x00, 0x01], 0),
  ([0xff, 0xff, 0xff, 0xff], [0x00, 0x00, 0x00, 0x00], [0xff, 0xff, 0xff, 0xff], 0),
  ([0x11, 0x22, 0x33, 0x44], [0x00, 0x00, 0x00, 0x00], [0x11, 0x22, 0x33, 0x44], 0),
  ([0xff, 0xff, 0xff, 0xff], [0x00, 0x00, 0x00, 0x01], [0x00, 0x00, 0x00, 0x00], 1),
  ([0xff, 0xff, 0xff, 0xff], [0xff, 0xff, 0xff, 0xff], [0xff, 0xff, 0xff, 0xfe], 1),
  ([], [], [0x00, 0x00, 0x00, 0x00], 0),
  ([0x00], [], [0x00, 0x00, 0x00, 0x00], 0),
  ([0x00], [0x00], [0x00, 0x00, 0x00, 0x00], 0),
  ([0x00, 0x00], [], [0x00, 0x00, 0x00, 0x00], 0),
  ([0x00, 0x00], [0x00], [0x00, 0x00, 0x00, 0x00], 0),
  ([0x00, 0x00], [0x00, 0x00], [0x00, 0x00, 0x00, 0x00], 0),
  ([0x01], [], [0x00, 0x00, 0x00, 0x01], 0),
  ([0x01, 0x02], [], [0x00, 0x00, 0x01, 0x02], 0),
  ([0x01, 0x02], [0x01], [0x00, 0x00, 0x01, 0x03], 0),
  ([0xff, 0x01], [0x01], [0x00, 0x00, 0xff, 0x02], 0),
  ([0xff, 0xff], [0x01], [0x00, 0x01, 0x00, 0x00], 0),
  ([0xff, 0xff], [0xff, 0xff], [0x00, 0x01, 0xff, 0xfe], 0),
  ([0xff, 0xff, 0xff, 0xff], [], [0xff, 0xff, 0xff, 0xff], 0),
  ([0xff, 0xff, 0xff, 0xff], [0x00], [0xff, 0xff, 0xff, 0xff], 0),
  ([0xff, 0xff, 0xff, 0xff], [0x00, 0x00], [0xff, 0xff, 0xff, 0xff], 0),
  ([0xff, 0xff, 0xff, 0xff], [0x00, 0x00, 0x00], [0xff, 0xff, 0xff, 0xff], 0),
  ([0xff, 0xff, 0xff, 0xff], [0x00, 0x00, 0x00, 0x00], [0xff, 0xff, 0xff, 0xff], 0),
  ([0xff, 0xff, 0xff, 0xff], [0x00, 0x00, 0x00, 0x00, 0x01], [0xff, 0xff, 0xff, 0xff], 0),
  ([0xff, 0xff, 0xff, 0xff], [0x01], [0x00, 0x00, 0x00, 0x00], 1),
  ([0xff, 0xff, 0xff, 0xff], [0x00, 0x01], [0x00, 0x00, 0x00, 0x00], 1),
  ([0xff, 0xff, 0xff, 0xff], [0x00, 0x00, 0x01], [0x00, 0x00, 0x00, 0x00], 1),
  ([0xff, 0xff, 0xff, 0xff], [0x00, 0x00, 0x00, 0x01], [0x00, 0x00, 0x00, 0x00], 1),
  ([0xff, 0xff, 0xff, 0xff], [0x01, 0x00], [0x00, 0x00, 0x00, 0xff], 1),
  ([0xff, 0xff, 0xff, 0xff], [0x01, 0x00, 0x00], [0x00, 0x00, 0xff, 0xff], 1),
  ([0xff, 0xff, 0xff, 0xff], [0x01, 0x00, 0x00, 0x00], [0x00, 0xff, 0xff, 0xff], 1),
  ([0xff, 0xff, 0xff, 0xff], [0xff, 0xff, 0xff, 0xff], [0xff, 0xff, 0xff, 0xfe], 1)]

/-- TestAddBE32, in both orders. -/
example : ∀ r ∈ add32BE, added Add32BE 4 r.1 r.2.1 = .ok (r.2.2.1, r.2.2.2, false) ∧
    added Add32BE 4 r.2.1 r.1 = .ok (r.2.2.1, r.2.2.2, false) := by decide +kernel

def add128LE : List (List U8 × List U8 × List U8 × U8) := [
  ([], [], [0x00, 0x00, 0x00, 0x00, 0x00, 0x00, 0x00, 0x00, 0x00, 0x00, 0x00, 0x00, 0x00, 0x00, 0x00, 0x00], 0),
  ([0x00], [], [0x00, 0x00, 0x00, 0x00, 0x00, 0x00, 0x00, 0x00, 0x00, 0x00, 0x00, 0x00, 0x00, 0x00, 0x00, 0x00], 0),
  ([0x01], [], [0x01, 0x00, 0x00, 0x00, 0x00, 0x00, 0x00, 0x00, 0x00, 0x00, 0x00, 0x00, 0x00, 0x00, 0x00, 0x00], 0),
  ([0x00, 0x01], [], [0x00, 0x01, 0x00, 0x00, 0x00, 0x00, 0x00, 0x00, 0x00, 0x00, 0x00, 0x00, 0x00, 0x00, 0x00, 0x00], 0),
  ([0x01, 0x00], [], [0x01, 0x00, 0x00, 0x00, 0x00, 0x00, 0x00, 0x00, 0x00, 0x00, 0x00, 0x00, 0x00, 0x00, 0x00, 0x00], 0),
  ([0x00, 0x01, 0x02], [], [0x00, 0x01, 0x02, 0x00, 0x00, 0x00, 0x00, 0x00, 0x00, 0x00, 0x00, 0x00, 0x00, 0x00, 0x00, 0x00], 0),
  ([0x00, 0x01, 0x02, 0x03], [], [0x00, 0x01, 0x02, 0x03, 0x00, 0x00, 0x00, 0x00, 0x00, 0x00, 0x00, 0x00, 0x00, 0x00, 0x00, 0x00],
    0),
  ([0x00, 0x01, 0x02, 0x03, 0x04], [], [0x00, 0x01, 0x02, 0x03, 0x04, 0x00, 0x00, 0x00, 0x00, 0x00, 0x00, 0x00, 0x00, 0x00, 0x00,
    0x00], 0),
  ([0x00, 0x01, 0x02, 0x03, 0x04, 0x05], [], [0x00, 0x01, 0x02, 0x03, 0x04, 0x05, 0x00, 0x00, 0x00, 0x00, 0x00, 0x00, 0x00, 0x00,
    0x00, 0x00], 0),
  ([0x00, 0x01, 0x02, 0x03, 0x04, 0x05, 0x06], [], [0x00, 0x01, 0x02, 0x03, 0x04, 0x05, 0x06, 0x00, 0x00, 0x00, 0x00, 0x00, 0x00,
    0x00, 0x00, 0x00], 0),
  ([0x00, 0x01, 0x02, 0x03, 0x04, 0x05, 0x06, 0x07], [], [0x00, 0x01, 0x02, 0x03, 0x04, 0x05, 0x06, 0x07, 0x00, 0x00, 0x00, 0x00,
    0x00, 0x00, 0x00, 0x00], 0),
  ([0x00, 0x01, 0x02, 0x03, 0x04, 0x05, 0x06, 0x07, 0x08, 0x09], [], [0x00, 0x01, 0x02, 0x03, 0x04, 0x05, 0x06, 0x07, 0x08, 0x09,
    0x00, 0x00, 0x00, 0x00, 0x00, 0x00], 0),
  ([0x00, 0x01, 0x02, 0x03, 0x04, 0x05, 0x06, 0x07, 0x08, 0x09, 0x0a, 0x0b], [], [0x00, 0x01, 0x02, 0x03, 0x04, 0x05, 0x06, 0x07,
    0x08, 0x09, 0x0a, 0x0b, 0x00, 0x00, 0x00, 0x00], 0),
  ([0x00, 0x01, 0x02, 0x03, 0x04, 0x05, 0x06, 0x07, 0x08, 0x09, 0x0a, 0x0b, 0x0c, 0x0d], [], [0x00, 0x01, 0x02, 0x03, 0x04, 0x05,
    0x06, 0x07, 0x08, 0x09, 0x0a, 0x0b, 0x0c, 0x0d, 0x00, 0x00], 0),
  ([0x00, 0x01, 0x02, 0x03, 0x04, 0x05, 0x06, 0x07, 0x08, 0x09, 0x0a, 0x0b, 0x0c, 0x0d, 0x0e], [], [0x00, 0x01, 0x02, 0x03, 0x04,
    0x05, 0x06, 0x07, 0x08, 0x09, 0x0a, 0x0b, 0x0c, 0x0d, 0x0e, 0x00], 0),
  ([0x00, 0x01, 0x02, 0x03, 0x04, 0x05, 0x06, 0x07, 0x08, 0x09, 0x0a, 0x0b, 0x0c, 0x0d, 0x0e, 0x0f], [], [0x00, 0x01, 0x02, 0x03,
    0x04, 0x05, 0x06, 0x07, 0x08, 0x09, 0x0a, 0x0b, 0x0c, 0x0d, 0x0e, 0x0f], 0),
  ([0xff, 0xff, 0xff, 0xff, 0xff, 0xff, 0xff, 0xff, 0xff, 0xff, 0xff, 0xff, 0xff, 0xff, 0xff, 0xff], [], [0xff, 0xff, 0xff, 0xff,
    0xff, 0xff, 0xff, 0xff, 0xff, 0xff, 0xff, 0xff, 0xff, 0xff, 0xff, 0xff], 0),
  ([0xff, 0xff, 0xff, 0xff, 0xff, 0xff, 0xff, 0xff, 0xff, 0xff, 0xff, 0xff, 0xff, 0xff, 0xff, 0xff], [0x01], [0x00, 0x00, 0x00,
    0x00, 0x00, 0x00, 0x00, 0x00, 0x00, 0x00, 0x00, 0x00, 0x00, 0x00, 0x00, 0x00], 1),
  ([0xff, 0xff, 0xff, 0xff, 0xff, 0xff, 0xff, 0xff, 0xff, 0xff, 0xff, 0xff, 0xff, 0xff, 0xff, 0xff], [0x00, 0x01], [0xff, 0x00,
    0x00, 0x00, 0x00, 0x00, 0x00, 0x00, 0x00, 0x00, 0x00, 0x00, 0x00, 0x00, 0x00, 0x00], 1),
  ([0xff, 0xff, 0xff, 0xff, 0xff, 0xff, 0xff, 0xff, 0xff, 0xff, 0xff, 0xff, 0xff, 0xff, 0xff, 0xff], [0x00, 0x00, 0x01], [0xff,
    0xff, 0x00, 0x00, 0x00, 0x00, 0x00, 0x00, 0x00, 0x00, 0x00, 0x00, 0x00, 0x00, 0x00, 0x00], 1),
  ([0xff, 0xff, 0xff, 0xff, 0xff, 0xff, 0xff, 0xff, 0xff, 0xff, 0xff, 0xff, 0xff, 0xff, 0xff, 0xff], [0xff, 0xff, 0xff, 0xff,
    0xff, 0xff, 0xff, 0xff, 0xff, 0xff, 0xff, 0xff, 0xff, 0xff, 0xff, 0xff], [0xfe, 0xff, 0xff, 0xff, 0xff, 0xff, 0xff, 0xff,
    0xff, 0xff, 0xff, 0xff, 0xff, 0xff, 0xff, 0xff], 1),
  ([0xff, 0x00, 0x00, 0x00, 0x00, 0x00, 0x00, 0x00, 0x00, 0x00, 0x00, 0x00, 0x00, 0x00, 0x00, 0xff], [0x00, 0x00, 0x00, 0x00,
    0x00, 0x00, 0x00, 0x00, 0x00, 0x00, 0x00, 0x00, 0x00, 0x00, 0x00, 0x01], [0xff, 0x00, 0x00, 0x00, 0x00, 0x00, 0x00, 0x00,
    0x00, 0x00, 0x00, 0x00, 0x00, 0x00, 0x00, 0x00], 1),
  ([0xff, 0x00, 0x00, 0x00, 0x00, 0x00, 0x00, 0x00, 0x00, 0x00, 0x00, 0x00, 0x00, 0x00, 0x00, 0xff], [0x01, 0x00, 0x00, 0x00,
    0x00, 0x00, 0x00, 0x00, 0x00, 0x00, 0x00, 0x00, 0x00, 0x00, 0x00, 0x00], [0x00, 0x01, 0x00, 0x00, 0x00, 0x00, 0x00, 0x00,
    0x00, 0x00, 0x00, 0x00, 0x00, 0x00, 0x00, 0xff], 0),
  ([0xff, 0x00, 0xff, 0x00, 0xff, 0x00, 0xff, 0x00, 0xff, 0x00, 0xff, 0x00, 0xff, 0x00, 0xff, 0x00], [0x00, 0xff, 0x00, 0xff,
    0x00, 0xff, 0x00, 0xff, 0x00, 0xff, 0x00, 0xff, 0x00, 0xff, 0x00, 0xff], [0xff, 0xff, 0xff, 0xff, 0xff, 0xff, 0xff, 0xff,
    0xff, 0xff, 0xff, 0xff, 0xff, 0xff, 0xff, 0xff], 0),
  ([0xff, 0x00, 0xff, 0x00, 0xff, 0x00, 0xff, 0x00, 0xff, 0x00, 0xff, 0x00, 0xff, 0x00, 0xff, 0x00], [0x01, 0xff, 0x00, 0xff,
    0x00, 0xff, 0x00, 0xff, 0x00, 0xff, 0x00, 0xff, 0x00, 0xff, 0x00, 0xff], [0x00, 0x00, 0x00, 0x00, 0x00, 0x00, 0x00, 0x00,
    0x00, 0x00, 0x00, 0x00, 0x00, 0x00, 0x00, 0x00], 1),
  ([0xff, 0x00, 0xff, 0x00, 0xff, 0x00, 0xff, 0x00, 0xff, 0x00, 0xff, 0x00, 0xff, 0x00, 0xff, 0x00], [0x00, 0xff, 0x00, 0xff,
    0x00, 0xff, 0x00, 0xff, 0x01, 0xff, 0x00, 0xff, 0x00, 0xff, 0x00, 0xff], [0xff, 0xff, 0xff, 0xff, 0xff, 0xff, 0xff, 0xff,
    0x00, 0x00, 0x00, 0x00, 0x00, 0x00, 0x00, 0x00], 1),
  ([0xff, 0x00, 0xff, 0x00, 0xff, 0x00, 0xff, 0x00, 0xff, 0x00, 0xff, 0x00, 0xff, 0x00, 0xff, 0x01], [0x00, 0xff, 0x00, 0xff,
    0x00, 0xff, 0x00, 0xff, 0x00, 0xff, 0x00, 0xff, 0x00, 0xff, 0x00, 0xff], [0xff, 0xff, 0xff, 0xff, 0xff, 0xff, 0xff, 0xff,
    0xff, 0xff, 0xff, 0xff, 0xff, 0xff, 0xff, 0x00], 1)]

/-- TestAdd128LE, in both orders. -/
example : ∀ r ∈ add128LE, added Add128LE 16 r.1 r.2.1 = .ok (r.2.2.1, r.2.2.2, false) ∧
    added Add128LE 16 r.2.1 r.1 = .ok (r.2.2.1, r.2.2.2, false) := by decide +kernel

def add128BE : List (List U8 × List U8 × List U8 × U8) := [
  ([], [], [0x00, 0x00, 0x00, 0x00, 0x00, 0x00, 0x00, 0x00, 0x00, 0x00, 0x00, 0x00, 0x00, 0x00, 0x00, 0x00], 0),
  ([0x00], [], [0x00, 0x00, 0x00, 0x00, 0x00, 0x00, 0x00, 0x00, 0x00, 0x00, 0x00, 0x00, 0x00, 0x00, 0x00, 0x00], 0),
  ([0x01], [], [0x00, 0x00, 0x00, 0x00, 0x00, 0x00, 0x00, 0x00, 0x00, 0x00, 0x00, 0x00, 0x00, 0x00, 0x00, 0x01], 0),
  ([0x00, 0x01], [], [0x00, 0x00, 0x00, 0x00, 0x00, 0x00, 0x00, 0x00, 0x00, 0x00, 0x00, 0x00, 0x00, 0x00, 0x00, 0x01], 0),
  ([0x01, 0x00], [], [0x00, 0x00, 0x00, 0x00, 0x00, 0x00, 0x00, 0x00, 0x00, 0x00, 0x00, 0x00, 0x00, 0x00, 0x01, 0x00], 0),
  ([0x00, 0x01, 0x02], [], [0x00, 0x00, 0x00, 0x00, 0x00, 0x00, 0x00, 0x00, 0x00, 0x00, 0x00, 0x00, 0x00, 0x00, 0x01, 0x02], 0),
  ([0x00, 0x01, 0x02, 0x03], [], [0x00, 0x00, 0x00, 0x00, 0x00, 0x00, 0x00, 0x00, 0x00, 0x00, 0x00, 0x00, 0x00, 0x01, 0x02, 0x03],
    0),
  ([0x00, 0x01, 0x02, 0x03, 0x04], [], [0x00, 0x00, 0x00, 0x00, 0x00, 0x00, 0x00, 0x00, 0x00, 0x00, 0x00, 0x00, 0x01, 0x02, 0x03,
    0x04], 0),
  ([0x00, 0x01, 0x02, 0x03, 0x04, 0x05], [], [0x00, 0x00, 0x00, 0x00, 0x00, 0x00, 0x00, 0x00, 0x00, 0x00, 0x00, 0x01, 0x02, 0x03,
    0x04, 0x05], 0),
  ([0x00, 0x01, 0x02, 0x03, 0x04, 0x05, 0x06], [], [0x00, 0x00, 0x00, 0x00, 0x00, 0x00, 0x00, 0x00, 0x00, 0x00, 0x01, 0x02, 0x03,
    0x04, 0x05, 0x06], 0),
  ([0x00, 0x01, 0x02, 0x03, 0x04, 0x05, 0x06, 0x07], [], [0x00, 0x00, 0x00, 0x00, 0x00, 0x00, 0x00, 0x00, 0x00, 0x01, 0x02, 0x03,
    0x04, 0x05, 0x06, 0x07], 0),
  ([0x00, 0x01, 0x02, 0x03, 0x04, 0x05, 0x06, 0x07, 0x08, 0x09], [], [0x00, 0x00, 0x00, 0x00, 0x00, 0x00, 0x00, 0x01, 0x02, 0x03,
    0x04, 0x05, 0x06, 0x07, 0x08, 0x09], 0),
  ([0x00, 0x01, 0x02, 0x03, 0x04, 0x05, 0x06, 0x07, 0x08, 0x09, 0x0a, 0x0b], [], [0x00, 0x00, 0x00, 0x00, 0x00, 0x01, 0x02, 0x03,
    0x04, 0x05, 0x06, 0x07, 0x08, 0x09, 0x0a, 0x0b], 0),
  ([0x00, 0x01, 0x02, 0x03, 0x04, 0x05, 0x06, 0x07, 0x08, 0x09, 0x0a, 0x0b, 0x0c, 0x0d], [], [0x00, 0x00, 0x00, 0x01, 0x02, 0x03,
    0x04, 0x05, 0x06, 0x07, 0x08, 0x09, 0x0a, 0x0b, 0x0c, 0x0d], 0),
  ([0x00, 0x01, 0x02, 0x03, 0x04, 0x05, 0x06, 0x07, 0x08, 0x09, 0x0a, 0x0b, 0x0c, 0x0d, 0x0e], [], [0x00, 0x00, 0x01, 0x02, 0x03,
    0x04, 0x05, 0x06, 0x07, 0x08, 0x09, 0x0a, 0x0b, 0x0c, 0x0d, 0x0e], 0),
  ([0x00, 0x01, 0x02, 0x03, 0x04, 0x05, 0x06, 0x07, 0x08, 0x09, 0x0a, 0x0b, 0x0c, 0x0d, 0x0e, 0x0f], [], [0x00, 0x01, 0x02, 0x03,
    0x04, 0x05, 0x06, 0x07, 0x08, 0x09, 0x0a, 0x0b, 0x0c, 0x0d, 0x0e, 0x0f], 0),
  ([0xff, 0xff, 0xff, 0xff, 0xff, 0xff, 0xff, 0xff, 0xff, 0xff, 0xff, 0xff, 0xff, 0xff, 0xff, 0xff], [], [0xff, 0xff, 0xff, 0xff,
    0xff, 0xff, 0xff, 0xff, 0xff, 0xff, 0xff, 0xff, 0xff, 0xff, 0xff, 0xff], 0),
  ([0xff, 0xff, 0xff, 0xff, 0xff, 0xff, 0xff, 0xff, 0xff, 0xff, 0xff, 0xff, 0xff, 0xff, 0xff, 0xff], [0x01], [0x00, 0x00, 0x00,
    0x00, 0x00, 0x00, 0x00, 0x00, 0x00, 0x00, 0x00, 0x00, 0x00, 0x00, 0x00, 0x00], 1),
  ([0xff, 0xff, 0xff, 0xff, 0xff, 0xff, 0xff, 0xff, 0xff, 0xff, 0xff, 0xff, 0xff, 0xff, 0xff, 0xff], [0x00, 0x01], [0x00, 0x00,
    0x00, 0x00, 0x00, 0x00, 0x00, 0x00, 0x00, 0x00, 0x00, 0x00, 0x00, 0x00, 0x00, 0x00], 1),
  ([0xff, 0xff, 0xff, 0xff, 0xff, 0xff, 0xff, 0xff, 0xff, 0xff, 0xff, 0xff, 0xff, 0xff, 0xff, 0xff], [0x00, 0x00, 0x01], [0x00,
    0x00, 0x00, 0x00, 0x00, 0x00, 0x00, 0x00, 0x00, 0x00, 0x00, 0x00, 0x00, 0x00, 0x00, 0x00], 1),
  ([0xff, 0xff, 0xff, 0xff, 0xff, 0xff, 0xff, 0xff, 0xff, 0xff, 0xff, 0xff, 0xff, 0xff, 0xff, 0xff], [0xff, 0xff, 0xff, 0xff,
    0xff, 0xff, 0xff, 0xff, 0xff, 0xff, 0xff, 0xff, 0xff, 0xff, 0xff, 0xff], [0xff, 0xff, 0xff, 0xff, 0xff, 0xff, 0xff, 0xff,
    0xff, 0xff, 0xff, 0xff, 0xff, 0xff, 0xff, 0xfe], 1),
  ([0xff, 0x00, 0x00, 0x00, 0x00, 0x00, 0x00, 0x00, 0x00, 0x00, 0x00, 0x00, 0x00, 0x00, 0x00, 0xff], [0x00, 0x00, 0x00, 0x00,
    0x00, 0x00, 0x00, 0x00, 0x00, 0x00, 0x00, 0x00, 0x00, 0x00, 0x00, 0x01], [0xff, 0x00, 0x00, 0x00, 0x00, 0x00, 0x00, 0x00,
    0x00, 0x00, 0x00, 0x00, 0x00, 0x00, 0x01, 0x00], 0),
  ([0xff, 0x00, 0x00, 0x00, 0x00, 0x00, 0x00, 0x00, 0x00, 0x00, 0x00, 0x00, 0x00, 0x00, 0x00, 0xff], [0x01, 0x00, 0x00, 0x00,
    0x00, 0x00, 0x00, 0x00, 0x00, 0x00, 0x00, 0x00, 0x00, 0x00, 0x00, 0x00], [0x00, 0x00, 0x00, 0x00, 0x00, 0x00, 0x00, 0x00,
    0x00, 0x00, 0x00, 0x00, 0x00, 0x00, 0x00, 0xff], 1),
  ([0xff, 0x00, 0xff, 0x00, 0xff, 0x00, 0xff, 0x00, 0xff, 0x00, 0xff, 0x00, 0xff, 0x00, 0xff, 0x00], [0x00, 0xff, 0x00, 0xff,
    0x00, 0xff, 0x00, 0xff, 0x00, 0xff, 0x00, 0xff, 0x00, 0xff, 0x00, 0xff], [0xff, 0xff, 0xff, 0xff, 0xff, 0xff, 0xff, 0xff,
    0xff, 0xff, 0xff, 0xff, 0xff, 0xff, 0xff, 0xff], 0),
  ([0xff, 0x00, 0xff, 0x00, 0xff, 0x00, 0xff, 0x00, 0xff, 0x00, 0xff, 0x00, 0xff, 0x00, 0xff, 0x00], [0x01, 0xff, 0x00, 0xff,
    0x00, 0xff, 0x00, 0xff, 0x00, 0xff, 0x00, 0xff, 0x00, 0xff, 0x00, 0xff], [0x00, 0xff, 0xff, 0xff, 0xff, 0xff, 0xff, 0xff,
    0xff, 0xff, 0xff, 0xff, 0xff, 0xff, 0xff, 0xff], 1),
  ([0xff, 0x00, 0xff, 0x00, 0xff, 0x00, 0xff, 0x00, 0xff, 0x00, 0xff, 0x00, 0xff, 0x00, 0xff, 0x00], [0x00, 0xff, 0x00, 0xff,
    0x00, 0xff, 0x00, 0xff, 0x01, 0xff, 0x00, 0xff, 0x00, 0xff, 0x00, 0xff], [0x00, 0x00, 0x00, 0x00, 0x00, 0x00, 0x00, 0x00,
    0x00, 0xff, 0xff, 0xff, 0xff, 0xff, 0xff, 0xff], 1),
  ([0xff, 0x00, 0xff, 0x00, 0xff, 0x00, 0xff, 0x00, 0xff, 0x00, 0xff, 0x00, 0xff, 0x00, 0xff, 0x01], [0x00, 0xff, 0x00, 0xff,
    0x00, 0xff, 0x00, 0xff, 0x00, 0xff, 0x00, 0xff, 0x00, 0xff, 0x00, 0xff], [0x00, 0x00, 0x00, 0x00, 0x00, 0x00, 0x00, 0x00,
    0x00, 0x00, 0x00, 0x00, 0x00, 0x00, 0x00, 0x00], 1)]

/-- TestAdd128BE, in both orders. -/
example : ∀ r ∈ add128BE, added Add128BE 16 r.1 r.2.1 = .ok (r.2.2.1, r.2.2.2, false) ∧
    added Add128BE 16 r.2.1 r.1 = .ok (r.2.2.1, r.2.2.2, false) := by decide +kernel

def add256LE : List (List U8 × List U8 × List U8 × U8) := [
  ([], [], [0x00, 0x00, 0x00, 0x00, 0x00, 0x00, 0x00, 0x00, 0x00, 0x00, 0x00, 0x00, 0x00, 0x00, 0x00, 0x00, 0x00, 0x00, 0x00,
    0x00, 0x00, 0x00, 0x00, 0x00, 0x00, 0x00, 0x00, 0x00, 0x00, 0x00, 0x00, 0x00], 0),
  ([0x03], [0x05], [0x08, 0x00, 0x00, 0x00, 0x00, 0x00, 0x00, 0x00, 0x00, 0x00, 0x00, 0x00, 0x00, 0x00, 0x00, 0x00, 0x00, 0x00,
    0x00, 0x00, 0x00, 0x00, 0x00, 0x00, 0x00, 0x00, 0x00, 0x00, 0x00, 0x00, 0x00, 0x00], 0)]

/-- TestAdd256LE, in both orders. -/
example : ∀ r ∈ add256LE, added Add256LE 32 r.1 r.2.1 = .ok (r.2.2.1, r.2.2.2, false) ∧
    added Add256LE 32 r.2.1 r.1 = .ok (r.2.2.1, r.2.2.2, false) := by decide +kernel

def add256BE : List (List U8 × List U8 × List U8 × U8) := [
  ([], [], [0x00, 0x00, 0x00, 0x00, 0x00, 0x00, 0x00, 0x00, 0x00, 0x00, 0x00, 0x00, 0x00, 0x00, 0x00, 0x00, 0x00, 0x00, 0x00,
    0x00, 0x00, 0x00, 0x00, 0x00, 0x00, 0x00, 0x00, 0x00, 0x00, 0x00, 0x00, 0x00], 0),
  ([0x03], [0x05], [0x00, 0x00, 0x00, 0x00, 0x00, 0x00, 0x00, 0x00, 0x00, 0x00, 0x00, 0x00, 0x00, 0x00, 0x00, 0x00, 0x00, 0x00,
    0x00, 0x00, 0x00, 0x00, 0x00, 0x00, 0x00, 0x00, 0x00, 0x00, 0x00, 0x00, 0x00, 0x08], 0)]

/-- TestAdd256BE, in both orders. -/
example : ∀ r ∈ add256BE, added Add256BE 32 r.1 r.2.1 = .ok (r.2.2.1, r.2.2.2, false) ∧
    added Add256BE 32 r.2.1 r.1 = .ok (r.2.2.1, r.2.2.2, false) := by decide +kernel

def add512LE : List (List U8 × List U8 × List U8 × U8) := [
  ([], [], [0x00, 0x00, 0x00, 0x00, 0x00, 0x00, 0x00, 0x00, 0x00, 0x00, 0x00, 0x00, 0x00, 0x00, 0x00, 0x00, 0x00, 0x00, 0x00,
    0x00, 0x00, 0x00, 0x00, 0x00, 0x00, 0x00, 0x00, 0x00, 0x00, 0x00, 0x00, 0x00, 0x00, 0x00, 0x00, 0x00, 0x00, 0x00, 0x00,
    0x00, 0x00, 0x00, 0x00, 0x00, 0x00, 0x00, 0x00, 0x00, 0x00, 0x00, 0x00, 0x00, 0x00, 0x00, 0x00, 0x00, 0x00, 0x00, 0x00,
    0x00, 0x00, 0x00, 0x00, 0x00], 0),
  ([0x01], [], [0x01, 0x00, 0x00, 0x00, 0x00, 0x00, 0x00, 0x00, 0x00, 0x00, 0x00, 0x00, 0x00, 0x00, 0x00, 0x00, 0x00, 0x00, 0x00,
    0x00, 0x00, 0x00, 0x00, 0x00, 0x00, 0x00, 0x00, 0x00, 0x00, 0x00, 0x00, 0x00, 0x00, 0x00, 0x00, 0x00, 0x00, 0x00, 0x00,
    0x00, 0x00, 0x00, 0x00, 0x00, 0x00, 0x00, 0x00, 0x00, 0x00, 0x00, 0x00, 0x00, 0x00, 0x00, 0x00, 0x00, 0x00, 0x00, 0x00,
    0x00, 0x00, 0x00, 0x00, 0x00], 0),
  ([0x00], [0x01], [0x01, 0x00, 0x00, 0x00, 0x00, 0x00, 0x00, 0x00, 0x00, 0x00, 0x00, 0x00, 0x00, 0x00, 0x00, 0x00, 0x00, 0x00,
    0x00, 0x00, 0x00, 0x00, 0x00, 0x00, 0x00, 0x00, 0x00, 0x00, 0x00, 0x00, 0x00, 0x00, 0x00, 0x00, 0x00, 0x00, 0x00, 0x00,
    0x00, 0x00, 0x00, 0x00, 0x00, 0x00, 0x00, 0x00, 0x00, 0x00, 0x00, 0x00, 0x00, 0x00, 0x00, 0x00, 0x00, 0x00, 0x00, 0x00,
    0x00, 0x00, 0x00, 0x00, 0x00, 0x00], 0),
  ([0xff, 0xff, 0xff, 0xff, 0xff, 0xff, 0xff, 0xff, 0xff, 0xff, 0xff, 0xff, 0xff, 0xff, 0xff, 0xff, 0xff, 0xff, 0xff, 0xff, 0xff,
    0xff, 0xff, 0xff, 0xff, 0xff, 0xff, 0xff, 0xff, 0xff, 0xff, 0xff, 0xff, 0xff, 0xff, 0xff, 0xff, 0xff, 0xff, 0xff, 0xff,
    0xff, 0xff, 0xff, 0xff, 0xff, 0xff, 0xff, 0xff, 0xff, 0xff, 0xff, 0xff, 0xff, 0xff, 0xff, 0xff, 0xff, 0xff, 0xff, 0xff,
    0xff, 0xff, 0xff], [0x01], [0x00, 0x00, 0x00, 0x00, 0x00, 0x00, 0x00, 0x00, 0x00, 0x00, 0x00, 0x00, 0x00, 0x00, 0x00, 0x00,
    0x00, 0x00, 0x00, 0x00, 0x00, 0x00, 0x00, 0x00, 0x00, 0x00, 0x00, 0x00, 0x00, 0x00, 0x00, 0x00, 0x00, 0x00, 0x00, 0x00,
    0x00, 0x00, 0x00, 0x00, 0x00, 0x00, 0x00, 0x00, 0x00, 0x00, 0x00, 0x00, 0x00, 0x00, 0x00, 0x00, 0x00, 0x00, 0x00, 0x00,
    0x00, 0x00, 0x00, 0x00, 0x00, 0x00, 0x00, 0x00], 1),
  ([0xff, 0xff, 0xff, 0xff, 0xff, 0xff, 0xff, 0xff, 0xff, 0xff, 0xff, 0xff, 0xff, 0xff, 0xff, 0xff, 0xff, 0xff, 0xff, 0xff, 0xff,
    0xff, 0xff, 0xff, 0xff, 0xff, 0xff, 0xff, 0xff, 0xff, 0xff, 0xff, 0xff, 0xff, 0xff, 0xff, 0xff, 0xff, 0xff, 0xff, 0xff,
    0xff, 0xff, 0xff, 0xff, 0xff, 0xff, 0xff, 0xff, 0xff, 0xff, 0xff, 0xff, 0xff, 0xff, 0xff, 0xff, 0xff, 0xff, 0xff, 0xff,
    0xff, 0xff, 0xff], [0x00, 0x00, 0x00, 0x00, 0x00, 0x00, 0x00, 0x00, 0x00, 0x00, 0x00, 0x00, 0x00, 0x00, 0x00, 0x00, 0x00,
    0x00, 0x00, 0x00, 0x00, 0x00, 0x00, 0x00, 0x00, 0x00, 0x00, 0x00, 0x00, 0x00, 0x00, 0x00, 0x00, 0x00, 0x00, 0x00, 0x00,
    0x00, 0x00, 0x00, 0x00, 0x00, 0x00, 0x00, 0x00, 0x00, 0x00, 0x00, 0x00, 0x00, 0x00, 0x00, 0x00, 0x00, 0x00, 0x00, 0x00,
    0x00, 0x00, 0x00, 0x00, 0x00, 0x00, 0x01], [0xff, 0xff, 0xff, 0xff, 0xff, 0xff, 0xff, 0xff, 0xff, 0xff, 0xff, 0xff, 0xff,
    0xff, 0xff, 0xff, 0xff, 0xff, 0xff, 0xff, 0xff, 0xff, 0xff, 0xff, 0xff, 0xff, 0xff, 0xff, 0xff, 0xff, 0xff, 0xff, 0xff,
    0xff, 0xff, 0xff, 0xff, 0xff, 0xff, 0xff, 0xff, 0xff, 0xff, 0xff, 0xff, 0xff, 0xff, 0xff, 0xff, 0xff, 0xff, 0xff, 0xff,
    0xff, 0xff, 0xff, 0xff, 0xff, 0xff, 0xff, 0xff, 0xff, 0xff, 0x00], 1),
  ([0xff, 0xff, 0xff, 0xff, 0xff, 0xff, 0xff, 0xff, 0xff, 0xff, 0xff, 0xff, 0xff, 0xff, 0xff, 0xff, 0xff, 0xff, 0xff, 0xff, 0xff,
    0xff, 0xff, 0xff, 0xff, 0xff, 0xff, 0xff, 0xff, 0xff, 0xff, 0xff, 0xff, 0xff, 0xff, 0xff, 0xff, 0xff, 0xff, 0xff, 0xff,
    0xff, 0xff, 0xff, 0xff, 0xff, 0xff, 0xff, 0xff, 0xff, 0xff, 0xff, 0xff, 0xff, 0xff, 0xff, 0xff, 0xff, 0xff, 0xff, 0xff,
    0xff, 0xff, 0xff], [0x01, 0x00, 0x00, 0x00, 0x00, 0x00, 0x00, 0x00, 0x00, 0x00, 0x00, 0x00, 0x00, 0x00, 0x00, 0x00, 0x00,
    0x00, 0x00, 0x00, 0x00, 0x00, 0x00, 0x00, 0x00, 0x00, 0x00, 0x00, 0x00, 0x00, 0x00, 0x00, 0x00, 0x00, 0x00, 0x00, 0x00,
    0x00, 0x00, 0x00, 0x00, 0x00, 0x00, 0x00, 0x00, 0x00, 0x00, 0x00, 0x00, 0x00, 0x00, 0x00, 0x00, 0x00, 0x00, 0x00, 0x00,
    0x00, 0x00, 0x00, 0x00, 0x00, 0x00, 0x00], [0x00, 0x00, 0x00, 0x00, 0x00, 0x00, 0x00, 0x00, 0x00, 0x00, 0x00, 0x00, 0x00,
    0x00, 0x00, 0x00, 0x00, 0x00, 0x00, 0x00, 0x00, 0x00, 0x00, 0x00, 0x00, 0x00, 0x00, 0x00, 0x00, 0x00, 0x00, 0x00, 0x00,
    0x00, 0x00, 0x00, 0x00, 0x00, 0x00, 0x00, 0x00, 0x00, 0x00, 0x00, 0x00, 0x00, 0x00, 0x00, 0x00, 0x00, 0x00, 0x00, 0x00,
    0x00, 0x00, 0x00, 0x00, 0x00, 0x00, 0x00, 0x00, 0x00, 0x00, 0x00], 1),
  ([0x01, 0x23, 0x45, 0x67, 0x89, 0xab, 0xcd, 0xef], [0x00, 0x00, 0x00, 0x00, 0x00, 0x00, 0x00, 0x00, 0x00, 0x00, 0x00, 0x00,
    0x00, 0x00, 0x00, 0x00, 0x00, 0x00, 0x00, 0x00, 0x00, 0x00, 0x00, 0x00, 0x00, 0x00, 0x00, 0x00, 0x00, 0x00, 0x00, 0x00,
    0x00, 0x00, 0x00, 0x00, 0x00, 0x00, 0x00, 0x00, 0x00, 0x00, 0x00, 0x00, 0x00, 0x00, 0x00, 0x00, 0x00, 0x00, 0x00, 0x00,
    0x00, 0x00, 0x00, 0x00, 0x01, 0x23, 0x45, 0x67, 0x89, 0xab, 0xcd, 0xef], [0x01, 0x23, 0x45, 0x67, 0x89, 0xab, 0xcd, 0xef,
    0x00, 0x00, 0x00, 0x00, 0x00, 0x00, 0x00, 0x00, 0x00, 0x00, 0x00, 0x00, 0x00, 0x00, 0x00, 0x00, 0x00, 0x00, 0x00, 0x00,
    0x00, 0x00, 0x00, 0x00, 0x00, 0x00, 0x00, 0x00, 0x00, 0x00, 0x00, 0x00, 0x00, 0x00, 0x00, 0x00, 0x00, 0x00, 0x00, 0x00,
    0x00, 0x00, 0x00, 0x00, 0x00, 0x00, 0x00, 0x00, 0x01, 0x23, 0x45, 0x67, 0x89, 0xab, 0xcd, 0xef], 0),
  ([0x01, 0x23, 0x45, 0x67, 0x89, 0xab, 0xcd, 0xef], [0x01, 0x23, 0x45, 0x67, 0x89, 0xab, 0xcd, 0xef, 0x00, 0x00, 0x00, 0x00,
    0x00, 0x00, 0x00, 0x00, 0x00, 0x00, 0x00, 0x00, 0x00, 0x00, 0x00, 0x00, 0x00, 0x00, 0x00, 0x00, 0x00, 0x00, 0x00, 0x00,
    0x00, 0x00, 0x00, 0x00, 0x00, 0x00, 0x00, 0x00, 0x00, 0x00, 0x00, 0x00, 0x00, 0x00, 0x00, 0x00, 0x00, 0x00, 0x00, 0x00,
    0x00, 0x00, 0x00, 0x00, 0x00, 0x00, 0x00, 0x00, 0x00, 0x00, 0x00, 0x00], [0x02, 0x46, 0x8a, 0xce, 0x12, 0x57, 0x9b, 0xdf,
    0x01, 0x00, 0x00, 0x00, 0x00, 0x00, 0x00, 0x00, 0x00, 0x00, 0x00, 0x00, 0x00, 0x00, 0x00, 0x00, 0x00, 0x00, 0x00, 0x00,
    0x00, 0x00, 0x00, 0x00, 0x00, 0x00, 0x00, 0x00, 0x00, 0x00, 0x00, 0x00, 0x00, 0x00, 0x00, 0x00, 0x00, 0x00, 0x00, 0x00,
    0x00, 0x00, 0x00, 0x00, 0x00, 0x00, 0x00, 0x00, 0x00, 0x00, 0x00, 0x00, 0x00, 0x00, 0x00, 0x00], 0),
  ([0x00, 0x00, 0x00, 0x00, 0x00, 0x00, 0x00, 0x00, 0x00, 0x00, 0x00, 0x00, 0x00, 0x00, 0x00, 0x00, 0x00, 0x00, 0x00, 0x00, 0x00,
    0x00, 0x00, 0x00, 0x00, 0x00, 0x00, 0x00, 0x00, 0x00, 0x00, 0x00, 0x00, 0x00, 0x00, 0x00, 0x00, 0x00, 0x00, 0x00, 0x00,
    0x00, 0x00, 0x00, 0x00, 0x00, 0x00, 0x00, 0x00, 0x00, 0x00, 0x00, 0x00, 0x00, 0x00, 0x00, 0x00, 0x00, 0x00, 0x00, 0x00,
    0x00, 0x00, 0x01], [0x00, 0x00, 0x00, 0x00, 0x00, 0x00, 0x00, 0x00, 0x00, 0x00, 0x00, 0x00, 0x00, 0x00, 0x00, 0x00, 0x00,
    0x00, 0x00, 0x00, 0x00, 0x00, 0x00, 0x00, 0x00, 0x00, 0x00, 0x00, 0x00, 0x00, 0x00, 0x00, 0x00, 0x00, 0x00, 0x00, 0x00,
    0x00, 0x00, 0x00, 0x00, 0x00, 0x00, 0x00, 0x00, 0x00, 0x00, 0x00, 0x00, 0x00, 0x00, 0x00, 0x00, 0x00, 0x00, 0x00, 0x00,
    0x00, 0x00, 0x00, 0x00, 0x00, 0x00, 0xff], [0x00, 0x00, 0x00, 0x00, 0x00, 0x00, 0x00, 0x00, 0x00, 0x00, 0x00, 0x00, 0x00,
    0x00, 0x00, 0x00, 0x00, 0x00, 0x00, 0x00, 0x00, 0x00, 0x00, 0x00, 0x00, 0x00, 0x00, 0x00, 0x00, 0x00, 0x00, 0x00, 0x00,
    0x00, 0x00, 0x00, 0x00, 0x00, 0x00, 0x00, 0x00, 0x00, 0x00, 0x00, 0x00, 0x00, 0x00, 0x00, 0x00, 0x00, 0x00, 0x00, 0x00,
    0x00, 0x00, 0x00, 0x00, 0x00, 0x00, 0x00, 0x00, 0x00, 0x00, 0x00], 1),
  ([0x01, 0x00, 0x00, 0x00, 0x00, 0x00, 0x00, 0x00, 0x00, 0x00, 0x00, 0x00, 0x00, 0x00, 0x00, 0x00, 0x00, 0x00, 0x00, 0x00, 0x00,
    0x00, 0x00, 0x00, 0x00, 0x00, 0x00, 0x00, 0x00, 0x00, 0x00, 0x00, 0x00, 0x00, 0x00, 0x00, 0x00, 0x00, 0x00, 0x00, 0x00,
    0x00, 0x00, 0x00, 0x00, 0x00, 0x00, 0x00, 0x00, 0x00, 0x00, 0x00, 0x00, 0x00, 0x00, 0x00, 0x00, 0x00, 0x00, 0x00, 0x00,
    0x00, 0x00, 0x00], [0xff, 0x00, 0x00, 0x00, 0x00, 0x00, 0x00, 0x00, 0x00, 0x00, 0x00, 0x00, 0x00, 0x00, 0x00, 0x00, 0x00,
    0x00, 0x00, 0x00, 0x00, 0x00, 0x00, 0x00, 0x00, 0x00, 0x00, 0x00, 0x00, 0x00, 0x00, 0x00, 0x00, 0x00, 0x00, 0x00, 0x00,
    0x00, 0x00, 0x00, 0x00, 0x00, 0x00, 0x00, 0x00, 0x00, 0x00, 0x00, 0x00, 0x00, 0x00, 0x00, 0x00, 0x00, 0x00, 0x00, 0x00,
    0x00, 0x00, 0x00, 0x00, 0x00, 0x00, 0x00], [0x00, 0x01, 0x00, 0x00, 0x00, 0x00, 0x00, 0x00, 0x00, 0x00, 0x00, 0x00, 0x00,
    0x00, 0x00, 0x00, 0x00, 0x00, 0x00, 0x00, 0x00, 0x00, 0x00, 0x00, 0x00, 0x00, 0x00, 0x00, 0x00, 0x00, 0x00, 0x00, 0x00,
    0x00, 0x00, 0x00, 0x00, 0x00, 0x00, 0x00, 0x00, 0x00, 0x00, 0x00, 0x00, 0x00, 0x00, 0x00, 0x00, 0x00, 0x00, 0x00, 0x00,
    0x00, 0x00, 0x00, 0x00, 0x00, 0x00, 0x00, 0x00, 0x00, 0x00, 0x00], 0),
  ([0xff, 0x00, 0xff, 0x00, 0xff, 0x00, 0xff, 0x00, 0xff, 0x00, 0xff, 0x00, 0xff, 0x00, 0xff, 0x00, 0xff, 0x00, 0xff, 0x00, 0xff,
    0x00, 0xff, 0x00, 0xff, 0x00, 0xff, 0x00, 0xff, 0x00, 0xff, 0x00, 0xff, 0x00, 0xff, 0x00, 0xff, 0x00, 0xff, 0x00, 0xff,
    0x00, 0xff, 0x00, 0xff, 0x00, 0xff, 0x00, 0xff, 0x00, 0xff, 0x00, 0xff, 0x00, 0xff, 0x00, 0xff, 0x00, 0xff, 0x00, 0xff,
    0x00, 0xff, 0x00], [0x00, 0xff, 0x00, 0xff, 0x00, 0xff, 0x00, 0xff, 0x00, 0xff, 0x00, 0xff, 0x00, 0xff, 0x00, 0xff, 0x00,
    0xff, 0x00, 0xff, 0x00, 0xff, 0x00, 0xff, 0x00, 0xff, 0x00, 0xff, 0x00, 0xff, 0x00, 0xff, 0x00, 0xff, 0x00, 0xff, 0x00,
    0xff, 0x00, 0xff, 0x00, 0xff, 0x00, 0xff, 0x00, 0xff, 0x00, 0xff, 0x00, 0xff, 0x00, 0xff, 0x00, 0xff, 0x00, 0xff, 0x00,
    0xff, 0x00, 0xff, 0x00, 0xff, 0x00, 0xff], [0xff, 0xff, 0xff, 0xff, 0xff, 0xff, 0xff, 0xff, 0xff, 0xff, 0xff, 0xff, 0xff,
    0xff, 0xff, 0xff, 0xff, 0xff, 0xff, 0xff, 0xff, 0xff, 0xff, 0xff, 0xff, 0xff, 0xff, 0xff, 0xff, 0xff, 0xff, 0xff, 0xff,
    0xff, 0xff, 0xff, 0xff, 0xff, 0xff, 0xff, 0xff, 0xff, 0xff, 0xff, 0xff, 0xff, 0xff, 0xff, 0xff, 0xff, 0xff, 0xff, 0xff,
    0xff, 0xff, 0xff, 0xff, 0xff, 0xff, 0xff, 0xff, 0xff, 0xff, 0xff], 0),
  ([0xff, 0x00, 0xff, 0x00, 0xff, 0x00, 0xff, 0x00, 0xff, 0x00, 0xff, 0x00, 0xff, 0x00, 0xff, 0x00, 0xff, 0x00, 0xff, 0x00, 0xff,
    0x00, 0xff, 0x00, 0xff, 0x00, 0xff, 0x00, 0xff, 0x00, 0xff, 0x00, 0xff, 0x00, 0xff, 0x00, 0xff, 0x00, 0xff, 0x00, 0xff,
    0x00, 0xff, 0x00, 0xff, 0x00, 0xff, 0x00, 0xff, 0x00, 0xff, 0x00, 0xff, 0x00, 0xff, 0x00, 0xff, 0x00, 0xff, 0x00, 0xff,
    0x00, 0xff, 0x00], [0x01, 0xff, 0x00, 0xff, 0x00, 0xff, 0x00, 0xff, 0x00, 0xff, 0x00, 0xff, 0x00, 0xff, 0x00, 0xff, 0x00,
    0xff, 0x00, 0xff, 0x00, 0xff, 0x00, 0xff, 0x00, 0xff, 0x00, 0xff, 0x00, 0xff, 0x00, 0xff, 0x00, 0xff, 0x00, 0xff, 0x00,
    0xff, 0x00, 0xff, 0x00, 0xff, 0x00, 0xff, 0x00, 0xff, 0x00, 0xff, 0x00, 0xff, 0x00, 0xff, 0x00, 0xff, 0x00, 0xff, 0x00,
    0xff, 0x00, 0xff, 0x00, 0xff, 0x00, 0xff], [0x00, 0x00, 0x00, 0x00, 0x00, 0x00, 0x00, 0x00, 0x00, 0x00, 0x00, 0x00, 0x00,
    0x00, 0x00, 0x00, 0x00, 0x00, 0x00, 0x00, 0x00, 0x00, 0x00, 0x00, 0x00, 0x00, 0x00, 0x00, 0x00, 0x00, 0x00, 0x00, 0x00,
    0x00, 0x00, 0x00, 0x00, 0x00, 0x00, 0x00, 0x00, 0x00, 0x00, 0x00, 0x00, 0x00, 0x00, 0x00, 0x00, 0x00, 0x00, 0x00, 0x00,
    0x00, 0x00, 0x00, 0x00, 0x00, 0x00, 0x00, 0x00, 0x00, 0x00, 0x00], 1),
  ([0xff, 0x00, 0xff, 0x00, 0xff, 0x00, 0xff, 0x00, 0xff, 0x00, 0xff, 0x00, 0xff, 0x00, 0xff, 0x00, 0xff, 0x00, 0xff, 0x00, 0xff,
    0x00, 0xff, 0x00, 0xff, 0x00, 0xff, 0x00, 0xff, 0x00, 0xff, 0x00, 0xff, 0x00, 0xff, 0x00, 0xff, 0x00, 0xff, 0x00, 0xff,
    0x00, 0xff, 0x00, 0xff, 0x00, 0xff, 0x00, 0xff, 0x00, 0xff, 0x00, 0xff, 0x00, 0xff, 0x00, 0xff, 0x00, 0xff, 0x00, 0xff,
    0x00, 0xff, 0x01], [0x00, 0xff, 0x00, 0xff, 0x00, 0xff, 0x00, 0xff, 0x00, 0xff, 0x00, 0xff, 0x00, 0xff, 0x00, 0xff, 0x00,
    0xff, 0x00, 0xff, 0x00, 0xff, 0x00, 0xff, 0x00, 0xff, 0x00, 0xff, 0x00, 0xff, 0x00, 0xff, 0x00, 0xff, 0x00, 0xff, 0x00,
    0xff, 0x00, 0xff, 0x00, 0xff, 0x00, 0xff, 0x00, 0xff, 0x00, 0xff, 0x00, 0xff, 0x00, 0xff, 0x00, 0xff, 0x00, 0xff, 0x00,
    0xff, 0x00, 0xff, 0x00, 0xff, 0x00, 0xff], [0xff, 0xff, 0xff, 0xff, 0xff, 0xff, 0xff, 0xff, 0xff, 0xff, 0xff, 0xff, 0xff,
    0xff, 0xff, 0xff, 0xff, 0xff, 0xff, 0xff, 0xff, 0xff, 0xff, 0xff, 0xff, 0xff, 0xff, 0xff, 0xff, 0xff, 0xff, 0xff, 0xff,
    0xff, 0xff, 0xff, 0xff, 0xff, 0xff, 0xff, 0xff, 0xff, 0xff, 0xff, 0xff, 0xff, 0xff, 0xff, 0xff, 0xff, 0xff, 0xff, 0xff,
    0xff, 0xff, 0xff, 0xff, 0xff, 0xff, 0xff, 0xff, 0xff, 0xff, 0x00], 1),
  ([0xff, 0xff, 0xff, 0xff, 0xff, 0xff, 0xff, 0xff, 0xff, 0xff, 0xff, 0xff, 0xff, 0xff, 0xff, 0xff, 0xff, 0xff, 0xff, 0xff, 0xff,
    0xff, 0xff, 0xff, 0xff, 0xff, 0xff, 0xff, 0xff, 0xff, 0xff, 0xff, 0xff, 0xff, 0xff, 0xff, 0xff, 0xff, 0xff, 0xff, 0xff,
    0xff, 0xff, 0xff, 0xff, 0xff, 0xff, 0xff, 0xff, 0xff, 0xff, 0xff, 0xff, 0xff, 0xff, 0xff, 0xff, 0xff, 0xff, 0xff, 0xff,
    0xff, 0xff, 0xff], [0xff, 0xff, 0xff, 0xff, 0xff, 0xff, 0xff, 0xff, 0xff, 0xff, 0xff, 0xff, 0xff, 0xff, 0xff, 0xff, 0xff,
    0xff, 0xff, 0xff, 0xff, 0xff, 0xff, 0xff, 0xff, 0xff, 0xff, 0xff, 0xff, 0xff, 0xff, 0xff, 0xff, 0xff, 0xff, 0xff, 0xff,
    0xff, 0xff, 0xff, 0xff, 0xff, 0xff, 0xff, 0xff, 0xff, 0xff, 0xff, 0xff, 0xff, 0xff, 0xff, 0xff, 0xff, 0xff, 0xff, 0xff,
    0xff, 0xff, 0xff, 0xff, 0xff, 0xff, 0xff], [0xfe, 0xff, 0xff, 0xff, 0xff, 0xff, 0xff, 0xff, 0xff, 0xff, 0xff, 0xff, 0xff,
    0xff, 0xff, 0xff, 0xff, 0xff, 0xff, 0xff, 0xff, 0xff, 0xff, 0xff, 0xff, 0xff, 0xff, 0xff, 0xff, 0xff, 0xff, 0xff, 0xff,
    0xff, 0xff, 0xff, 0xff, 0xff, 0xff, 0xff, 0xff, 0xff, 0xff, 0xff, 0xff, 0xff, 0xff, 0xff, 0xff, 0xff, 0xff, 0xff, 0xff,
    0xff, 0xff, 0xff, 0xff, 0xff, 0xff, 0xff, 0xff, 0xff, 0xff, 0xff], 1),
  ([0x03, 0x03, 0x03, 0x03, 0x03, 0x03, 0x03, 0x03, 0x03, 0x03, 0x03, 0x03, 0x03, 0x03, 0x03, 0x03, 0x03, 0x03, 0x03, 0x03, 0x03,
    0x03, 0x03, 0x03, 0x03, 0x03, 0x03, 0x03, 0x03, 0x03, 0x03, 0x03, 0x03, 0x03, 0x03, 0x03, 0x03, 0x03, 0x03, 0x03, 0x03,
    0x03, 0x03, 0x03, 0x03, 0x03, 0x03, 0x03, 0x03, 0x03, 0x03, 0x03, 0x03, 0x03, 0x03, 0x03, 0x03, 0x03, 0x03, 0x03, 0x03,
    0x03, 0x03, 0x03], [0x05, 0x05, 0x05, 0x05, 0x05, 0x05, 0x05, 0x05, 0x05, 0x05, 0x05, 0x05, 0x05, 0x05, 0x05, 0x05, 0x05,
    0x05, 0x05, 0x05, 0x05, 0x05, 0x05, 0x05, 0x05, 0x05, 0x05, 0x05, 0x05, 0x05, 0x05, 0x05, 0x05, 0x05, 0x05, 0x05, 0x05,
    0x05, 0x05, 0x05, 0x05, 0x05, 0x05, 0x05, 0x05, 0x05, 0x05, 0x05, 0x05, 0x05, 0x05, 0x05, 0x05, 0x05, 0x05, 0x05, 0x05,
    0x05, 0x05, 0x05, 0x05, 0x05, 0x05, 0x05], [0x08, 0x08, 0x08, 0x08, 0x08, 0x08, 0x08, 0x08, 0x08, 0x08, 0x08, 0x08, 0x08,
    0x08, 0x08, 0x08, 0x08, 0x08, 0x08, 0x08, 0x08, 0x08, 0x08, 0x08, 0x08, 0x08, 0x08, 0x08, 0x08, 0x08, 0x08, 0x08, 0x08,
    0x08, 0x08, 0x08, 0x08, 0x08, 0x08, 0x08, 0x08, 0x08, 0x08, 0x08, 0x08, 0x08, 0x08, 0x08, 0x08, 0x08, 0x08, 0x08, 0x08,
    0x08, 0x08, 0x08, 0x08, 0x08, 0x08, 0x08, 0x08, 0x08, 0x08, 0x08], 0),
  ([0x03, 0x03, 0x03, 0x03, 0x03, 0x03, 0x03, 0x03, 0x03, 0x03, 0x03, 0x03, 0x03, 0x03, 0x03, 0x03, 0x03, 0x03, 0x03, 0x03, 0x03,
    0x03, 0x03, 0x03, 0x03, 0x03, 0x03, 0x03, 0x03, 0x03, 0x03, 0x03, 0x03, 0x03, 0x03, 0x03, 0x03, 0x03, 0x03, 0x03, 0x03,
    0x03, 0x03, 0x03, 0x03, 0x03, 0x03, 0x03, 0x03, 0x03, 0x03, 0x03, 0x03, 0x03, 0x03, 0x03, 0x03, 0x03, 0x03, 0x03, 0x03,
    0x03, 0x03, 0x03], [0x05, 0x05, 0x05, 0x05, 0x05, 0x05, 0x05, 0x05, 0x05, 0x05, 0x05, 0x05, 0x05, 0x05, 0x05, 0x05, 0x05,
    0x05, 0x05, 0x05, 0x05, 0x05, 0x05, 0x05, 0x05, 0x05, 0x05, 0x05, 0x05, 0x05, 0x05, 0x05, 0x05, 0x05, 0x05, 0x05, 0x05,
    0x05, 0x05, 0x05, 0x05, 0x05, 0x05, 0x05, 0x05, 0x05, 0x05, 0x05, 0x05, 0x05, 0x05, 0x05, 0x05, 0x05, 0x05, 0x05, 0x05,
    0x05, 0x05, 0x05, 0x05, 0x05, 0x05], [0x08, 0x08, 0x08, 0x08, 0x08, 0x08, 0x08, 0x08, 0x08, 0x08, 0x08, 0x08, 0x08, 0x08,
    0x08, 0x08, 0x08, 0x08, 0x08, 0x08, 0x08, 0x08, 0x08, 0x08, 0x08, 0x08, 0x08, 0x08, 0x08, 0x08, 0x08, 0x08, 0x08, 0x08,
    0x08, 0x08, 0x08, 0x08, 0x08, 0x08, 0x08, 0x08, 0x08, 0x08, 0x08, 0x08, 0x08, 0x08, 0x08, 0x08, 0x08, 0x08, 0x08, 0x08,
    0x08, 0x08, 0x08, 0x08, 0x08, 0x08, 0x08, 0x08, 0x08, 0x03], 0),
  ([0x03, 0x03, 0x03, 0x03, 0x03, 0x03, 0x03, 0x03, 0x03, 0x03, 0x03, 0x03, 0x03, 0x03, 0x03, 0x03, 0x03, 0x03, 0x03, 0x03, 0x03,
    0x03, 0x03, 0x03, 0x03, 0x03, 0x03, 0x03, 0x03, 0x03, 0x03, 0x03, 0x03, 0x03, 0x03, 0x03, 0x03, 0x03, 0x03, 0x03, 0x03,
    0x03, 0x03, 0x03, 0x03, 0x03, 0x03, 0x03, 0x03, 0x03, 0x03, 0x03, 0x03, 0x03, 0x03, 0x03, 0x03, 0x03, 0x03, 0x03, 0x03,
    0x03, 0x03, 0x03], [0x05, 0x05, 0x05, 0x05, 0x05, 0x05, 0x05, 0x05, 0x05, 0x05, 0x05, 0x05, 0x05, 0x05, 0x05, 0x05, 0x05,
    0x05, 0x05, 0x05, 0x05, 0x05, 0x05, 0x05, 0x05, 0x05, 0x05, 0x05, 0x05, 0x05, 0x05, 0x05, 0x05, 0x05, 0x05, 0x05, 0x05,
    0x05, 0x05, 0x05, 0x05, 0x05, 0x05, 0x05, 0x05, 0x05, 0x05, 0x05, 0x05, 0x05, 0x05, 0x05, 0x05, 0x05, 0x05, 0x05, 0x05,
    0x05, 0x05, 0x05], [0x08, 0x08, 0x08, 0x08, 0x08, 0x08, 0x08, 0x08, 0x08, 0x08, 0x08, 0x08, 0x08, 0x08, 0x08, 0x08, 0x08,
    0x08, 0x08, 0x08, 0x08, 0x08, 0x08, 0x08, 0x08, 0x08, 0x08, 0x08, 0x08, 0x08, 0x08, 0x08, 0x08, 0x08, 0x08, 0x08, 0x08,
    0x08, 0x08, 0x08, 0x08, 0x08, 0x08, 0x08, 0x08, 0x08, 0x08, 0x08, 0x08, 0x08, 0x08, 0x08, 0x08, 0x08, 0x08, 0x08, 0x08,
    0x08, 0x08, 0x08, 0x03, 0x03, 0x03, 0x03], 0),
  ([0x03, 0x03, 0x03, 0x03, 0x03, 0x03, 0x03, 0x03, 0x03, 0x03, 0x03, 0x03, 0x03, 0x03, 0x03, 0x03, 0x03, 0x03, 0x03, 0x03, 0x03,
    0x03, 0x03, 0x03, 0x03, 0x03, 0x03, 0x03, 0x03, 0x03, 0x03, 0x03, 0x03, 0x03, 0x03, 0x03, 0x03, 0x03, 0x03, 0x03, 0x03,
    0x03, 0x03, 0x03, 0x03, 0x03, 0x03, 0x03, 0x03, 0x03, 0x03, 0x03, 0x03, 0x03, 0x03, 0x03, 0x03, 0x03, 0x03, 0x03, 0x03,
    0x03, 0x03, 0x03], [0x05, 0x05, 0x05, 0x05, 0x05, 0x05, 0x05, 0x05, 0x05, 0x05, 0x05, 0x05, 0x05, 0x05, 0x05, 0x05, 0x05,
    0x05, 0x05, 0x05, 0x05, 0x05, 0x05, 0x05, 0x05, 0x05, 0x05, 0x05, 0x05, 0x05, 0x05, 0x05, 0x05, 0x05, 0x05, 0x05, 0x05,
    0x05, 0x05, 0x05, 0x05, 0x05, 0x05, 0x05, 0x05, 0x05, 0x05, 0x05, 0x05, 0x05, 0x05, 0x05, 0x05, 0x05, 0x05, 0x05, 0x05,
    0x05, 0x05], [0x08, 0x08, 0x08, 0x08, 0x08, 0x08, 0x08, 0x08, 0x08, 0x08, 0x08, 0x08, 0x08, 0x08, 0x08, 0x08, 0x08, 0x08,
    0x08, 0x08, 0x08, 0x08, 0x08, 0x08, 0x08, 0x08, 0x08, 0x08, 0x08, 0x08, 0x08, 0x08, 0x08, 0x08, 0x08, 0x08, 0x08, 0x08,
    0x08, 0x08, 0x08, 0x08, 0x08, 0x08, 0x08, 0x08, 0x08, 0x08, 0x08, 0x08, 0x08, 0x08, 0x08, 0x08, 0x08, 0x08, 0x08, 0x08,
    0x08, 0x03, 0x03, 0x03, 0x03, 0x03], 0),
  ([0x03, 0x03, 0x03, 0x03, 0x03, 0x03, 0x03, 0x03, 0x03, 0x03, 0x03, 0x03, 0x03, 0x03, 0x03, 0x03, 0x03, 0x03, 0x03, 0x03, 0x03,
    0x03, 0x03, 0x03, 0x03, 0x03, 0x03, 0x03, 0x03, 0x03, 0x03, 0x03, 0x03, 0x03, 0x03, 0x03, 0x03, 0x03, 0x03, 0x03, 0x03,
    0x03, 0x03, 0x03, 0x03, 0x03, 0x03, 0x03, 0x03, 0x03, 0x03, 0x03, 0x03, 0x03, 0x03, 0x03, 0x03, 0x03, 0x03, 0x03, 0x03,
    0x03, 0x03, 0x03], [0x05, 0x05, 0x05, 0x05, 0x05, 0x05, 0x05, 0x05, 0x05, 0x05, 0x05, 0x05, 0x05, 0x05, 0x05, 0x05, 0x05,
    0x05, 0x05, 0x05, 0x05, 0x05, 0x05, 0x05, 0x05, 0x05, 0x05, 0x05, 0x05, 0x05, 0x05, 0x05, 0x05, 0x05, 0x05, 0x05, 0x05,
    0x05, 0x05, 0x05, 0x05, 0x05, 0x05, 0x05, 0x05, 0x05, 0x05, 0x05, 0x05, 0x05, 0x05, 0x05, 0x05, 0x05, 0x05, 0x05], [0x08,
    0x08, 0x08, 0x08, 0x08, 0x08, 0x08, 0x08, 0x08, 0x08, 0x08, 0x08, 0x08, 0x08, 0x08, 0x08, 0x08, 0x08, 0x08, 0x08, 0x08,
    0x08, 0x08, 0x08, 0x08, 0x08, 0x08, 0x08, 0x08, 0x08, 0x08, 0x08, 0x08, 0x08, 0x08, 0x08, 0x08, 0x08, 0x08, 0x08, 0x08,
    0x08, 0x08, 0x08, 0x08, 0x08, 0x08, 0x08, 0x08, 0x08, 0x08, 0x08, 0x08, 0x08, 0x08, 0x08, 0x03, 0x03, 0x03, 0x03, 0x03,
    0x03, 0x03, 0x03], 0),
  ([0x01, 0x00], [0x22], [0x23, 0x00, 0x00, 0x00, 0x00, 0x00, 0x00, 0x00, 0x00, 0x00, 0x00, 0x00, 0x00, 0x00, 0x00, 0x00, 0x00,
    0x00, 0x00, 0x00, 0x00, 0x00, 0x00, 0x00, 0x00, 0x00, 0x00, 0x00, 0x00, 0x00, 0x00, 0x00, 0x00, 0x00, 0x00, 0x00, 0x00,
    0x00, 0x00, 0x00, 0x00, 0x00, 0x00, 0x00, 0x00, 0x00, 0x00, 0x00, 0x00, 0x00, 0x00, 0x00, 0x00, 0x00, 0x00, 0x00, 0x00,
    0x00, 0x00, 0x00, 0x00, 0x00, 0x00, 0x00], 0),
  ([0x00, 0x01], [0x22], [0x22, 0x01, 0x00, 0x00, 0x00, 0x00, 0x00, 0x00, 0x00, 0x00, 0x00, 0x00, 0x00, 0x00, 0x00, 0x00, 0x00,
    0x00, 0x00, 0x00, 0x00, 0x00, 0x00, 0x00, 0x00, 0x00, 0x00, 0x00, 0x00, 0x00, 0x00, 0x00, 0x00, 0x00, 0x00, 0x00, 0x00,
    0x00, 0x00, 0x00, 0x00, 0x00, 0x00, 0x00, 0x00, 0x00, 0x00, 0x00, 0x00, 0x00, 0x00, 0x00, 0x00, 0x00, 0x00, 0x00, 0x00,
    0x00, 0x00, 0x00, 0x00, 0x00, 0x00, 0x00], 0)]

/-- TestAdd512LE, in both orders. -/
example : ∀ r ∈ add512LE, added Add512LE 64 r.1 r.2.1 = .ok (r.2.2.1, r.2.2.2, false) ∧
    added Add512LE 64 r.2.1 r.1 = .ok (r.2.2.1, r.2.2.2, false) := by decide +kernel

def add512BE : List (List U8 × List U8 × List U8 × U8) := [
  ([], [], [0x00, 0x00, 0x00, 0x00, 0x00, 0x00, 0x00, 0x00, 0x00, 0x00, 0x00, 0x00, 0x00, 0x00, 0x00, 0x00, 0x00, 0x00, 0x00,
    0x00, 0x00, 0x00, 0x00, 0x00, 0x00, 0x00, 0x00, 0x00, 0x00, 0x00, 0x00, 0x00, 0x00, 0x00, 0x00, 0x00, 0x00, 0x00, 0x00,
    0x00, 0x00, 0x00, 0x00, 0x00, 0x00, 0x00, 0x00, 0x00, 0x00, 0x00, 0x00, 0x00, 0x00, 0x00, 0x00, 0x00, 0x00, 0x00, 0x00,
    0x00, 0x00, 0x00, 0x00, 0x00], 0),
  ([0x01], [], [0x00, 0x00, 0x00, 0x00, 0x00, 0x00, 0x00, 0x00, 0x00, 0x00, 0x00, 0x00, 0x00, 0x00, 0x00, 0x00, 0x00, 0x00, 0x00,
    0x00, 0x00, 0x00, 0x00, 0x00, 0x00, 0x00, 0x00, 0x00, 0x00, 0x00, 0x00, 0x00, 0x00, 0x00, 0x00, 0x00, 0x00, 0x00, 0x00,
    0x00, 0x00, 0x00, 0x00, 0x00, 0x00, 0x00, 0x00, 0x00, 0x00, 0x00, 0x00, 0x00, 0x00, 0x00, 0x00, 0x00, 0x00, 0x00, 0x00,
    0x00, 0x00, 0x00, 0x00, 0x01], 0),
  ([0x00], [0x01], [0x00, 0x00, 0x00, 0x00, 0x00, 0x00, 0x00, 0x00, 0x00, 0x00, 0x00, 0x00, 0x00, 0x00, 0x00, 0x00, 0x00, 0x00,
    0x00, 0x00, 0x00, 0x00, 0x00, 0x00, 0x00, 0x00, 0x00, 0x00, 0x00, 0x00, 0x00, 0x00, 0x00, 0x00, 0x00, 0x00, 0x00, 0x00,
    0x00, 0x00, 0x00, 0x00, 0x00, 0x00, 0x00, 0x00, 0x00, 0x00, 0x00, 0x00, 0x00, 0x00, 0x00, 0x00, 0x00, 0x00, 0x00, 0x00,
    0x00, 0x00, 0x00, 0x00, 0x00, 0x01], 0),
  ([0xff, 0xff, 0xff, 0xff, 0xff, 0xff, 0xff, 0xff, 0xff, 0xff, 0xff, 0xff, 0xff, 0xff, 0xff, 0xff, 0xff, 0xff, 0xff, 0xff, 0xff,
    0xff, 0xff, 0xff, 0xff, 0xff, 0xff, 0xff, 0xff, 0xff, 0xff, 0xff, 0xff, 0xff, 0xff, 0xff, 0xff, 0xff, 0xff, 0xff, 0xff,
    0xff, 0xff, 0xff, 0xff, 0xff, 0xff, 0xff, 0xff, 0xff, 0xff, 0xff, 0xff, 0xff, 0xff, 0xff, 0xff, 0xff, 0xff, 0xff, 0xff,
    0xff, 0xff, 0xff], [0x01], [0x00, 0x00, 0x00, 0x00, 0x00, 0x00, 0x00, 0x00, 0x00, 0x00, 0x00, 0x00, 0x00, 0x00, 0x00, 0x00,
    0x00, 0x00, 0x00, 0x00, 0x00, 0x00, 0x00, 0x00, 0x00, 0x00, 0x00, 0x00, 0x00, 0x00, 0x00, 0x00, 0x00, 0x00, 0x00, 0x00,
    0x00, 0x00, 0x00, 0x00, 0x00, 0x00, 0x00, 0x00, 0x00, 0x00, 0x00, 0x00, 0x00, 0x00, 0x00, 0x00, 0x00, 0x00, 0x00, 0x00,
    0x00, 0x00, 0x00, 0x00, 0x00, 0x00, 0x00, 0x00], 1),
  ([0xff, 0xff, 0xff, 0xff, 0xff, 0xff, 0xff, 0xff, 0xff, 0xff, 0xff, 0xff, 0xff, 0xff, 0xff, 0xff, 0xff, 0xff, 0xff, 0xff, 0xff,
    0xff, 0xff, 0xff, 0xff, 0xff, 0xff, 0xff, 0xff, 0xff, 0xff, 0xff, 0xff, 0xff, 0xff, 0xff, 0xff, 0xff, 0xff, 0xff, 0xff,
    0xff, 0xff, 0xff, 0xff, 0xff, 0xff, 0xff, 0xff, 0xff, 0xff, 0xff, 0xff, 0xff, 0xff, 0xff, 0xff, 0xff, 0xff, 0xff, 0xff,
    0xff, 0xff, 0xff], [0x00, 0x00, 0x00, 0x00, 0x00, 0x00, 0x00, 0x00, 0x00, 0x00, 0x00, 0x00, 0x00, 0x00, 0x00, 0x00, 0x00,
    0x00, 0x00, 0x00, 0x00, 0x00, 0x00, 0x00, 0x00, 0x00, 0x00, 0x00, 0x00, 0x00, 0x00, 0x00, 0x00, 0x00, 0x00, 0x00, 0x00,
    0x00, 0x00, 0x00, 0x00, 0x00, 0x00, 0x00, 0x00, 0x00, 0x00, 0x00, 0x00, 0x00, 0x00, 0x00, 0x00, 0x00, 0x00, 0x00, 0x00,
    0x00, 0x00, 0x00, 0x00, 0x00, 0x00, 0x01], [0x00, 0x00, 0x00, 0x00, 0x00, 0x00, 0x00, 0x00, 0x00, 0x00, 0x00, 0x00, 0x00,
    0x00, 0x00, 0x00, 0x00, 0x00, 0x00, 0x00, 0x00, 0x00, 0x00, 0x00, 0x00, 0x00, 0x00, 0x00, 0x00, 0x00, 0x00, 0x00, 0x00,
    0x00, 0x00, 0x00, 0x00, 0x00, 0x00, 0x00, 0x00, 0x00, 0x00, 0x00, 0x00, 0x00, 0x00, 0x00, 0x00, 0x00, 0x00, 0x00, 0x00,
    0x00, 0x00, 0x00, 0x00, 0x00, 0x00, 0x00, 0x00, 0x00, 0x00, 0x00], 1),
  ([0xff, 0xff, 0xff, 0xff, 0xff, 0xff, 0xff, 0xff, 0xff, 0xff, 0xff, 0xff, 0xff, 0xff, 0xff, 0xff, 0xff, 0xff, 0xff, 0xff, 0xff,
    0xff, 0xff, 0xff, 0xff, 0xff, 0xff, 0xff, 0xff, 0xff, 0xff, 0xff, 0xff, 0xff, 0xff, 0xff, 0xff, 0xff, 0xff, 0xff, 0xff,
    0xff, 0xff, 0xff, 0xff, 0xff, 0xff, 0xff, 0xff, 0xff, 0xff, 0xff, 0xff, 0xff, 0xff, 0xff, 0xff, 0xff, 0xff, 0xff, 0xff,
    0xff, 0xff, 0xff], [0x01, 0x00, 0x00, 0x00, 0x00, 0x00, 0x00, 0x00, 0x00, 0x00, 0x00, 0x00, 0x00, 0x00, 0x00, 0x00, 0x00,
    0x00, 0x00, 0x00, 0x00, 0x00, 0x00, 0x00, 0x00, 0x00, 0x00, 0x00, 0x00, 0x00, 0x00, 0x00, 0x00, 0x00, 0x00, 0x00, 0x00,
    0x00, 0x00, 0x00, 0x00, 0x00, 0x00, 0x00, 0x00, 0x00, 0x00, 0x00, 0x00, 0x00, 0x00, 0x00, 0x00, 0x00, 0x00, 0x00, 0x00,
    0x00, 0x00, 0x00, 0x00, 0x00, 0x00, 0x00], [0x00, 0xff, 0xff, 0xff, 0xff, 0xff, 0xff, 0xff, 0xff, 0xff, 0xff, 0xff, 0xff,
    0xff, 0xff, 0xff, 0xff, 0xff, 0xff, 0xff, 0xff, 0xff, 0xff, 0xff, 0xff, 0xff, 0xff, 0xff, 0xff, 0xff, 0xff, 0xff, 0xff,
    0xff, 0xff, 0xff, 0xff, 0xff, 0xff, 0xff, 0xff, 0xff, 0xff, 0xff, 0xff, 0xff, 0xff, 0xff, 0xff, 0xff, 0xff, 0xff, 0xff,
    0xff, 0xff, 0xff, 0xff, 0xff, 0xff, 0xff, 0xff, 0xff, 0xff, 0xff], 1),
  ([0x01, 0x23, 0x45, 0x67, 0x89, 0xab, 0xcd, 0xef], [0x00, 0x00, 0x00, 0x00, 0x00, 0x00, 0x00, 0x00, 0x00, 0x00, 0x00, 0x00,
    0x00, 0x00, 0x00, 0x00, 0x00, 0x00, 0x00, 0x00, 0x00, 0x00, 0x00, 0x00, 0x00, 0x00, 0x00, 0x00, 0x00, 0x00, 0x00, 0x00,
    0x00, 0x00, 0x00, 0x00, 0x00, 0x00, 0x00, 0x00, 0x00, 0x00, 0x00, 0x00, 0x00, 0x00, 0x00, 0x00, 0x00, 0x00, 0x00, 0x00,
    0x00, 0x00, 0x00, 0x00, 0x01, 0x23, 0x45, 0x67, 0x89, 0xab, 0xcd, 0xef], [0x00, 0x00, 0x00, 0x00, 0x00, 0x00, 0x00, 0x00,
    0x00, 0x00, 0x00, 0x00, 0x00, 0x00, 0x00, 0x00, 0x00, 0x00, 0x00, 0x00, 0x00, 0x00, 0x00, 0x00, 0x00, 0x00, 0x00, 0x00,
    0x00, 0x00, 0x00, 0x00, 0x00, 0x00, 0x00, 0x00, 0x00, 0x00, 0x00, 0x00, 0x00, 0x00, 0x00, 0x00, 0x00, 0x00, 0x00, 0x00,
    0x00, 0x00, 0x00, 0x00, 0x00, 0x00, 0x00, 0x00, 0x02, 0x46, 0x8a, 0xcf, 0x13, 0x57, 0x9b, 0xde], 0),
  ([0x01, 0x23, 0x45, 0x67, 0x89, 0xab, 0xcd, 0xef], [0x01, 0x23, 0x45, 0x67, 0x89, 0xab, 0xcd, 0xef, 0x00, 0x00, 0x00, 0x00,
    0x00, 0x00, 0x00, 0x00, 0x00, 0x00, 0x00, 0x00, 0x00, 0x00, 0x00, 0x00, 0x00, 0x00, 0x00, 0x00, 0x00, 0x00, 0x00, 0x00,
    0x00, 0x00, 0x00, 0x00, 0x00, 0x00, 0x00, 0x00, 0x00, 0x00, 0x00, 0x00, 0x00, 0x00, 0x00, 0x00, 0x00, 0x00, 0x00, 0x00,
    0x00, 0x00, 0x00, 0x00, 0x00, 0x00, 0x00, 0x00, 0x00, 0x00, 0x00, 0x00], [0x01, 0x23, 0x45, 0x67, 0x89, 0xab, 0xcd, 0xef,
    0x00, 0x00, 0x00, 0x00, 0x00, 0x00, 0x00, 0x00, 0x00, 0x00, 0x00, 0x00, 0x00, 0x00, 0x00, 0x00, 0x00, 0x00, 0x00, 0x00,
    0x00, 0x00, 0x00, 0x00, 0x00, 0x00, 0x00, 0x00, 0x00, 0x00, 0x00, 0x00, 0x00, 0x00, 0x00, 0x00, 0x00, 0x00, 0x00, 0x00,
    0x00, 0x00, 0x00, 0x00, 0x00, 0x00, 0x00, 0x00, 0x01, 0x23, 0x45, 0x67, 0x89, 0xab, 0xcd, 0xef], 0),
  ([0x00, 0x00, 0x00, 0x00, 0x00, 0x00, 0x00, 0x00, 0x00, 0x00, 0x00, 0x00, 0x00, 0x00, 0x00, 0x00, 0x00, 0x00, 0x00, 0x00, 0x00,
    0x00, 0x00, 0x00, 0x00, 0x00, 0x00, 0x00, 0x00, 0x00, 0x00, 0x00, 0x00, 0x00, 0x00, 0x00, 0x00, 0x00, 0x00, 0x00, 0x00,
    0x00, 0x00, 0x00, 0x00, 0x00, 0x00, 0x00, 0x00, 0x00, 0x00, 0x00, 0x00, 0x00, 0x00, 0x00, 0x00, 0x00, 0x00, 0x00, 0x00,
    0x00, 0x00, 0x01], [0x00, 0x00, 0x00, 0x00, 0x00, 0x00, 0x00, 0x00, 0x00, 0x00, 0x00, 0x00, 0x00, 0x00, 0x00, 0x00, 0x00,
    0x00, 0x00, 0x00, 0x00, 0x00, 0x00, 0x00, 0x00, 0x00, 0x00, 0x00, 0x00, 0x00, 0x00, 0x00, 0x00, 0x00, 0x00, 0x00, 0x00,
    0x00, 0x00, 0x00, 0x00, 0x00, 0x00, 0x00, 0x00, 0x00, 0x00, 0x00, 0x00, 0x00, 0x00, 0x00, 0x00, 0x00, 0x00, 0x00, 0x00,
    0x00, 0x00, 0x00, 0x00, 0x00, 0x00, 0xff], [0x00, 0x00, 0x00, 0x00, 0x00, 0x00, 0x00, 0x00, 0x00, 0x00, 0x00, 0x00, 0x00,
    0x00, 0x00, 0x00, 0x00, 0x00, 0x00, 0x00, 0x00, 0x00, 0x00, 0x00, 0x00, 0x00, 0x00, 0x00, 0x00, 0x00, 0x00, 0x00, 0x00,
    0x00, 0x00, 0x00, 0x00, 0x00, 0x00, 0x00, 0x00, 0x00, 0x00, 0x00, 0x00, 0x00, 0x00, 0x00, 0x00, 0x00, 0x00, 0x00, 0x00,
    0x00, 0x00, 0x00, 0x00, 0x00, 0x00, 0x00, 0x00, 0x00, 0x01, 0x00], 0),
  ([0x01, 0x00, 0x00, 0x00, 0x00, 0x00, 0x00, 0x00, 0x00, 0x00, 0x00, 0x00, 0x00, 0x00, 0x00, 0x00, 0x00, 0x00, 0x00, 0x00, 0x00,
    0x00, 0x00, 0x00, 0x00, 0x00, 0x00, 0x00, 0x00, 0x00, 0x00, 0x00, 0x00, 0x00, 0x00, 0x00, 0x00, 0x00, 0x00, 0x00, 0x00,
    0x00, 0x00, 0x00, 0x00, 0x00, 0x00, 0x00, 0x00, 0x00, 0x00, 0x00, 0x00, 0x00, 0x00, 0x00, 0x00, 0x00, 0x00, 0x00, 0x00,
    0x00, 0x00, 0x00], [0xff, 0x00, 0x00, 0x00, 0x00, 0x00, 0x00, 0x00, 0x00, 0x00, 0x00, 0x00, 0x00, 0x00, 0x00, 0x00, 0x00,
    0x00, 0x00, 0x00, 0x00, 0x00, 0x00, 0x00, 0x00, 0x00, 0x00, 0x00, 0x00, 0x00, 0x00, 0x00, 0x00, 0x00, 0x00, 0x00, 0x00,
    0x00, 0x00, 0x00, 0x00, 0x00, 0x00, 0x00, 0x00, 0x00, 0x00, 0x00, 0x00, 0x00, 0x00, 0x00, 0x00, 0x00, 0x00, 0x00, 0x00,
    0x00, 0x00, 0x00, 0x00, 0x00, 0x00, 0x00], [0x00, 0x00, 0x00, 0x00, 0x00, 0x00, 0x00, 0x00, 0x00, 0x00, 0x00, 0x00, 0x00,
    0x00, 0x00, 0x00, 0x00, 0x00, 0x00, 0x00, 0x00, 0x00, 0x00, 0x00, 0x00, 0x00, 0x00, 0x00, 0x00, 0x00, 0x00, 0x00, 0x00,
    0x00, 0x00, 0x00, 0x00, 0x00, 0x00, 0x00, 0x00, 0x00, 0x00, 0x00, 0x00, 0x00, 0x00, 0x00, 0x00, 0x00, 0x00, 0x00, 0x00,
    0x00, 0x00, 0x00, 0x00, 0x00, 0x00, 0x00, 0x00, 0x00, 0x00, 0x00], 1),
  ([0xff, 0x00, 0xff, 0x00, 0xff, 0x00, 0xff, 0x00, 0xff, 0x00, 0xff, 0x00, 0xff, 0x00, 0xff, 0x00, 0xff, 0x00, 0xff, 0x00, 0xff,
    0x00, 0xff, 0x00, 0xff, 0x00, 0xff, 0x00, 0xff, 0x00, 0xff, 0x00, 0xff, 0x00, 0xff, 0x00, 0xff, 0x00, 0xff, 0x00, 0xff,
    0x00, 0xff, 0x00, 0xff, 0x00, 0xff, 0x00, 0xff, 0x00, 0xff, 0x00, 0xff, 0x00, 0xff, 0x00, 0xff, 0x00, 0xff, 0x00, 0xff,
    0x00, 0xff, 0x00], [0x00, 0xff, 0x00, 0xff, 0x00, 0xff, 0x00, 0xff, 0x00, 0xff, 0x00, 0xff, 0x00, 0xff, 0x00, 0xff, 0x00,
    0xff, 0x00, 0xff, 0x00, 0xff, 0x00, 0xff, 0x00, 0xff, 0x00, 0xff, 0x00, 0xff, 0x00, 0xff, 0x00, 0xff, 0x00, 0xff, 0x00,
    0xff, 0x00, 0xff, 0x00, 0xff, 0x00, 0xff, 0x00, 0xff, 0x00, 0xff, 0x00, 0xff, 0x00, 0xff, 0x00, 0xff, 0x00, 0xff, 0x00,
    0xff, 0x00, 0xff, 0x00, 0xff, 0x00, 0xff], [0xff, 0xff, 0xff, 0xff, 0xff, 0xff, 0xff, 0xff, 0xff, 0xff, 0xff, 0xff, 0xff,
    0xff, 0xff, 0xff, 0xff, 0xff, 0xff, 0xff, 0xff, 0xff, 0xff, 0xff, 0xff, 0xff, 0xff, 0xff, 0xff, 0xff, 0xff, 0xff, 0xff,
    0xff, 0xff, 0xff, 0xff, 0xff, 0xff, 0xff, 0xff, 0xff, 0xff, 0xff, 0xff, 0xff, 0xff, 0xff, 0xff, 0xff, 0xff, 0xff, 0xff,
    0xff, 0xff, 0xff, 0xff, 0xff, 0xff, 0xff, 0xff, 0xff, 0xff, 0xff], 0),
  ([0xff, 0x00, 0xff, 0x00, 0xff, 0x00, 0xff, 0x00, 0xff, 0x00, 0xff, 0x00, 0xff, 0x00, 0xff, 0x00, 0xff, 0x00, 0xff, 0x00, 0xff,
    0x00, 0xff, 0x00, 0xff, 0x00, 0xff, 0x00, 0xff, 0x00, 0xff, 0x00, 0xff, 0x00, 0xff, 0x00, 0xff, 0x00, 0xff, 0x00, 0xff,
    0x00, 0xff, 0x00, 0xff, 0x00, 0xff, 0x00, 0xff, 0x00, 0xff, 0x00, 0xff, 0x00, 0xff, 0x00, 0xff, 0x00, 0xff, 0x00, 0xff,
    0x00, 0xff, 0x00], [0x01, 0xff, 0x00, 0xff, 0x00, 0xff, 0x00, 0xff, 0x00, 0xff, 0x00, 0xff, 0x00, 0xff, 0x00, 0xff, 0x00,
    0xff, 0x00, 0xff, 0x00, 0xff, 0x00, 0xff, 0x00, 0xff, 0x00, 0xff, 0x00, 0xff, 0x00, 0xff, 0x00, 0xff, 0x00, 0xff, 0x00,
    0xff, 0x00, 0xff, 0x00, 0xff, 0x00, 0xff, 0x00, 0xff, 0x00, 0xff, 0x00, 0xff, 0x00, 0xff, 0x00, 0xff, 0x00, 0xff, 0x00,
    0xff, 0x00, 0xff, 0x00, 0xff, 0x00, 0xff], [0x00, 0xff, 0xff, 0xff, 0xff, 0xff, 0xff, 0xff, 0xff, 0xff, 0xff, 0xff, 0xff,
    0xff, 0xff, 0xff, 0xff, 0xff, 0xff, 0xff, 0xff, 0xff, 0xff, 0xff, 0xff, 0xff, 0xff, 0xff, 0xff, 0xff, 0xff, 0xff, 0xff,
    0xff, 0xff, 0xff, 0xff, 0xff, 0xff, 0xff, 0xff, 0xff, 0xff, 0xff, 0xff, 0xff, 0xff, 0xff, 0xff, 0xff, 0xff, 0xff, 0xff,
    0xff, 0xff, 0xff, 0xff, 0xff, 0xff, 0xff, 0xff, 0xff, 0xff, 0xff], 1),
  ([0xff, 0x00, 0xff, 0x00, 0xff, 0x00, 0xff, 0x00, 0xff, 0x00, 0xff, 0x00, 0xff, 0x00, 0xff, 0x00, 0xff, 0x00, 0xff, 0x00, 0xff,
    0x00, 0xff, 0x00, 0xff, 0x00, 0xff, 0x00, 0xff, 0x00, 0xff, 0x00, 0xff, 0x00, 0xff, 0x00, 0xff, 0x00, 0xff, 0x00, 0xff,
    0x00, 0xff, 0x00, 0xff, 0x00, 0xff, 0x00, 0xff, 0x00, 0xff, 0x00, 0xff, 0x00, 0xff, 0x00, 0xff, 0x00, 0xff, 0x00, 0xff,
    0x00, 0xff, 0x01], [0x00, 0xff, 0x00, 0xff, 0x00, 0xff, 0x00, 0xff, 0x00, 0xff, 0x00, 0xff, 0x00, 0xff, 0x00, 0xff, 0x00,
    0xff, 0x00, 0xff, 0x00, 0xff, 0x00, 0xff, 0x00, 0xff, 0x00, 0xff, 0x00, 0xff, 0x00, 0xff, 0x00, 0xff, 0x00, 0xff, 0x00,
    0xff, 0x00, 0xff, 0x00, 0xff, 0x00, 0xff, 0x00, 0xff, 0x00, 0xff, 0x00, 0xff, 0x00, 0xff, 0x00, 0xff, 0x00, 0xff, 0x00,
    0xff, 0x00, 0xff, 0x00, 0xff, 0x00, 0xff], [0x00, 0x00, 0x00, 0x00, 0x00, 0x00, 0x00, 0x00, 0x00, 0x00, 0x00, 0x00, 0x00,
    0x00, 0x00, 0x00, 0x00, 0x00, 0x00, 0x00, 0x00, 0x00, 0x00, 0x00, 0x00, 0x00, 0x00, 0x00, 0x00, 0x00, 0x00, 0x00, 0x00,
    0x00, 0x00, 0x00, 0x00, 0x00, 0x00, 0x00, 0x00, 0x00, 0x00, 0x00, 0x00, 0x00, 0x00, 0x00, 0x00, 0x00, 0x00, 0x00, 0x00,
    0x00, 0x00, 0x00, 0x00, 0x00, 0x00, 0x00, 0x00, 0x00, 0x00, 0x00], 1),
  ([0xff, 0xff, 0xff, 0xff, 0xff, 0xff, 0xff, 0xff, 0xff, 0xff, 0xff, 0xff, 0xff, 0xff, 0xff, 0xff, 0xff, 0xff, 0xff, 0xff, 0xff,
    0xff, 0xff, 0xff, 0xff, 0xff, 0xff, 0xff, 0xff, 0xff, 0xff, 0xff, 0xff, 0xff, 0xff, 0xff, 0xff, 0xff, 0xff, 0xff, 0xff,
    0xff, 0xff, 0xff, 0xff, 0xff, 0xff, 0xff, 0xff, 0xff, 0xff, 0xff, 0xff, 0xff, 0xff, 0xff, 0xff, 0xff, 0xff, 0xff, 0xff,
    0xff, 0xff, 0xff], [0xff, 0xff, 0xff, 0xff, 0xff, 0xff, 0xff, 0xff, 0xff, 0xff, 0xff, 0xff, 0xff, 0xff, 0xff, 0xff, 0xff,
    0xff, 0xff, 0xff, 0xff, 0xff, 0xff, 0xff, 0xff, 0xff, 0xff, 0xff, 0xff, 0xff, 0xff, 0xff, 0xff, 0xff, 0xff, 0xff, 0xff,
    0xff, 0xff, 0xff, 0xff, 0xff, 0xff, 0xff, 0xff, 0xff, 0xff, 0xff, 0xff, 0xff, 0xff, 0xff, 0xff, 0xff, 0xff, 0xff, 0xff,
    0xff, 0xff, 0xff, 0xff, 0xff, 0xff, 0xff], [0xff, 0xff, 0xff, 0xff, 0xff, 0xff, 0xff, 0xff, 0xff, 0xff, 0xff, 0xff, 0xff,
    0xff, 0xff, 0xff, 0xff, 0xff, 0xff, 0xff, 0xff, 0xff, 0xff, 0xff, 0xff, 0xff, 0xff, 0xff, 0xff, 0xff, 0xff, 0xff, 0xff,
    0xff, 0xff, 0xff, 0xff, 0xff, 0xff, 0xff, 0xff, 0xff, 0xff, 0xff, 0xff, 0xff, 0xff, 0xff, 0xff, 0xff, 0xff, 0xff, 0xff,
    0xff, 0xff, 0xff, 0xff, 0xff, 0xff, 0xff, 0xff, 0xff, 0xff, 0xfe], 1),
  ([0x03, 0x03, 0x03, 0x03, 0x03, 0x03, 0x03, 0x03, 0x03, 0x03, 0x03, 0x03, 0x03, 0x03, 0x03, 0x03, 0x03, 0x03, 0x03, 0x03, 0x03,
    0x03, 0x03, 0x03, 0x03, 0x03, 0x03, 0x03, 0x03, 0x03, 0x03, 0x03, 0x03, 0x03, 0x03, 0x03, 0x03, 0x03, 0x03, 0x03, 0x03,
    0x03, 0x03, 0x03, 0x03, 0x03, 0x03, 0x03, 0x03, 0x03, 0x03, 0x03, 0x03, 0x03, 0x03, 0x03, 0x03, 0x03, 0x03, 0x03, 0x03,
    0x03, 0x03, 0x03], [0x05, 0x05, 0x05, 0x05, 0x05, 0x05, 0x05, 0x05, 0x05, 0x05, 0x05, 0x05, 0x05, 0x05, 0x05, 0x05, 0x05,
    0x05, 0x05, 0x05, 0x05, 0x05, 0x05, 0x05, 0x05, 0x05, 0x05, 0x05, 0x05, 0x05, 0x05, 0x05, 0x05, 0x05, 0x05, 0x05, 0x05,
    0x05, 0x05, 0x05, 0x05, 0x05, 0x05, 0x05, 0x05, 0x05, 0x05, 0x05, 0x05, 0x05, 0x05, 0x05, 0x05, 0x05, 0x05, 0x05, 0x05,
    0x05, 0x05, 0x05, 0x05, 0x05, 0x05, 0x05], [0x08, 0x08, 0x08, 0x08, 0x08, 0x08, 0x08, 0x08, 0x08, 0x08, 0x08, 0x08, 0x08,
    0x08, 0x08, 0x08, 0x08, 0x08, 0x08, 0x08, 0x08, 0x08, 0x08, 0x08, 0x08, 0x08, 0x08, 0x08, 0x08, 0x08, 0x08, 0x08, 0x08,
    0x08, 0x08, 0x08, 0x08, 0x08, 0x08, 0x08, 0x08, 0x08, 0x08, 0x08, 0x08, 0x08, 0x08, 0x08, 0x08, 0x08, 0x08, 0x08, 0x08,
    0x08, 0x08, 0x08, 0x08, 0x08, 0x08, 0x08, 0x08, 0x08, 0x08, 0x08], 0),
  ([0x03, 0x03, 0x03, 0x03, 0x03, 0x03, 0x03, 0x03, 0x03, 0x03, 0x03, 0x03, 0x03, 0x03, 0x03, 0x03, 0x03, 0x03, 0x03, 0x03, 0x03,
    0x03, 0x03, 0x03, 0x03, 0x03, 0x03, 0x03, 0x03, 0x03, 0x03, 0x03, 0x03, 0x03, 0x03, 0x03, 0x03, 0x03, 0x03, 0x03, 0x03,
    0x03, 0x03, 0x03, 0x03, 0x03, 0x03, 0x03, 0x03, 0x03, 0x03, 0x03, 0x03, 0x03, 0x03, 0x03, 0x03, 0x03, 0x03, 0x03, 0x03,
    0x03, 0x03, 0x03], [0x05, 0x05, 0x05, 0x05, 0x05, 0x05, 0x05, 0x05, 0x05, 0x05, 0x05, 0x05, 0x05, 0x05, 0x05, 0x05, 0x05,
    0x05, 0x05, 0x05, 0x05, 0x05, 0x05, 0x05, 0x05, 0x05, 0x05, 0x05, 0x05, 0x05, 0x05, 0x05, 0x05, 0x05, 0x05, 0x05, 0x05,
    0x05, 0x05, 0x05, 0x05, 0x05, 0x05, 0x05, 0x05, 0x05, 0x05, 0x05, 0x05, 0x05, 0x05, 0x05, 0x05, 0x05, 0x05, 0x05, 0x05,
    0x05, 0x05, 0x05, 0x05, 0x05, 0x05], [0x03, 0x08, 0x08, 0x08, 0x08, 0x08, 0x08, 0x08, 0x08, 0x08, 0x08, 0x08, 0x08, 0x08,
    0x08, 0x08, 0x08, 0x08, 0x08, 0x08, 0x08, 0x08, 0x08, 0x08, 0x08, 0x08, 0x08, 0x08, 0x08, 0x08, 0x08, 0x08, 0x08, 0x08,
    0x08, 0x08, 0x08, 0x08, 0x08, 0x08, 0x08, 0x08, 0x08, 0x08, 0x08, 0x08, 0x08, 0x08, 0x08, 0x08, 0x08, 0x08, 0x08, 0x08,
    0x08, 0x08, 0x08, 0x08, 0x08, 0x08, 0x08, 0x08, 0x08, 0x08], 0),
  ([0x03, 0x03, 0x03, 0x03, 0x03, 0x03, 0x03, 0x03, 0x03, 0x03, 0x03, 0x03, 0x03, 0x03, 0x03, 0x03, 0x03, 0x03, 0x03, 0x03, 0x03,
    0x03, 0x03, 0x03, 0x03, 0x03, 0x03, 0x03, 0x03, 0x03, 0x03, 0x03, 0x03, 0x03, 0x03, 0x03, 0x03, 0x03, 0x03, 0x03, 0x03,
    0x03, 0x03, 0x03, 0x03, 0x03, 0x03, 0x03, 0x03, 0x03, 0x03, 0x03, 0x03, 0x03, 0x03, 0x03, 0x03, 0x03, 0x03, 0x03, 0x03,
    0x03, 0x03, 0x03], [0x05, 0x05, 0x05, 0x05, 0x05, 0x05, 0x05, 0x05, 0x05, 0x05, 0x05, 0x05, 0x05, 0x05, 0x05, 0x05, 0x05,
    0x05, 0x05, 0x05, 0x05, 0x05, 0x05, 0x05, 0x05, 0x05, 0x05, 0x05, 0x05, 0x05, 0x05, 0x05, 0x05, 0x05, 0x05, 0x05, 0x05,
    0x05, 0x05, 0x05, 0x05, 0x05, 0x05, 0x05, 0x05, 0x05, 0x05, 0x05, 0x05, 0x05, 0x05, 0x05, 0x05, 0x05, 0x05, 0x05, 0x05,
    0x05, 0x05, 0x05], [0x03, 0x03, 0x03, 0x03, 0x08, 0x08, 0x08, 0x08, 0x08, 0x08, 0x08, 0x08, 0x08, 0x08, 0x08, 0x08, 0x08,
    0x08, 0x08, 0x08, 0x08, 0x08, 0x08, 0x08, 0x08, 0x08, 0x08, 0x08, 0x08, 0x08, 0x08, 0x08, 0x08, 0x08, 0x08, 0x08, 0x08,
    0x08, 0x08, 0x08, 0x08, 0x08, 0x08, 0x08, 0x08, 0x08, 0x08, 0x08, 0x08, 0x08, 0x08, 0x08, 0x08, 0x08, 0x08, 0x08, 0x08,
    0x08, 0x08, 0x08, 0x08, 0x08, 0x08, 0x08], 0),
  ([0x03, 0x03, 0x03, 0x03, 0x03, 0x03, 0x03, 0x03, 0x03, 0x03, 0x03, 0x03, 0x03, 0x03, 0x03, 0x03, 0x03, 0x03, 0x03, 0x03, 0x03,
    0x03, 0x03, 0x03, 0x03, 0x03, 0x03, 0x03, 0x03, 0x03, 0x03, 0x03, 0x03, 0x03, 0x03, 0x03, 0x03, 0x03, 0x03, 0x03, 0x03,
    0x03, 0x03, 0x03, 0x03, 0x03, 0x03, 0x03, 0x03, 0x03, 0x03, 0x03, 0x03, 0x03, 0x03, 0x03, 0x03, 0x03, 0x03, 0x03, 0x03,
    0x03, 0x03, 0x03], [0x05, 0x05, 0x05, 0x05, 0x05, 0x05, 0x05, 0x05, 0x05, 0x05, 0x05, 0x05, 0x05, 0x05, 0x05, 0x05, 0x05,
    0x05, 0x05, 0x05, 0x05, 0x05, 0x05, 0x05, 0x05, 0x05, 0x05, 0x05, 0x05, 0x05, 0x05, 0x05, 0x05, 0x05, 0x05, 0x05, 0x05,
    0x05, 0x05, 0x05, 0x05, 0x05, 0x05, 0x05, 0x05, 0x05, 0x05, 0x05, 0x05, 0x05, 0x05, 0x05, 0x05, 0x05, 0x05, 0x05, 0x05,
    0x05, 0x05], [0x03, 0x03, 0x03, 0x03, 0x03, 0x08, 0x08, 0x08, 0x08, 0x08, 0x08, 0x08, 0x08, 0x08, 0x08, 0x08, 0x08, 0x08,
    0x08, 0x08, 0x08, 0x08, 0x08, 0x08, 0x08, 0x08, 0x08, 0x08, 0x08, 0x08, 0x08, 0x08, 0x08, 0x08, 0x08, 0x08, 0x08, 0x08,
    0x08, 0x08, 0x08, 0x08, 0x08, 0x08, 0x08, 0x08, 0x08, 0x08, 0x08, 0x08, 0x08, 0x08, 0x08, 0x08, 0x08, 0x08, 0x08, 0x08,
    0x08, 0x08, 0x08, 0x08, 0x08, 0x08], 0),
  ([0x03, 0x03, 0x03, 0x03, 0x03, 0x03, 0x03, 0x03, 0x03, 0x03, 0x03, 0x03, 0x03, 0x03, 0x03, 0x03, 0x03, 0x03, 0x03, 0x03, 0x03,
    0x03, 0x03, 0x03, 0x03, 0x03, 0x03, 0x03, 0x03, 0x03, 0x03, 0x03, 0x03, 0x03, 0x03, 0x03, 0x03, 0x03, 0x03, 0x03, 0x03,
    0x03, 0x03, 0x03, 0x03, 0x03, 0x03, 0x03, 0x03, 0x03, 0x03, 0x03, 0x03, 0x03, 0x03, 0x03, 0x03, 0x03, 0x03, 0x03, 0x03,
    0x03, 0x03, 0x03], [0x05, 0x05, 0x05, 0x05, 0x05, 0x05, 0x05, 0x05, 0x05, 0x05, 0x05, 0x05, 0x05, 0x05, 0x05, 0x05, 0x05,
    0x05, 0x05, 0x05, 0x05, 0x05, 0x05, 0x05, 0x05, 0x05, 0x05, 0x05, 0x05, 0x05, 0x05, 0x05, 0x05, 0x05, 0x05, 0x05, 0x05,
    0x05, 0x05, 0x05, 0x05, 0x05, 0x05, 0x05, 0x05, 0x05, 0x05, 0x05, 0x05, 0x05, 0x05, 0x05, 0x05, 0x05, 0x05, 0x05], [0x03,
    0x03, 0x03, 0x03, 0x03, 0x03, 0x03, 0x03, 0x08, 0x08, 0x08, 0x08, 0x08, 0x08, 0x08, 0x08, 0x08, 0x08, 0x08, 0x08, 0x08,
    0x08, 0x08, 0x08, 0x08, 0x08, 0x08, 0x08, 0x08, 0x08, 0x08, 0x08, 0x08, 0x08, 0x08, 0x08, 0x08, 0x08, 0x08, 0x08, 0x08,
    0x08, 0x08, 0x08, 0x08, 0x08, 0x08, 0x08, 0x08, 0x08, 0x08, 0x08, 0x08, 0x08, 0x08, 0x08, 0x08, 0x08, 0x08, 0x08, 0x08,
    0x08, 0x08, 0x08], 0),
  ([0x01, 0x00], [0x22], [0x00, 0x00, 0x00, 0x00, 0x00, 0x00, 0x00, 0x00, 0x00, 0x00, 0x00, 0x00, 0x00, 0x00, 0x00, 0x00, 0x00,
    0x00, 0x00, 0x00, 0x00, 0x00, 0x00, 0x00, 0x00, 0x00, 0x00, 0x00, 0x00, 0x00, 0x00, 0x00, 0x00, 0x00, 0x00, 0x00, 0x00,
    0x00, 0x00, 0x00, 0x00, 0x00, 0x00, 0x00, 0x00, 0x00, 0x00, 0x00, 0x00, 0x00, 0x00, 0x00, 0x00, 0x00, 0x00, 0x00, 0x00,
    0x00, 0x00, 0x00, 0x00, 0x00, 0x01, 0x22], 0),
  ([0x00, 0x01], [0x22], [0x00, 0x00, 0x00, 0x00, 0x00, 0x00, 0x00, 0x00, 0x00, 0x00, 0x00, 0x00, 0x00, 0x00, 0x00, 0x00, 0x00,
    0x00, 0x00, 0x00, 0x00, 0x00, 0x00, 0x00, 0x00, 0x00, 0x00, 0x00, 0x00, 0x00, 0x00, 0x00, 0x00, 0x00, 0x00, 0x00, 0x00,
    0x00, 0x00, 0x00, 0x00, 0x00, 0x00, 0x00, 0x00, 0x00, 0x00, 0x00, 0x00, 0x00, 0x00, 0x00, 0x00, 0x00, 0x00, 0x00, 0x00,
    0x00, 0x00, 0x00, 0x00, 0x00, 0x00, 0x23], 0)]

/-- TestAdd512BE, in both orders. -/
example : ∀ r ∈ add512BE, added Add512BE 64 r.1 r.2.1 = .ok (r.2.2.1, r.2.2.2, false) ∧
    added Add512BE 64 r.2.1 r.1 = .ok (r.2.2.1, r.2.2.2, false) := by decide +kernel

def padLE16 : List (List U8 × List U8) := [
  ([], [0x00, 0x00]),
  ([0x00], [0x00, 0x00]),
  ([0x10], [0x10, 0x00]),
  ([0x00, 0x10], [0x00, 0x10]),
  ([0x01, 0x00], [0x01, 0x00]),
  ([0x10, 0x00], [0x10, 0x00]),
  ([0x01], [0x01, 0x00]),
  ([0x01, 0x02], [0x01, 0x02]),
  ([0x01, 0x02, 0x03], [0x01, 0x02]),
  ([0x01, 0x02, 0x03, 0x04], [0x01, 0x02])]

/-- TestPadLE16. -/
example : ∀ r ∈ padLE16, padded padLE 2 r.1 = .ok (r.2, false) := by decide +kernel

def padBE16 : List (List U8 × List U8) := [
  ([], [0x00, 0x00]),
  ([0x00], [0x00, 0x00]),
  ([0x10], [0x00, 0x10]),
  ([0x00, 0x10], [0x00, 0x10]),
  ([0x01, 0x00], [0x01, 0x00]),
  ([0x10, 0x00], [0x10, 0x00]),
  ([0x01], [0x00, 0x01]),
  ([0x01, 0x02], [0x01, 0x02]),
  ([0x01, 0x02, 0x03], [0x01, 0x02]),
  ([0x01, 0x02, 0x03, 0x04], [0x01, 0x02])]

/-- TestPadBE16. -/
example : ∀ r ∈ padBE16, padded padBE 2 r.1 = .ok (r.2, false) := by decide +kernel

def padLE32 : List (List U8 × List U8) := [
  ([], [0x00, 0x00, 0x00, 0x00]),
  ([0x00], [0x00, 0x00, 0x00, 0x00]),
  ([0x01], [0x01, 0x00, 0x00, 0x00]),
  ([0x10], [0x10, 0x00, 0x00, 0x00]),
  ([0x00, 0x10], [0x00, 0x10, 0x00, 0x00]),
  ([0x01, 0x00], [0x01, 0x00, 0x00, 0x00]),
  ([0x10, 0x00], [0x10, 0x00, 0x00, 0x00]),
  ([0x01], [0x01, 0x00, 0x00, 0x00]),
  ([0x01, 0x02], [0x01, 0x02, 0x00, 0x00]),
  ([0x01, 0x02, 0x03], [0x01, 0x02, 0x03, 0x00]),
  ([0x01, 0x02, 0x03, 0x04], [0x01, 0x02, 0x03, 0x04]),
  ([0x01, 0x02, 0x03, 0x04, 0x05], [0x01, 0x02, 0x03, 0x04]),
  ([0x01, 0x02, 0x03, 0x04, 0x05, 0x06], [0x01, 0x02, 0x03, 0x04]),
  ([0x01, 0x02, 0x03, 0x04, 0x05, 0x06, 0x07], [0x01, 0x02, 0x03, 0x04]),
  ([0x01, 0x02, 0x03, 0x04, 0x05, 0x06, 0x07, 0x08], [0x01, 0x02, 0x03, 0x04]),
  ([0x01, 0x00], [0x01, 0x00, 0x00, 0x00]),
  ([0x01, 0x00, 0x00], [0x01, 0x00, 0x00, 0x00]),
  ([0x01, 0x00, 0x00, 0x00], [0x01, 0x00, 0x00, 0x00]),
  ([0x01, 0x00, 0x00, 0x00, 0x00], [0x01, 0x00, 0x00, 0x00]),
  ([0x01, 0x00, 0x00, 0x00, 0x00, 0x00], [0x01, 0x00, 0x00, 0x00]),
  ([0x01, 0x00, 0x00, 0x00, 0x00, 0x00, 0x00], [0x01, 0x00, 0x00, 0x00]),
  ([0x01, 0x00, 0x00, 0x00, 0x00, 0x00, 0x00, 0x00], [0x01, 0x00, 0x00, 0x00])]

/-- TestPadLE32. -/
example : ∀ r ∈ padLE32, padded padLE 4 r.1 = .ok (r.2, false) := by decide +kernel

def padBE32 : List (List U8 × List U8) := [
  ([], [0x00, 0x00, 0x00, 0x00]),
  ([0x00], [0x00, 0x00, 0x00, 0x00]),
  ([0x01], [0x00, 0x00, 0x00, 0x01]),
  ([0x10], [0x00, 0x00, 0x00, 0x10]),
  ([0x00, 0x10], [0x00, 0x00, 0x00, 0x10]),
  ([0x01, 0x00], [0x00, 0x00, 0x01, 0x00]),
  ([0x10, 0x00], [0x00, 0x00, 0x10, 0x00]),
  ([0x01], [0x00, 0x00, 0x00, 0x01]),
  ([0x01, 0x02], [0x00, 0x00, 0x01, 0x02]),
  ([0x01, 0x02, 0x03], [0x00, 0x01, 0x02, 0x03]),
  ([0x01, 0x02, 0x03, 0x04], [0x01, 0x02, 0x03, 0x04]),
  ([0x01, 0x02, 0x03, 0x04, 0x05], [0x01, 0x02, 0x03, 0x04]),
  ([0x01, 0x02, 0x03, 0x04, 0x05, 0x06], [0x01, 0x02, 0x03, 0x04]),
  ([0x01, 0x02, 0x03, 0x04, 0x05, 0x06, 0x07], [0x01, 0x02, 0x03, 0x04]),
  ([0x01, 0x02, 0x03, 0x04, 0x05, 0x06, 0x07, 0x08], [0x01, 0x02, 0x03, 0x04]),
  ([0x01, 0x00], [0x00, 0x00, 0x01, 0x00]),
  ([0x01, 0x00, 0x00], [0x00, 0x01, 0x00, 0x00]),
  ([0x01, 0x00, 0x00, 0x00], [0x01, 0x00, 0x00, 0x00]),
  ([0x01, 0x00, 0x00, 0x00, 0x00], [0x01, 0x00, 0x00, 0x00]),
  ([0x01, 0x00, 0x00, 0x00, 0x00, 0x00], [0x01, 0x00, 0x00, 0x00]),
  ([0x01, 0x00, 0x00, 0x00, 0x00, 0x00, 0x00], [0x01, 0x00, 0x00, 0x00]),
  ([0x01, 0x00, 0x00, 0x00, 0x00, 0x00, 0x00, 0x00], [0x01, 0x00, 0x00, 0x00])]

/-- TestPadBE32. -/
example : ∀ r ∈ padBE32, padded padBE 4 r.1 = .ok (r.2, false) := by decide +kernel


end Conformance
