import Verif.Model.TestHelpers

/-!
# The tables of test/StringMatch_test.go

Generated by tools/gen_conformance.py. These are tests of the model, not proofs about the code.
-/
namespace Conformance

open TestHelpers

def firstMismatch : List (List U8 × List U8 × Nat) := [
  ([0x48, 0x69], [0x48, 0x65, 0x6c, 0x6c, 0x6f], 1),
  ([0x48, 0x69], [], 0),
  ([0x48, 0x69, 0x20, 0x74, 0x68, 0x65, 0x72, 0x65], [0x48, 0x69, 0x20, 0x79, 0x6f, 0x75], 3),
  ([0x48, 0x69, 0x0a, 0x74, 0x68, 0x65, 0x72, 0x65], [0x48, 0x69, 0x0a, 0x79, 0x6f, 0x75], 3),
  ([0x48, 0x69, 0x69], [0x48, 0x69], 2),
  ([0x48, 0x69], [0x48, 0x69, 0x69], 2),
  ([0x48, 0x69, 0x7f, 0x74, 0x68, 0x65, 0x72, 0x65], [0x48, 0x69, 0x7f, 0x79, 0x6f, 0x75, 0x27, 0x72, 0x65], 3)]

/-- A marker of the size used in the tests. -/
def marker (a b : List U8) : List U8 := List.replicate (max (explode a).length (explode b).length + 1) 0

/-- TestFirstMismatch. -/
example : ∀ r ∈ firstMismatch, (do return (← findFirstMismatch (explode r.1) (explode r.2.1) (marker r.1 r.2.1)).1) = Res.ok r.2.2 := by
  decide +kernel

def lastMismatch : List (List U8 × List U8 × Int) := [
  ([0x48, 0x69], [0x48, 0x65, 0x6c, 0x6c, 0x6f], 0),
  ([0x48, 0x69], [], 0),
  ([0x48, 0x69, 0x20, 0x74, 0x68, 0x65, 0x72, 0x65], [0x48, 0x69, 0x20, 0x79, 0x6f, 0x75], 0),
  ([0x48, 0x69, 0x0a, 0x74, 0x68, 0x65, 0x72, 0x65], [0x48, 0x69, 0x0a, 0x79, 0x6f, 0x75], 0),
  ([0x48, 0x69, 0x69], [0x48, 0x69], -1),
  ([0x48, 0x69], [0x48, 0x69, 0x69], -1),
  ([0x48, 0x69, 0x7f, 0x74, 0x68, 0x65, 0x72, 0x65], [0x48, 0x69, 0x7f, 0x79, 0x6f, 0x75, 0x27, 0x72, 0x65], -2)]

/-- TestLastMismatch. -/
example : ∀ r ∈ lastMismatch, (do return (← findLastMismatch (explode r.1) (explode r.2.1) (marker r.1 r.2.1) 0).1) = Res.ok r.2.2 := by
  decide +kernel

def renderTexts : List (List U8 × Int × Int × Int × List U8) := [
  ([0x48, 0x65, 0x6c, 0x6c, 0x6f], 0, 2, -1, [0x48, 0x65, 0x1b, 0x5b, 0x37, 0x6d, 0x6c, 0x6c, 0x1b, 0x5b, 0x30, 0x6d, 0x6f]),
  ([0x48, 0x65, 0x6c, 0x6c, 0x6f], 1, 2, -1, [0x48, 0x65, 0x1b, 0x5b, 0x37, 0x6d, 0x6c, 0x6c, 0xc2, 0xb7, 0x1b, 0x5b, 0x30, 0x6d,
    0x6f]),
  ([0x48, 0x65, 0x6c, 0x6c, 0x6f], 0, 0, 0, [0x1b, 0x5b, 0x37, 0x6d, 0x48, 0x65, 0x6c, 0x6c, 0x6f, 0x1b, 0x5b, 0x30, 0x6d]),
  ([0x48, 0x65, 0x6c, 0x6c, 0x6f], 1, 0, 0, [0x1b, 0x5b, 0x37, 0x6d, 0x48, 0x65, 0x6c, 0x6c, 0x6f, 0xc2, 0xb7, 0x1b, 0x5b, 0x30,
    0x6d]),
  ([0x48, 0x65, 0x6c, 0x6c, 0x6f], 1, 0, -4, [0x1b, 0x5b, 0x37, 0x6d, 0x48, 0xc2, 0xb7, 0x1b, 0x5b, 0x30, 0x6d, 0x65, 0x6c, 0x6c,
    0x6f])]

/-- TestRenderText. -/
example : ∀ r ∈ renderTexts, renderText r.1 r.2.1 r.2.2.1 r.2.2.2.1 = .ok r.2.2.2.2 := by decide +kernel

end Conformance
