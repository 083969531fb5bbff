import Verif.Go.Hash

/-!
# Hash objects whose panics are recovered

A program may recover from a panic of a method and go on using the object. No method of the hash and checksum objects assigns to
the object before the last statement that can panic: only `digest16.update` (checksum/fletcher/fletcher16.go:27-52) can panic at all
(C38, C39, C41, C46, C49), at line 43, and it assigns to the object in lines 50-51 only. So a method that panics leaves the object
unchanged.
-/
namespace GoHash

/-- One method call, with a panic (`none`) recovered. -/
def stepRec {σ : Type} (I : Impl σ) (s : σ) (op : Op) : σ × Option Out :=
  match step I s op with
  | .ok (s, o) => (s, some o)
  | .panic => (s, none)

/-- A sequence of method calls on an existing object. -/
def runFromRec {σ : Type} (I : Impl σ) : σ → List Op → List (Option Out)
  | _, [] => []
  | s, op :: ops => (stepRec I s op).2 :: runFromRec I (stepRec I s op).1 ops

/-- A sequence of method calls on a new object. -/
def runRec {σ : Type} (I : Impl σ) (ops : List Op) : Res (List (Option Out)) := do
  let s ← I.new
  return runFromRec I s ops

end GoHash
