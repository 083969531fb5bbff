import Verif.Spec.Checksum
import Verif.Go.Hash

/-!
# What Fletcher-16 does with writes of any length

The two sums `a` and `b` as numbers, and how often the second one has lost 2^32.
-/
namespace Fletcher16Spec
open ChecksumSpec GoHash

/-- Writes that do not panic. -/
def Accepts (p : List U8) : Prop := p.length ≤ 5803 ∨ 5803 ∣ p.length

instance (p : List U8) : Decidable (Accepts p) := by unfold Accepts; infer_instance

/-- The batches of such a write: itself, or its pieces of 5803 bytes. -/
def batches (p : List U8) : List (List U8) :=
  if p.length ≤ 5803 then [p] else (List.range (p.length / 5803)).map fun k => (p.drop (5803 * k)).take 5803

/-- The second sum after the bytes `q`, before it is reduced, when the sums were `a` and `b`. -/
def total (a b : Nat) (q : List U8) : Nat := b + q.length * a + runningTotal (q.map BitVec.toNat)

/-- The sums after one batch: the second has 32 bits. -/
def batch (s : Nat × Nat) (q : List U8) : Nat × Nat :=
  ((s.1 + (q.map BitVec.toNat).sum) % 255, total s.1 s.2 q % 2 ^ 32 % 255)

/-- The sums after a write. -/
def write (s : Nat × Nat) (p : List U8) : Nat × Nat := (batches p).foldl batch s

/-- How often 2^32 is lost in some batches. -/
def lost : Nat × Nat → List (List U8) → Nat
  | _, [] => 0
  | s, q :: qs => total s.1 s.2 q / 2 ^ 32 + lost (batch s q) qs

/-- What a history returns, panics (`none`) recovered, from sums `a` and `b` on. -/
def expectRec : Nat × Nat → List Op → List (Option Out)
  | _, [] => []
  | s, .write p :: ops =>
    if Accepts p then some (.wrote p.length false) :: expectRec (write s p) ops else none :: expectRec s ops
  | s, .sum inp :: ops => some (.bytes (inp ++ [BitVec.ofNat 8 s.2, BitVec.ofNat 8 s.1])) :: expectRec s ops
  | s, .sumN :: ops => some (.num (s.2 * 256 + s.1)) :: expectRec s ops
  | _, .reset :: ops => some .unit :: expectRec (0, 0) ops
  | s, .size :: ops => some (.num 2) :: expectRec s ops
  | s, .blockSize :: ops => some (.num 1) :: expectRec s ops

end Fletcher16Spec
