import Verif.Spec.Stream
import Verif.Spec.Fletcher16

/-!
# What objects say that remember how the bytes were cut into writes

The abstract object is the list of all slices written since creation or the last `Reset`. For objects that keep the contract of
`hash.Hash` only the concatenation matters (`stream`); the others are described exactly.
-/
namespace ChunkSpec
open GoHash HashSpec ChecksumSpec

/-- Functions of the slices written. -/
structure Chunked where
  /-- bytes appended by `Sum` -/
  digest : List (List U8) → List U8
  /-- value of `SumN`, if the type has it -/
  num : List (List U8) → Option Nat
  size : Nat
  blockSize : Nat
  /-- the slices for which `Write` does not panic -/
  accepts : List U8 → Bool

/-- What a history returns, panics (`none`) recovered, when `cs` have been written so far. A `Write` that panics leaves no trace. -/
def saidFrom (A : Chunked) : (cs : List (List U8)) → List Op → List (Option Out)
  | _, [] => []
  | cs, .write p :: ops => if A.accepts p then some (.wrote p.length false) :: saidFrom A (cs ++ [p]) ops else none :: saidFrom A cs ops
  | cs, .sum inp :: ops => some (.bytes (inp ++ A.digest cs)) :: saidFrom A cs ops
  | cs, .sumN :: ops => some (match A.num cs with | some n => .num n | none => .unit) :: saidFrom A cs ops
  | _, .reset :: ops => some .unit :: saidFrom A [] ops
  | cs, .size :: ops => some (.num A.size) :: saidFrom A cs ops
  | cs, .blockSize :: ops => some (.num A.blockSize) :: saidFrom A cs ops

/-- What a history of a new object returns. -/
def said (A : Chunked) (ops : List Op) : List (Option Out) := saidFrom A [] ops

/-- A function of all bytes, wherever they were cut. -/
def stream (A : Algo) : Chunked where
  digest cs := A.digest cs.flatten
  num cs := A.num cs.flatten
  size := A.size
  blockSize := A.blockSize
  accepts _ := true

/-- The byte sum of each slice, the last with sign `-`, the one before with sign `+`, and so on. -/
def alternating : List (List U8) → Int
  | [] => 0
  | p :: cs => (if cs.length % 2 = 0 then - (byteSum p : Int) else byteSum p) + alternating cs

/-- What lrc.go computes: the sum has the right sign for the last slice, and every second one before it. -/
def lrc : Chunked where
  digest cs := [BitVec.ofInt 8 (alternating cs)]
  num cs := some (alternating cs % 256).toNat
  size := 1
  blockSize := 1
  accepts _ := true

/-- What fletcher32.go (`k` = 2) and fletcher64.go (`k` = 4) compute: each slice is filled up with zeros to whole words. -/
def fletcher (k : Nat) : Chunked where
  digest cs := beBytes (2 * k) (ChecksumSpec.fletcher k (cs.flatMap (words k)))
  num cs := some (ChecksumSpec.fletcher k (cs.flatMap (words k)))
  size := 2 * k
  blockSize := k
  accepts _ := true

/-- What fletcher16.go computes: see `Fletcher16Spec`. -/
def fletcher16 : Chunked where
  digest cs := let s := cs.foldl Fletcher16Spec.write (0, 0); [BitVec.ofNat 8 s.2, BitVec.ofNat 8 s.1]
  num cs := let s := cs.foldl Fletcher16Spec.write (0, 0); some (s.2 * 256 + s.1)
  size := 2
  blockSize := 1
  accepts p := decide (Fletcher16Spec.Accepts p)

end ChunkSpec
