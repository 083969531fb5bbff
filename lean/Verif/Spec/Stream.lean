import Verif.Go.Hash

/-!
# What `hash.Hash` promises

The abstract object is the list of all bytes written since creation or the last `Reset`. Every result is a
function of that list: chunk boundaries, earlier `Sum` calls and resets leave no trace.
-/
namespace HashSpec
open GoHash

/-- A digest algorithm: total functions of the message. -/
structure Algo where
  /-- bytes appended by `Sum` -/
  digest : List U8 → List U8
  /-- value of `SumN`, if the type has it -/
  num : List U8 → Option Nat
  size : Nat
  blockSize : Nat

/-- The results the interface contract prescribes for a history, when `log` has been written so far. -/
def expectFrom (A : Algo) : (log : List U8) → List Op → List Out
  | _, [] => []
  | log, .write p :: ops => .wrote p.length false :: expectFrom A (log ++ p) ops
  | log, .sum inp :: ops => .bytes (inp ++ A.digest log) :: expectFrom A log ops
  | log, .sumN :: ops => (match A.num log with | some n => .num n | none => .unit) :: expectFrom A log ops
  | _, .reset :: ops => .unit :: expectFrom A [] ops
  | log, .size :: ops => .num A.size :: expectFrom A log ops
  | log, .blockSize :: ops => .num A.blockSize :: expectFrom A log ops

/-- The results prescribed for a history of a new object. -/
def expect (A : Algo) (ops : List Op) : List Out := expectFrom A [] ops

/-- The bytes written since creation or the last `Reset` in a history. -/
def logFrom : (log : List U8) → List Op → List U8
  | log, [] => log
  | log, .write p :: ops => logFrom (log ++ p) ops
  | _, .reset :: ops => logFrom [] ops
  | log, _ :: ops => logFrom log ops

/-- All writes of a history satisfy `W log p`, where `log` is what was written since the last `Reset`. -/
def writesOk (W : List U8 → List U8 → Prop) : (log : List U8) → List Op → Prop
  | _, [] => True
  | log, .write p :: ops => W log p ∧ writesOk W (log ++ p) ops
  | _, .reset :: ops => writesOk W [] ops
  | log, _ :: ops => writesOk W log ops

/-- In every state that a history with writes in `W` reaches: `Sum` appends `Size()` bytes to its argument, and `Size` and
`BlockSize` are what they were for the new object. -/
def SizeContract {σ : Type} (I : Impl σ) (W : List U8 → List U8 → Prop) : Prop :=
  ∀ ops s₀ s outs inp, writesOk W [] ops → I.new = .ok s₀ → runFrom I s₀ ops = .ok (s, outs) →
    (∃ s' out, I.sum s inp = .ok (s', inp ++ out) ∧ out.length = I.size s) ∧
      I.size s = I.size s₀ ∧ I.blockSize s = I.blockSize s₀

end HashSpec
