import Verif.Go.Basic

/-!
# The `hash.Hash` interface as a state machine

`checksum.Hash8`/`Hash16` (checksum/hash.go:5-15) and the standard `hash.Hash`, `hash.Hash32`, `hash.Hash64`.
A history is a list of method calls on one object; `run` collects what each call returns.
-/
namespace GoHash

/-- A method call on a hash object. `sumN` is `Sum8`/`Sum16`/`Sum32`/`Sum64`, where the type has one. -/
inductive Op where
  | write (p : List U8)
  | sum (inp : List U8)
  | sumN
  | reset
  | size
  | blockSize
  deriving DecidableEq, Repr

/-- What a method call returns. For `Write` the count and whether the error was non-nil. -/
inductive Out where
  | wrote (n : Nat) (err : Bool)
  | bytes (b : List U8)
  | num (n : Nat)
  | unit
  deriving DecidableEq, Repr

/-- An implementation: every method takes the receiver and returns its new value, so a method that should not
change the receiver must be proved not to. -/
structure Impl (σ : Type) where
  new : Res σ
  write : σ → List U8 → Res (σ × Nat × Bool)
  sum : σ → List U8 → Res (σ × List U8)
  sumN : σ → Option Nat
  reset : σ → Res σ
  size : σ → Nat
  blockSize : σ → Nat

/-- One method call. (`sumN` on a type without such a method returns `unit`; it cannot be written in Go.) -/
def step {σ : Type} (I : Impl σ) (s : σ) : Op → Res (σ × Out)
  | .write p => do
    let (s, n, e) ← I.write s p
    return (s, .wrote n e)
  | .sum inp => do
    let (s, b) ← I.sum s inp
    return (s, .bytes b)
  | .sumN => match I.sumN s with
    | some n => .ok (s, .num n)
    | none => .ok (s, .unit)
  | .reset => do
    let s ← I.reset s
    return (s, .unit)
  | .size => .ok (s, .num (I.size s))
  | .blockSize => .ok (s, .num (I.blockSize s))

/-- A sequence of method calls on an existing object; panics if any call does. -/
def runFrom {σ : Type} (I : Impl σ) : σ → List Op → Res (σ × List Out)
  | s, [] => .ok (s, [])
  | s, op :: ops => do
    let (s, o) ← step I s op
    let (s, os) ← runFrom I s ops
    return (s, o :: os)

/-- A sequence of method calls on a new object: the list of results. -/
def run {σ : Type} (I : Impl σ) (ops : List Op) : Res (List Out) := do
  let s ← I.new
  let (_, os) ← runFrom I s ops
  return os

end GoHash
