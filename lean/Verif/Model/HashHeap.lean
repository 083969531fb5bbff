import Verif.Go.Mem
import Verif.Go.Hash

/-!
# Programs that use several hash objects and share memory between calls

The calls of `Write` and `Sum` take slices of the caller's memory. `Write` only reads its argument (`copy` into the array of the
object in hash/ripemd/shared.go:144-168 and hash/whirlpool/whirlpool.go:101-123, element reads in the checksums); `Sum` ends in
`append(in, …)` (hash/ripemd/shared.go:205, hash/whirlpool/whirlpool.go:160, checksum/fletcher/fletcher16.go:60, fletcher32.go:66,
fletcher64.go:74, checksum/bcc/bcc.go:33, checksum/lrc/lrc.go:32), which writes into the spare capacity of `in` if that suffices.
The objects hold numbers and arrays only, so their memory is apart from the caller's.
-/
namespace HashHeap
open GoHash

/-- A Go `[]byte` value with its capacity. The nil slice has length and capacity 0. -/
structure Buf where
  base : Nat
  len : Nat
  cap : Nat
  deriving DecidableEq, Repr

/-- The elements up to the length. -/
def Buf.slice (b : Buf) : Slice := ⟨b.base, b.len⟩

/-- Memory after the bytes `d` were stored from address `x` on. -/
def store (m : Mem) (x : Nat) (d : List U8) : Mem := fun y => if x ≤ y then (d[y - x]?).getD (m y) else m y

/-- The variables of a program: the caller's memory, of which the addresses below `top` are allocated, and the hash objects. -/
structure World (σ : Type) where
  mem : Mem
  top : Nat
  objs : List σ

/-- `append(b, d...)` (Go specification, Appending to slices): within the capacity it writes in place; otherwise the result is a new
array, of which Go may choose `extra` spare elements; these are zero. -/
def append {σ : Type} (w : World σ) (b : Buf) (d : List U8) (extra : Nat) : World σ × Buf :=
  if b.len + d.length ≤ b.cap then
    ({ w with mem := store w.mem (b.base + b.len) d }, ⟨b.base, b.len + d.length, b.cap⟩)
  else
    ({ w with mem := store w.mem w.top (Slice.content w.mem b.slice ++ d ++ List.replicate extra 0#8),
              top := w.top + (b.len + d.length + extra) },
      ⟨w.top, b.len + d.length, b.len + d.length + extra⟩)

/-- What a program does: create an object, call a method of the `i`th object, store a byte, allocate `n` bytes. -/
inductive Call where
  | new
  | write (i : Nat) (p : Buf)
  | sum (i : Nat) (inp : Buf) (extra : Nat)
  | sumN (i : Nat)
  | reset (i : Nat)
  | size (i : Nat)
  | blockSize (i : Nat)
  | set (x : Nat) (v : U8)
  | make (n : Nat)
  deriving DecidableEq, Repr

/-- A slice of allocated memory. -/
def Buf.Alloc (b : Buf) (top : Nat) : Prop := b.len ≤ b.cap ∧ b.base + b.cap ≤ top

/-- The call can be written: the object exists and the memory is allocated. -/
def Legal {σ : Type} (w : World σ) : Call → Prop
  | .new => True
  | .write i p => i < w.objs.length ∧ p.Alloc w.top
  | .sum i b _ => i < w.objs.length ∧ b.Alloc w.top
  | .sumN i => i < w.objs.length
  | .reset i => i < w.objs.length
  | .size i => i < w.objs.length
  | .blockSize i => i < w.objs.length
  | .set x _ => x < w.top
  | .make _ => True

/-- What is seen of a method call: the object, the call with the bytes its argument had then, the result with the bytes it had on
return, and the slice returned by `Sum`. -/
structure Event where
  obj : Nat
  op : Op
  out : Out
  ret : Option Buf
  deriving DecidableEq, Repr

/-- One call. (A method of an object that does not exist cannot be written; it is a panic here.) -/
def step {σ : Type} (I : Impl σ) (w : World σ) : Call → Res (World σ × List Event)
  | .new => do
    let s ← I.new
    return ({ w with objs := w.objs ++ [s] }, [])
  | .write i p => do
    let s ← goIdx w.objs i
    let (s, n, e) ← I.write s (Slice.content w.mem p.slice)
    return ({ w with objs := w.objs.set i s }, [⟨i, .write (Slice.content w.mem p.slice), .wrote n e, none⟩])
  | .sum i b extra => do
    let s ← goIdx w.objs i
    let (s, d) ← I.sum s []
    let (w', r) := append w b d extra
    return ({ w' with objs := w.objs.set i s },
      [⟨i, .sum (Slice.content w.mem b.slice), .bytes (Slice.content w'.mem r.slice), some r⟩])
  | .sumN i => do
    let s ← goIdx w.objs i
    return (w, [⟨i, .sumN, match I.sumN s with | some n => .num n | none => .unit, none⟩])
  | .reset i => do
    let s ← goIdx w.objs i
    let s ← I.reset s
    return ({ w with objs := w.objs.set i s }, [⟨i, .reset, .unit, none⟩])
  | .size i => do
    let s ← goIdx w.objs i
    return (w, [⟨i, .size, .num (I.size s), none⟩])
  | .blockSize i => do
    let s ← goIdx w.objs i
    return (w, [⟨i, .blockSize, .num (I.blockSize s), none⟩])
  | .set x v => .ok ({ w with mem := store w.mem x [v] }, [])
  | .make n => .ok ({ w with mem := store w.mem w.top (List.replicate n 0#8), top := w.top + n }, [])

/-- A sequence of calls; panics if one of them does. -/
def runs {σ : Type} (I : Impl σ) : World σ → List Call → Res (World σ × List Event)
  | w, [] => .ok (w, [])
  | w, c :: cs => do
    let (w, ev) ← step I w c
    let (w, evs) ← runs I w cs
    return (w, ev ++ evs)

/-- All calls of a program can be written, in the states in which they are executed. -/
def LegalAll {σ : Type} (I : Impl σ) : World σ → List Call → Prop
  | _, [] => True
  | w, c :: cs => Legal w c ∧ ∀ w' ev, step I w c = .ok (w', ev) → LegalAll I w' cs

/-- No object, no memory allocated. -/
def start {σ : Type} : World σ := ⟨fun _ => 0#8, 0, []⟩

/-- The method calls of the `i`th object in a run. -/
def opsOf (i : Nat) (evs : List Event) : List Op := (evs.filter (·.obj = i)).map (·.op)

/-- Their results. -/
def outsOf (i : Nat) (evs : List Event) : List Out := (evs.filter (·.obj = i)).map (·.out)

end HashHeap
