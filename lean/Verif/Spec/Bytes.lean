import Verif.Go.Mem

/-! # Specification for package `bytes`: byte strings as numbers -/
namespace BytesSpec

/-- Value of bytes, least significant first. -/
def leVal : List U8 → Nat
  | [] => 0
  | b :: l => b.toNat + 256 * leVal l

/-- Value of bytes, most significant first. -/
def beVal (l : List U8) : Nat := l.foldl (fun n b => 256 * n + b.toNat) 0

/-- The sizes of the `Add` functions. -/
inductive Width where
  | w16 | w32 | w64 | w128 | w256 | w512
  deriving DecidableEq, Repr

/-- Size in bytes. -/
def Width.bytes : Width → Nat
  | .w16 => 2 | .w32 => 4 | .w64 => 8 | .w128 => 16 | .w256 => 32 | .w512 => 64

/-- The first `n` elements of a slice. -/
abbrev firstN (s : Slice) (n : Nat) : Slice := ⟨s.base, min n s.len⟩

/-- `m'` differs from `m` at most on `s`. -/
def OnlyOn (s : Slice) (m m' : Mem) : Prop := ∀ x, ¬ s.Has x → m' x = m x

end BytesSpec
