import Verif.Go.Basic

/-! # Blocks and padding, as in MD4 -/
namespace BlockSpec

/-- The 64-byte blocks of a message. -/
def blocks (m : List U8) : List (List U8) := (List.range (m.length / 64)).map fun i => (m.drop (64 * i)).take 64

/-- A number as `n` bytes, least significant first. -/
def leBytes : (n v : Nat) → List U8
  | 0, _ => []
  | n + 1, v => BitVec.ofNat 8 v :: leBytes n (v / 256)

/-- A number as `n` bytes, most significant first. -/
def beBytes (n v : Nat) : List U8 := (leBytes n v).reverse

/-- One bit, the fewest zero bits that leave room for the size field, and the size field. -/
def padWith (size m : List U8) : List U8 :=
  m ++ 0x80#8 :: List.replicate ((64 - (m.length + 1 + size.length) % 64) % 64) 0#8 ++ size

/-- A collision of the compression function that turns up while hashing the block sequences `bs` and `bs'`: two different
inputs (chaining value, block), each reached by a prefix, with the same result. -/
def Collision {τ : Type} (comp : τ → List U8 → τ) (iv : τ) (bs bs' : List (List U8)) : Prop :=
  ∃ p b p' b', p ++ [b] <+: bs ∧ p' ++ [b'] <+: bs' ∧ (p.foldl comp iv, b) ≠ (p'.foldl comp iv, b') ∧
    comp (p.foldl comp iv) b = comp (p'.foldl comp iv) b'

end BlockSpec
