import Verif.Go.Hash
import Verif.Model.Bytes

/-!
# Block-buffered hash objects

The object shape and `Write` method that `hash/ripemd/shared.go` and `hash/whirlpool/whirlpool.go` have in common: the two
`Write` bodies are the same text, but for the name of the length field and `c.hash(c)` against `c.hash()`.
-/
namespace BlockHash

/-- `ripeCtx`, hash/ripemd/shared.go:108-115 (without the two constants of the variant), and `ctx`,
hash/whirlpool/whirlpool.go:27-32. -/
structure Ctx (α : Type) where
  state : List α
  len : U64
  block : List U8
  bPos : Nat
  deriving DecidableEq, Repr

/-- `blockSizeBytes`, shared.go:97 and whirlpool.go:20. -/
def blockSizeBytes : Nat := 64

/-- Loop of `Write`, shared.go:149-165 and whirlpool.go:106-121. The first argument bounds the iterations; running out of it
counts as a panic, so any `ok` result is a terminated loop. -/
def writeLoop {α : Type} (hash : Ctx α → Res (Ctx α)) : (fuel : Nat) → Ctx α → (p : List U8) → (nToWrite space : Nat) → Res (Ctx α)
  | 0, _, _, _, _ => .panic
  | fuel + 1, c, p, nToWrite, space =>
    if nToWrite > 0 then
      if space > nToWrite then do
        let block ← goCopyAt c.block c.bPos p
        .ok { c with block := block, bPos := c.bPos + nToWrite }
      else do
        let head ← goSlice p 0 space
        let block ← goCopyAt c.block c.bPos head
        let c ← hash { c with block := block, bPos := c.bPos + space }
        let p ← goSlice p space p.length
        writeLoop hash fuel c p (nToWrite - space) blockSizeBytes
    else .ok c

/-- `Write`, shared.go:143-167 and whirlpool.go:100-123. -/
def write {α : Type} (hash : Ctx α → Res (Ctx α)) (c : Ctx α) (p : List U8) : Res (Ctx α × Nat × Bool) := do
  let n := p.length
  let c := { c with len := c.len + BitVec.ofNat 64 n }
  let c ← writeLoop hash (n + 1) c p n (blockSizeBytes - c.bPos)
  return (c, n, false)

/-- `bytes.Zero(block[lo:hi])` on the object's own block: `Bytes.Zero` in a memory that holds the block at address 0. -/
def zeroIn (block : List U8) (lo hi : Nat) : Res (List U8) := do
  let s ← Slice.sub ⟨0, block.length⟩ lo hi
  return Slice.content (Bytes.Zero (fun x => block.getD x 0#8) s) ⟨0, block.length⟩

end BlockHash
