import Verif.Model.BlockHash
import Verif.Model.WhirlpoolTables

/-! # Model of package `hash/whirlpool` and of the table generator `make_tables.go` -/
namespace Whirlpool
open BlockHash

/-- `K[(i-t)&7] >> (56-8t) & 0xff`: the byte that selects a table entry, hash/whirlpool/whirlpool.go:65-72 and 78-85.
`(i-t)&7` of a two's complement `int` is `i-t` modulo 8. (The code leaves out the `&7` for `t = 0` and the shift by 0 for
`t = 7`.) -/
def sel (K : List U64) (i t : Nat) : Res U64 := do
  let k ← goIdx K (if t = 0 then i else (i + 8 - t) % 8)
  return k >>> (56 - 8 * t) &&& 0xff

/-- The XOR of eight table entries, whirlpool.go:65-72 (on `K`) and 78-85 (on `state`). -/
def lookup (K : List U64) (i : Nat) : Res U64 := do
  let t0 ← goIdx ct (← sel K i 0).toNat
  let t1 ← goIdx ct (256 ||| (← sel K i 1)).toNat
  let t2 ← goIdx ct (512 ||| (← sel K i 2)).toNat
  let t3 ← goIdx ct (768 ||| (← sel K i 3)).toNat
  let t4 ← goIdx ct (1024 ||| (← sel K i 4)).toNat
  let t5 ← goIdx ct (1280 ||| (← sel K i 5)).toNat
  let t6 ← goIdx ct (1536 ||| (← sel K i 6)).toNat
  let t7 ← goIdx ct (1792 ||| (← sel K i 7)).toNat
  return t0 ^^^ t1 ^^^ t2 ^^^ t3 ^^^ t4 ^^^ t5 ^^^ t6 ^^^ t7

/-- Loop whirlpool.go:64-73, `n` iterations left. -/
def keyLoop (K : List U64) : (n i : Nat) → (L : List U64) → Res (List U64)
  | 0, _, L => .ok L
  | n + 1, i, L => do
    let L ← goSet L i (← lookup K i)
    keyLoop K n (i + 1) L

/-- Loop whirlpool.go:75-86, `n` iterations left. -/
def stateLoop (state : List U64) : (n i : Nat) → (K L : List U64) → Res (List U64 × List U64)
  | 0, _, K, L => .ok (K, L)
  | n + 1, i, K, L => do
    let K ← goSet K i (← goIdx L i)
    let L ← goSet L i ((← goIdx L i) ^^^ (← lookup state i))
    stateLoop state n (i + 1) K L

/-- Copy loop whirlpool.go:88-90, `n` iterations left. -/
def copyLoop (L : List U64) : (n i : Nat) → (state : List U64) → Res (List U64)
  | 0, _, state => .ok state
  | n + 1, i, state => do
    let state ← goSet state i (← goIdx L i)
    copyLoop L n (i + 1) state

/-- Round loop whirlpool.go:63-91, `n` iterations left. `L` keeps its value between rounds. -/
def roundLoop : (n r : Nat) → (K state L : List U64) → Res (List U64)
  | 0, _, _, state, _ => .ok state
  | n + 1, r, K, state, L => do
    let L ← keyLoop K 8 0 L
    let L ← goSet L 0 ((← goIdx L 0) ^^^ (← goIdx rc r))
    let (K, L) ← stateLoop state 8 0 K L
    let state ← copyLoop L 8 0 state
    roundLoop n (r + 1) K state L

/-- The big-endian word at `j`, whirlpool.go:51-58. -/
def wordAt (block : List U8) (j : Nat) : Res U64 := do
  let b0 ← goIdx block j
  let b1 ← goIdx block (j + 1)
  let b2 ← goIdx block (j + 2)
  let b3 ← goIdx block (j + 3)
  let b4 ← goIdx block (j + 4)
  let b5 ← goIdx block (j + 5)
  let b6 ← goIdx block (j + 6)
  let b7 ← goIdx block (j + 7)
  return b0.setWidth 64 <<< 56 ||| b1.setWidth 64 <<< 48 ||| b2.setWidth 64 <<< 40 ||| b3.setWidth 64 <<< 32 |||
    b4.setWidth 64 <<< 24 ||| b5.setWidth 64 <<< 16 ||| b6.setWidth 64 <<< 8 ||| b7.setWidth 64

/-- Initialisation loop whirlpool.go:49-61, `n` iterations left. -/
def initLoop (c : Ctx U64) : (n i : Nat) → (x K state : List U64) → Res (List U64 × List U64 × List U64)
  | 0, _, x, K, state => .ok (x, K, state)
  | n + 1, i, x, K, state => do
    let x ← goSet x i (← wordAt c.block (i * 8))
    let K ← goSet K i (← goIdx c.state i)
    let state ← goSet state i ((← goIdx x i) ^^^ (← goIdx K i))
    initLoop c n (i + 1) x K state

/-- Final loop whirlpool.go:94-96, `n` iterations left. -/
def finalLoop (state x : List U64) : (n i : Nat) → (cstate : List U64) → Res (List U64)
  | 0, _, cs => .ok cs
  | n + 1, i, cs => do
    let cs ← goSet cs i ((← goIdx cs i) ^^^ ((← goIdx state i) ^^^ (← goIdx x i)))
    finalLoop state x n (i + 1) cs

/-- A zero `[8]uint64`. -/
def zero8 : List U64 := List.replicate 8 0#64

/-- `hash`, hash/whirlpool/whirlpool.go:42-98. -/
def hash (c : Ctx U64) : Res (Ctx U64) := do
  let (x, K, state) ← initLoop c 8 0 zero8 zero8 zero8
  let state ← roundLoop rounds 0 K state zero8
  let cs ← finalLoop state x 8 0 c.state
  return { c with state := cs, bPos := 0 }

/-- The size bytes, whirlpool.go:145-153. -/
def putSize (block : List U8) (len : U64) : Res (List U8) := do
  let b ← goSet block (blockSizeBytes - 1) ((len <<< 3).setWidth 8)
  let b ← goSet b (blockSizeBytes - 2) ((len >>> 5).setWidth 8)
  let b ← goSet b (blockSizeBytes - 3) ((len >>> 13).setWidth 8)
  let b ← goSet b (blockSizeBytes - 4) ((len >>> 21).setWidth 8)
  let b ← goSet b (blockSizeBytes - 5) ((len >>> 29).setWidth 8)
  let b ← goSet b (blockSizeBytes - 6) ((len >>> 37).setWidth 8)
  let b ← goSet b (blockSizeBytes - 7) ((len >>> 45).setWidth 8)
  let b ← goSet b (blockSizeBytes - 8) ((len >>> 53).setWidth 8)
  goSet b (blockSizeBytes - 9) ((len >>> 61).setWidth 8)

/-- `binary.BigEndian.PutUint64` into a fresh array. -/
def bePut64 (v : U64) : List U8 :=
  [(v >>> 56).setWidth 8, (v >>> 48).setWidth 8, (v >>> 40).setWidth 8, (v >>> 32).setWidth 8,
   (v >>> 24).setWidth 8, (v >>> 16).setWidth 8, (v >>> 8).setWidth 8, v.setWidth 8]

/-- Output loop whirlpool.go:157-159, `m` iterations left; `out` is filled front to back. -/
def outLoop (st : List U64) : (m i : Nat) → (out : List U8) → Res (List U8)
  | 0, _, out => .ok out
  | m + 1, i, out => do outLoop st m (i + 1) (out ++ bePut64 (← goIdx st i))

/-- `sizeSpace`, whirlpool.go:129. -/
def sizeSpace : Nat := blockSizeBytes - 32

/-- whirlpool.go:136-139. -/
def closeBlock (h : Ctx U64) : Res (Ctx U64) :=
  if h.bPos > sizeSpace then do
    let block ← zeroIn h.block h.bPos h.block.length
    hash { h with block := block }
  else .ok h

/-- `Sum`, hash/whirlpool/whirlpool.go:125-161. The receiver is returned as it was: the code works on the copy `h`. -/
def sum (c : Ctx U64) (inp : List U8) : Res (Ctx U64 × List U8) := do
  let h := c
  let block ← goSet h.block h.bPos 0x80#8
  let h := { h with block := block, bPos := h.bPos + 1 }
  let h ← closeBlock h
  let block ← zeroIn h.block h.bPos (blockSizeBytes - 9)
  let block ← putSize block c.len
  let h ← hash { h with block := block }
  let out ← outLoop h.state 8 0 []
  return (c, inp ++ out)

/-- Loop of `Reset`, whirlpool.go:164-166, `m` iterations left. -/
def resetLoop : (m i : Nat) → List U64 → Res (List U64)
  | 0, _, st => .ok st
  | m + 1, i, st => do resetLoop m (i + 1) (← goSet st i 0#64)

/-- `Reset`, hash/whirlpool/whirlpool.go:163-169. -/
def reset (c : Ctx U64) : Res (Ctx U64) := do
  let st ← resetLoop 8 0 c.state
  return { c with state := st, len := 0#64, bPos := 0 }

/-- `New`, hash/whirlpool/whirlpool.go:35-39. -/
def new : Res (Ctx U64) := reset ⟨zero8, 0#64, List.replicate 64 0#8, 0⟩

/-- The object as a `hash.Hash`; `Size` and `BlockSize`, hash/whirlpool/whirlpool.go:171-173. -/
def impl : GoHash.Impl (Ctx U64) where
  new := new
  write := BlockHash.write hash
  sum := sum
  sumN := fun _ => none
  reset := reset
  size := fun _ => 64
  blockSize := fun _ => blockSizeBytes

/-! ## The generator -/

/-- `gfPoly`, make_tables.go:27. -/
def gfPoly : U64 := 0x11d

/-- `v << 1`, reduced, make_tables.go:140-143, 144-147 and 149-152. -/
def gfDouble (v : U64) : U64 := let w := v <<< 1; if w ≥ 0x100 then w ^^^ gfPoly else w

/-- `bits.RotateLeft64(x, -8)`: `s := uint(-8) & 63 = 56; x<<s | x>>(64-s)`. -/
def rotl64m8 (x : U64) : U64 := x <<< 56 ||| x >>> 8

/-- Entry `ct[x]`, make_tables.go:139-157. -/
def genEntry (x : Nat) : Res U64 := do
  let v1 := (← goIdx sBox x).setWidth 64
  let v2 := gfDouble v1
  let v4 := gfDouble v2
  let v5 := v4 ^^^ v1
  let v8 := gfDouble v4
  let v9 := v8 ^^^ v1
  return v1 <<< 56 ||| v1 <<< 48 ||| v4 <<< 40 ||| v1 <<< 32 ||| v8 <<< 24 ||| v5 <<< 16 ||| v2 <<< 8 ||| v9

/-- Inner loop make_tables.go:158-160, `n` iterations left. -/
def genRotLoop (x : Nat) : (n t : Nat) → List U64 → Res (List U64)
  | 0, _, c => .ok c
  | n + 1, t, c => do
    let c ← goSet c (t <<< 8 ||| x) (rotl64m8 (← goIdx c ((t - 1) <<< 8 ||| x)))
    genRotLoop x n (t + 1) c

/-- Outer loop of `buildCirculantTable`, make_tables.go:138-161, `n` iterations left. -/
def genCtLoop : (n x : Nat) → List U64 → Res (List U64)
  | 0, _, c => .ok c
  | n + 1, x, c => do
    let c ← goSet c x (← genEntry x)
    let c ← genRotLoop x 7 1 c
    genCtLoop n (x + 1) c

/-- `buildCirculantTable`, make_tables.go:137-162, on the zero array of line 61. -/
def buildCirculantTable : Res (List U64) := genCtLoop 256 0 (List.replicate 2048 0#64)

/-- The value of `rc[r]`, make_tables.go:166-174. -/
def genRc (c : List U64) (r : Nat) : Res U64 := do
  let r8 := r <<< 3
  let c0 ← goIdx c r8
  let c1 ← goIdx c ((1 <<< 8) ||| (r8 + 1))
  let c2 ← goIdx c ((2 <<< 8) ||| (r8 + 2))
  let c3 ← goIdx c ((3 <<< 8) ||| (r8 + 3))
  let c4 ← goIdx c ((4 <<< 8) ||| (r8 + 4))
  let c5 ← goIdx c ((5 <<< 8) ||| (r8 + 5))
  let c6 ← goIdx c ((6 <<< 8) ||| (r8 + 6))
  let c7 ← goIdx c ((7 <<< 8) ||| (r8 + 7))
  return (c0 &&& 0xff00000000000000) ^^^ (c1 &&& 0x00ff000000000000) ^^^ (c2 &&& 0x0000ff0000000000) ^^^
    (c3 &&& 0x000000ff00000000) ^^^ (c4 &&& 0x00000000ff000000) ^^^ (c5 &&& 0x0000000000ff0000) ^^^
    (c6 &&& 0x000000000000ff00) ^^^ (c7 &&& 0x00000000000000ff)

/-- Loop of `buildRoundConstants`, make_tables.go:165-175, `n` iterations left. -/
def genRcLoop (c : List U64) : (n r : Nat) → List U64 → Res (List U64)
  | 0, _, a => .ok a
  | n + 1, r, a => do genRcLoop c n (r + 1) (← goSet a r (← genRc c r))

/-- `buildRoundConstants`, make_tables.go:164-176, on the zero array of line 60. -/
def buildRoundConstants (c : List U64) : Res (List U64) := genRcLoop c rounds 0 (List.replicate rounds 0#64)

end Whirlpool
