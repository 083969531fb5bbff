import Verif.Model.BlockHash

/-!
# Model of package `hash/ripemd`

`binary.BigEndian.Uint32` and `binary.LittleEndian.Uint32` of a slice panic when it has fewer than 4 bytes, like an index
expression. String constants are lists of bytes.
-/
namespace Ripemd
open BlockHash

/-- `f0`, hash/ripemd/shared.go:18. -/
def f0 (x y z : U32) : U32 := x ^^^ y ^^^ z
/-- `f1`, hash/ripemd/shared.go:19. -/
def f1 (x y z : U32) : U32 := z ^^^ (x &&& (y ^^^ z))
/-- `f2`, hash/ripemd/shared.go:20. -/
def f2 (x y z : U32) : U32 := (x ||| ~~~y) ^^^ z
/-- `f3`, hash/ripemd/shared.go:21. -/
def f3 (x y z : U32) : U32 := y ^^^ (z &&& (x ^^^ y))
/-- `f4`, hash/ripemd/shared.go:22. -/
def f4 (x y z : U32) : U32 := x ^^^ (y ||| ~~~z)
/-- `f`, hash/ripemd/shared.go:103. -/
def f : List (U32 → U32 → U32 → U32) := [f0, f1, f2, f3, f4]

/-- `r`, hash/ripemd/shared.go:25-35. -/
def r : List U8 := [
  0x00, 0x01, 0x02, 0x03, 0x04, 0x05, 0x06, 0x07, 0x08, 0x09, 0x0a, 0x0b, 0x0c, 0x0d, 0x0e, 0x0f,
  0x07, 0x04, 0x0d, 0x01, 0x0a, 0x06, 0x0f, 0x03, 0x0c, 0x00, 0x09, 0x05, 0x02, 0x0e, 0x0b, 0x08,
  0x03, 0x0a, 0x0e, 0x04, 0x09, 0x0f, 0x08, 0x01, 0x02, 0x07, 0x00, 0x06, 0x0d, 0x0b, 0x05, 0x0c,
  0x01, 0x09, 0x0b, 0x0a, 0x00, 0x08, 0x0c, 0x04, 0x0d, 0x03, 0x07, 0x0f, 0x0e, 0x05, 0x06, 0x02,
  0x04, 0x00, 0x05, 0x09, 0x07, 0x0c, 0x02, 0x0a, 0x0e, 0x01, 0x03, 0x08, 0x0b, 0x06, 0x0f, 0x0d]

/-- `rr`, hash/ripemd/shared.go:36-46. -/
def rr : List U8 := [
  0x05, 0x0e, 0x07, 0x00, 0x09, 0x02, 0x0b, 0x04, 0x0d, 0x06, 0x0f, 0x08, 0x01, 0x0a, 0x03, 0x0c,
  0x06, 0x0b, 0x03, 0x07, 0x00, 0x0d, 0x05, 0x0a, 0x0e, 0x0f, 0x08, 0x0c, 0x04, 0x09, 0x01, 0x02,
  0x0f, 0x05, 0x01, 0x03, 0x07, 0x0e, 0x06, 0x09, 0x0b, 0x08, 0x0c, 0x02, 0x0a, 0x00, 0x04, 0x0d,
  0x08, 0x06, 0x04, 0x01, 0x03, 0x0b, 0x0f, 0x00, 0x05, 0x0c, 0x02, 0x0d, 0x09, 0x07, 0x0a, 0x0e,
  0x0c, 0x0f, 0x0a, 0x04, 0x01, 0x05, 0x08, 0x07, 0x06, 0x02, 0x0d, 0x0e, 0x00, 0x03, 0x09, 0x0b]

/-- `s`, hash/ripemd/shared.go:47-57. -/
def s : List U8 := [
  0x0b, 0x0e, 0x0f, 0x0c, 0x05, 0x08, 0x07, 0x09, 0x0b, 0x0d, 0x0e, 0x0f, 0x06, 0x07, 0x09, 0x08,
  0x07, 0x06, 0x08, 0x0d, 0x0b, 0x09, 0x07, 0x0f, 0x07, 0x0c, 0x0f, 0x09, 0x0b, 0x07, 0x0d, 0x0c,
  0x0b, 0x0d, 0x06, 0x07, 0x0e, 0x09, 0x0d, 0x0f, 0x0e, 0x08, 0x0d, 0x06, 0x05, 0x0c, 0x07, 0x05,
  0x0b, 0x0c, 0x0e, 0x0f, 0x0e, 0x0f, 0x09, 0x08, 0x09, 0x0e, 0x05, 0x06, 0x08, 0x06, 0x05, 0x0c,
  0x09, 0x0f, 0x05, 0x0b, 0x06, 0x08, 0x0d, 0x0c, 0x05, 0x0c, 0x0d, 0x0e, 0x0b, 0x08, 0x05, 0x06]

/-- `ss`, hash/ripemd/shared.go:58-68. -/
def ss : List U8 := [
  0x08, 0x09, 0x09, 0x0b, 0x0d, 0x0f, 0x0f, 0x05, 0x07, 0x07, 0x08, 0x0b, 0x0e, 0x0e, 0x0c, 0x06,
  0x09, 0x0d, 0x0f, 0x07, 0x0c, 0x08, 0x09, 0x0b, 0x07, 0x07, 0x0c, 0x07, 0x06, 0x0f, 0x0d, 0x0b,
  0x09, 0x07, 0x0f, 0x0b, 0x08, 0x06, 0x06, 0x0e, 0x0c, 0x0d, 0x05, 0x0e, 0x0d, 0x0d, 0x07, 0x05,
  0x0f, 0x05, 0x08, 0x0b, 0x0e, 0x0e, 0x06, 0x0e, 0x06, 0x09, 0x0c, 0x09, 0x0c, 0x05, 0x0f, 0x08,
  0x08, 0x05, 0x0c, 0x09, 0x0c, 0x05, 0x0e, 0x06, 0x08, 0x0d, 0x06, 0x05, 0x0f, 0x0d, 0x0b, 0x0b]

/-- `k`, hash/ripemd/shared.go:70-74. -/
def k : List U8 := [
  0x00, 0x00, 0x00, 0x00, 0x5a, 0x82, 0x79, 0x99, 0x6e, 0xd9, 0xeb, 0xa1, 0x8f, 0x1b, 0xbc, 0xdc,
  0xa9, 0x53, 0xfd, 0x4e]

/-- `kk`, hash/ripemd/shared.go:76-80. -/
def kk : List U8 := [
  0x50, 0xa2, 0x8b, 0xe6, 0x5c, 0x4d, 0xd1, 0x24, 0x6d, 0x70, 0x3e, 0xf3, 0x7a, 0x6d, 0x76, 0xe9,
  0x00, 0x00, 0x00, 0x00]

/-- `kk128`, hash/ripemd/shared.go:82-85. -/
def kk128 : List U8 := [
  0x50, 0xa2, 0x8b, 0xe6, 0x5c, 0x4d, 0xd1, 0x24, 0x6d, 0x70, 0x3e, 0xf3, 0x00, 0x00, 0x00, 0x00]

/-- `iv`, hash/ripemd/shared.go:86-90. -/
def iv : List U8 := [
  0x67, 0x45, 0x23, 0x01, 0xef, 0xcd, 0xab, 0x89, 0x98, 0xba, 0xdc, 0xfe, 0x10, 0x32, 0x54, 0x76,
  0xc3, 0xd2, 0xe1, 0xf0]

/-- `iv2`, hash/ripemd/shared.go:91-95. -/
def iv2 : List U8 := [
  0x76, 0x54, 0x32, 0x10, 0xfe, 0xdc, 0xba, 0x98, 0x89, 0xab, 0xcd, 0xef, 0x01, 0x23, 0x45, 0x67,
  0x3c, 0x2d, 0x1e, 0x0f]

/-- `bits.RotateLeft32(x, k)` for `k ≥ 0`: `s := uint(k) & 31; return x<<s | x>>(32-s)`. -/
def rotateLeft32 (x : U32) (k : Nat) : U32 := let s := k % 32; x <<< s ||| x >>> (32 - s)

/-- `binary.BigEndian.Uint32`. -/
def beUint32 (b : List U8) : Res U32 := do
  let b3 ← goIdx b 3
  let b2 ← goIdx b 2
  let b1 ← goIdx b 1
  let b0 ← goIdx b 0
  return b3.setWidth 32 ||| b2.setWidth 32 <<< 8 ||| b1.setWidth 32 <<< 16 ||| b0.setWidth 32 <<< 24

/-- `binary.LittleEndian.Uint32`. -/
def leUint32 (b : List U8) : Res U32 := do
  let b3 ← goIdx b 3
  let b2 ← goIdx b 2
  let b1 ← goIdx b 1
  let b0 ← goIdx b 0
  return b0.setWidth 32 ||| b1.setWidth 32 <<< 8 ||| b2.setWidth 32 <<< 16 ||| b3.setWidth 32 <<< 24

/-- Loop of `getX`, hash/ripemd/shared.go:119-121, `k` iterations left. `ret` is filled front to back, so it is modelled by
appending. -/
def getXLoop (block : List U8) : (k i : Nat) → (ret : List U32) → Res (List U32)
  | 0, _, ret => .ok ret
  | k + 1, i, ret => do
    let s ← goSlice block (i * 4) block.length
    let w ← leUint32 s
    getXLoop block k (i + 1) (ret ++ [w])

/-- `getX`, hash/ripemd/shared.go:117-123. -/
def getX (c : Ctx U32) : Res (List U32) := getXLoop c.block 16 0 []

/-- `tk` and `tkk`: `binary.BigEndian.Uint32([]byte(tab[round*4 : round*4+4]))`, e.g. ripe128.go:30-31. -/
def constAt (tab : List U8) (round : Nat) : Res U32 := do beUint32 (← goSlice tab (round * 4) (round * 4 + 4))

/-- The eight local variables of `hash128` and `hash256`. -/
structure Regs4 where
  (a b c d aa bb cc dd : U32)
  deriving DecidableEq, Repr

/-- The ten local variables of `hash160` and `hash320`. -/
structure Regs5 where
  (a b c d e aa bb cc dd ee : U32)
  deriving DecidableEq, Repr

/-- `x[tab[j]]`. -/
def xAt (x : List U32) (tab : List U8) (j : Nat) : Res U32 := do goIdx x (← goIdx tab j).toNat

/-- Body of the inner loop of `hash128`, ripe128.go:34-37, and of the four loops of `hash256`, ripe256.go:33-36, 44-47, 55-58
and 66-69. -/
def step4 (x : List U32) (round : Nat) (tk tkk : U32) (j : Nat) (g : Regs4) : Res Regs4 := do
  let fl ← goIdx f round
  let t := rotateLeft32 (g.a + fl g.b g.c g.d + (← xAt x r j) + tk) (← goIdx s j).toNat
  let g := { g with a := g.d, d := g.c, c := g.b, b := t }
  let fr ← goIdx f (3 - round)
  let t := rotateLeft32 (g.aa + fr g.bb g.cc g.dd + (← xAt x rr j) + tkk) (← goIdx ss j).toNat
  return { g with aa := g.dd, dd := g.cc, cc := g.bb, bb := t }

/-- Inner loop with `n` iterations left. -/
def loop4 (x : List U32) (round : Nat) (tk tkk : U32) : (n j : Nat) → Regs4 → Res Regs4
  | 0, _, g => .ok g
  | n + 1, j, g => do loop4 x round tk tkk n (j + 1) (← step4 x round tk tkk j g)

/-- One round: constants and inner loop, ripe128.go:30-38; ripe256.go:26-37, 40-48, 51-59 and 62-70. -/
def round4 (x : List U32) (round : Nat) (g : Regs4) : Res Regs4 := do
  let tk ← constAt k round
  let tkk ← constAt kk128 round
  loop4 x round tk tkk 16 (round * 16) g

/-- Outer loop of `hash128`, ripe128.go:29-39, `n` rounds left. -/
def rounds4 (x : List U32) : (n round : Nat) → Regs4 → Res Regs4
  | 0, _, g => .ok g
  | n + 1, round, g => do rounds4 x n (round + 1) (← round4 x round g)

/-- `hash128`, hash/ripemd/ripe128.go:17-46. -/
def hash128 (ctx : Ctx U32) : Res (Ctx U32) := do
  let s0 ← goIdx ctx.state 0
  let s1 ← goIdx ctx.state 1
  let s2 ← goIdx ctx.state 2
  let s3 ← goIdx ctx.state 3
  let x ← getX ctx
  let g ← rounds4 x 4 0 ⟨s0, s1, s2, s3, s0, s1, s2, s3⟩
  let t := s1 + g.c + g.dd
  let st ← goSet ctx.state 1 (s2 + g.d + g.aa)
  let st ← goSet st 2 (s3 + g.a + g.bb)
  let st ← goSet st 3 (s0 + g.b + g.cc)
  let st ← goSet st 0 t
  return { ctx with state := st, bPos := 0 }

/-- `hash256`, hash/ripemd/ripe256.go:14-82. -/
def hash256 (ctx : Ctx U32) : Res (Ctx U32) := do
  let s0 ← goIdx ctx.state 0
  let s1 ← goIdx ctx.state 1
  let s2 ← goIdx ctx.state 2
  let s3 ← goIdx ctx.state 3
  let s4 ← goIdx ctx.state 4
  let s5 ← goIdx ctx.state 5
  let s6 ← goIdx ctx.state 6
  let s7 ← goIdx ctx.state 7
  let x ← getX ctx
  let g ← round4 x 0 ⟨s0, s1, s2, s3, s4, s5, s6, s7⟩
  let g := { g with a := g.aa, aa := g.a }
  let g ← round4 x 1 g
  let g := { g with b := g.bb, bb := g.b }
  let g ← round4 x 2 g
  let g := { g with c := g.cc, cc := g.c }
  let g ← round4 x 3 g
  let g := { g with d := g.dd, dd := g.d }
  let st ← goSet ctx.state 0 (s0 + g.a)
  let st ← goSet st 1 (s1 + g.b)
  let st ← goSet st 2 (s2 + g.c)
  let st ← goSet st 3 (s3 + g.d)
  let st ← goSet st 4 (s4 + g.aa)
  let st ← goSet st 5 (s5 + g.bb)
  let st ← goSet st 6 (s6 + g.cc)
  let st ← goSet st 7 (s7 + g.dd)
  return { ctx with state := st, bPos := 0 }

/-- Body of the inner loop of `hash160`, ripe160.go:36-40, and of the five loops of `hash320`, ripe320.go:35-39, 47-51, 59-63,
71-75 and 83-87. -/
def step5 (x : List U32) (round : Nat) (tk tkk : U32) (j : Nat) (g : Regs5) : Res Regs5 := do
  let fl ← goIdx f round
  let t := g.e + rotateLeft32 (g.a + fl g.b g.c g.d + (← xAt x r j) + tk) (← goIdx s j).toNat
  let g := { g with a := g.e, e := g.d, d := rotateLeft32 g.c 10, c := g.b, b := t }
  let fr ← goIdx f (4 - round)
  let t := g.ee + rotateLeft32 (g.aa + fr g.bb g.cc g.dd + (← xAt x rr j) + tkk) (← goIdx ss j).toNat
  return { g with aa := g.ee, ee := g.dd, dd := rotateLeft32 g.cc 10, cc := g.bb, bb := t }

/-- Inner loop with `n` iterations left. -/
def loop5 (x : List U32) (round : Nat) (tk tkk : U32) : (n j : Nat) → Regs5 → Res Regs5
  | 0, _, g => .ok g
  | n + 1, j, g => do loop5 x round tk tkk n (j + 1) (← step5 x round tk tkk j g)

/-- One round: constants and inner loop, ripe160.go:32-41; ripe320.go:28-40, 43-52, 55-64, 67-76 and 79-88. -/
def round5 (x : List U32) (round : Nat) (g : Regs5) : Res Regs5 := do
  let tk ← constAt k round
  let tkk ← constAt kk round
  loop5 x round tk tkk 16 (round * 16) g

/-- Outer loop of `hash160`, ripe160.go:31-42, `n` rounds left. -/
def rounds5 (x : List U32) : (n round : Nat) → Regs5 → Res Regs5
  | 0, _, g => .ok g
  | n + 1, round, g => do rounds5 x n (round + 1) (← round5 x round g)

/-- `hash160`, hash/ripemd/ripe160.go:17-51. -/
def hash160 (ctx : Ctx U32) : Res (Ctx U32) := do
  let s0 ← goIdx ctx.state 0
  let s1 ← goIdx ctx.state 1
  let s2 ← goIdx ctx.state 2
  let s3 ← goIdx ctx.state 3
  let s4 ← goIdx ctx.state 4
  let x ← getX ctx
  let g ← rounds5 x 5 0 ⟨s0, s1, s2, s3, s4, s0, s1, s2, s3, s4⟩
  let t := s1 + g.c + g.dd
  let st ← goSet ctx.state 1 (s2 + g.d + g.ee)
  let st ← goSet st 2 (s3 + g.e + g.aa)
  let st ← goSet st 3 (s4 + g.a + g.bb)
  let st ← goSet st 4 (s0 + g.b + g.cc)
  let st ← goSet st 0 t
  return { ctx with state := st, bPos := 0 }

/-- `hash320`, hash/ripemd/ripe320.go:14-102. -/
def hash320 (ctx : Ctx U32) : Res (Ctx U32) := do
  let s0 ← goIdx ctx.state 0
  let s1 ← goIdx ctx.state 1
  let s2 ← goIdx ctx.state 2
  let s3 ← goIdx ctx.state 3
  let s4 ← goIdx ctx.state 4
  let s5 ← goIdx ctx.state 5
  let s6 ← goIdx ctx.state 6
  let s7 ← goIdx ctx.state 7
  let s8 ← goIdx ctx.state 8
  let s9 ← goIdx ctx.state 9
  let x ← getX ctx
  let g ← round5 x 0 ⟨s0, s1, s2, s3, s4, s5, s6, s7, s8, s9⟩
  let g := { g with b := g.bb, bb := g.b }
  let g ← round5 x 1 g
  let g := { g with d := g.dd, dd := g.d }
  let g ← round5 x 2 g
  let g := { g with a := g.aa, aa := g.a }
  let g ← round5 x 3 g
  let g := { g with c := g.cc, cc := g.c }
  let g ← round5 x 4 g
  let g := { g with e := g.ee, ee := g.e }
  let st ← goSet ctx.state 0 (s0 + g.a)
  let st ← goSet st 1 (s1 + g.b)
  let st ← goSet st 2 (s2 + g.c)
  let st ← goSet st 3 (s3 + g.d)
  let st ← goSet st 4 (s4 + g.e)
  let st ← goSet st 5 (s5 + g.aa)
  let st ← goSet st 6 (s6 + g.bb)
  let st ← goSet st 7 (s7 + g.cc)
  let st ← goSet st 8 (s8 + g.dd)
  let st ← goSet st 9 (s9 + g.ee)
  return { ctx with state := st, bPos := 0 }

/-- The fields of `ripeCtx` that `New128` … `New320` set and nothing changes: ripe128.go:49-55, ripe160.go:54-60,
ripe256.go:85-91, ripe320.go:105-111. -/
structure Variant where
  hash : Ctx U32 → Res (Ctx U32)
  stateLen : Nat

/-- `New128`. -/
def v128 : Variant := ⟨hash128, 4⟩
/-- `New160`. -/
def v160 : Variant := ⟨hash160, 5⟩
/-- `New256`. -/
def v256 : Variant := ⟨hash256, 8⟩
/-- `New320`. -/
def v320 : Variant := ⟨hash320, 10⟩

/-- `binary.BigEndian.Uint32([]byte(tab[i*u32Size:]))`. -/
def ivAt (tab : List U8) (i : Nat) : Res U32 := do beUint32 (← goSlice tab (i * 4) tab.length)

/-- First loop of `Reset`, hash/ripemd/shared.go:130-133, `m` iterations left. -/
def resetLoop2 (n : Nat) : (m i : Nat) → List U32 → Res (List U32)
  | 0, _, st => .ok st
  | m + 1, i, st => do
    let st ← goSet st i (← ivAt iv i)
    let st ← goSet st (i + n) (← ivAt iv2 i)
    resetLoop2 n m (i + 1) st

/-- Second loop of `Reset`, hash/ripemd/shared.go:135-137, `m` iterations left. -/
def resetLoop1 : (m i : Nat) → List U32 → Res (List U32)
  | 0, _, st => .ok st
  | m + 1, i, st => do
    let st ← goSet st i (← ivAt iv i)
    resetLoop1 m (i + 1) st

/-- `Reset`, hash/ripemd/shared.go:125-141. -/
def reset (v : Variant) (c : Ctx U32) : Res (Ctx U32) := do
  let n := v.stateLen
  let st ← if n > 5 then resetLoop2 (n / 2) (n / 2) 0 c.state else resetLoop1 n 0 c.state
  return { c with state := st, len := 0#64, bPos := 0 }

/-- `New128` … `New320`: a zero object, reset. -/
def new (v : Variant) : Res (Ctx U32) := reset v ⟨List.replicate 10 0#32, 0#64, List.replicate 64 0#8, 0⟩

/-- The padding block with the size, hash/ripemd/shared.go:189-196. -/
def putSize (block : List U8) (bPos : Nat) (len : U64) : Res (List U8) := do
  let b ← goSet block bPos ((len <<< 3).setWidth 8)
  let b ← goSet b (bPos + 1) ((len >>> 5).setWidth 8)
  let b ← goSet b (bPos + 2) ((len >>> 13).setWidth 8)
  let b ← goSet b (bPos + 3) ((len >>> 21).setWidth 8)
  let b ← goSet b (bPos + 4) ((len >>> 29).setWidth 8)
  let b ← goSet b (bPos + 5) ((len >>> 37).setWidth 8)
  let b ← goSet b (bPos + 6) ((len >>> 45).setWidth 8)
  goSet b (bPos + 7) ((len >>> 53).setWidth 8)

/-- `binary.LittleEndian.PutUint32` into a fresh array. -/
def lePut32 (v : U32) : List U8 := [v.setWidth 8, (v >>> 8).setWidth 8, (v >>> 16).setWidth 8, (v >>> 24).setWidth 8]

/-- Output loop, hash/ripemd/shared.go:202-204, `m` iterations left; `out` is filled front to back. -/
def outLoop (st : List U32) : (m i : Nat) → (out : List U8) → Res (List U8)
  | 0, _, out => .ok out
  | m + 1, i, out => do outLoop st m (i + 1) (out ++ lePut32 (← goIdx st i))

/-- `sizeSpace`, hash/ripemd/shared.go:99. -/
def sizeSpace : Nat := 56

/-- The part of `Sum` that closes the first block if the size does not fit, hash/ripemd/shared.go:179-182. -/
def closeBlock (v : Variant) (h : Ctx U32) : Res (Ctx U32) :=
  if h.bPos > sizeSpace then do
    let block ← zeroIn h.block h.bPos h.block.length
    v.hash { h with block := block }
  else .ok h

/-- `Sum`, hash/ripemd/shared.go:169-206. The receiver is returned as it was: the code works on the copy `t`
(arrays are copied by assignment). `append(in, out...)` is modelled by its value. -/
def sum (v : Variant) (c : Ctx U32) (inp : List U8) : Res (Ctx U32 × List U8) := do
  let h := c
  let block ← goSet h.block h.bPos 0x80#8
  let h := { h with block := block, bPos := h.bPos + 1 }
  let h ← closeBlock v h
  let block ← zeroIn h.block h.bPos sizeSpace
  let h := { h with block := block, bPos := sizeSpace }
  let block ← putSize h.block h.bPos h.len
  let h := { h with block := block, bPos := h.bPos + 8 }
  let h ← v.hash h
  let out ← outLoop h.state v.stateLen 0 []
  return (c, inp ++ out)

/-- The object as a `hash.Hash`; `Size` and `BlockSize`, hash/ripemd/shared.go:208-210. -/
def impl (v : Variant) : GoHash.Impl (Ctx U32) where
  new := new v
  write := BlockHash.write v.hash
  sum := sum v
  sumN := fun _ => none
  reset := reset v
  size := fun _ => v.stateLen * 4
  blockSize := fun _ => blockSizeBytes

end Ripemd
