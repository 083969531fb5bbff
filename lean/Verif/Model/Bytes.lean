import Verif.Go.Mem

/-!
# Model of package `bytes`

Each function takes the memory and returns the memory it leaves. An `error` result is `true` when not nil.
-/
namespace Bytes

/-- `Zero`, bytes/Zero.go:9-17. -/
def Zero (m : Mem) (target : Slice) : Mem :=
  if _h : target.len > 8 then
    let m := Slice.copyStr m target (List.replicate 8 0#8)
    Zero m ⟨target.base + 8, target.len - 8⟩
  else Slice.copyStr m target (List.replicate 8 0#8)
termination_by target.len

/-- Loop of `XorEq`, bytes/Xor.go:15-17, with `k` iterations left. -/
def xorLoop (dst other : Slice) : (k i : Nat) → Mem → Res Mem
  | 0, _, m => .ok m
  | k + 1, i, m => do
    let d ← dst.get m i
    let o ← other.get m i
    let m ← dst.set m i (d ^^^ o)
    xorLoop dst other k (i + 1) m

/-- `XorEq`, bytes/Xor.go:9-19. -/
def XorEq (m : Mem) (dst other : Slice) : Res (Mem × Nat) := do
  let n := if other.len < dst.len then other.len else dst.len
  let m ← xorLoop dst other n 0 m
  return (m, n)

/-- `padLE`, bytes/pad.go:10-29. `&dst[0]==&src[0]` is only evaluated when `sn>0` and panics
if either slice is empty (it never is then). -/
def padLE (m : Mem) (dst src : Slice) (n : Nat) : Res (Mem × Bool) :=
  if dst.len < n then .ok (m, true)
  else do
    let sn := if src.len < n then src.len else n
    if sn > 0 ∧ (dst.len = 0 ∨ src.len = 0) then .panic
    else if sn > 0 ∧ dst.base = src.base then return (m, false)
    else
      let src' ← src.sub 0 sn
      let m := Slice.copy m dst src'
      if sn < n then
        let rest ← dst.sub sn n
        return (Zero m rest, false)
      else return (m, false)

/-- `padBE`, bytes/pad.go:33-47. -/
def padBE (m : Mem) (dst src : Slice) (n : Nat) : Res (Mem × Bool) :=
  if dst.len < n then .ok (m, true)
  else do
    let sn := if src.len < n then src.len else n
    let front ← dst.sub 0 (n - sn)
    let m := if sn < n then Zero m front else m
    let back ← dst.drop (n - sn)
    return (Slice.copy m back src, false)

/-- The optional byte `b[0]` of `addEq8`, bytes/Add.go:99-102. -/
def head16 (m : Mem) (b : Slice) : Res U16 :=
  if b.len > 0 then (fun x : U8 => x.setWidth 16) <$> b.get m 0 else .ok 0#16

/-- `addEq8`, bytes/Add.go:97-107. -/
def addEq8 (m : Mem) (sum b : Slice) (carryBit : U8) : Res (Mem × U8) := do
  let a16 : U16 := (← sum.get m 0).setWidth 16
  let b16 ← head16 m b
  let c16 := a16 + b16 + (carryBit &&& 1#8).setWidth 16
  let m ← sum.set m 0 (c16.setWidth 8)
  return (m, (c16 >>> 8).setWidth 8)

/-- `binary.LittleEndian.Uint32`. -/
def leUint32 (m : Mem) (s : Slice) : Res U32 := do
  let b3 ← s.get m 3
  let b0 ← s.get m 0
  let b1 ← s.get m 1
  let b2 ← s.get m 2
  return b0.setWidth 32 ||| b1.setWidth 32 <<< 8 ||| b2.setWidth 32 <<< 16 ||| b3.setWidth 32 <<< 24

/-- `binary.LittleEndian.PutUint32`. -/
def lePutUint32 (m : Mem) (s : Slice) (v : U32) : Res Mem := do
  let _ ← s.get m 3
  let m ← s.set m 0 (v.setWidth 8)
  let m ← s.set m 1 ((v >>> 8).setWidth 8)
  let m ← s.set m 2 ((v >>> 16).setWidth 8)
  s.set m 3 ((v >>> 24).setWidth 8)

/-- `binary.BigEndian.Uint32`. -/
def beUint32 (m : Mem) (s : Slice) : Res U32 := do
  let b3 ← s.get m 3
  let b0 ← s.get m 0
  let b1 ← s.get m 1
  let b2 ← s.get m 2
  return b3.setWidth 32 ||| b2.setWidth 32 <<< 8 ||| b1.setWidth 32 <<< 16 ||| b0.setWidth 32 <<< 24

/-- `binary.BigEndian.PutUint32`. -/
def bePutUint32 (m : Mem) (s : Slice) (v : U32) : Res Mem := do
  let _ ← s.get m 3
  let m ← s.set m 0 ((v >>> 24).setWidth 8)
  let m ← s.set m 1 ((v >>> 16).setWidth 8)
  let m ← s.set m 2 ((v >>> 8).setWidth 8)
  s.set m 3 (v.setWidth 8)

/-- `binary.LittleEndian.Uint16`. -/
def leUint16 (m : Mem) (s : Slice) : Res U16 := do
  let b1 ← s.get m 1
  let b0 ← s.get m 0
  return b0.setWidth 16 ||| b1.setWidth 16 <<< 8

/-- `binary.LittleEndian.PutUint16`. -/
def lePutUint16 (m : Mem) (s : Slice) (v : U16) : Res Mem := do
  let _ ← s.get m 1
  let m ← s.set m 0 (v.setWidth 8)
  s.set m 1 ((v >>> 8).setWidth 8)

/-- `binary.BigEndian.Uint16`. -/
def beUint16 (m : Mem) (s : Slice) : Res U16 := do
  let b1 ← s.get m 1
  let b0 ← s.get m 0
  return b1.setWidth 16 ||| b0.setWidth 16 <<< 8

/-- `binary.BigEndian.PutUint16`. -/
def bePutUint16 (m : Mem) (s : Slice) (v : U16) : Res Mem := do
  let _ ← s.get m 1
  let m ← s.set m 0 ((v >>> 8).setWidth 8)
  s.set m 1 (v.setWidth 8)

/-- Loop `for i := 0; i < n; i++ { x += uint(b[i]) << (8 * i) }`, bytes/AddLE.go:132-134 and 155-157, `k` iterations left. -/
def gatherLE {w : Nat} (m : Mem) (b : Slice) : (k i : Nat) → BitVec w → Res (BitVec w)
  | 0, _, x => .ok x
  | k + 1, i, x => do gatherLE m b k (i + 1) (x + (← b.get m i).setWidth w <<< (8 * i))

/-- Loop `for i := 0; i < n; i++ { x = x<<8 | uint(b[i]) }`, bytes/AddBE.go:129-131 and 152-154, `k` iterations left. -/
def gatherBE {w : Nat} (m : Mem) (b : Slice) : (k i : Nat) → BitVec w → Res (BitVec w)
  | 0, _, x => .ok x
  | k + 1, i, x => do gatherBE m b k (i + 1) (x <<< 8 ||| (← b.get m i).setWidth w)

/-- `addEq32LE`, bytes/AddLE.go:125-140. -/
def addEq32LE (m : Mem) (sum b : Slice) (carryBit : U8) : Res (Mem × U8) := do
  let a64 : U64 := (← leUint32 m sum).setWidth 64
  let n := if b.len < 4 then b.len else 4
  let b64 : U64 ← gatherLE m b n 0 0#64
  let c64 := a64 + b64 + (carryBit &&& 1#8).setWidth 64
  let m ← lePutUint32 m sum (c64.setWidth 32)
  return (m, (c64 >>> 32).setWidth 8)

/-- `addEq16LE`, bytes/AddLE.go:147-163. -/
def addEq16LE (m : Mem) (sum b : Slice) (carryBit : U8) : Res (Mem × U8) := do
  let a32 : U32 := (← leUint16 m sum).setWidth 32
  let n := if b.len < 2 then b.len else 2
  let b32 : U32 ← gatherLE m b n 0 0#32
  let c32 := a32 + b32 + (carryBit &&& 1#8).setWidth 32
  let m ← lePutUint16 m sum (c32.setWidth 16)
  return (m, (c32 >>> 16).setWidth 8)

/-- `addEq32BE`, bytes/AddBE.go:122-137. -/
def addEq32BE (m : Mem) (sum b : Slice) (carryBit : U8) : Res (Mem × U8) := do
  let a64 : U64 := (← beUint32 m sum).setWidth 64
  let n := if b.len < 4 then b.len else 4
  let b64 : U64 ← gatherBE m b n 0 0#64
  let c64 := a64 + b64 + (carryBit &&& 1#8).setWidth 64
  let m ← bePutUint32 m sum (c64.setWidth 32)
  return (m, (c64 >>> 32).setWidth 8)

/-- `addEq16BE`, bytes/AddBE.go:144-160. -/
def addEq16BE (m : Mem) (sum b : Slice) (carryBit : U8) : Res (Mem × U8) := do
  let a32 : U32 := (← beUint16 m sum).setWidth 32
  let n := if b.len < 2 then b.len else 2
  let b32 : U32 ← gatherBE m b n 0 0#32
  let c32 := a32 + b32 + (carryBit &&& 1#8).setWidth 32
  let m ← bePutUint16 m sum (c32.setWidth 16)
  return (m, (c32 >>> 16).setWidth 8)

/-- First loop of `addAnyLE`, bytes/AddLE.go:86-89; `k` bounds the remaining `in32 - numU32` iterations. -/
def loopLE1 (sum : Slice) : (k numU32 : Nat) → Mem → (b : Slice) → (carry : U8) → Res (Mem × Nat × Slice × U8)
  | 0, numU32, m, b, carry => .ok (m, numU32, b, carry)
  | k + 1, numU32, m, b, carry =>
    if b.len > 4 then do
      let s ← sum.drop (numU32 * 4)
      let (m, carry) ← addEq32LE m s b carry
      let b ← b.drop 4
      loopLE1 sum k (numU32 + 1) m b carry
    else .ok (m, numU32, b, carry)

/-- Last loop of `addAnyLE`, bytes/AddLE.go:97-99 (`empty` has no elements, its address is irrelevant). -/
def loopLE2 (sum : Slice) : (k numU32 : Nat) → Mem → (carry : U8) → Res (Mem × U8)
  | 0, _, m, carry => .ok (m, carry)
  | k + 1, numU32, m, carry => do
    let s ← sum.drop (numU32 * 4)
    let (m, carry) ← addEq32LE m s ⟨0, 0⟩ carry
    loopLE2 sum k (numU32 + 1) m carry

/-- The partial `b` step of `addAnyLE`, bytes/AddLE.go:91-95. -/
def partLE (sum : Slice) (in32 numU32 : Nat) (m : Mem) (b : Slice) (carry : U8) : Res (Mem × Nat × Slice × U8) :=
  if b.len > 0 ∧ numU32 < in32 then do
    let s ← sum.drop (numU32 * 4)
    let (m, carry) ← addEq32LE m s b carry
    let b ← b.drop b.len
    return (m, numU32 + 1, b, carry)
  else .ok (m, numU32, b, carry)

/-- `if len(b) == 1 { b = b[1:] } else if len(b) >= 2 { b = b[2:] }`, bytes/AddLE.go:106-110. -/
def dropTwoLE (b : Slice) : Res Slice :=
  if b.len = 1 then b.drop 1 else if b.len ≥ 2 then b.drop 2 else .ok b

/-- The last one to three bytes of `addAnyLE`, bytes/AddLE.go:102-116; `numU32` equals `in32` by then. -/
def tailLE (sum : Slice) (in32 in8 : Nat) (m : Mem) (b : Slice) (carry : U8) : Res (Mem × U8 × Bool) :=
  if in8 > 1 then do
    let s ← sum.drop (in32 * 4)
    let (m, carry) ← addEq16LE m s b carry
    let b ← dropTwoLE b
    if in8 - 2 > 0 then
      let s ← sum.drop (in32 * 4 + 1 * 2)
      let (m, carry) ← addEq8 m s b carry
      return (m, carry, false)
    else return (m, carry, false)
  else if in8 > 0 then do
    let s ← sum.drop (in32 * 4 + 0 * 2)
    let (m, carry) ← addEq8 m s b carry
    return (m, carry, false)
  else return (m, carry, false)

/-- `addAnyLE`, bytes/AddLE.go:74-118. -/
def addAnyLE (m : Mem) (sum a b : Slice) (byteSize : Nat) : Res (Mem × U8 × Bool) := do
  let (m, err) ← padLE m sum a byteSize
  if err then .ok (m, 0#8, true)
  else
    let in32 := byteSize / 4
    let in8 := byteSize % 4
    let (m, numU32, b, carry) ← loopLE1 sum in32 0 m b 0#8
    let (m, numU32, b, carry) ← partLE sum in32 numU32 m b carry
    let (m, carry) ← loopLE2 sum (in32 - numU32) numU32 m carry
    tailLE sum in32 in8 m b carry

/-- First loop of `addAnyBE`, bytes/AddBE.go:84-87; `k` is `in32 + 1`. -/
def loopBE1 (sum : Slice) : (k : Nat) → Mem → (b : Slice) → (carry : U8) → Res (Mem × Nat × Slice × U8)
  | 0, m, b, carry => .ok (m, 0, b, carry)
  | k + 1, m, b, carry =>
    if b.len > 4 then do
      let s ← sum.drop (k * 4)
      let t ← b.drop (b.len - 4)
      let (m, carry) ← addEq32BE m s t carry
      let b ← b.sub 0 (b.len - 4)
      loopBE1 sum k m b carry
    else .ok (m, k + 1, b, carry)

/-- Last loop of `addAnyBE`, bytes/AddBE.go:95-97; `k` is `in32 + 1`. -/
def loopBE2 (sum : Slice) : (k : Nat) → Mem → (carry : U8) → Res (Mem × U8)
  | 0, m, carry => .ok (m, carry)
  | k + 1, m, carry => do
    let s ← sum.drop (k * 4)
    let (m, carry) ← addEq32BE m s ⟨0, 0⟩ carry
    loopBE2 sum k m carry

/-- The partial `b` step of `addAnyBE`, bytes/AddBE.go:89-93; `k` is `in32 + 1`, so `in32 >= 0` is `k > 0`. -/
def partBE (sum : Slice) (k : Nat) (m : Mem) (b : Slice) (carry : U8) : Res (Mem × Nat × Slice × U8) :=
  if b.len > 0 ∧ k > 0 then do
    let s ← sum.drop ((k - 1) * 4)
    let (m, carry) ← addEq32BE m s b carry
    let b ← b.sub 0 0
    return (m, k - 1, b, carry)
  else .ok (m, k, b, carry)

/-- `if len(b) == 1 { b = b[:0] } else if len(b) >= 2 { b = b[:len(b)-2] }`, bytes/AddBE.go:104-108. -/
def dropTwoBE (b : Slice) : Res Slice :=
  if b.len = 1 then b.sub 0 0 else if b.len ≥ 2 then b.sub 0 (b.len - 2) else .ok b

/-- The last one to three bytes of `addAnyBE`, bytes/AddBE.go:100-113. -/
def tailBE (sum : Slice) (in8 : Nat) (m : Mem) (b : Slice) (carry : U8) : Res (Mem × U8 × Bool) :=
  if in8 > 1 then do
    let s ← sum.drop (in8 - 2)
    let (m, carry) ← addEq16BE m s b carry
    let b ← dropTwoBE b
    if in8 - 2 > 0 then
      let (m, carry) ← addEq8 m sum b carry
      return (m, carry, false)
    else return (m, carry, false)
  else if in8 > 0 then do
    let (m, carry) ← addEq8 m sum b carry
    return (m, carry, false)
  else return (m, carry, false)

/-- `addAnyBE`, bytes/AddBE.go:74-115. -/
def addAnyBE (m : Mem) (sum a b : Slice) (byteSize : Nat) : Res (Mem × U8 × Bool) := do
  let (m, err) ← padBE m sum a byteSize
  if err then .ok (m, 0#8, true)
  else
    let (m, k, b, carry) ← loopBE1 sum (byteSize / 4) m b 0#8
    let (m, k, b, carry) ← partBE sum k m b carry
    let (m, carry) ← loopBE2 sum k m carry
    tailBE sum (byteSize % 4) m b carry

/-- `Add16LE`, bytes/AddLE.go:63-70. -/
def Add16LE (m : Mem) (sum a b : Slice) : Res (Mem × U8 × Bool) := do
  let (m, err) ← padLE m sum a 2
  if err then .ok (m, 0#8, true)
  else
    let (m, carry) ← addEq16LE m sum b 0#8
    return (m, carry, false)

/-- `Add32LE`, bytes/AddLE.go:50-57. -/
def Add32LE (m : Mem) (sum a b : Slice) : Res (Mem × U8 × Bool) := do
  let (m, err) ← padLE m sum a 4
  if err then .ok (m, 0#8, true)
  else
    let (m, carry) ← addEq32LE m sum b 0#8
    return (m, carry, false)

/-- `Add64LE`, bytes/AddLE.go:41-44. -/
def Add64LE (m : Mem) (sum a b : Slice) := addAnyLE m sum a b 8
/-- `Add128LE`, bytes/AddLE.go:32-35. -/
def Add128LE (m : Mem) (sum a b : Slice) := addAnyLE m sum a b 16
/-- `Add256LE`, bytes/AddLE.go:23-26. -/
def Add256LE (m : Mem) (sum a b : Slice) := addAnyLE m sum a b 32
/-- `Add512LE`, bytes/AddLE.go:14-17. -/
def Add512LE (m : Mem) (sum a b : Slice) := addAnyLE m sum a b 64

/-- `Add16BE`, bytes/AddBE.go:63-70. -/
def Add16BE (m : Mem) (sum a b : Slice) : Res (Mem × U8 × Bool) := do
  let (m, err) ← padBE m sum a 2
  if err then .ok (m, 0#8, true)
  else
    let (m, carry) ← addEq16BE m sum b 0#8
    return (m, carry, false)

/-- `Add32BE`, bytes/AddBE.go:50-57. -/
def Add32BE (m : Mem) (sum a b : Slice) : Res (Mem × U8 × Bool) := do
  let (m, err) ← padBE m sum a 4
  if err then .ok (m, 0#8, true)
  else
    let (m, carry) ← addEq32BE m sum b 0#8
    return (m, carry, false)

/-- `Add64BE`, bytes/AddBE.go:41-44. -/
def Add64BE (m : Mem) (sum a b : Slice) := addAnyBE m sum a b 8
/-- `Add128BE`, bytes/AddBE.go:32-35. -/
def Add128BE (m : Mem) (sum a b : Slice) := addAnyBE m sum a b 16
/-- `Add256BE`, bytes/AddBE.go:23-26. -/
def Add256BE (m : Mem) (sum a b : Slice) := addAnyBE m sum a b 32
/-- `Add512BE`, bytes/AddBE.go:14-17. -/
def Add512BE (m : Mem) (sum a b : Slice) := addAnyBE m sum a b 64

/-- `Add16`, bytes/Add.go:23-32; `little` is `endian.Platform == binary.LittleEndian`. The error does not stop it. -/
def Add16 (little : Bool) (m : Mem) (sum a b : Slice) : Res (Mem × U8 × Bool) :=
  if little then do
    let (m, err) ← padLE m sum a 2
    let (m, carry) ← addEq16LE m sum b 0#8
    return (m, carry, err)
  else do
    let (m, err) ← padBE m sum a 2
    let (m, carry) ← addEq16BE m sum b 0#8
    return (m, carry, err)

/-- `Add32`, bytes/Add.go:36-45. -/
def Add32 (little : Bool) (m : Mem) (sum a b : Slice) : Res (Mem × U8 × Bool) :=
  if little then do
    let (m, err) ← padLE m sum a 4
    let (m, carry) ← addEq32LE m sum b 0#8
    return (m, carry, err)
  else do
    let (m, err) ← padBE m sum a 4
    let (m, carry) ← addEq32BE m sum b 0#8
    return (m, carry, err)

/-- `Add64`, bytes/Add.go:49-57. -/
def Add64 (little : Bool) (m : Mem) (sum a b : Slice) := if little then Add64LE m sum a b else Add64BE m sum a b
/-- `Add128`, bytes/Add.go:61-68. -/
def Add128 (little : Bool) (m : Mem) (sum a b : Slice) := if little then Add128LE m sum a b else Add128BE m sum a b
/-- `Add256`, bytes/Add.go:72-79. -/
def Add256 (little : Bool) (m : Mem) (sum a b : Slice) := if little then Add256LE m sum a b else Add256BE m sum a b
/-- `Add512`, bytes/Add.go:83-90. -/
def Add512 (little : Bool) (m : Mem) (sum a b : Slice) := if little then Add512LE m sum a b else Add512BE m sum a b

end Bytes
