import Verif.Model.Hex

/-! # Model of package `codegen` -/
namespace Codegen

/-- Go `int` arithmetic on 64-bit platforms: the value wrapped into `[-2^63, 2^63)`. -/
def int64 (x : Int) : Int := Int.bmod x (2 ^ 64)

/-- `make([]byte, n)`: panics when `n` is negative. -/
def makeBytes (n : Int) : Res (List U8) :=
  if n < 0 then .panic else .ok (List.replicate n.toNat 0#8)

/-- Loop of `BytesToHexSep`, codegen/BytesToHexSep.go:31-48. `h` is what is left of the range, `i` its index. -/
def hexSepLoop (hexPerSection : Int) : (h : List U8) → (i : Nat) → (ret : List U8) → (ptr : Nat) → Res (List U8 × Nat)
  | [], _, ret, ptr => .ok (ret, ptr)
  | b :: h, i, ret, ptr => do
    let (ret, ptr) ←
      if i &&& 1 = 0 then do
        let (ret, ptr) ←
          if ptr > 1 then do
            let ret ← goSet ret ptr 0x2c#8        -- ','
            let ret ← goSet ret (ptr + 1) 0x20#8  -- ' '
            if (i : Int).tmod hexPerSection = 0 then do
              let ret ← goSet ret (ptr + 2) 0x0a#8  -- '\n'
              Res.ok (ret, ptr + 3)
            else Res.ok (ret, ptr + 2)
          else Res.ok (ret, ptr)
        let ret ← goSet ret ptr 0x30#8        -- '0'
        let ret ← goSet ret (ptr + 1) 0x78#8  -- 'x'
        Res.ok (ret, ptr + 2)
      else Res.ok (ret, ptr)
    let ret ← goSet ret ptr b
    hexSepLoop hexPerSection h (i + 1) ret (ptr + 1)

/-- `BytesToHexSep`, codegen/BytesToHexSep.go:13-51. Lengths are unbounded naturals (a slice's length times 6 cannot
overflow on a real machine); `bytesPerSection * 2` wraps as in Go. -/
def BytesToHexSep (inp : List U8) (bytesPerSection : Int) : Res (List U8) :=
  if bytesPerSection < 1 then .panic
  else do
    let h ← Hex.FromBytes inp
    let n : Int := h.length
    let hexPerSection := int64 (bytesPerSection * 2)
    let retLen : Int := inp.length * 6 + (n.tdiv hexPerSection - 1)
    let ret ← makeBytes retLen
    let ret ← goSet ret 0 0x7b#8    -- '{'
    let (ret, ptr) ← hexSepLoop hexPerSection h 0 ret 1
    goSet ret ptr 0x7d#8            -- '}'

/-- Loop of `BytesToString`, codegen/BytesToString.go:19-27. -/
def stringLoop : (h : List U8) → (i : Nat) → (ret : List U8) → (ptr : Nat) → Res (List U8 × Nat)
  | [], _, ret, ptr => .ok (ret, ptr)
  | b :: h, i, ret, ptr => do
    let (ret, ptr) ←
      if i &&& 1 = 0 then do
        let ret ← goSet ret ptr 0x5c#8        -- '\\'
        let ret ← goSet ret (ptr + 1) 0x78#8  -- 'x'
        Res.ok (ret, ptr + 2)
      else Res.ok (ret, ptr)
    let ret ← goSet ret ptr b
    stringLoop h (i + 1) ret (ptr + 1)

/-- `BytesToString`, codegen/BytesToString.go:11-30. -/
def BytesToString (inp : List U8) : Res (List U8) := do
  let h ← Hex.FromBytes inp
  let ret ← makeBytes (h.length * 2 + 2)
  let ret ← goSet ret 0 0x22#8      -- '"'
  let (ret, ptr) ← stringLoop h 0 ret 1
  goSet ret ptr 0x22#8

/-- Loop of `BytesToStringSep`, codegen/BytesToString.go:54-68. -/
def stringSepLoop (hexPerSection : Int) : (h : List U8) → (i : Nat) → (ret : List U8) → (ptr : Nat) → Res (List U8 × Nat)
  | [], _, ret, ptr => .ok (ret, ptr)
  | b :: h, i, ret, ptr => do
    let (ret, ptr) ←
      if i &&& 1 = 0 then do
        let (ret, ptr) ←
          if (i : Int).tmod hexPerSection = 0 ∧ ptr > 1 then do
            let ret ← goSet ret ptr 0x22#8        -- '"'
            let ret ← goSet ret (ptr + 1) 0x2b#8  -- '+'
            let ret ← goSet ret (ptr + 2) 0x22#8  -- '"'
            Res.ok (ret, ptr + 3)
          else Res.ok (ret, ptr)
        let ret ← goSet ret ptr 0x5c#8        -- '\\'
        let ret ← goSet ret (ptr + 1) 0x78#8  -- 'x'
        Res.ok (ret, ptr + 2)
      else Res.ok (ret, ptr)
    let ret ← goSet ret ptr b
    stringSepLoop hexPerSection h (i + 1) ret (ptr + 1)

/-- `BytesToStringSep`, codegen/BytesToString.go:35-71. -/
def BytesToStringSep (inp : List U8) (bytesPerSection : Int) : Res (List U8) :=
  if bytesPerSection < 1 then .panic
  else do
    let h ← Hex.FromBytes inp
    let n : Int := h.length
    let hexPerSection := int64 (bytesPerSection * 2)
    let retLen : Int := n * 2 + 3 * (n.tdiv hexPerSection - 1) + 2
    let ret ← makeBytes retLen
    let ret ← goSet ret 0 0x22#8    -- '"'
    let (ret, ptr) ← stringSepLoop hexPerSection h 0 ret 1
    goSet ret ptr 0x22#8            -- '"'

end Codegen
