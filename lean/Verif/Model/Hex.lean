import Verif.Go.Basic

/-! # Model of package `encoding/hex` -/
namespace Hex

/-- `hexTable`, encoding/hex/hex.go:15. -/
def hexTable : List U8 := ascii "0123456789ABCDEF"

/-- The two error values `ToBytes` can return: `ErrLength` (hex.go:18) and
`invalidHexAtError{Byte,At}` (hex.go:21-24, built by `InvalidHexAt`, hex.go:31-33). -/
inductive HexErr where
  | errLength
  | invalidHexAt (byte : U8) (at_ : Nat)
  deriving DecidableEq, Repr

/-- Go's conversion `string(b)` of a byte (used in hex.go:27): the UTF-8 encoding of the code point `b`. -/
def stringOfByte (b : U8) : List U8 :=
  if b < 0x80#8 then [b] else [0xC0#8 ||| (b >>> 6), 0x80#8 ||| (b &&& 0x3F#8)]

/-- The digits `fmt` prints for a natural number with `%d` (used in hex.go:27): the last digit is `n % 10`,
the others are those of `n / 10`. -/
def fmtNat (n : Nat) : List U8 :=
  if n < 10 then [BitVec.ofNat 8 (48 + n)] else fmtNat (n / 10) ++ [BitVec.ofNat 8 (48 + n % 10)]

/-- `fmt`'s `%d` for an `int`. -/
def fmtInt (n : Int) : List U8 :=
  if n < 0 then 45#8 :: fmtNat n.natAbs else fmtNat n.natAbs

/-- `InvalidHexAt(b, at).Error()`, encoding/hex/hex.go:26-33: `Sprintf("Invalid hex: %s @ %d", string(b), at)`. -/
def invalidText (b : U8) (at_ : Int) : List U8 :=
  ascii "Invalid hex: " ++ stringOfByte b ++ ascii " @ " ++ fmtInt at_

/-- `Error()` of the errors `ToBytes` returns: `ErrLength`'s text (hex.go:18) or `invalidText`. -/
def HexErr.text : HexErr → List U8
  | .errLength => ascii "hex string must be composed of pairs of hex values"
  | .invalidHexAt b at_ => invalidText b at_

/-- One row of sixteen `~` (0x7E) of the table in hex_256b.go:12-25. -/
def tilde16 : List U8 := List.replicate 16 0x7e#8

/-- `asciiDecode`, encoding/hex/hex_256b.go:12-25, row by row as in the source. -/
def asciiDecode : List U8 :=
  tilde16 ++ tilde16 ++                                                            -- 0-31
  tilde16 ++ ([0, 1, 2, 3, 4, 5, 6, 7, 8, 9] ++ List.replicate 6 0x7e#8) ++         -- 32-63
  ([0x7e#8, 0x0A, 0x0B, 0x0C, 0x0D, 0x0E, 0x0F] ++ List.replicate 9 0x7e#8) ++ tilde16 ++  -- 64-95
  ([0x7e#8, 0x0A, 0x0B, 0x0C, 0x0D, 0x0E, 0x0F] ++ List.replicate 9 0x7e#8) ++ tilde16 ++  -- 96-127
  tilde16 ++ tilde16 ++ tilde16 ++ tilde16 ++ tilde16 ++ tilde16 ++ tilde16 ++ tilde16     -- 128+

theorem asciiDecode_length : asciiDecode.length = 256 := by decide +kernel

/-- `decode` of the default build, encoding/hex/hex_256b.go:28-30. The index is a byte and the table
has 256 entries, so the Go index expression cannot panic. -/
def decode256 (b : U8) : U8 :=
  asciiDecode[b.toNat]'(by rw [asciiDecode_length]; exact b.isLt)

/-- `mask6`, encoding/hex/hex_tiny.go:11. -/
def mask6 : U8 := 0b11011111#8

/-- `decode` of the `tiny` build, encoding/hex/hex_tiny.go:14-36. -/
def decodeTiny (b : U8) : U8 :=
  let b := if b > 57#8 then b &&& mask6 else b
  let b := b - 48#8
  b - 7#8 * ((b + 15#8) >>> 5)

/-- Which of the two mutually exclusive files (build tag `tiny`) is compiled in. -/
inductive Build where
  | table
  | tiny
  deriving DecidableEq, Repr

/-- `decode` as selected by the build tag. -/
def decode : Build → U8 → U8
  | .table => decode256
  | .tiny => decodeTiny

/-- Loop of `FromBytes`, encoding/hex/hex.go:40-46; `src` is what is left of the input.
Simplification: the range index `i` only selects `src[i]`, so the loop recurses on the remaining input. -/
def fromBytesLoop : (src : List U8) → (ptr : Nat) → (ret : List U8) → Res (List U8)
  | [], _, ret => .ok ret
  | b :: src, ptr, ret => do
    let ret ← goSet ret ptr (← goIdx hexTable (b >>> 4).toNat)
    let ret ← goSet ret (ptr + 1) (← goIdx hexTable (b &&& 0xF#8).toNat)
    fromBytesLoop src (ptr + 2) ret

/-- `FromBytes`, encoding/hex/hex.go:36-48. -/
def FromBytes (src : List U8) : Res (List U8) :=
  fromBytesLoop src 0 (List.replicate (src.length * 2) 0#8)

/-- What `ToBytes` returns: the slice (`none` = nil) and the error (`none` = nil). -/
structure ToBytesRet where
  slice : Option (List U8)
  err : Option HexErr
  deriving DecidableEq, Repr

/-- Loop and epilogue of `ToBytes`, encoding/hex/hex.go:61-83. -/
def toBytesLoop (build : Build) (hex : List U8) (i ptr : Nat) (ret : List U8) : Res ToBytesRet :=
  if _h : i < hex.length then do
    let hi ← goIdx hex (i - 1)
    let lo ← goIdx hex i
    let high := decode build hi
    let low := decode build lo
    if high &&& 0xF0#8 ≠ 0#8 then
      return ⟨none, some (.invalidHexAt hi (i - 1))⟩
    else if low &&& 0xF0#8 ≠ 0#8 then
      return ⟨none, some (.invalidHexAt lo i)⟩
    else
      let ret ← goSet ret ptr (high <<< 4 ||| low)
      toBytesLoop build hex (i + 2) (ptr + 1) ret
  else if hex.length &&& 1 = 1 then do
    let c ← goIdx hex (i - 1)
    if decode build c > 15#8 then
      return ⟨none, some (.invalidHexAt c (i - 1))⟩
    else
      return ⟨none, some .errLength⟩
  else
    return ⟨some ret, none⟩
termination_by hex.length - i

/-- `ToBytes`, encoding/hex/hex.go:54-84. -/
def ToBytes (build : Build) (hex : List U8) : Res ToBytesRet :=
  toBytesLoop build hex 1 0 (List.replicate (hex.length / 2) 0#8)

/-- Loop and epilogue of `ToBytesFast`, encoding/hex/hex.go:96-110; `none` is the nil slice. -/
def toBytesFastLoop (build : Build) (hex : List U8) (i ptr : Nat) (ret : List U8) :
    Res (Option (List U8)) :=
  if _h : i < hex.length then do
    let high := decode build (← goIdx hex (i - 1))
    let low := decode build (← goIdx hex i)
    if (high ||| low) &&& 0xF0#8 ≠ 0#8 then
      return none
    else
      let ret ← goSet ret ptr (high <<< 4 ||| low)
      toBytesFastLoop build hex (i + 2) (ptr + 1) ret
  else if hex.length &&& 1 = 1 then
    return none
  else
    return some ret
termination_by hex.length - i

/-- `ToBytesFast`, encoding/hex/hex.go:89-111. -/
def ToBytesFast (build : Build) (hex : List U8) : Res (Option (List U8)) :=
  toBytesFastLoop build hex 1 0 (List.replicate (hex.length / 2) 0#8)

end Hex
