import Verif.Go.Basic

/-! # Model of package `endian` -/
namespace Endian

/-- The two `binary.ByteOrder` values used. -/
inductive ByteOrder where
  | littleEndian
  | bigEndian
  deriving DecidableEq, Repr

/-- `ByteOrder.Uint16` of the standard library, on two bytes. -/
def ByteOrder.uint16 : ByteOrder → U8 × U8 → U16
  | .littleEndian, (b0, b1) => b0.setWidth 16 ||| b1.setWidth 16 <<< 8
  | .bigEndian, (b0, b1) => b1.setWidth 16 ||| b0.setWidth 16 <<< 8

/-- The package's variables. -/
structure Vars where
  platform : ByteOrder
  sourceCode : ByteOrder
  network : ByteOrder
  deriving DecidableEq, Repr

/-- `init`, endian/endian.go:20-39. The platform is given by what a `uint16` store writes at the two addresses of `b`
(line 28): `store v = (b[0], b[1])`. -/
def init (store : U16 → U8 × U8) : Res Vars :=
  let sourceCode := ByteOrder.bigEndian
  let network := ByteOrder.bigEndian
  let b := store 0xABCD#16
  if b.1 = 0xCD#8 then .ok ⟨.littleEndian, sourceCode, network⟩
  else if b.1 = 0xAB#8 then .ok ⟨.bigEndian, sourceCode, network⟩
  else .panic

end Endian
