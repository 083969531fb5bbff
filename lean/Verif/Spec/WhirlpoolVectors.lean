import Verif.Spec.Whirlpool
import Verif.Go.Basic

/-! # The Whirlpool specification on the ISO test vectors -/
namespace WhirlpoolSpec

example : (whirlpool []).take 16 = [0x19, 0xfa, 0x61, 0xd7, 0x55, 0x22, 0xa4, 0x66, 0x9b, 0x44, 0xe3, 0x9c, 0x1d, 0x2e, 0x17, 0x26] := by
  decide +kernel
example : (whirlpool (ascii "abc")).take 16 = [0x4e, 0x24, 0x48, 0xa4, 0xc6, 0xf4, 0x86, 0xbb, 0x16, 0xb6, 0x56, 0x2c, 0x73, 0xb4,
    0x02, 0x0b] := by decide +kernel

end WhirlpoolSpec
