import Verif.Model.Checksum

/-!
# The tables of the tests below checksum/

Generated by tools/gen_conformance.py. These are tests of the model, not proofs about the code.
-/
namespace Conformance

open GoHash

def bcc : List (List U8 × Nat × List U8) := [
  ([], 0x0, [0x00]),
  ([0x00], 0x0, [0x00]),
  ([0x00, 0x00], 0x0, [0x00]),
  ([0x00, 0x00, 0x00], 0x0, [0x00]),
  ([0x00, 0x00, 0x00, 0x00], 0x0, [0x00]),
  ([0x01, 0x02], 0x3, [0x03]),
  ([0x01, 0x02, 0x03], 0x0, [0x00]),
  ([0x57, 0x69, 0x6b, 0x69, 0x70, 0x65, 0x64, 0x69, 0x61], 0x45, [0x45]),
  ([0x46, 0x72, 0x65, 0x64, 0x64, 0x79], 0x28, [0x28]),
  ([0x61], 0x61, [0x61]),
  ([0x61, 0x62], 0x3, [0x03]),
  ([0x61, 0x62, 0x63], 0x60, [0x60]),
  ([0x61, 0x62, 0x63, 0x64], 0x4, [0x04]),
  ([0x61, 0x62, 0x63, 0x64, 0x65], 0x61, [0x61]),
  ([0x61, 0x62, 0x63, 0x64, 0x65, 0x66], 0x7, [0x07]),
  ([0x61, 0x62, 0x63, 0x64, 0x65, 0x66, 0x67], 0x60, [0x60]),
  ([0x61, 0x62, 0x63, 0x64, 0x65, 0x66, 0x67, 0x68], 0x8, [0x08]),
  ([0x67, 0x6e, 0x61, 0x62, 0x67, 0x69, 0x62], 0x66, [0x66]),
  ([0x42, 0x43, 0x43, 0x58, 0x4f, 0x52], 0x7, [0x07]),
  ([0xff, 0xee, 0xdd], 0xcc, [0xcc]),
  ([0x66], 0x66, [0x66]),
  ([0x66, 0x6f], 0x9, [0x09]),
  ([0x66, 0x6f, 0x6f], 0x66, [0x66]),
  ([0x66, 0x6f, 0x6f, 0x62], 0x4, [0x04]),
  ([0x66, 0x6f, 0x6f, 0x62, 0x61], 0x65, [0x65]),
  ([0x66, 0x6f, 0x6f, 0x62, 0x61, 0x72], 0x17, [0x17]),
  ([0x66, 0x6f, 0x6f, 0x20, 0x62, 0x61, 0x72, 0x20, 0x62, 0x61, 0x7a, 0xd9, 0xaa, 0xe2, 0x98, 0x83, 0xf0, 0x9f, 0x8d, 0xa3], 0xa5,
    [0xa5])]

/-- checksum/bcc/bcc_test.go. -/
example : ∀ r ∈ bcc, run Bcc.impl [.write r.1, .sumN, .sum []] = .ok [.wrote r.1.length false, .num r.2.1, .bytes r.2.2] := by
  decide +kernel

def lrc : List (List U8 × Nat × List U8) := [
  ([], 0x0, [0x00]),
  ([0x00], 0x0, [0x00]),
  ([0x00, 0x00], 0x0, [0x00]),
  ([0x00, 0x00, 0x00], 0x0, [0x00]),
  ([0x00, 0x00, 0x00, 0x00], 0x0, [0x00]),
  ([0x01, 0x02], 0xfd, [0xfd]),
  ([0x01, 0x02, 0x03], 0xfa, [0xfa]),
  ([0x57, 0x69, 0x6b, 0x69, 0x70, 0x65, 0x64, 0x69, 0x61], 0x69, [0x69]),
  ([0x61], 0x9f, [0x9f]),
  ([0x61, 0x62], 0x3d, [0x3d]),
  ([0x61, 0x62, 0x63], 0xda, [0xda]),
  ([0x61, 0x62, 0x63, 0x64], 0x76, [0x76]),
  ([0x61, 0x62, 0x63, 0x64, 0x65], 0x11, [0x11]),
  ([0x61, 0x62, 0x63, 0x64, 0x65, 0x66], 0xab, [0xab]),
  ([0x61, 0x62, 0x63, 0x64, 0x65, 0x66, 0x67], 0x44, [0x44]),
  ([0x61, 0x62, 0x63, 0x64, 0x65, 0x66, 0x67, 0x68], 0xdc, [0xdc]),
  ([0x67, 0x6e, 0x61, 0x62, 0x67, 0x69, 0x62], 0x36, [0x36]),
  ([0xff, 0xee, 0xdd], 0x36, [0x36]),
  ([0x66], 0x9a, [0x9a]),
  ([0x66, 0x6f], 0x2b, [0x2b]),
  ([0x66, 0x6f, 0x6f], 0xbc, [0xbc]),
  ([0x66, 0x6f, 0x6f, 0x62], 0x5a, [0x5a]),
  ([0x66, 0x6f, 0x6f, 0x62, 0x61], 0xf9, [0xf9]),
  ([0x66, 0x6f, 0x6f, 0x62, 0x61, 0x72], 0x87, [0x87]),
  ([0x66, 0x6f, 0x6f, 0x20, 0x62, 0x61, 0x72, 0x20, 0x62, 0x61, 0x7a, 0xd9, 0xaa, 0xe2, 0x98, 0x83, 0xf0, 0x9f, 0x8d, 0xa3], 0xcb,
    [0xcb])]

/-- checksum/lrc/lrc_test.go. -/
example : ∀ r ∈ lrc, run Lrc.impl [.write r.1, .sumN, .sum []] = .ok [.wrote r.1.length false, .num r.2.1, .bytes r.2.2] := by
  decide +kernel

def fletcher16 : List (List U8 × Nat × List U8) := [
  ([0x61, 0x62, 0x63, 0x64, 0x65], 0xc8f0, [0xc8, 0xf0]),
  ([0x61, 0x62, 0x63, 0x64, 0x65, 0x66], 0x2057, [0x20, 0x57]),
  ([0x61, 0x62, 0x63, 0x64, 0x65, 0x66, 0x67, 0x68], 0x627, [0x06, 0x27]),
  ([], 0x0, [0x00, 0x00]),
  ([0x00], 0x0, [0x00, 0x00]),
  ([0x00, 0x00], 0x0, [0x00, 0x00]),
  ([0x00, 0x00, 0x00], 0x0, [0x00, 0x00]),
  ([0x00, 0x00, 0x00, 0x00], 0x0, [0x00, 0x00]),
  ([0x01], 0x101, [0x01, 0x01]),
  ([0x01, 0x02], 0x403, [0x04, 0x03]),
  ([0x01, 0x02, 0x03], 0xa06, [0x0a, 0x06]),
  ([0x61], 0x6161, [0x61, 0x61]),
  ([0x61, 0x62], 0x25c3, [0x25, 0xc3]),
  ([0x61, 0x62, 0x63], 0x4c27, [0x4c, 0x27]),
  ([0x61, 0x62, 0x63, 0x64], 0xd78b, [0xd7, 0x8b]),
  ([0x66], 0x6666, [0x66, 0x66]),
  ([0x66, 0x6f], 0x3cd5, [0x3c, 0xd5]),
  ([0x66, 0x6f, 0x6f], 0x8145, [0x81, 0x45]),
  ([0x66, 0x6f, 0x6f, 0x62], 0x29a7, [0x29, 0xa7]),
  ([0x66, 0x6f, 0x6f, 0x62, 0x61], 0x3209, [0x32, 0x09]),
  ([0x66, 0x6f, 0x6f, 0x62, 0x61, 0x72], 0xad7b, [0xad, 0x7b]),
  ([0x31, 0x32, 0x33, 0x34, 0x35, 0x36, 0x37, 0x38, 0x39], 0x1ede, [0x1e, 0xde]),
  ([0x66, 0x6f, 0x6f, 0x20, 0x62, 0x61, 0x72, 0x20, 0x62, 0x61, 0x7a, 0xd9, 0xaa, 0xe2, 0x98, 0x83, 0xf0, 0x9f, 0x8d, 0xa3],
    0x493f, [0x49, 0x3f]),
  ([0x67, 0x6e, 0x61, 0x62, 0x67, 0x69, 0x62], 0x46cc, [0x46, 0xcc]),
  ([0x5a], 0x5a5a, [0x5a, 0x5a])]

/-- checksum/fletcher/fletcher16_test.go. -/
example : ∀ r ∈ fletcher16, run Fletcher.impl16 [.write r.1, .sumN, .sum []] = .ok [.wrote r.1.length false, .num r.2.1, .bytes r.2.2] := by
  decide +kernel

def fletcher32 : List (List U8 × Nat × List U8) := [
  ([0x61, 0x62, 0x63, 0x64, 0x65], 0xf04fc729, [0xf0, 0x4f, 0xc7, 0x29]),
  ([0x61, 0x62, 0x63, 0x64, 0x65, 0x66], 0x56502d2a, [0x56, 0x50, 0x2d, 0x2a]),
  ([0x61, 0x62, 0x63, 0x64, 0x65, 0x66, 0x67, 0x68], 0xebe19591, [0xeb, 0xe1, 0x95, 0x91]),
  ([], 0x0, [0x00, 0x00, 0x00, 0x00]),
  ([0x00], 0x0, [0x00, 0x00, 0x00, 0x00]),
  ([0x00, 0x00], 0x0, [0x00, 0x00, 0x00, 0x00]),
  ([0x00, 0x00, 0x00], 0x0, [0x00, 0x00, 0x00, 0x00]),
  ([0x00, 0x00, 0x00, 0x00], 0x0, [0x00, 0x00, 0x00, 0x00]),
  ([0x01], 0x10001, [0x00, 0x01, 0x00, 0x01]),
  ([0x01, 0x02], 0x2010201, [0x02, 0x01, 0x02, 0x01]),
  ([0x01, 0x02, 0x03], 0x4050204, [0x04, 0x05, 0x02, 0x04]),
  ([0x61], 0x610061, [0x00, 0x61, 0x00, 0x61]),
  ([0x61, 0x00], 0x610061, [0x00, 0x61, 0x00, 0x61]),
  ([0x61, 0x00, 0x00], 0xc20061, [0x00, 0xc2, 0x00, 0x61]),
  ([0x61, 0x00, 0x00, 0x00], 0xc20061, [0x00, 0xc2, 0x00, 0x61]),
  ([0x61, 0x62], 0x62616261, [0x62, 0x61, 0x62, 0x61]),
  ([0x61, 0x62, 0x63], 0xc52562c4, [0xc5, 0x25, 0x62, 0xc4]),
  ([0x61, 0x62, 0x63, 0x64], 0x2926c6c4, [0x29, 0x26, 0xc6, 0xc4]),
  ([0x66], 0x660066, [0x00, 0x66, 0x00, 0x66]),
  ([0x66, 0x6f], 0x6f666f66, [0x6f, 0x66, 0x6f, 0x66]),
  ([0x66, 0x6f, 0x6f], 0xdf3b6fd5, [0xdf, 0x3b, 0x6f, 0xd5]),
  ([0x66, 0x6f, 0x6f, 0x62], 0x413cd1d5, [0x41, 0x3c, 0xd1, 0xd5]),
  ([0x66, 0x6f, 0x6f, 0x62, 0x61], 0x1373d236, [0x13, 0x73, 0xd2, 0x36]),
  ([0x66, 0x6f, 0x6f, 0x62, 0x61, 0x72], 0x85734437, [0x85, 0x73, 0x44, 0x37]),
  ([0x31, 0x32, 0x33, 0x34, 0x35, 0x36, 0x37, 0x38, 0x39], 0xdf09d509, [0xdf, 0x09, 0xd5, 0x09]),
  ([0x66, 0x6f, 0x6f, 0x20, 0x62, 0x61, 0x72, 0x20, 0x62, 0x61, 0x7a, 0xd9, 0xaa, 0xe2, 0x98, 0x83, 0xf0, 0x9f, 0x8d, 0xa3],
    0xecb2f648, [0xec, 0xb2, 0xf6, 0x48]),
  ([0x67, 0x6e, 0x61, 0x62, 0x67, 0x69, 0x62], 0xb3f23a92, [0xb3, 0xf2, 0x3a, 0x92])]

/-- checksum/fletcher/fletcher32_test.go. -/
example : ∀ r ∈ fletcher32, run Fletcher.impl32 [.write r.1, .sumN, .sum []] = .ok [.wrote r.1.length false, .num r.2.1, .bytes r.2.2] := by
  decide +kernel

def fletcher64 : List (List U8 × Nat × List U8) := [
  ([0x61, 0x62, 0x63, 0x64, 0x65], 0xc8c6c527646362c6, [0xc8, 0xc6, 0xc5, 0x27, 0x64, 0x63, 0x62, 0xc6]),
  ([0x61, 0x62, 0x63, 0x64, 0x65, 0x66], 0xc8c72b276463c8c6, [0xc8, 0xc7, 0x2b, 0x27, 0x64, 0x63, 0xc8, 0xc6]),
  ([0x61, 0x62, 0x63, 0x64, 0x65, 0x66, 0x67, 0x68], 0x312e2b28cccac8c6, [0x31, 0x2e, 0x2b, 0x28, 0xcc, 0xca, 0xc8, 0xc6]),
  ([], 0x0, [0x00, 0x00, 0x00, 0x00, 0x00, 0x00, 0x00, 0x00]),
  ([0x00], 0x0, [0x00, 0x00, 0x00, 0x00, 0x00, 0x00, 0x00, 0x00]),
  ([0x00, 0x00], 0x0, [0x00, 0x00, 0x00, 0x00, 0x00, 0x00, 0x00, 0x00]),
  ([0x00, 0x00, 0x00], 0x0, [0x00, 0x00, 0x00, 0x00, 0x00, 0x00, 0x00, 0x00]),
  ([0x00, 0x00, 0x00, 0x00], 0x0, [0x00, 0x00, 0x00, 0x00, 0x00, 0x00, 0x00, 0x00]),
  ([0x01], 0x100000001, [0x00, 0x00, 0x00, 0x01, 0x00, 0x00, 0x00, 0x01]),
  ([0x01, 0x02], 0x20100000201, [0x00, 0x00, 0x02, 0x01, 0x00, 0x00, 0x02, 0x01]),
  ([0x01, 0x02, 0x03], 0x3020100030201, [0x00, 0x03, 0x02, 0x01, 0x00, 0x03, 0x02, 0x01]),
  ([0x61], 0x6100000061, [0x00, 0x00, 0x00, 0x61, 0x00, 0x00, 0x00, 0x61]),
  ([0x61, 0x00], 0x6100000061, [0x00, 0x00, 0x00, 0x61, 0x00, 0x00, 0x00, 0x61]),
  ([0x61, 0x00, 0x00], 0x6100000061, [0x00, 0x00, 0x00, 0x61, 0x00, 0x00, 0x00, 0x61]),
  ([0x61, 0x00, 0x00, 0x00], 0x6100000061, [0x00, 0x00, 0x00, 0x61, 0x00, 0x00, 0x00, 0x61]),
  ([0x61, 0x62], 0x626100006261, [0x00, 0x00, 0x62, 0x61, 0x00, 0x00, 0x62, 0x61]),
  ([0x61, 0x62, 0x63], 0x63626100636261, [0x00, 0x63, 0x62, 0x61, 0x00, 0x63, 0x62, 0x61]),
  ([0x61, 0x62, 0x63, 0x64], 0x6463626164636261, [0x64, 0x63, 0x62, 0x61, 0x64, 0x63, 0x62, 0x61]),
  ([0x66], 0x6600000066, [0x00, 0x00, 0x00, 0x66, 0x00, 0x00, 0x00, 0x66]),
  ([0x66, 0x6f], 0x6f6600006f66, [0x00, 0x00, 0x6f, 0x66, 0x00, 0x00, 0x6f, 0x66]),
  ([0x66, 0x6f, 0x6f], 0x6f6f66006f6f66, [0x00, 0x6f, 0x6f, 0x66, 0x00, 0x6f, 0x6f, 0x66]),
  ([0x66, 0x6f, 0x6f, 0x62], 0x626f6f66626f6f66, [0x62, 0x6f, 0x6f, 0x66, 0x62, 0x6f, 0x6f, 0x66]),
  ([0x66, 0x6f, 0x6f, 0x62, 0x61], 0xc4dedf2d626f6fc7, [0xc4, 0xde, 0xdf, 0x2d, 0x62, 0x6f, 0x6f, 0xc7]),
  ([0x66, 0x6f, 0x6f, 0x62, 0x61, 0x72], 0xc4df512d626fe1c7, [0xc4, 0xdf, 0x51, 0x2d, 0x62, 0x6f, 0xe1, 0xc7]),
  ([0x31, 0x32, 0x33, 0x34, 0x35, 0x36, 0x37, 0x38, 0x39], 0xd0803376c6a689f, [0x0d, 0x08, 0x03, 0x37, 0x6c, 0x6a, 0x68, 0x9f]),
  ([0x66, 0x6f, 0x6f, 0x20, 0x62, 0x61, 0x72, 0x20, 0x62, 0x61, 0x7a, 0xd9, 0xaa, 0xe2, 0x98, 0x83, 0xf0, 0x9f, 0x8d, 0xa3],
    0x5b253bf54182b4c6, [0x5b, 0x25, 0x3b, 0xf5, 0x41, 0x82, 0xb4, 0xc6]),
  ([0x67, 0x6e, 0x61, 0x62, 0x67, 0x69, 0x62], 0xc525463562c3d7ce, [0xc5, 0x25, 0x46, 0x35, 0x62, 0xc3, 0xd7, 0xce])]

/-- checksum/fletcher/fletcher64_test.go. -/
example : ∀ r ∈ fletcher64, run Fletcher.impl64 [.write r.1, .sumN, .sum []] = .ok [.wrote r.1.length false, .num r.2.1, .bytes r.2.2] := by
  decide +kernel

def luhn : List (U64 × U8) := [
  (7992739871, 3),
  (79927398710, 4),
  (1234567, 4),
  (12345678, 2),
  (123456789, 7),
  (1234567890, 3),
  (4992739871, 6),
  (123456781234567, 0),
  (411111111111111, 1),
  (123456781234567, 0),
  (987654321, 7),
  (1, 8),
  (10, 9),
  (100, 8),
  (1000, 9),
  (10000, 8),
  (2, 6),
  (12, 5),
  (212, 1),
  (1212, 0),
  (21212, 6),
  (18, 2),
  (182, 6),
  (1826, 7),
  (18267, 5)]

/-- checksum/luhn/luhn_test.go. -/
example : ∀ r ∈ luhn, Luhn.Checksum r.1 = r.2 := by decide +kernel

end Conformance
