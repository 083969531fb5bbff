import Verif.Props.Ripemd

/-!
# The tables of the tests in hash/ripemd

The digest is evaluated with the specification, to which the model was proved equal.

Generated by tools/gen_conformance.py. These are tests of the model, not proofs about the code.
-/
namespace Conformance

open Ripemd RipemdSpec GoHash HashSpec

def ripe128 : List (List U8 × List U8) := [
  ([], [0xcd, 0xf2, 0x62, 0x13, 0xa1, 0x50, 0xdc, 0x3e, 0xcb, 0x61, 0x0f, 0x18, 0xf6, 0xb3, 0x8b, 0x46]),
  ([0x61], [0x86, 0xbe, 0x7a, 0xfa, 0x33, 0x9d, 0x0f, 0xc7, 0xcf, 0xc7, 0x85, 0xe7, 0x2f, 0x57, 0x8d, 0x33]),
  ([0x61, 0x62, 0x63], [0xc1, 0x4a, 0x12, 0x19, 0x9c, 0x66, 0xe4, 0xba, 0x84, 0x63, 0x6b, 0x0f, 0x69, 0x14, 0x4c, 0x77]),
  ([0x6d, 0x65, 0x73, 0x73, 0x61, 0x67, 0x65, 0x20, 0x64, 0x69, 0x67, 0x65, 0x73, 0x74], [0x9e, 0x32, 0x7b, 0x3d, 0x6e, 0x52,
    0x30, 0x62, 0xaf, 0xc1, 0x13, 0x2d, 0x7d, 0xf9, 0xd1, 0xb8]),
  ([0x61, 0x62, 0x63, 0x64, 0x65, 0x66, 0x67, 0x68, 0x69, 0x6a, 0x6b, 0x6c, 0x6d, 0x6e, 0x6f, 0x70, 0x71, 0x72, 0x73, 0x74, 0x75,
    0x76, 0x77, 0x78, 0x79, 0x7a], [0xfd, 0x2a, 0xa6, 0x07, 0xf7, 0x1d, 0xc8, 0xf5, 0x10, 0x71, 0x49, 0x22, 0xb3, 0x71, 0x83,
    0x4e]),
  ([0x61, 0x62, 0x63, 0x64, 0x62, 0x63, 0x64, 0x65, 0x63, 0x64, 0x65, 0x66, 0x64, 0x65, 0x66, 0x67, 0x65, 0x66, 0x67, 0x68, 0x66,
    0x67, 0x68, 0x69, 0x67, 0x68, 0x69, 0x6a, 0x68, 0x69, 0x6a, 0x6b, 0x69, 0x6a, 0x6b, 0x6c, 0x6a, 0x6b, 0x6c, 0x6d, 0x6b,
    0x6c, 0x6d, 0x6e, 0x6c, 0x6d, 0x6e, 0x6f, 0x6d, 0x6e, 0x6f, 0x70, 0x6e, 0x6f, 0x70, 0x71], [0xa1, 0xaa, 0x06, 0x89, 0xd0,
    0xfa, 0xfa, 0x2d, 0xdc, 0x22, 0xe8, 0x8b, 0x49, 0x13, 0x3a, 0x06]),
  ([0x41, 0x42, 0x43, 0x44, 0x45, 0x46, 0x47, 0x48, 0x49, 0x4a, 0x4b, 0x4c, 0x4d, 0x4e, 0x4f, 0x50, 0x51, 0x52, 0x53, 0x54, 0x55,
    0x56, 0x57, 0x58, 0x59, 0x5a, 0x61, 0x62, 0x63, 0x64, 0x65, 0x66, 0x67, 0x68, 0x69, 0x6a, 0x6b, 0x6c, 0x6d, 0x6e, 0x6f,
    0x70, 0x71, 0x72, 0x73, 0x74, 0x75, 0x76, 0x77, 0x78, 0x79, 0x7a, 0x30, 0x31, 0x32, 0x33, 0x34, 0x35, 0x36, 0x37, 0x38,
    0x39], [0xd1, 0xe9, 0x59, 0xeb, 0x17, 0x9c, 0x91, 0x1f, 0xae, 0xa4, 0x62, 0x4c, 0x60, 0xc5, 0xc7, 0x02]),
  ([0x31, 0x32, 0x33, 0x34, 0x35, 0x36, 0x37, 0x38, 0x39, 0x30, 0x31, 0x32, 0x33, 0x34, 0x35, 0x36, 0x37, 0x38, 0x39, 0x30, 0x31,
    0x32, 0x33, 0x34, 0x35, 0x36, 0x37, 0x38, 0x39, 0x30, 0x31, 0x32, 0x33, 0x34, 0x35, 0x36, 0x37, 0x38, 0x39, 0x30, 0x31,
    0x32, 0x33, 0x34, 0x35, 0x36, 0x37, 0x38, 0x39, 0x30, 0x31, 0x32, 0x33, 0x34, 0x35, 0x36, 0x37, 0x38, 0x39, 0x30, 0x31,
    0x32, 0x33, 0x34, 0x35, 0x36, 0x37, 0x38, 0x39, 0x30, 0x31, 0x32, 0x33, 0x34, 0x35, 0x36, 0x37, 0x38, 0x39, 0x30], [0x3f,
    0x45, 0xef, 0x19, 0x47, 0x32, 0xc2, 0xdb, 0xb2, 0xc4, 0xa2, 0xc7, 0x69, 0x79, 0x5f, 0xa3]),
  ([0x54, 0x68, 0x65, 0x20, 0x71, 0x75, 0x69, 0x63, 0x6b, 0x20, 0x62, 0x72, 0x6f, 0x77, 0x6e, 0x20, 0x66, 0x6f, 0x78, 0x20, 0x6a,
    0x75, 0x6d, 0x70, 0x73, 0x20, 0x6f, 0x76, 0x65, 0x72, 0x20, 0x74, 0x68, 0x65, 0x20, 0x6c, 0x61, 0x7a, 0x79, 0x20, 0x64,
    0x6f, 0x67], [0x3f, 0xa9, 0xb5, 0x7f, 0x05, 0x3c, 0x05, 0x3f, 0xbe, 0x27, 0x35, 0xb2, 0x38, 0x0d, 0xb5, 0x96]),
  ([0x54, 0x68, 0x65, 0x20, 0x71, 0x75, 0x69, 0x63, 0x6b, 0x20, 0x62, 0x72, 0x6f, 0x77, 0x6e, 0x20, 0x66, 0x6f, 0x78, 0x20, 0x6a,
    0x75, 0x6d, 0x70, 0x73, 0x20, 0x6f, 0x76, 0x65, 0x72, 0x20, 0x74, 0x68, 0x65, 0x20, 0x6c, 0x61, 0x7a, 0x79, 0x20, 0x63,
    0x6f, 0x67], [0x38, 0x07, 0xaa, 0xae, 0xc5, 0x8f, 0xe3, 0x36, 0x73, 0x3f, 0xa5, 0x5e, 0xd1, 0x32, 0x59, 0xd9]),
  ([0x54, 0x68, 0x65, 0x20, 0x71, 0x75, 0x69, 0x63, 0x6b, 0x20, 0x62, 0x72, 0x6f, 0x77, 0x6e, 0x20, 0x66, 0x6f, 0x78, 0x20, 0x6a,
    0x75, 0x6d, 0x70, 0x73, 0x20, 0x6f, 0x76, 0x65, 0x72, 0x20, 0x74, 0x68, 0x65, 0x20, 0x6c, 0x61, 0x7a, 0x79, 0x20, 0x64,
    0x6f, 0x67, 0x2e], [0xf3, 0x92, 0x88, 0xa3, 0x85, 0xe5, 0x99, 0x6c, 0x6f, 0xb2, 0xc0, 0x1f, 0x7f, 0x8f, 0xbf, 0x2f]),
  ([0x67, 0x6e, 0x61, 0x62, 0x67, 0x69, 0x62], [0x1b, 0x6b, 0x23, 0xf7, 0xcf, 0xba, 0x4b, 0xbf, 0x42, 0x09, 0x75, 0x74, 0x66,
    0xc1, 0x56, 0x1b])]

/-- hash/ripemd/ripe128_test.go (1 entry of a million bytes left out). -/
theorem ripe128_ok : ∀ r ∈ ripe128, ripemd128 r.1 = r.2 := by decide +kernel

example : ∀ r ∈ ripe128, run (impl v128) [.write r.1, .sum []] = .ok [.wrote r.1.length false, .bytes r.2] := by
  intro r hr
  rw [C46_stream128, ← ripe128_ok r hr]
  simp [expect, expectFrom, algo]

def ripe160 : List (List U8 × List U8) := [
  ([0x54, 0x68, 0x65, 0x20, 0x71, 0x75, 0x69, 0x63, 0x6b, 0x20, 0x62, 0x72, 0x6f, 0x77, 0x6e, 0x20, 0x66, 0x6f, 0x78, 0x20, 0x6a,
    0x75, 0x6d, 0x70, 0x73, 0x20, 0x6f, 0x76, 0x65, 0x72, 0x20, 0x74, 0x68, 0x65, 0x20, 0x6c, 0x61, 0x7a, 0x79, 0x20, 0x64,
    0x6f, 0x67], [0x37, 0xf3, 0x32, 0xf6, 0x8d, 0xb7, 0x7b, 0xd9, 0xd7, 0xed, 0xd4, 0x96, 0x95, 0x71, 0xad, 0x67, 0x1c, 0xf9,
    0xdd, 0x3b]),
  ([0x54, 0x68, 0x65, 0x20, 0x71, 0x75, 0x69, 0x63, 0x6b, 0x20, 0x62, 0x72, 0x6f, 0x77, 0x6e, 0x20, 0x66, 0x6f, 0x78, 0x20, 0x6a,
    0x75, 0x6d, 0x70, 0x73, 0x20, 0x6f, 0x76, 0x65, 0x72, 0x20, 0x74, 0x68, 0x65, 0x20, 0x6c, 0x61, 0x7a, 0x79, 0x20, 0x63,
    0x6f, 0x67], [0x13, 0x20, 0x72, 0xdf, 0x69, 0x09, 0x33, 0x83, 0x5e, 0xb8, 0xb6, 0xad, 0x0b, 0x77, 0xe7, 0xb6, 0xf1, 0x4a,
    0xca, 0xd7]),
  ([], [0x9c, 0x11, 0x85, 0xa5, 0xc5, 0xe9, 0xfc, 0x54, 0x61, 0x28, 0x08, 0x97, 0x7e, 0xe8, 0xf5, 0x48, 0xb2, 0x25, 0x8d, 0x31]),
  ([0x61], [0x0b, 0xdc, 0x9d, 0x2d, 0x25, 0x6b, 0x3e, 0xe9, 0xda, 0xae, 0x34, 0x7b, 0xe6, 0xf4, 0xdc, 0x83, 0x5a, 0x46, 0x7f,
    0xfe]),
  ([0x61, 0x62, 0x63], [0x8e, 0xb2, 0x08, 0xf7, 0xe0, 0x5d, 0x98, 0x7a, 0x9b, 0x04, 0x4a, 0x8e, 0x98, 0xc6, 0xb0, 0x87, 0xf1,
    0x5a, 0x0b, 0xfc]),
  ([0x6d, 0x65, 0x73, 0x73, 0x61, 0x67, 0x65, 0x20, 0x64, 0x69, 0x67, 0x65, 0x73, 0x74], [0x5d, 0x06, 0x89, 0xef, 0x49, 0xd2,
    0xfa, 0xe5, 0x72, 0xb8, 0x81, 0xb1, 0x23, 0xa8, 0x5f, 0xfa, 0x21, 0x59, 0x5f, 0x36]),
  ([0x61, 0x62, 0x63, 0x64, 0x65, 0x66, 0x67, 0x68, 0x69, 0x6a, 0x6b, 0x6c, 0x6d, 0x6e, 0x6f, 0x70, 0x71, 0x72, 0x73, 0x74, 0x75,
    0x76, 0x77, 0x78, 0x79, 0x7a], [0xf7, 0x1c, 0x27, 0x10, 0x9c, 0x69, 0x2c, 0x1b, 0x56, 0xbb, 0xdc, 0xeb, 0x5b, 0x9d, 0x28,
    0x65, 0xb3, 0x70, 0x8d, 0xbc]),
  ([0x61, 0x62, 0x63, 0x64, 0x62, 0x63, 0x64, 0x65, 0x63, 0x64, 0x65, 0x66, 0x64, 0x65, 0x66, 0x67, 0x65, 0x66, 0x67, 0x68, 0x66,
    0x67, 0x68, 0x69, 0x67, 0x68, 0x69, 0x6a, 0x68, 0x69, 0x6a, 0x6b, 0x69, 0x6a, 0x6b, 0x6c, 0x6a, 0x6b, 0x6c, 0x6d, 0x6b,
    0x6c, 0x6d, 0x6e, 0x6c, 0x6d, 0x6e, 0x6f, 0x6d, 0x6e, 0x6f, 0x70, 0x6e, 0x6f, 0x70, 0x71], [0x12, 0xa0, 0x53, 0x38, 0x4a,
    0x9c, 0x0c, 0x88, 0xe4, 0x05, 0xa0, 0x6c, 0x27, 0xdc, 0xf4, 0x9a, 0xda, 0x62, 0xeb, 0x2b]),
  ([0x41, 0x42, 0x43, 0x44, 0x45, 0x46, 0x47, 0x48, 0x49, 0x4a, 0x4b, 0x4c, 0x4d, 0x4e, 0x4f, 0x50, 0x51, 0x52, 0x53, 0x54, 0x55,
    0x56, 0x57, 0x58, 0x59, 0x5a, 0x61, 0x62, 0x63, 0x64, 0x65, 0x66, 0x67, 0x68, 0x69, 0x6a, 0x6b, 0x6c, 0x6d, 0x6e, 0x6f,
    0x70, 0x71, 0x72, 0x73, 0x74, 0x75, 0x76, 0x77, 0x78, 0x79, 0x7a, 0x30, 0x31, 0x32, 0x33, 0x34, 0x35, 0x36, 0x37, 0x38,
    0x39], [0xb0, 0xe2, 0x0b, 0x6e, 0x31, 0x16, 0x64, 0x02, 0x86, 0xed, 0x3a, 0x87, 0xa5, 0x71, 0x30, 0x79, 0xb2, 0x1f, 0x51,
    0x89]),
  ([0x31, 0x32, 0x33, 0x34, 0x35, 0x36, 0x37, 0x38, 0x39, 0x30, 0x31, 0x32, 0x33, 0x34, 0x35, 0x36, 0x37, 0x38, 0x39, 0x30, 0x31,
    0x32, 0x33, 0x34, 0x35, 0x36, 0x37, 0x38, 0x39, 0x30, 0x31, 0x32, 0x33, 0x34, 0x35, 0x36, 0x37, 0x38, 0x39, 0x30, 0x31,
    0x32, 0x33, 0x34, 0x35, 0x36, 0x37, 0x38, 0x39, 0x30, 0x31, 0x32, 0x33, 0x34, 0x35, 0x36, 0x37, 0x38, 0x39, 0x30, 0x31,
    0x32, 0x33, 0x34, 0x35, 0x36, 0x37, 0x38, 0x39, 0x30, 0x31, 0x32, 0x33, 0x34, 0x35, 0x36, 0x37, 0x38, 0x39, 0x30], [0x9b,
    0x75, 0x2e, 0x45, 0x57, 0x3d, 0x4b, 0x39, 0xf4, 0xdb, 0xd3, 0x32, 0x3c, 0xab, 0x82, 0xbf, 0x63, 0x32, 0x6b, 0xfb]),
  ([0x54, 0x68, 0x65, 0x20, 0x71, 0x75, 0x69, 0x63, 0x6b, 0x20, 0x62, 0x72, 0x6f, 0x77, 0x6e, 0x20, 0x66, 0x6f, 0x78, 0x20, 0x6a,
    0x75, 0x6d, 0x70, 0x73, 0x20, 0x6f, 0x76, 0x65, 0x72, 0x20, 0x74, 0x68, 0x65, 0x20, 0x6c, 0x61, 0x7a, 0x79, 0x20, 0x64,
    0x6f, 0x67, 0x2e], [0xfc, 0x85, 0x01, 0x69, 0xb1, 0xf2, 0xce, 0x72, 0xe3, 0xf8, 0xaa, 0x0a, 0xeb, 0x5c, 0xa8, 0x7d, 0x6f,
    0x85, 0x19, 0xc6]),
  ([0x67, 0x6e, 0x61, 0x62, 0x67, 0x69, 0x62], [0x32, 0x4a, 0xba, 0x4f, 0x08, 0x91, 0x51, 0xbd, 0x01, 0x9c, 0x8c, 0x74, 0x7e,
    0xf8, 0xf4, 0xbe, 0xc0, 0x44, 0x71, 0x12])]

/-- hash/ripemd/ripe160_test.go (1 entry of a million bytes left out). -/
theorem ripe160_ok : ∀ r ∈ ripe160, ripemd160 r.1 = r.2 := by decide +kernel

example : ∀ r ∈ ripe160, run (impl v160) [.write r.1, .sum []] = .ok [.wrote r.1.length false, .bytes r.2] := by
  intro r hr
  rw [C46_stream160, ← ripe160_ok r hr]
  simp [expect, expectFrom, algo]

def ripe256 : List (List U8 × List U8) := [
  ([], [0x02, 0xba, 0x4c, 0x4e, 0x5f, 0x8e, 0xcd, 0x18, 0x77, 0xfc, 0x52, 0xd6, 0x4d, 0x30, 0xe3, 0x7a, 0x2d, 0x97, 0x74, 0xfb,
    0x1e, 0x5d, 0x02, 0x63, 0x80, 0xae, 0x01, 0x68, 0xe3, 0xc5, 0x52, 0x2d]),
  ([0x61], [0xf9, 0x33, 0x3e, 0x45, 0xd8, 0x57, 0xf5, 0xd9, 0x0a, 0x91, 0xba, 0xb7, 0x0a, 0x1e, 0xba, 0x0c, 0xfb, 0x1b, 0xe4,
    0xb0, 0x78, 0x3c, 0x9a, 0xcf, 0xcd, 0x88, 0x3a, 0x91, 0x34, 0x69, 0x29, 0x25]),
  ([0x61, 0x62, 0x63], [0xaf, 0xbd, 0x6e, 0x22, 0x8b, 0x9d, 0x8c, 0xbb, 0xce, 0xf5, 0xca, 0x2d, 0x03, 0xe6, 0xdb, 0xa1, 0x0a,
    0xc0, 0xbc, 0x7d, 0xcb, 0xe4, 0x68, 0x0e, 0x1e, 0x42, 0xd2, 0xe9, 0x75, 0x45, 0x9b, 0x65]),
  ([0x6d, 0x65, 0x73, 0x73, 0x61, 0x67, 0x65, 0x20, 0x64, 0x69, 0x67, 0x65, 0x73, 0x74], [0x87, 0xe9, 0x71, 0x75, 0x9a, 0x1c,
    0xe4, 0x7a, 0x51, 0x4d, 0x5c, 0x91, 0x4c, 0x39, 0x2c, 0x90, 0x18, 0xc7, 0xc4, 0x6b, 0xc1, 0x44, 0x65, 0x55, 0x4a, 0xfc,
    0xdf, 0x54, 0xa5, 0x07, 0x0c, 0x0e]),
  ([0x61, 0x62, 0x63, 0x64, 0x65, 0x66, 0x67, 0x68, 0x69, 0x6a, 0x6b, 0x6c, 0x6d, 0x6e, 0x6f, 0x70, 0x71, 0x72, 0x73, 0x74, 0x75,
    0x76, 0x77, 0x78, 0x79, 0x7a], [0x64, 0x9d, 0x30, 0x34, 0x75, 0x1e, 0xa2, 0x16, 0x77, 0x6b, 0xf9, 0xa1, 0x8a, 0xcc, 0x81,
    0xbc, 0x78, 0x96, 0x11, 0x8a, 0x51, 0x97, 0x96, 0x87, 0x82, 0xdd, 0x1f, 0xd9, 0x7d, 0x8d, 0x51, 0x33]),
  ([0x61, 0x62, 0x63, 0x64, 0x62, 0x63, 0x64, 0x65, 0x63, 0x64, 0x65, 0x66, 0x64, 0x65, 0x66, 0x67, 0x65, 0x66, 0x67, 0x68, 0x66,
    0x67, 0x68, 0x69, 0x67, 0x68, 0x69, 0x6a, 0x68, 0x69, 0x6a, 0x6b, 0x69, 0x6a, 0x6b, 0x6c, 0x6a, 0x6b, 0x6c, 0x6d, 0x6b,
    0x6c, 0x6d, 0x6e, 0x6c, 0x6d, 0x6e, 0x6f, 0x6d, 0x6e, 0x6f, 0x70, 0x6e, 0x6f, 0x70, 0x71], [0x38, 0x43, 0x04, 0x55, 0x83,
    0xaa, 0xc6, 0xc8, 0xc8, 0xd9, 0x12, 0x85, 0x73, 0xe7, 0xa9, 0x80, 0x9a, 0xfb, 0x2a, 0x0f, 0x34, 0xcc, 0xc3, 0x6e, 0xa9,
    0xe7, 0x2f, 0x16, 0xf6, 0x36, 0x8e, 0x3f]),
  ([0x41, 0x42, 0x43, 0x44, 0x45, 0x46, 0x47, 0x48, 0x49, 0x4a, 0x4b, 0x4c, 0x4d, 0x4e, 0x4f, 0x50, 0x51, 0x52, 0x53, 0x54, 0x55,
    0x56, 0x57, 0x58, 0x59, 0x5a, 0x61, 0x62, 0x63, 0x64, 0x65, 0x66, 0x67, 0x68, 0x69, 0x6a, 0x6b, 0x6c, 0x6d, 0x6e, 0x6f,
    0x70, 0x71, 0x72, 0x73, 0x74, 0x75, 0x76, 0x77, 0x78, 0x79, 0x7a, 0x30, 0x31, 0x32, 0x33, 0x34, 0x35, 0x36, 0x37, 0x38,
    0x39], [0x57, 0x40, 0xa4, 0x08, 0xac, 0x16, 0xb7, 0x20, 0xb8, 0x44, 0x24, 0xae, 0x93, 0x1c, 0xbb, 0x1f, 0xe3, 0x63, 0xd1,
    0xd0, 0xbf, 0x40, 0x17, 0xf1, 0xa8, 0x9f, 0x7e, 0xa6, 0xde, 0x77, 0xa0, 0xb8]),
  ([0x31, 0x32, 0x33, 0x34, 0x35, 0x36, 0x37, 0x38, 0x39, 0x30, 0x31, 0x32, 0x33, 0x34, 0x35, 0x36, 0x37, 0x38, 0x39, 0x30, 0x31,
    0x32, 0x33, 0x34, 0x35, 0x36, 0x37, 0x38, 0x39, 0x30, 0x31, 0x32, 0x33, 0x34, 0x35, 0x36, 0x37, 0x38, 0x39, 0x30, 0x31,
    0x32, 0x33, 0x34, 0x35, 0x36, 0x37, 0x38, 0x39, 0x30, 0x31, 0x32, 0x33, 0x34, 0x35, 0x36, 0x37, 0x38, 0x39, 0x30, 0x31,
    0x32, 0x33, 0x34, 0x35, 0x36, 0x37, 0x38, 0x39, 0x30, 0x31, 0x32, 0x33, 0x34, 0x35, 0x36, 0x37, 0x38, 0x39, 0x30], [0x06,
    0xfd, 0xcc, 0x7a, 0x40, 0x95, 0x48, 0xaa, 0xf9, 0x13, 0x68, 0xc0, 0x6a, 0x62, 0x75, 0xb5, 0x53, 0xe3, 0xf0, 0x99, 0xbf,
    0x0e, 0xa4, 0xed, 0xfd, 0x67, 0x78, 0xdf, 0x89, 0xa8, 0x90, 0xdd]),
  ([0x54, 0x68, 0x65, 0x20, 0x71, 0x75, 0x69, 0x63, 0x6b, 0x20, 0x62, 0x72, 0x6f, 0x77, 0x6e, 0x20, 0x66, 0x6f, 0x78, 0x20, 0x6a,
    0x75, 0x6d, 0x70, 0x73, 0x20, 0x6f, 0x76, 0x65, 0x72, 0x20, 0x74, 0x68, 0x65, 0x20, 0x6c, 0x61, 0x7a, 0x79, 0x20, 0x64,
    0x6f, 0x67], [0xc3, 0xb0, 0xc2, 0xf7, 0x64, 0xac, 0x6d, 0x57, 0x6a, 0x6c, 0x43, 0x0f, 0xb6, 0x1a, 0x6f, 0x22, 0x55, 0xb4,
    0xfa, 0x83, 0x3e, 0x09, 0x4b, 0x1b, 0xa8, 0xc1, 0xe2, 0x9b, 0x63, 0x53, 0x03, 0x6f]),
  ([0x54, 0x68, 0x65, 0x20, 0x71, 0x75, 0x69, 0x63, 0x6b, 0x20, 0x62, 0x72, 0x6f, 0x77, 0x6e, 0x20, 0x66, 0x6f, 0x78, 0x20, 0x6a,
    0x75, 0x6d, 0x70, 0x73, 0x20, 0x6f, 0x76, 0x65, 0x72, 0x20, 0x74, 0x68, 0x65, 0x20, 0x6c, 0x61, 0x7a, 0x79, 0x20, 0x63,
    0x6f, 0x67], [0xb4, 0x40, 0x55, 0xd8, 0x43, 0xde, 0xa5, 0xbc, 0xd2, 0x15, 0x1e, 0x52, 0xb1, 0xa0, 0xdb, 0xc5, 0xe8, 0xe3,
    0x44, 0x93, 0xe5, 0xfe, 0x2f, 0x00, 0x0c, 0x0e, 0x71, 0xf7, 0x3c, 0x3d, 0xdc, 0xae]),
  ([0x54, 0x68, 0x65, 0x20, 0x71, 0x75, 0x69, 0x63, 0x6b, 0x20, 0x62, 0x72, 0x6f, 0x77, 0x6e, 0x20, 0x66, 0x6f, 0x78, 0x20, 0x6a,
    0x75, 0x6d, 0x70, 0x73, 0x20, 0x6f, 0x76, 0x65, 0x72, 0x20, 0x74, 0x68, 0x65, 0x20, 0x6c, 0x61, 0x7a, 0x79, 0x20, 0x64,
    0x6f, 0x67, 0x2e], [0x37, 0x9e, 0x37, 0x3d, 0x9e, 0x1b, 0x6e, 0x71, 0x71, 0x2b, 0x8f, 0x4a, 0x19, 0xb8, 0xfb, 0x12, 0x5c,
    0xaa, 0x3f, 0x4c, 0xe9, 0x2a, 0x25, 0x8e, 0xb7, 0x64, 0xd7, 0x21, 0xd9, 0xa0, 0x8b, 0xad]),
  ([0x67, 0x6e, 0x61, 0x62, 0x67, 0x69, 0x62], [0x0f, 0xe0, 0x57, 0xf4, 0xf9, 0xaf, 0x9b, 0x0d, 0x4b, 0xb0, 0x9b, 0x5f, 0xae,
    0x73, 0xbb, 0xe6, 0x30, 0xd2, 0xff, 0xb3, 0xd7, 0xb8, 0x61, 0x4c, 0x9a, 0xc4, 0x41, 0xa7, 0xd0, 0x3e, 0xde, 0xe7])]

/-- hash/ripemd/ripe256_test.go (1 entry of a million bytes left out). -/
theorem ripe256_ok : ∀ r ∈ ripe256, ripemd256 r.1 = r.2 := by decide +kernel

example : ∀ r ∈ ripe256, run (impl v256) [.write r.1, .sum []] = .ok [.wrote r.1.length false, .bytes r.2] := by
  intro r hr
  rw [C46_stream256, ← ripe256_ok r hr]
  simp [expect, expectFrom, algo]

def ripe320 : List (List U8 × List U8) := [
  ([], [0x22, 0xd6, 0x5d, 0x56, 0x61, 0x53, 0x6c, 0xdc, 0x75, 0xc1, 0xfd, 0xf5, 0xc6, 0xde, 0x7b, 0x41, 0xb9, 0xf2, 0x73, 0x25,
    0xeb, 0xc6, 0x1e, 0x85, 0x57, 0x17, 0x7d, 0x70, 0x5a, 0x0e, 0xc8, 0x80, 0x15, 0x1c, 0x3a, 0x32, 0xa0, 0x08, 0x99, 0xb8]),
  ([0x61], [0xce, 0x78, 0x85, 0x06, 0x38, 0xf9, 0x26, 0x58, 0xa5, 0xa5, 0x85, 0x09, 0x75, 0x79, 0x92, 0x6d, 0xda, 0x66, 0x7a,
    0x57, 0x16, 0x56, 0x2c, 0xfc, 0xf6, 0xfb, 0xe7, 0x7f, 0x63, 0x54, 0x2f, 0x99, 0xb0, 0x47, 0x05, 0xd6, 0x97, 0x0d, 0xff,
    0x5d]),
  ([0x61, 0x62, 0x63], [0xde, 0x4c, 0x01, 0xb3, 0x05, 0x4f, 0x89, 0x30, 0xa7, 0x9d, 0x09, 0xae, 0x73, 0x8e, 0x92, 0x30, 0x1e,
    0x5a, 0x17, 0x08, 0x5b, 0xef, 0xfd, 0xc1, 0xb8, 0xd1, 0x16, 0x71, 0x3e, 0x74, 0xf8, 0x2f, 0xa9, 0x42, 0xd6, 0x4c, 0xdb,
    0xc4, 0x68, 0x2d]),
  ([0x6d, 0x65, 0x73, 0x73, 0x61, 0x67, 0x65, 0x20, 0x64, 0x69, 0x67, 0x65, 0x73, 0x74], [0x3a, 0x8e, 0x28, 0x50, 0x2e, 0xd4,
    0x5d, 0x42, 0x2f, 0x68, 0x84, 0x4f, 0x9d, 0xd3, 0x16, 0xe7, 0xb9, 0x85, 0x33, 0xfa, 0x3f, 0x2a, 0x91, 0xd2, 0x9f, 0x84,
    0xd4, 0x25, 0xc8, 0x8d, 0x6b, 0x4e, 0xff, 0x72, 0x7d, 0xf6, 0x6a, 0x7c, 0x01, 0x97]),
  ([0x61, 0x62, 0x63, 0x64, 0x65, 0x66, 0x67, 0x68, 0x69, 0x6a, 0x6b, 0x6c, 0x6d, 0x6e, 0x6f, 0x70, 0x71, 0x72, 0x73, 0x74, 0x75,
    0x76, 0x77, 0x78, 0x79, 0x7a], [0xca, 0xbd, 0xb1, 0x81, 0x0b, 0x92, 0x47, 0x0a, 0x20, 0x93, 0xaa, 0x6b, 0xce, 0x05, 0x95,
    0x2c, 0x28, 0x34, 0x8c, 0xf4, 0x3f, 0xf6, 0x08, 0x41, 0x97, 0x51, 0x66, 0xbb, 0x40, 0xed, 0x23, 0x40, 0x04, 0xb8, 0x82,
    0x44, 0x63, 0xe6, 0xb0, 0x09]),
  ([0x61, 0x62, 0x63, 0x64, 0x62, 0x63, 0x64, 0x65, 0x63, 0x64, 0x65, 0x66, 0x64, 0x65, 0x66, 0x67, 0x65, 0x66, 0x67, 0x68, 0x66,
    0x67, 0x68, 0x69, 0x67, 0x68, 0x69, 0x6a, 0x68, 0x69, 0x6a, 0x6b, 0x69, 0x6a, 0x6b, 0x6c, 0x6a, 0x6b, 0x6c, 0x6d, 0x6b,
    0x6c, 0x6d, 0x6e, 0x6c, 0x6d, 0x6e, 0x6f, 0x6d, 0x6e, 0x6f, 0x70, 0x6e, 0x6f, 0x70, 0x71], [0xd0, 0x34, 0xa7, 0x95, 0x0c,
    0xf7, 0x22, 0x02, 0x1b, 0xa4, 0xb8, 0x4d, 0xf7, 0x69, 0xa5, 0xde, 0x20, 0x60, 0xe2, 0x59, 0xdf, 0x4c, 0x9b, 0xb4, 0xa4,
    0x26, 0x8c, 0x0e, 0x93, 0x5b, 0xbc, 0x74, 0x70, 0xa9, 0x69, 0xc9, 0xd0, 0x72, 0xa1, 0xac]),
  ([0x41, 0x42, 0x43, 0x44, 0x45, 0x46, 0x47, 0x48, 0x49, 0x4a, 0x4b, 0x4c, 0x4d, 0x4e, 0x4f, 0x50, 0x51, 0x52, 0x53, 0x54, 0x55,
    0x56, 0x57, 0x58, 0x59, 0x5a, 0x61, 0x62, 0x63, 0x64, 0x65, 0x66, 0x67, 0x68, 0x69, 0x6a, 0x6b, 0x6c, 0x6d, 0x6e, 0x6f,
    0x70, 0x71, 0x72, 0x73, 0x74, 0x75, 0x76, 0x77, 0x78, 0x79, 0x7a, 0x30, 0x31, 0x32, 0x33, 0x34, 0x35, 0x36, 0x37, 0x38,
    0x39], [0xed, 0x54, 0x49, 0x40, 0xc8, 0x6d, 0x67, 0xf2, 0x50, 0xd2, 0x32, 0xc3, 0x0b, 0x7b, 0x3e, 0x57, 0x70, 0xe0, 0xc6,
    0x0c, 0x8c, 0xb9, 0xa4, 0xca, 0xfe, 0x3b, 0x11, 0x38, 0x8a, 0xf9, 0x92, 0x0e, 0x1b, 0x99, 0x23, 0x0b, 0x84, 0x3c, 0x86,
    0xa4]),
  ([0x31, 0x32, 0x33, 0x34, 0x35, 0x36, 0x37, 0x38, 0x39, 0x30, 0x31, 0x32, 0x33, 0x34, 0x35, 0x36, 0x37, 0x38, 0x39, 0x30, 0x31,
    0x32, 0x33, 0x34, 0x35, 0x36, 0x37, 0x38, 0x39, 0x30, 0x31, 0x32, 0x33, 0x34, 0x35, 0x36, 0x37, 0x38, 0x39, 0x30, 0x31,
    0x32, 0x33, 0x34, 0x35, 0x36, 0x37, 0x38, 0x39, 0x30, 0x31, 0x32, 0x33, 0x34, 0x35, 0x36, 0x37, 0x38, 0x39, 0x30, 0x31,
    0x32, 0x33, 0x34, 0x35, 0x36, 0x37, 0x38, 0x39, 0x30, 0x31, 0x32, 0x33, 0x34, 0x35, 0x36, 0x37, 0x38, 0x39, 0x30], [0x55,
    0x78, 0x88, 0xaf, 0x5f, 0x6d, 0x8e, 0xd6, 0x2a, 0xb6, 0x69, 0x45, 0xc6, 0xd2, 0xa0, 0xa4, 0x7e, 0xcd, 0x53, 0x41, 0xe9,
    0x15, 0xeb, 0x8f, 0xea, 0x1d, 0x05, 0x24, 0x95, 0x5f, 0x82, 0x5d, 0xc7, 0x17, 0xe4, 0xa0, 0x08, 0xab, 0x2d, 0x42]),
  ([0x54, 0x68, 0x65, 0x20, 0x71, 0x75, 0x69, 0x63, 0x6b, 0x20, 0x62, 0x72, 0x6f, 0x77, 0x6e, 0x20, 0x66, 0x6f, 0x78, 0x20, 0x6a,
    0x75, 0x6d, 0x70, 0x73, 0x20, 0x6f, 0x76, 0x65, 0x72, 0x20, 0x74, 0x68, 0x65, 0x20, 0x6c, 0x61, 0x7a, 0x79, 0x20, 0x64,
    0x6f, 0x67], [0xe7, 0x66, 0x0e, 0x67, 0x54, 0x94, 0x35, 0xc6, 0x21, 0x41, 0xe5, 0x1c, 0x9a, 0xb1, 0xdc, 0xc3, 0xb1, 0xee,
    0x9f, 0x65, 0xc0, 0xb3, 0xe5, 0x61, 0xae, 0x8f, 0x58, 0xc5, 0xdb, 0xa3, 0xd2, 0x19, 0x97, 0x78, 0x1c, 0xd1, 0xcc, 0x6f,
    0xbc, 0x34]),
  ([0x54, 0x68, 0x65, 0x20, 0x71, 0x75, 0x69, 0x63, 0x6b, 0x20, 0x62, 0x72, 0x6f, 0x77, 0x6e, 0x20, 0x66, 0x6f, 0x78, 0x20, 0x6a,
    0x75, 0x6d, 0x70, 0x73, 0x20, 0x6f, 0x76, 0x65, 0x72, 0x20, 0x74, 0x68, 0x65, 0x20, 0x6c, 0x61, 0x7a, 0x79, 0x20, 0x63,
    0x6f, 0x67], [0x39, 0x3e, 0x0d, 0xf7, 0x28, 0xc4, 0xce, 0x3d, 0x79, 0xe7, 0xdc, 0xfd, 0x35, 0x7d, 0x5c, 0x26, 0xf5, 0xc6,
    0xd6, 0x4c, 0x6d, 0x65, 0x2d, 0xc5, 0x3b, 0x65, 0x47, 0xb2, 0x14, 0xea, 0x91, 0x83, 0xe4, 0xf6, 0x1c, 0x47, 0x7e, 0xbf,
    0x5c, 0xb0]),
  ([0x54, 0x68, 0x65, 0x20, 0x71, 0x75, 0x69, 0x63, 0x6b, 0x20, 0x62, 0x72, 0x6f, 0x77, 0x6e, 0x20, 0x66, 0x6f, 0x78, 0x20, 0x6a,
    0x75, 0x6d, 0x70, 0x73, 0x20, 0x6f, 0x76, 0x65, 0x72, 0x20, 0x74, 0x68, 0x65, 0x20, 0x6c, 0x61, 0x7a, 0x79, 0x20, 0x64,
    0x6f, 0x67, 0x2e], [0x4b, 0x74, 0x3c, 0x0a, 0x22, 0x62, 0xf9, 0x04, 0x09, 0x7f, 0xda, 0x33, 0xf0, 0xb8, 0xe0, 0x38, 0x19,
    0xbc, 0x01, 0x2c, 0x5f, 0xc3, 0x96, 0x43, 0xf1, 0x70, 0x49, 0xc5, 0x66, 0xee, 0xe0, 0xb1, 0x96, 0x1d, 0x1b, 0xd7, 0xb2,
    0x5a, 0x3e, 0x4d]),
  ([0x67, 0x6e, 0x61, 0x62, 0x67, 0x69, 0x62], [0xef, 0xb9, 0xa4, 0x76, 0xda, 0xc2, 0x76, 0x21, 0x91, 0xaa, 0x98, 0x90, 0x08,
    0x9e, 0xcc, 0xe6, 0x37, 0xda, 0xa1, 0x4c, 0x22, 0xa2, 0xf8, 0xb6, 0xd0, 0x24, 0xdf, 0x1a, 0xab, 0x2d, 0xdd, 0xfa, 0xe1,
    0x59, 0x07, 0x1d, 0x96, 0x19, 0x6e, 0xff])]

/-- hash/ripemd/ripe320_test.go (1 entry of a million bytes left out). -/
theorem ripe320_ok : ∀ r ∈ ripe320, ripemd320 r.1 = r.2 := by decide +kernel

example : ∀ r ∈ ripe320, run (impl v320) [.write r.1, .sum []] = .ok [.wrote r.1.length false, .bytes r.2] := by
  intro r hr
  rw [C46_stream320, ← ripe320_ok r hr]
  simp [expect, expectFrom, algo]


end Conformance
