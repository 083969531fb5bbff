import Verif.Model.Codegen

/-!
# The tables of codegen/BytesToString_test.go and BytesToHexSep_test.go

Generated by tools/gen_conformance.py. These are tests of the model, not proofs about the code.
-/
namespace Conformance

open Codegen

def bytesStrPairs : List (List U8 × List U8) := [
  ([], [0x22, 0x22]),
  ([0x00], [0x22, 0x5c, 0x78, 0x30, 0x30, 0x22]),
  ([0xde, 0xad, 0xbe, 0xef], [0x22, 0x5c, 0x78, 0x44, 0x45, 0x5c, 0x78, 0x41, 0x44, 0x5c, 0x78, 0x42, 0x45, 0x5c, 0x78, 0x45,
    0x46, 0x22])]

example : ∀ r ∈ bytesStrPairs, BytesToString r.1 = .ok r.2 := by decide +kernel

def bytesStrSep4 : List (List U8 × List U8) := [
  ([0xf0, 0xf1, 0xf2, 0xf3, 0xf4, 0xf5, 0xf6, 0xf7], [0x22, 0x5c, 0x78, 0x46, 0x30, 0x5c, 0x78, 0x46, 0x31, 0x5c, 0x78, 0x46,
    0x32, 0x5c, 0x78, 0x46, 0x33, 0x22, 0x2b, 0x22, 0x5c, 0x78, 0x46, 0x34, 0x5c, 0x78, 0x46, 0x35, 0x5c, 0x78, 0x46, 0x36,
    0x5c, 0x78, 0x46, 0x37, 0x22]),
  ([0x00, 0x01, 0x02, 0x03, 0x04, 0x05, 0x06, 0x07, 0x08, 0x09, 0x0a, 0x0b, 0x0c, 0x0d, 0x0e, 0x0f], [0x22, 0x5c, 0x78, 0x30,
    0x30, 0x5c, 0x78, 0x30, 0x31, 0x5c, 0x78, 0x30, 0x32, 0x5c, 0x78, 0x30, 0x33, 0x22, 0x2b, 0x22, 0x5c, 0x78, 0x30, 0x34,
    0x5c, 0x78, 0x30, 0x35, 0x5c, 0x78, 0x30, 0x36, 0x5c, 0x78, 0x30, 0x37, 0x22, 0x2b, 0x22, 0x5c, 0x78, 0x30, 0x38, 0x5c,
    0x78, 0x30, 0x39, 0x5c, 0x78, 0x30, 0x41, 0x5c, 0x78, 0x30, 0x42, 0x22, 0x2b, 0x22, 0x5c, 0x78, 0x30, 0x43, 0x5c, 0x78,
    0x30, 0x44, 0x5c, 0x78, 0x30, 0x45, 0x5c, 0x78, 0x30, 0x46, 0x22]),
  ([0x00, 0x00, 0x00, 0x00, 0x00, 0x00, 0x00, 0x00, 0x00, 0x00, 0x00, 0x00, 0x00, 0x00, 0x00, 0x00, 0x00, 0x00, 0x00, 0x00, 0x00,
    0x00, 0x00, 0x00, 0x00, 0x00, 0x00, 0x00, 0x00, 0x00, 0x00, 0x00], [0x22, 0x5c, 0x78, 0x30, 0x30, 0x5c, 0x78, 0x30, 0x30,
    0x5c, 0x78, 0x30, 0x30, 0x5c, 0x78, 0x30, 0x30, 0x22, 0x2b, 0x22, 0x5c, 0x78, 0x30, 0x30, 0x5c, 0x78, 0x30, 0x30, 0x5c,
    0x78, 0x30, 0x30, 0x5c, 0x78, 0x30, 0x30, 0x22, 0x2b, 0x22, 0x5c, 0x78, 0x30, 0x30, 0x5c, 0x78, 0x30, 0x30, 0x5c, 0x78,
    0x30, 0x30, 0x5c, 0x78, 0x30, 0x30, 0x22, 0x2b, 0x22, 0x5c, 0x78, 0x30, 0x30, 0x5c, 0x78, 0x30, 0x30, 0x5c, 0x78, 0x30,
    0x30, 0x5c, 0x78, 0x30, 0x30, 0x22, 0x2b, 0x22, 0x5c, 0x78, 0x30, 0x30, 0x5c, 0x78, 0x30, 0x30, 0x5c, 0x78, 0x30, 0x30,
    0x5c, 0x78, 0x30, 0x30, 0x22, 0x2b, 0x22, 0x5c, 0x78, 0x30, 0x30, 0x5c, 0x78, 0x30, 0x30, 0x5c, 0x78, 0x30, 0x30, 0x5c,
    0x78, 0x30, 0x30, 0x22, 0x2b, 0x22, 0x5c, 0x78, 0x30, 0x30, 0x5c, 0x78, 0x30, 0x30, 0x5c, 0x78, 0x30, 0x30, 0x5c, 0x78,
    0x30, 0x30, 0x22, 0x2b, 0x22, 0x5c, 0x78, 0x30, 0x30, 0x5c, 0x78, 0x30, 0x30, 0x5c, 0x78, 0x30, 0x30, 0x5c, 0x78, 0x30,
    0x30, 0x22])]

example : ∀ r ∈ bytesStrSep4, BytesToStringSep r.1 4 = .ok r.2 := by decide +kernel

def bytesHexSep4 : List (List U8 × List U8) := [
  ([0xf0, 0xf1, 0xf2, 0xf3, 0xf4, 0xf5, 0xf6, 0xf7], [0x7b, 0x30, 0x78, 0x46, 0x30, 0x2c, 0x20, 0x30, 0x78, 0x46, 0x31, 0x2c,
    0x20, 0x30, 0x78, 0x46, 0x32, 0x2c, 0x20, 0x30, 0x78, 0x46, 0x33, 0x2c, 0x20, 0x0a, 0x30, 0x78, 0x46, 0x34, 0x2c, 0x20,
    0x30, 0x78, 0x46, 0x35, 0x2c, 0x20, 0x30, 0x78, 0x46, 0x36, 0x2c, 0x20, 0x30, 0x78, 0x46, 0x37, 0x7d]),
  ([0x00, 0x01, 0x02, 0x03, 0x04, 0x05, 0x06, 0x07, 0x08, 0x09, 0x0a, 0x0b, 0x0c, 0x0d, 0x0e, 0x0f], [0x7b, 0x30, 0x78, 0x30,
    0x30, 0x2c, 0x20, 0x30, 0x78, 0x30, 0x31, 0x2c, 0x20, 0x30, 0x78, 0x30, 0x32, 0x2c, 0x20, 0x30, 0x78, 0x30, 0x33, 0x2c,
    0x20, 0x0a, 0x30, 0x78, 0x30, 0x34, 0x2c, 0x20, 0x30, 0x78, 0x30, 0x35, 0x2c, 0x20, 0x30, 0x78, 0x30, 0x36, 0x2c, 0x20,
    0x30, 0x78, 0x30, 0x37, 0x2c, 0x20, 0x0a, 0x30, 0x78, 0x30, 0x38, 0x2c, 0x20, 0x30, 0x78, 0x30, 0x39, 0x2c, 0x20, 0x30,
    0x78, 0x30, 0x41, 0x2c, 0x20, 0x30, 0x78, 0x30, 0x42, 0x2c, 0x20, 0x0a, 0x30, 0x78, 0x30, 0x43, 0x2c, 0x20, 0x30, 0x78,
    0x30, 0x44, 0x2c, 0x20, 0x30, 0x78, 0x30, 0x45, 0x2c, 0x20, 0x30, 0x78, 0x30, 0x46, 0x7d])]

example : ∀ r ∈ bytesHexSep4, BytesToHexSep r.1 4 = .ok r.2 := by decide +kernel


end Conformance
