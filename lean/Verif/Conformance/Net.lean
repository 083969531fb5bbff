import Verif.Model.Net

/-!
# The tables of the tests of package net

Generated by tools/gen_conformance.py. These are tests of the model, not proofs about the code.
-/
namespace Conformance

open Net

/-- The merge function of the tests. -/
def pickFirst (a _b : Unit) : Unit := a

/-- The networks listed after some additions (loops of `AddRange` are cut off after `fuel` rounds). -/
def listed (ops : List (Net.Op Unit)) : Res (Option (List IPNet)) :=
  ops.foldlM (init := some New) (fun t op => match t, op with
    | none, _ => .ok none
    | some t, .addIp a v => do return some (← AddIp pickFirst t a v)
    | some t, .addCidr c v => do return some (← AddCidr pickFirst t c v)
    | some t, .addRange s e v => AddRange pickFirst 100 t s e v) >>= fun t => .ok (t.map fun t => (ListCidr t).map (·.1))

def trees : List (List (Net.Op Unit) × IPNet) := [
  ([.addCidr ⟨[0xc0, 0xa8, 0x00, 0x00], [0xff, 0xff, 0xff, 0x00]⟩ (), .addCidr ⟨[0xc0, 0xa8, 0x00, 0x00], [0xff, 0xff, 0xff,
    0x80]⟩ ()], ⟨[0xc0, 0xa8, 0x00, 0x00], [0xff, 0xff, 0xff, 0x00]⟩),
  ([.addCidr ⟨[0xc0, 0xa8, 0x00, 0x00], [0xff, 0xff, 0xff, 0x80]⟩ (), .addCidr ⟨[0xc0, 0xa8, 0x00, 0x00], [0xff, 0xff, 0xff,
    0x00]⟩ ()], ⟨[0xc0, 0xa8, 0x00, 0x00], [0xff, 0xff, 0xff, 0x00]⟩),
  ([.addCidr ⟨[0xc0, 0xa8, 0x00, 0x00], [0xff, 0xff, 0xff, 0x00]⟩ (), .addCidr ⟨[0xc0, 0xa8, 0x01, 0x00], [0xff, 0xff, 0xff,
    0x00]⟩ ()], ⟨[0xc0, 0xa8, 0x00, 0x00], [0xff, 0xff, 0xfe, 0x00]⟩),
  ([.addCidr ⟨[0x7f, 0x01, 0x02, 0x00], [0xff, 0xff, 0xff, 0x00]⟩ (), .addCidr ⟨[0x7f, 0x01, 0x03, 0x00], [0xff, 0xff, 0xff,
    0x00]⟩ ()], ⟨[0x7f, 0x01, 0x02, 0x00], [0xff, 0xff, 0xfe, 0x00]⟩),
  ([.addCidr ⟨[0xc0, 0xa8, 0x00, 0x00], [0xff, 0xff, 0xff, 0x80]⟩ (), .addCidr ⟨[0xc0, 0xa8, 0x00, 0x80], [0xff, 0xff, 0xff,
    0x80]⟩ ()], ⟨[0xc0, 0xa8, 0x00, 0x00], [0xff, 0xff, 0xff, 0x00]⟩),
  ([.addRange [0x00, 0x00, 0x00, 0x00, 0x00, 0x00, 0x00, 0x00, 0x00, 0x00, 0xff, 0xff, 0xc0, 0xa8, 0x00, 0x00] [0x00, 0x00, 0x00,
    0x00, 0x00, 0x00, 0x00, 0x00, 0x00, 0x00, 0xff, 0xff, 0xc0, 0xa8, 0x00, 0xff] (), .addRange [0x00, 0x00, 0x00, 0x00, 0x00,
    0x00, 0x00, 0x00, 0x00, 0x00, 0xff, 0xff, 0xc0, 0xa8, 0x00, 0x0a] [0x00, 0x00, 0x00, 0x00, 0x00, 0x00, 0x00, 0x00, 0x00,
    0x00, 0xff, 0xff, 0xc0, 0xa8, 0x00, 0x19] ()], ⟨[0xc0, 0xa8, 0x00, 0x00], [0xff, 0xff, 0xff, 0x00]⟩),
  ([.addRange [0x00, 0x00, 0x00, 0x00, 0x00, 0x00, 0x00, 0x00, 0x00, 0x00, 0xff, 0xff, 0xc0, 0xa8, 0x00, 0x0a] [0x00, 0x00, 0x00,
    0x00, 0x00, 0x00, 0x00, 0x00, 0x00, 0x00, 0xff, 0xff, 0xc0, 0xa8, 0x00, 0x19] (), .addRange [0x00, 0x00, 0x00, 0x00, 0x00,
    0x00, 0x00, 0x00, 0x00, 0x00, 0xff, 0xff, 0xc0, 0xa8, 0x00, 0x00] [0x00, 0x00, 0x00, 0x00, 0x00, 0x00, 0x00, 0x00, 0x00,
    0x00, 0xff, 0xff, 0xc0, 0xa8, 0x00, 0xff] ()], ⟨[0xc0, 0xa8, 0x00, 0x00], [0xff, 0xff, 0xff, 0x00]⟩),
  ([.addRange [0x00, 0x00, 0x00, 0x00, 0x00, 0x00, 0x00, 0x00, 0x00, 0x00, 0xff, 0xff, 0xc0, 0xa8, 0x00, 0x00] [0x00, 0x00, 0x00,
    0x00, 0x00, 0x00, 0x00, 0x00, 0x00, 0x00, 0xff, 0xff, 0xc0, 0xa8, 0x00, 0xff] (), .addRange [0x00, 0x00, 0x00, 0x00, 0x00,
    0x00, 0x00, 0x00, 0x00, 0x00, 0xff, 0xff, 0xc0, 0xa8, 0x01, 0x00] [0x00, 0x00, 0x00, 0x00, 0x00, 0x00, 0x00, 0x00, 0x00,
    0x00, 0xff, 0xff, 0xc0, 0xa8, 0x01, 0xff] ()], ⟨[0xc0, 0xa8, 0x00, 0x00], [0xff, 0xff, 0xfe, 0x00]⟩),
  ([.addRange [0x00, 0x00, 0x00, 0x00, 0x00, 0x00, 0x00, 0x00, 0x00, 0x00, 0xff, 0xff, 0xc0, 0xa8, 0x00, 0x00] [0x00, 0x00, 0x00,
    0x00, 0x00, 0x00, 0x00, 0x00, 0x00, 0x00, 0xff, 0xff, 0xc0, 0xa8, 0x00, 0x7f] (), .addRange [0x00, 0x00, 0x00, 0x00, 0x00,
    0x00, 0x00, 0x00, 0x00, 0x00, 0xff, 0xff, 0xc0, 0xa8, 0x00, 0x80] [0x00, 0x00, 0x00, 0x00, 0x00, 0x00, 0x00, 0x00, 0x00,
    0x00, 0xff, 0xff, 0xc0, 0xa8, 0x00, 0xff] ()], ⟨[0xc0, 0xa8, 0x00, 0x00], [0xff, 0xff, 0xff, 0x00]⟩),
  ([.addRange [0x00, 0x00, 0x00, 0x00, 0x00, 0x00, 0x00, 0x00, 0x00, 0x00, 0xff, 0xff, 0xc0, 0xa8, 0x00, 0x00] [0x00, 0x00, 0x00,
    0x00, 0x00, 0x00, 0x00, 0x00, 0x00, 0x00, 0xff, 0xff, 0xc0, 0xa8, 0x00, 0x00] (), .addRange [0x00, 0x00, 0x00, 0x00, 0x00,
    0x00, 0x00, 0x00, 0x00, 0x00, 0xff, 0xff, 0xc0, 0xa8, 0x00, 0x01] [0x00, 0x00, 0x00, 0x00, 0x00, 0x00, 0x00, 0x00, 0x00,
    0x00, 0xff, 0xff, 0xc0, 0xa8, 0x00, 0x01] ()], ⟨[0xc0, 0xa8, 0x00, 0x00], [0xff, 0xff, 0xff, 0xfe]⟩),
  ([.addRange [0x00, 0x00, 0x00, 0x00, 0x00, 0x00, 0x00, 0x00, 0x00, 0x00, 0xff, 0xff, 0x00, 0x00, 0x00, 0x00] [0x00, 0x00, 0x00,
    0x00, 0x00, 0x00, 0x00, 0x00, 0x00, 0x00, 0xff, 0xff, 0x00, 0x00, 0x00, 0x00] (), .addRange [0x00, 0x00, 0x00, 0x00, 0x00,
    0x00, 0x00, 0x00, 0x00, 0x00, 0xff, 0xff, 0x00, 0x00, 0x00, 0x01] [0x00, 0x00, 0x00, 0x00, 0x00, 0x00, 0x00, 0x00, 0x00,
    0x00, 0xff, 0xff, 0x00, 0x00, 0x00, 0x03] ()], ⟨[0x00, 0x00, 0x00, 0x00], [0xff, 0xff, 0xff, 0xfc]⟩),
  ([.addRange [0x00, 0x00, 0x00, 0x00, 0x00, 0x00, 0x00, 0x00, 0x00, 0x00, 0xff, 0xff, 0xc0, 0xa8, 0x00, 0x00] [0x00, 0x00, 0x00,
    0x00, 0x00, 0x00, 0x00, 0x00, 0x00, 0x00, 0xff, 0xff, 0xc0, 0xa8, 0x00, 0x64] (), .addRange [0x00, 0x00, 0x00, 0x00, 0x00,
    0x00, 0x00, 0x00, 0x00, 0x00, 0xff, 0xff, 0xc0, 0xa8, 0x00, 0x40] [0x00, 0x00, 0x00, 0x00, 0x00, 0x00, 0x00, 0x00, 0x00,
    0x00, 0xff, 0xff, 0xc0, 0xa8, 0x01, 0xff] ()], ⟨[0xc0, 0xa8, 0x00, 0x00], [0xff, 0xff, 0xfe, 0x00]⟩),
  ([.addIp [0x00, 0x00, 0x00, 0x00, 0x00, 0x00, 0x00, 0x00, 0x00, 0x00, 0xff, 0xff, 0x87, 0x65, 0x43, 0x21] ()], ⟨[0x87, 0x65,
    0x43, 0x21], [0xff, 0xff, 0xff, 0xff]⟩),
  ([.addCidr ⟨[0x01, 0x02, 0x00, 0x00], [0xff, 0xff, 0x00, 0x00]⟩ ()], ⟨[0x01, 0x02, 0x00, 0x00], [0xff, 0xff, 0x00, 0x00]⟩),
  ([.addRange [0x00, 0x00, 0x00, 0x00, 0x00, 0x00, 0x00, 0x00, 0x00, 0x00, 0xff, 0xff, 0xc0, 0xa8, 0x01, 0x00] [0x00, 0x00, 0x00,
    0x00, 0x00, 0x00, 0x00, 0x00, 0x00, 0x00, 0xff, 0xff, 0xc0, 0xa8, 0x01, 0x3f] ()], ⟨[0xc0, 0xa8, 0x01, 0x00], [0xff, 0xff,
    0xff, 0xc0]⟩),
  ([.addIp [0x00, 0x00, 0x00, 0x00, 0x00, 0x00, 0x00, 0x00, 0x00, 0x00, 0xff, 0xff, 0xc0, 0xa8, 0x01, 0x00] (), .addRange [0x00,
    0x00, 0x00, 0x00, 0x00, 0x00, 0x00, 0x00, 0x00, 0x00, 0xff, 0xff, 0xc0, 0xa8, 0x01, 0x01] [0x00, 0x00, 0x00, 0x00, 0x00,
    0x00, 0x00, 0x00, 0x00, 0x00, 0xff, 0xff, 0xc0, 0xa8, 0x01, 0x81] (), .addCidr ⟨[0xc0, 0xa8, 0x01, 0x80], [0xff, 0xff, 0xff,
    0x80]⟩ ()], ⟨[0xc0, 0xa8, 0x01, 0x00], [0xff, 0xff, 0xff, 0x00]⟩)]

/-- TestCidrMerge, TestRangeMerge, TestOneIp, TestOneCidr, TestOneRange, TestIpRangeCidr. -/
example : ∀ r ∈ trees, listed r.1 = .ok (some [r.2]) := by decide +kernel

/-- TestEmpty. -/
example : listed [] = .ok (some []) := by decide +kernel

def unequal : List (IPNet × IPNet) := [
  (⟨[0xc0, 0xa8, 0x01, 0x00], [0xff, 0xff, 0xff, 0x00]⟩, ⟨[0xc0, 0xa8, 0x01, 0x00], [0xff, 0xff, 0xff, 0x80]⟩),
  (⟨[0xc0, 0xa8, 0x01, 0x00], [0xff, 0xff, 0xff, 0x00]⟩, ⟨[0xc0, 0xa8, 0x00, 0x00], [0xff, 0xff, 0xfe, 0x00]⟩),
  (⟨[0xc0, 0xa8, 0x01, 0x00], [0xff, 0xff, 0xff, 0x00]⟩, ⟨[0xc0, 0xa8, 0x00, 0x00], [0xff, 0xff, 0xff, 0x00]⟩)]

/-- TestNotEqual. -/
example : ∀ r ∈ unequal, CidrEqual r.1 r.2 = false := by decide +kernel

/-- TestEqual. -/
example : CidrEqual ⟨[0xc0, 0xa8, 0x01, 0x00], [0xff, 0xff, 0xff, 0x00]⟩ ⟨[0xc0, 0xa8, 0x01, 0x00], [0xff, 0xff, 0xff, 0x00]⟩ = true := by decide +kernel

def firstLast : List (IPNet × List U8 × List U8) := [
  (⟨[0xc0, 0xa8, 0x00, 0x00], [0xff, 0xff, 0xff, 0x00]⟩, [0xc0, 0xa8, 0x00, 0x00], [0xc0, 0xa8, 0x00, 0xff]),
  (⟨[0xc0, 0xa8, 0x00, 0x00], [0xff, 0xff, 0xfe, 0x00]⟩, [0xc0, 0xa8, 0x00, 0x00], [0xc0, 0xa8, 0x01, 0xff]),
  (⟨[0x01, 0x02, 0x03, 0x04], [0xff, 0xff, 0xff, 0xfc]⟩, [0x01, 0x02, 0x03, 0x04], [0x01, 0x02, 0x03, 0x07])]

/-- TestFirstIpv4, TestLastIpv4. -/
example : ∀ r ∈ firstLast, FirstIpv4 r.1 = r.2.1 ∧ LastIpv4 r.1 = .ok r.2.2 := by decide +kernel

def ipUint : List (List U8 × List U8 × U32) := [
  ([0x00, 0x00, 0x00, 0x00], [0x00, 0x00, 0x00, 0x00, 0x00, 0x00, 0x00, 0x00, 0x00, 0x00, 0xff, 0xff, 0x00, 0x00, 0x00, 0x00], 0),
  ([0x00, 0x01, 0x02, 0x03], [0x00, 0x00, 0x00, 0x00, 0x00, 0x00, 0x00, 0x00, 0x00, 0x00, 0xff, 0xff, 0x00, 0x01, 0x02, 0x03],
    66051),
  ([0x00, 0x01, 0x02, 0x1e], [0x00, 0x00, 0x00, 0x00, 0x00, 0x00, 0x00, 0x00, 0x00, 0x00, 0xff, 0xff, 0x00, 0x01, 0x02, 0x1e],
    66078),
  ([0x01, 0x01, 0x02, 0x00], [0x00, 0x00, 0x00, 0x00, 0x00, 0x00, 0x00, 0x00, 0x00, 0x00, 0xff, 0xff, 0x01, 0x01, 0x02, 0x00],
    16843264),
  ([0x01, 0x01, 0x01, 0x01], [0x00, 0x00, 0x00, 0x00, 0x00, 0x00, 0x00, 0x00, 0x00, 0x00, 0xff, 0xff, 0x01, 0x01, 0x01, 0x01],
    16843009),
  ([0x01, 0x02, 0x03, 0x04], [0x00, 0x00, 0x00, 0x00, 0x00, 0x00, 0x00, 0x00, 0x00, 0x00, 0xff, 0xff, 0x01, 0x02, 0x03, 0x04],
    16909060),
  ([0x04, 0x03, 0x02, 0x01], [0x00, 0x00, 0x00, 0x00, 0x00, 0x00, 0x00, 0x00, 0x00, 0x00, 0xff, 0xff, 0x04, 0x03, 0x02, 0x01],
    67305985),
  ([0x08, 0x07, 0x06, 0x05], [0x00, 0x00, 0x00, 0x00, 0x00, 0x00, 0x00, 0x00, 0x00, 0x00, 0xff, 0xff, 0x08, 0x07, 0x06, 0x05],
    134678021),
  ([0x08, 0x08, 0x08, 0x08], [0x00, 0x00, 0x00, 0x00, 0x00, 0x00, 0x00, 0x00, 0x00, 0x00, 0xff, 0xff, 0x08, 0x08, 0x08, 0x08],
    134744072),
  ([0x64, 0xc8, 0x96, 0xfa], [0x00, 0x00, 0x00, 0x00, 0x00, 0x00, 0x00, 0x00, 0x00, 0x00, 0xff, 0xff, 0x64, 0xc8, 0x96, 0xfa],
    1690867450),
  ([0x7f, 0x00, 0x00, 0x01], [0x00, 0x00, 0x00, 0x00, 0x00, 0x00, 0x00, 0x00, 0x00, 0x00, 0xff, 0xff, 0x7f, 0x00, 0x00, 0x01],
    2130706433),
  ([0x7f, 0xff, 0xff, 0xff], [0x00, 0x00, 0x00, 0x00, 0x00, 0x00, 0x00, 0x00, 0x00, 0x00, 0xff, 0xff, 0x7f, 0xff, 0xff, 0xff],
    2147483647),
  ([0xc0, 0xa8, 0x01, 0x01], [0x00, 0x00, 0x00, 0x00, 0x00, 0x00, 0x00, 0x00, 0x00, 0x00, 0xff, 0xff, 0xc0, 0xa8, 0x01, 0x01],
    3232235777),
  ([0xff, 0x03, 0x02, 0x01], [0x00, 0x00, 0x00, 0x00, 0x00, 0x00, 0x00, 0x00, 0x00, 0x00, 0xff, 0xff, 0xff, 0x03, 0x02, 0x01],
    4278387201),
  ([0xff, 0xff, 0xff, 0xff], [0x00, 0x00, 0x00, 0x00, 0x00, 0x00, 0x00, 0x00, 0x00, 0x00, 0xff, 0xff, 0xff, 0xff, 0xff, 0xff],
    4294967295),
  ([0x87, 0x65, 0x43, 0x21], [0x00, 0x00, 0x00, 0x00, 0x00, 0x00, 0x00, 0x00, 0x00, 0x00, 0xff, 0xff, 0x87, 0x65, 0x43, 0x21],
    2271560481)]

/-- TestIpv4FromUint, TestIpv4ToUint (`net.ParseIP` returns the 16-byte form). -/
example : ∀ r ∈ ipUint, Ipv4FromUint r.2.2 = r.1 ∧ Ipv4ToUint r.2.1 = .ok r.2.2 ∧ Ipv4ToUint r.1 = .ok r.2.2 := by decide +kernel

/-- TestIpv4ToUint_withv6: 2001:db8::68. -/
example : Ipv4ToUint [0x20, 0x01, 0x0d, 0xb8, 0x00, 0x00, 0x00, 0x00, 0x00, 0x00, 0x00, 0x00, 0x00, 0x00, 0x00, 0x68] = .ok 0 := by decide +kernel

def masks : List (List U8 × U8) := [
  ([0x00, 0x00, 0x00, 0x00], 0),
  ([0x80, 0x00, 0x00, 0x00], 1),
  ([0xc0, 0x00, 0x00, 0x00], 2),
  ([0xe0, 0x00, 0x00, 0x00], 3),
  ([0xf0, 0x00, 0x00, 0x00], 4),
  ([0xf8, 0x00, 0x00, 0x00], 5),
  ([0xfc, 0x00, 0x00, 0x00], 6),
  ([0xfe, 0x00, 0x00, 0x00], 7),
  ([0xff, 0x00, 0x00, 0x00], 8),
  ([0xff, 0x80, 0x00, 0x00], 9),
  ([0xff, 0xc0, 0x00, 0x00], 10),
  ([0xff, 0xe0, 0x00, 0x00], 11),
  ([0xff, 0xf0, 0x00, 0x00], 12),
  ([0xff, 0xf8, 0x00, 0x00], 13),
  ([0xff, 0xfc, 0x00, 0x00], 14),
  ([0xff, 0xfe, 0x00, 0x00], 15),
  ([0xff, 0xff, 0x00, 0x00], 16),
  ([0xff, 0xff, 0x80, 0x00], 17),
  ([0xff, 0xff, 0xc0, 0x00], 18),
  ([0xff, 0xff, 0xe0, 0x00], 19),
  ([0xff, 0xff, 0xf0, 0x00], 20),
  ([0xff, 0xff, 0xf8, 0x00], 21),
  ([0xff, 0xff, 0xfc, 0x00], 22),
  ([0xff, 0xff, 0xfe, 0x00], 23),
  ([0xff, 0xff, 0xff, 0x00], 24),
  ([0xff, 0xff, 0xff, 0x80], 25),
  ([0xff, 0xff, 0xff, 0xc0], 26),
  ([0xff, 0xff, 0xff, 0xe0], 27),
  ([0xff, 0xff, 0xff, 0xf0], 28),
  ([0xff, 0xff, 0xff, 0xf8], 29),
  ([0xff, 0xff, 0xff, 0xfc], 30),
  ([0xff, 0xff, 0xff, 0xfe], 31),
  ([0xff, 0xff, 0xff, 0xff], 32)]

/-- TestToByte, TestFromByte. -/
example : ∀ r ∈ masks, MaskToByte r.1 = r.2 ∧ MaskFromByte r.2 = r.1 := by decide +kernel

end Conformance
