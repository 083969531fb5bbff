import Verif.Code.Endian
import Verif.Code.BytesAdd
import Verif.Props.Misc
import Verif.Props.SourceBytes

/-!
# The source text of package endian, run

C102: the text of endian/endian.go, read by the parser and run by the interpreter of `Verif/Lang` on a machine that stores 16 bits in any
way, finds out how it does.
-/
namespace Source
open GoLang

/-- The program has package endian with its text, memory begins with `mem` at the start, and the machine stores 16 bits as `st` says. -/
structure EndianHosts (P : Prog) (st : U16 → U8 × U8) (mem : List Val) : Prop where
  text : P.HasMem Endian.path [Endian.src] Endian.boxed Endian.vars mem
  /-- `unsafe.Pointer` of the address of an element -/
  pointer : ∀ (k t : Name) (a i : Nat) (p : List Sel) (s : St), P.std (n! "unsafe") 0 (n! "Pointer") [.ptr k t a (p ++ [.idx i])] s = .ok (.raw st a p i) s
  binary : elemN (n! "encoding/binary") (P.pkgs.map Pkg.path) = false
  unsafe_ : elemN (n! "unsafe") (P.pkgs.map Pkg.path) = false

/-- The value of package encoding/binary. -/
def orderVal : _root_.Endian.ByteOrder → Val
  | .littleEndian => .std (n! "encoding/binary") (n! "LittleEndian")
  | .bigEndian => .std (n! "encoding/binary") (n! "BigEndian")

section
variable {P : Prog} {st : U16 → U8 × U8} {mem : List Val} (hP : EndianHosts P st mem) (rest : List Val)
include hP

/-- **C102** `init` does what the model does. Of memory, it changes the three variables, and makes one object. -/
theorem C102_model :
    match _root_.Endian.init st with
    | .ok v => ∃ o, Returns P Endian.path 0 (n! "init") [] (mem ++ rest) [] ([orderVal v.platform, orderVal v.sourceCode, orderVal v.network] ++ rest ++ [o])
    | .panic => ∃ p o, Panics P Endian.path 0 (n! "init") [] (mem ++ rest) ([p, orderVal .bigEndian, orderVal .bigEndian] ++ rest ++ [o]) := by
  obtain ⟨hk, rfl⟩ := hP.text.find Endian.text
  have r := Endian.run_init hP.pointer hP.binary hP.unsafe_ hk (x := .nil) (y := .nil) (z := .nil) (h := rest) (n := 0)
  unfold _root_.Endian.init
  split_ifs at r with c1 c2
  · simp only [c1, if_true]
    exact ⟨_, .one r⟩
  · simp only [c2, if_true, show ¬ (0xAB#8 = 0xCD#8) by decide, if_false]
    exact ⟨_, .one r⟩
  · simp only [c1, c2, if_false]
    exact ⟨_, _, .one r⟩

/-- **C102** On a machine that stores the low byte first, `init` makes `Platform` little endian, on one that stores the high byte first, big
endian; `SourceCode` and `Network` are big endian on both. -/
theorem C102_detects :
    (st = _root_.Endian.lowFirst → ∃ o, Returns P Endian.path 0 (n! "init") [] (mem ++ rest) []
      ([.std (n! "encoding/binary") (n! "LittleEndian"), .std (n! "encoding/binary") (n! "BigEndian"), .std (n! "encoding/binary") (n! "BigEndian")] ++ rest ++ [o])) ∧
    (st = _root_.Endian.highFirst → ∃ o, Returns P Endian.path 0 (n! "init") [] (mem ++ rest) []
      ([.std (n! "encoding/binary") (n! "BigEndian"), .std (n! "encoding/binary") (n! "BigEndian"), .std (n! "encoding/binary") (n! "BigEndian")] ++ rest ++ [o])) := by
  have hm := C102_model hP rest
  constructor
  · rintro rfl
    rw [_root_.Endian.C55_detects.1] at hm
    exact hm
  · rintro rfl
    rw [_root_.Endian.C55_detects.2] at hm
    exact hm

/-- **C102** `init` panics exactly on the machines on which the first byte of a stored `0xABCD` is neither `0xAB` nor `0xCD`; on all others
it returns. -/
theorem C102_panics :
    ((∃ h', Panics P Endian.path 0 (n! "init") [] (mem ++ rest) h') ↔ (st 0xABCD#16).1 ≠ 0xAB#8 ∧ (st 0xABCD#16).1 ≠ 0xCD#8) ∧
    ((∃ h', Returns P Endian.path 0 (n! "init") [] (mem ++ rest) [] h') ↔ (st 0xABCD#16).1 = 0xAB#8 ∨ (st 0xABCD#16).1 = 0xCD#8) := by
  have hm := C102_model hP rest
  have hp := _root_.Endian.C55_panics st
  generalize _root_.Endian.init st = r at hm hp
  cases r with
  | ok v =>
    obtain ⟨o, ho⟩ := hm
    have hn := mt hp.2 (by simp)
    refine ⟨⟨fun ⟨h', h2⟩ => (ho.not_panics h2).elim, fun h => absurd h hn⟩, ⟨fun _ => ?_, fun _ => ⟨_, ho⟩⟩⟩
    by_cases c : (st 0xABCD#16).1 = 0xAB#8
    · exact .inl c
    · exact .inr (Classical.byContradiction fun c2 => hn ⟨c, c2⟩)
  | panic =>
    obtain ⟨p, o, ho⟩ := hm
    have hn := hp.1 rfl
    exact ⟨⟨fun _ => hn, fun _ => ⟨_, ho⟩⟩, ⟨fun ⟨h', h2⟩ => (h2.not_panics ho).elim, fun h => (h.elim hn.1 hn.2).elim⟩⟩

/-- **C102** On either machine `Platform` is then an order of package encoding/binary that reads what the machine stores: `Platform.Uint16` of
two bytes that the machine stored for a number gives the number. -/
theorem C102_reads (hs : st = _root_.Endian.lowFirst ∨ st = _root_.Endian.highFirst) :
    ∃ o h', Returns P Endian.path 0 (n! "init") [] (mem ++ rest) [] h' ∧ h'[0]? = some (.std (n! "encoding/binary") o) ∧
      ∀ (x : U16) (h : List Val) (a : Nat) (p : List Sel) (off cap : Nat) (e : List (Name × Val)), HasBytes h (.slice a p off 2 cap) [(st x).1, (st x).2] →
        stdlib (n! "encoding/binary") o (n! "Uint16") [.slice a p off 2 cap] ⟨h, e⟩ = .ok (.u16 x) ⟨h, e⟩ := by
  have key (x : U16) : BitVec.ofNat 16 ((BitVec.ofNat 8 (x.toNat % 256)).toNat + 256 * ((BitVec.ofNat 8 (x.toNat / 256)).toNat + 256 * 0)) = x := by
    have := x.isLt
    apply BitVec.eq_of_toNat_eq
    simp only [BitVec.toNat_ofNat]
    omega
  rcases hs with rfl | rfl
  · obtain ⟨o, ho⟩ := (C102_detects hP rest).1 rfl
    refine ⟨_, _, ho, rfl, fun x h a p off cap e hb => ?_⟩
    rw [Bytes.std_get_le16]
    rcases hb.cases with h1 | ⟨h1, _⟩ | ⟨_, _, _, _, ob, l, h1, ho, hg, hl, he⟩ <;> cases h1
    simp at hl he
    simp [go, readUint, firstElems, ho, hg, hl, he, valBytes, leNat]
    exact key x
  · obtain ⟨o, ho⟩ := (C102_detects hP rest).2 rfl
    refine ⟨_, _, ho, rfl, fun x h a p off cap e hb => ?_⟩
    rw [Bytes.std_get_be16]
    rcases hb.cases with h1 | ⟨h1, _⟩ | ⟨_, _, _, _, ob, l, h1, ho, hg, hl, he⟩ <;> cases h1
    simp at hl he
    simp [go, readUint, firstElems, ho, hg, hl, he, valBytes, leNat]
    exact key x

/-- **C102** A program whose variable `endian.Platform` is what `init` left there meets the assumption of C91 about it. -/
theorem C102_platform (hs : st = _root_.Endian.lowFirst ∨ st = _root_.Endian.highFirst) :
    ∃ h', Returns P Endian.path 0 (n! "init") [] (mem ++ rest) [] h' ∧ ∀ Q : Prog, elemN Bytes.endianPath (Q.pkgs.map Pkg.path) = true →
      Q.other Bytes.endianPath (n! "Platform") = h'[0]? → (Platform Q true ↔ st = _root_.Endian.lowFirst) ∧ (Platform Q false ↔ st = _root_.Endian.highFirst) := by
  have ne : _root_.Endian.lowFirst ≠ _root_.Endian.highFirst := fun e => absurd (congrFun e 1) (by decide)
  rcases hs with rfl | rfl
  · obtain ⟨o, ho⟩ := (C102_detects hP rest).1 rfl
    refine ⟨_, ho, fun Q h1 h2 => ⟨⟨fun _ => rfl, fun _ => ⟨h1, h2⟩⟩, ⟨fun h => ?_, fun h => (ne h).elim⟩⟩⟩
    have := h2.symm.trans h.order
    simp [Bytes.order] at this
  · obtain ⟨o, ho⟩ := (C102_detects hP rest).2 rfl
    refine ⟨_, ho, fun Q h1 h2 => ⟨⟨fun h => ?_, fun h => (ne h.symm).elim⟩, ⟨fun _ => rfl, fun _ => ⟨h1, h2⟩⟩⟩⟩
    have := h2.symm.trans h.order
    simp [Bytes.order] at this

end

/-! ## Examples -/

/-- The standard library of a machine that stores 16 bits like this. -/
def machineStd (st : U16 → U8 × U8) (path n m : Name) (args : List Val) : M Val :=
  bif Nat.beq path (n! "unsafe") then
    match args with
    | [.ptr _ _ a p] => match p.getLast? with | some (.idx i) => return .raw st a p.dropLast i | _ => stuck
    | _ => stuck
  else stdlib path n m args

def endianProg (st : U16 → U8 × U8) : Prog :=
  { W := 64, pkgs := [Endian.pkg], other := fun _ _ => none, std := machineStd st, native := fun _ _ _ => stuck, grow := id }

/-- The assumptions can be met, for any machine. -/
theorem endianProg_hosts (st : U16 → U8 × U8) : EndianHosts (endianProg st) st [.nil, .nil, .nil] := by
  refine ⟨⟨_, Endian.text, by kernel_rfl⟩, fun k t a i p s => ?_, by kernel_rfl, by kernel_rfl⟩
  rw [show (endianProg st).std = machineStd st from rfl]
  simp [machineStd, go]

/-- A machine of each kind, and one that stores the low byte twice with its bits inverted, in a memory with another object. -/
example : (∃ h', Returns (endianProg _root_.Endian.lowFirst) Endian.path 0 (n! "init") [] [.nil, .nil, .nil, .u8 7] [] h' ∧ h'[0]? = some (.std (n! "encoding/binary") (n! "LittleEndian"))) ∧
    (∃ h', Returns (endianProg _root_.Endian.highFirst) Endian.path 0 (n! "init") [] [.nil, .nil, .nil, .u8 7] [] h' ∧ h'[0]? = some (.std (n! "encoding/binary") (n! "BigEndian"))) ∧
    ∃ h', Panics (endianProg fun x => (~~~(x.setWidth 8), ~~~(x.setWidth 8))) Endian.path 0 (n! "init") [] [.nil, .nil, .nil, .u8 7] h' := by
  obtain ⟨o, ho⟩ := (C102_detects (endianProg_hosts _root_.Endian.lowFirst) [.u8 7]).1 rfl
  obtain ⟨o2, ho2⟩ := (C102_detects (endianProg_hosts _root_.Endian.highFirst) [.u8 7]).2 rfl
  exact ⟨⟨_, ho, rfl⟩, ⟨_, ho2, rfl⟩, (C102_panics (endianProg_hosts _) [.u8 7]).1.2 (by decide)⟩

/-- The bytes of 258 on a little-endian machine, in a struct. -/
example : HasBytes [.struct 0 0 [(n! "x", .arr ([2, 1].map .u8))]] (.slice 0 [.fld (n! "x")] 0 2 2) [(_root_.Endian.lowFirst 258).1, (_root_.Endian.lowFirst 258).2] := by
  show bytesIn _ _ = _
  kernel_rfl

end Source
