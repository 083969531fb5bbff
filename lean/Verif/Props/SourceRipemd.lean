import Verif.Code.RipemdSum
import Verif.Props.SourceChecksum
import Verif.Props.Ripemd

/-!
# The source text of package ripemd, run

C93: the text of the five files, read by the parser and run by the interpreter of `Verif/Lang`, does what the hand-written model does,
for every memory, argument and state. C94: so the text computes the published RIPEMD-128, -160, -256 and -320, for every history of calls.
-/
namespace Source
open GoLang HashSpec RipemdSpec

/-- The program has packages ripemd and bytes with those texts, the functions they call are those of the standard library, an `int` has at
least 32 bits. -/
structure RipemdHosts (P : Prog) : Prop where
  text : P.Has Ripemd.path Ripemd.texts Ripemd.boxed
  bytes : P.Has Bytes.path Bytes.texts []
  std : P.std = stdlib
  binary : elemN (n! "encoding/binary") (P.pkgs.map Pkg.path) = false
  bits : elemN (n! "math/bits") (P.pkgs.map Pkg.path) = false
  word : 32 ≤ P.W

/-- The methods, for any of the four functions `hash`. -/
theorem Ripemd.implements {P : Prog} (hP : RipemdHosts P) {new hash : Name} {k : Nat} {H : BlockHash.Ctx U32 → Res (BlockHash.Ctx U32)} (hk : k ≤ 10)
    (hH : Ripemd.RunsHash P hash k H)
    (hN : ∀ h : List Val, ∃ t st, _root_.Ripemd.new ⟨H, k⟩ = .ok ⟨st, 0, List.replicate 64 0#8, 0⟩ ∧ st.length = 10 ∧
      run P 100 Ripemd.path 0 new [] h = .ok [obj Ripemd.path Ripemd.ty h.length] ⟨h ++ [Ripemd.rep hash k ⟨st, 0, List.replicate 64 0#8, 0⟩] ++ t, []⟩) :
    Implements P Ripemd.path Ripemd.ty new 0 (_root_.Ripemd.impl ⟨H, k⟩) (Ripemd.rep hash k) Ripemd.Inv := by
  have hT := hP.text.find Ripemd.text
  have hZ := hP.bytes.find Bytes.text
  constructor
  · intro h
    obtain ⟨t, st, h1, h2, hr⟩ := hN h
    exact ⟨_, _, h1, ⟨h2, by simp, by simp⟩, .one hr, ⟨t, rfl⟩⟩
  · intro h a s v b hs ha hb hne hl
    obtain ⟨t, c', h1, h2, hr⟩ := Ripemd.run_Write hT hP.word hH ha hs hb hne hl (Nat.lt_succ_self _)
    simp only [_root_.Ripemd.impl, h1]
    exact ⟨h2, trivial, _, .one hr, ⟨t, rfl⟩⟩
  · intro h a s v b hs ha hb _
    obtain ⟨w, t, h1, hr⟩ := Ripemd.run_Sum hT hP.word hP.std hP.binary hZ hH ha hs hk hb.has.plain b (Nat.lt_succ_self _)
    obtain ⟨v', h', hap, _, hv', _⟩ := appendTo_bytes P.grow (hb.append t) w
    exact ⟨w, h ++ t, v', h', h1, ⟨t, rfl⟩, hap [], .one (hr v' h' hv' hap)⟩
  · intro h a s _ _ h0
    exact absurd rfl h0
  · intro h a s hs ha
    obtain ⟨t, st, h1, h2, hr⟩ := Ripemd.run_Reset (H := H) hT hP.word hP.std hP.binary ha hs.1 hk (Nat.lt_succ_self _)
    exact ⟨_, _, h1, ⟨h2, hs.2.1, by simp⟩, .one hr, ⟨t, rfl⟩⟩
  · exact fun h a s _ ha => .one (n := 1) (Ripemd.run_Size hT hP.word ha hk 0)
  · exact fun h a s _ _ => .one (n := 1) (Ripemd.run_BlockSize hT hP.word 0)

section
variable {P : Prog} (hP : RipemdHosts P)
include hP

/-- **C93** hash/ripemd/ripe128.go and shared.go -/
theorem C93_ripemd128 : Implements P Ripemd.path Ripemd.ty (n! "New128") 0 (_root_.Ripemd.impl _root_.Ripemd.v128) (Ripemd.rep (n! "hash128") 4) Ripemd.Inv :=
  Ripemd.implements hP (by decide) (Ripemd.run_hash128 (hP.text.find Ripemd.text) hP.std hP.binary hP.bits hP.word)
    fun h => Ripemd.run_New128 (hP.text.find Ripemd.text) hP.word hP.std hP.binary h (n := 99) (by decide)

/-- **C93** hash/ripemd/ripe160.go and shared.go -/
theorem C93_ripemd160 : Implements P Ripemd.path Ripemd.ty (n! "New160") 0 (_root_.Ripemd.impl _root_.Ripemd.v160) (Ripemd.rep (n! "hash160") 5) Ripemd.Inv :=
  Ripemd.implements hP (by decide) (Ripemd.run_hash160 (hP.text.find Ripemd.text) hP.std hP.binary hP.bits hP.word)
    fun h => Ripemd.run_New160 (hP.text.find Ripemd.text) hP.word hP.std hP.binary h (n := 99) (by decide)

/-- **C93** hash/ripemd/ripe256.go and shared.go -/
theorem C93_ripemd256 : Implements P Ripemd.path Ripemd.ty (n! "New256") 0 (_root_.Ripemd.impl _root_.Ripemd.v256) (Ripemd.rep (n! "hash256") 8) Ripemd.Inv :=
  Ripemd.implements hP (by decide) (Ripemd.run_hash256 (hP.text.find Ripemd.text) hP.std hP.binary hP.bits hP.word)
    fun h => Ripemd.run_New256 (hP.text.find Ripemd.text) hP.word hP.std hP.binary h (n := 99) (by decide)

/-- **C93** hash/ripemd/ripe320.go and shared.go -/
theorem C93_ripemd320 : Implements P Ripemd.path Ripemd.ty (n! "New320") 0 (_root_.Ripemd.impl _root_.Ripemd.v320) (Ripemd.rep (n! "hash320") 10) Ripemd.Inv :=
  Ripemd.implements hP (by decide) (Ripemd.run_hash320 (hP.text.find Ripemd.text) hP.std hP.binary hP.bits hP.word)
    fun h => Ripemd.run_New320 (hP.text.find Ripemd.text) hP.word hP.std hP.binary h (n := 99) (by decide)

/-- **C94** Every history of calls on a new object, run, has exactly the results prescribed for the published RIPEMD-128. -/
theorem C94_ripemd128 : Answers P Ripemd.path Ripemd.ty (n! "New128") 0 (fun _ => True) fun ops => .ok (expect (algo ripemd128 16) ops) :=
  Implements.answers (C93_ripemd128 hP) fun ops _ => _root_.Ripemd.C46_stream128 ops

/-- **C94** The same for RIPEMD-160. -/
theorem C94_ripemd160 : Answers P Ripemd.path Ripemd.ty (n! "New160") 0 (fun _ => True) fun ops => .ok (expect (algo ripemd160 20) ops) :=
  Implements.answers (C93_ripemd160 hP) fun ops _ => _root_.Ripemd.C46_stream160 ops

/-- **C94** The same for RIPEMD-256. -/
theorem C94_ripemd256 : Answers P Ripemd.path Ripemd.ty (n! "New256") 0 (fun _ => True) fun ops => .ok (expect (algo ripemd256 32) ops) :=
  Implements.answers (C93_ripemd256 hP) fun ops _ => _root_.Ripemd.C46_stream256 ops

/-- **C94** The same for RIPEMD-320. -/
theorem C94_ripemd320 : Answers P Ripemd.path Ripemd.ty (n! "New320") 0 (fun _ => True) fun ops => .ok (expect (algo ripemd320 40) ops) :=
  Implements.answers (C93_ripemd320 hP) fun ops _ => _root_.Ripemd.C46_stream320 ops

end

/-! ## Examples -/

/-- A program of these packages on a 64-bit machine. -/
def ripemdProg : Prog :=
  { W := 64, pkgs := [Ripemd.pkg, Bytes.pkg], other := fun _ _ => none, std := stdlib, native := fun _ _ _ => stuck, grow := id }

theorem ripemdProg_hosts : RipemdHosts ripemdProg :=
  ⟨⟨_, Ripemd.text, by kernel_rfl⟩, ⟨_, Bytes.text, by kernel_rfl⟩, rfl, by kernel_rfl, by kernel_rfl, by decide⟩

/-- A history with two writes around a sum. -/
example : Callable 64 0 [.write [1, 2], .sum [7], .write (List.replicate 100 3), .sum [], .reset, .size, .blockSize] := by
  refine ⟨?_, by simp⟩
  intro p hp
  simp at hp
  rcases hp with rfl | rfl <;> decide

/-- The text of the code, run: RIPEMD-160 of "abc". -/
example : ∃ a h', Returns ripemdProg Ripemd.path 0 (n! "New160") [] [] [obj Ripemd.path Ripemd.ty a] h' ∧
    Plays ripemdProg Ripemd.path Ripemd.ty 0 a h' [.write (ascii "abc"), .sum []] (.ok [.wrote 3 false, .bytes
      [0x8e, 0xb2, 0x08, 0xf7, 0xe0, 0x5d, 0x98, 0x7a, 0x9b, 0x04, 0x4a, 0x8e, 0x98, 0xc6, 0xb0, 0x87, 0xf1, 0x5a, 0x0b, 0xfc]]) := by
  obtain ⟨a, h', hr, hp⟩ := C94_ripemd160 ripemdProg_hosts []
  refine ⟨a, h', hr, (hp _ ⟨?_, by simp⟩ trivial _).2 (by decide +kernel)⟩
  intro p hp
  simp at hp
  subst hp
  decide

end Source
