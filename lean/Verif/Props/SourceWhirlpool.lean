import Verif.Code.WhirlpoolSum
import Verif.Props.SourceChecksum
import Verif.Props.Whirlpool

/-!
# The source text of package whirlpool, run

C95: the text of the two files (with the tables of 2048 and 10 numbers), read by the parser and run by the interpreter of `Verif/Lang`,
does what the hand-written model does, for every memory, argument and state. C96: so the text computes the published Whirlpool, for every
history of calls.
-/
namespace Source
open GoLang HashSpec WhirlpoolSpec

/-- The program has packages whirlpool and bytes with those texts, the functions they call are those of the standard library, an `int` has
at least 32 bits. -/
structure WhirlpoolHosts (P : Prog) : Prop where
  text : P.Has Whirlpool.path Whirlpool.texts Whirlpool.boxed
  bytes : P.Has Bytes.path Bytes.texts []
  std : P.std = stdlib
  binary : elemN (n! "encoding/binary") (P.pkgs.map Pkg.path) = false
  word : 32 ≤ P.W

section
variable {P : Prog} (hP : WhirlpoolHosts P)
include hP

/-- **C95** hash/whirlpool/whirlpool.go and tables.go -/
theorem C95_whirlpool : Implements P Whirlpool.path Whirlpool.ty (n! "New") 0 _root_.Whirlpool.impl Whirlpool.rep Whirlpool.Inv := by
  have hT := hP.text.find Whirlpool.text
  have hZ := hP.bytes.find Bytes.text
  constructor
  · intro h
    obtain ⟨st, h1, h2, hr⟩ := Whirlpool.run_New hT hP.word h (n := 99) (by decide)
    exact ⟨_, _, h1, ⟨h2, by simp, by simp⟩, .one hr, ⟨[], by simp⟩⟩
  · intro h a s v b hs ha hb hne hl
    obtain ⟨c', h1, h2, hr⟩ := Whirlpool.run_Write hT hP.word ha hs hb hne hl (Nat.lt_succ_self _)
    simp only [_root_.Whirlpool.impl, h1]
    exact ⟨h2, trivial, _, .one hr, ⟨[], by simp⟩⟩
  · intro h a s v b hs ha hb _
    obtain ⟨w, t, h1, hr⟩ := Whirlpool.run_Sum hT hP.word hP.std hP.binary hZ ha hs hb.has.plain b (Nat.lt_succ_self _)
    obtain ⟨v', h', hap, _, hv', _⟩ := appendTo_bytes P.grow (hb.append t) w
    exact ⟨w, h ++ t, v', h', h1, ⟨t, rfl⟩, hap [], .one (hr v' h' hv' hap)⟩
  · intro h a s _ _ h0
    exact absurd rfl h0
  · intro h a s hs ha
    obtain ⟨st, h1, h2, hr⟩ := Whirlpool.run_Reset hT hP.word ha hs.1 (Nat.lt_succ_self _)
    exact ⟨_, _, h1, ⟨h2, hs.2.1, by simp⟩, .one hr, ⟨[], by simp⟩⟩
  · exact fun h a s _ ha => .one (n := 1) (Whirlpool.run_Size hT hP.word 0)
  · exact fun h a s _ _ => .one (n := 1) (Whirlpool.run_BlockSize hT hP.word 0)

/-- **C96** Every history of calls on a new object, run, has exactly the results prescribed for the published Whirlpool. -/
theorem C96_whirlpool : Answers P Whirlpool.path Whirlpool.ty (n! "New") 0 (fun _ => True) fun ops => .ok (expect algo ops) :=
  Implements.answers (C95_whirlpool hP) fun ops _ => _root_.Whirlpool.C49_stream ops

/-- **C96** Fewer than 2^64 bytes written to a new object in any chunks, then `Sum`, run: the published Whirlpool digest of the bytes. -/
theorem C96_digest (h : List Val) : ∃ a h', Returns P Whirlpool.path 0 (n! "New") [] h [obj Whirlpool.path Whirlpool.ty a] h' ∧
    ∀ (cs : List (List U8)) (inp : List U8), Callable P.W 0 (cs.map .write ++ [.sum inp]) → cs.flatten.length < 2 ^ 64 →
      ∀ r, Plays P Whirlpool.path Whirlpool.ty 0 a h' (cs.map .write ++ [.sum inp]) r ↔
        r = .ok (cs.map (fun c => .wrote c.length false) ++ [.bytes (inp ++ whirlpool cs.flatten)]) := by
  obtain ⟨a, h', hr, hp⟩ := C96_whirlpool hP h
  refine ⟨a, h', hr, fun cs inp hc hl r => ?_⟩
  refine (hp _ hc trivial r).trans ?_
  dsimp only
  rw [← _root_.Whirlpool.C49_stream, _root_.Whirlpool.C50_digest cs inp hl]

end

/-! ## Examples -/

/-- A program of these packages on a 64-bit machine. -/
def whirlpoolProg : Prog :=
  { W := 64, pkgs := [Whirlpool.pkg, Bytes.pkg], other := fun _ _ => none, std := stdlib, native := fun _ _ _ => stuck, grow := id }

theorem whirlpoolProg_hosts : WhirlpoolHosts whirlpoolProg :=
  ⟨⟨_, Whirlpool.text, by kernel_rfl⟩, ⟨_, Bytes.text, by kernel_rfl⟩, rfl, by kernel_rfl, by decide⟩

/-- A history with two writes around a sum. -/
example : Callable 64 0 [.write [1, 2], .sum [7], .write (List.replicate 100 3), .sum [], .reset, .size, .blockSize] := by
  refine ⟨?_, by simp⟩
  intro p hp
  simp at hp
  rcases hp with rfl | rfl <;> decide

/-- The text of the code, run: "abc" in two parts. Its digest is that of the standard, whose first bytes are checked here. -/
example : ∃ a h' d, Returns whirlpoolProg Whirlpool.path 0 (n! "New") [] [] [obj Whirlpool.path Whirlpool.ty a] h' ∧
    Plays whirlpoolProg Whirlpool.path Whirlpool.ty 0 a h' [.write (ascii "ab"), .write (ascii "c"), .sum []]
      (.ok [.wrote 2 false, .wrote 1 false, .bytes d]) ∧ d.take 8 = [0x4e, 0x24, 0x48, 0xa4, 0xc6, 0xf4, 0x86, 0xbb] := by
  obtain ⟨a, h', hr, hp⟩ := C96_digest whirlpoolProg_hosts []
  have h2 := (hp [ascii "ab", ascii "c"] [] ⟨by
    intro p hp
    simp at hp
    rcases hp with rfl | rfl <;> decide, by simp⟩ (by decide) _).2 rfl
  rw [show [ascii "ab", ascii "c"].flatten = ascii "abc" by decide, List.nil_append] at h2
  exact ⟨a, h', whirlpool (ascii "abc"), hr, h2, by decide +kernel⟩

end Source
