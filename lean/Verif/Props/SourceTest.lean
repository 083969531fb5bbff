import Verif.Code.TestHash
import Verif.Props.SourceRipemd
import Verif.Props.SourceWhirlpool
import Verif.Props.SourceChecksum
import Verif.Props.Misc

/-!
# The source text of package test, run

C97: the text of the three files, read by the parser and run by the interpreter of `Verif/Lang`: comparing strings gives exactly the
specified messages to `t.Errorf`, and nothing panics. C98: `HashTest` and `HashHexTest`, run on the texts of the hash packages, pass exactly
if the expected text is the digest of the standard.
-/
namespace Source
open GoLang HashSpec TestSpec ChecksumSpec Checksum

/-- The program has packages test and hex with those texts (for either build of hex), the functions they call are those of the standard
library, an `int` has at least 32 bits. -/
structure TestHosts (P : Prog) (bd : _root_.Hex.Build) : Prop where
  text : P.Has Test.path Test.texts []
  hex : P.Has Hex.path (Hex.texts bd) []
  std : P.std = stdlib
  strings : elemN (n! "strings") (P.pkgs.map Pkg.path) = false
  word : 32 ≤ P.W

/-- `Abbr` as specified: at most 20 bytes as they are, of more the first 19 and "…". -/
def abbreviated (s : List U8) : List U8 := if s.length ≤ 20 then s else s.take 19 ++ [0xE2#8, 0x80#8, 0xA6#8]

section
variable {P : Prog} {bd : _root_.Hex.Build} (hP : TestHosts P bd)
include hP

/-- **C97** test/Abbr.go -/
theorem C97_abbr (h : List Val) (s : List U8) : Returns P Test.path 0 (n! "Abbr") [.str s] h [.str (abbreviated s)] h := by
  obtain ⟨r, h1, h2⟩ := Test.run_Abbr (hP.text.find Test.text) h s 0
  rw [TestHelpers.C56_abbr] at h1
  cases h1
  exact .one h2

/-- **C97** test/StringMatch.go: whatever the strings, title and prefix, `StringMatchTitle` returns, the test has exactly the specified
messages added, and nothing else in memory changes. -/
theorem C97_title {t a : Nat} (hL : Test.Logs P t a) {h : List Val} {ms : List (List U8)} (ha : h[a]? = some (.arr (ms.map .str)))
    (title pre expect found : List U8) (hl : ((4 * (expect.length + found.length) + 64 : Nat) : Int) < 2 ^ (P.W - 1)) :
    ∃ more, Returns P Test.path 0 (n! "StringMatchTitle") [.native t, .str title, .str pre, .str expect, .str found] h []
      (h.set a (.arr ((ms ++ messages TestHelpers.explode title pre expect found).map .str)) ++ more) := by
  obtain ⟨more, hr⟩ := Test.run_title (hP.text.find Test.text) hP.word hP.std hP.strings hL ha title pre expect found
    (TestHelpers.messages_eq _ TestHelpers.explode_splits _ _ _ _) hl (Nat.lt_succ_self _)
  exact ⟨more, .one hr⟩

/-- **C97** The same for `StringMatch`, which gives no title and no prefix. -/
theorem C97_match {t a : Nat} (hL : Test.Logs P t a) {h : List Val} {ms : List (List U8)} (ha : h[a]? = some (.arr (ms.map .str)))
    (expect found : List U8) (hl : ((4 * (expect.length + found.length) + 64 : Nat) : Int) < 2 ^ (P.W - 1)) :
    ∃ more, Returns P Test.path 0 (n! "StringMatch") [.native t, .str expect, .str found] h []
      (h.set a (.arr ((ms ++ messages TestHelpers.explode [] [] expect found).map .str)) ++ more) := by
  obtain ⟨more, hr⟩ := Test.run_match (hP.text.find Test.text) hP.word hP.std hP.strings hL ha expect found
    (TestHelpers.messages_eq _ TestHelpers.explode_splits _ _ _ _) hl (Nat.lt_succ_self _)
  exact ⟨more, .one hr⟩

/-- **C97** A comparison, run, adds no message to the test exactly if the strings are equal. -/
theorem C97_silent {t a : Nat} (hL : Test.Logs P t a) {h : List Val} {ms : List (List U8)} (ha : h[a]? = some (.arr (ms.map .str)))
    (expect found : List U8) (hl : ((4 * (expect.length + found.length) + 64 : Nat) : Int) < 2 ^ (P.W - 1)) :
    ∃ h', Returns P Test.path 0 (n! "StringMatch") [.native t, .str expect, .str found] h [] h' ∧ (h'[a]? = h[a]? ↔ found = expect) := by
  obtain ⟨more, hr⟩ := C97_match hP hL ha expect found hl
  refine ⟨_, hr, ?_⟩
  rw [List.getElem?_append_left (by simpa using lt_of_get ha), List.getElem?_set_self (lt_of_get ha), ha]
  have hm := TestHelpers.messages_length TestHelpers.explode [] [] expect found
  constructor
  · intro e
    have e := congrArg List.length (Val.arr.inj (Option.some.inj e))
    simp only [List.length_map, List.length_append] at e
    by_contra hne
    rw [if_neg hne] at hm
    split at hm <;> omega
  · intro e
    rw [if_pos e] at hm
    rw [List.length_eq_zero_iff.mp hm, List.append_nil]

end

/-! ## Tests of hash objects -/

/-- With a test `t` whose messages are at `a` in memory: an object made by `new` and then used in any way allowed by `W` (see `writesOk`) is
tested correctly by both functions. They return, and the messages added are those of comparing `expectHex` with `digest` of all that was
written, the given bytes included, in upper-case hexadecimal. (Text that is not hexadecimal stands for no bytes.) -/
def TestsCode (P : Prog) (kp ty new sumN : Name) (W : List U8 → List U8 → Prop) (digest : List U8 → List U8) (ok : List U8 → Prop) : Prop :=
  ∀ (t a : Nat) (h : List Val) (ms : List (List U8)), Test.Logs P t a → h[a]? = some (.arr (ms.map .str)) →
    ∃ h₁, Returns P kp 0 new [] h [obj kp ty h.length] h₁ ∧
      ∀ ops, Callable P.W sumN ops → writesOk W [] ops → ∃ h₂, Test.Calls P kp ty sumN h.length h₁ ops h₂ ∧
        (∀ v inp expectHex, let m := logFrom [] ops ++ inp
          W (logFrom [] ops) inp → ok m → IsBytes h₂ v inp → base v ≠ some h.length → (inp.length : Int) < 2 ^ (P.W - 1) →
          ((4 * (expectHex.length + (digest m).length * 2) + 64 : Nat) : Int) < 2 ^ (P.W - 1) →
          ∃ h₃, Returns P Test.path 0 (n! "HashTest") [.native t, obj kp ty h.length, v, .str expectHex] h₂ [] h₃ ∧
            h₃[a]? = some (.arr ((ms ++ messages TestHelpers.explode (ascii "Hash(" ++ abbreviated inp ++ ascii ")") [] expectHex
              (HexSpec.encode (digest m))).map .str))) ∧
        (∀ inHex expectHex, let inp := (HexSpec.decode inHex).getD []
          let m := logFrom [] ops ++ inp
          W (logFrom [] ops) inp → ok m → ((inHex.length + 1 : Nat) : Int) < 2 ^ (P.W - 1) →
          ((4 * (expectHex.length + (digest m).length * 2) + 64 : Nat) : Int) < 2 ^ (P.W - 1) →
          ∃ h₃, Returns P Test.path 0 (n! "HashHexTest") [.native t, obj kp ty h.length, .str inHex, .str expectHex] h₂ [] h₃ ∧
            h₃[a]? = some (.arr ((ms ++ messages TestHelpers.explode (ascii "HashHex(" ++ abbreviated inHex ++ ascii ")") [] expectHex
              (HexSpec.encode (digest m))).map .str)))

/-- Code that does what a state machine does which refines an algorithm is tested correctly. -/
theorem testsCode_of {P : Prog} {bd : _root_.Hex.Build} (hP : TestHosts P bd) {kp ty new sumN : Name} {σ : Type} {I : GoHash.Impl σ}
    {rep : σ → Val} {Inv : σ → Prop} (hI : Implements P kp ty new sumN I rep Inv) (hk : Nat.beq kp Test.path = false) (ht : Nat.beq ty 0 = false)
    (hmW : P.methods kp ty (n! "Write") = some true) (hmS : P.methods kp ty (n! "Sum") = some true)
    {A : Algo} {W : List U8 → List U8 → Prop} {R : σ → List U8 → Prop} (hR : Refines I A W R) {digest : List U8 → List U8} {ok : List U8 → Prop}
    (hd : ∀ m, ok m → A.digest m = digest m) : TestsCode P kp ty new sumN W digest ok := by
  intro t a h ms hL ha
  have hT := hP.text.find Test.text
  have hX := hP.hex.find (Hex.text bd)
  obtain ⟨s₀, h₁, n1, n2, n3, n4⟩ := hI.new h
  have hl1 := n4.length_le
  rw [List.length_append, List.length_singleton] at hl1
  have ha1 : h₁[a]? = some (.arr (ms.map .str)) := prefix_get n4 (by rw [List.getElem?_append_left (lt_of_get ha), ha])
  refine ⟨h₁, n3, fun ops hops hw => ?_⟩
  obtain ⟨s₀', n1', hR0⟩ := hR.new
  rw [n1] at n1'
  cases n1'
  obtain ⟨s, hrun, hRs⟩ := hR.runFrom ops s₀ [] hR0 hw
  obtain ⟨h₂, c1, c2, c3, c4, c5⟩ := Test.calls_of hI n2 (prefix_get n4 (get_last _ _)) ops hops hrun
  have hne : a ≠ h.length := by
    have := lt_of_get ha
    omega
  have ha2 : h₂[a]? = some (.arr (ms.map .str)) := by rw [c5 a (lt_of_get ha1) hne, ha1]
  refine ⟨h₂, c1, ?_, ?_⟩
  · intro v inp expectHex m hw hok hb hv hl1 hl2
    obtain ⟨s1, e1, r1⟩ := hR.write s _ inp hRs hw
    obtain ⟨s2, e2, _⟩ := hR.sum s1 _ [] r1
    rw [List.nil_append, hd _ hok] at e2
    obtain ⟨h₃, q1, q2, _⟩ := Test.returns_HashTest hT hP.word hP.std hP.strings hX hI hk ht hmW hmS hL ha2 c3 c2 hne hb hv hl1 e1 e2 expectHex
      (r := messages TestHelpers.explode (ascii "Hash(" ++ abbreviated inp ++ ascii ")") [] expectHex (HexSpec.encode (digest m))) (by
        unfold TestHelpers.HashTest
        rw [e1, Res.ok_bind]
        simp only
        rw [e2, Res.ok_bind]
        simp only
        rw [_root_.Hex.FromBytes_eq, Res.ok_bind, TestHelpers.C56_abbr, Res.ok_bind, TestHelpers.StringMatchTitle,
          TestHelpers.messages_eq _ TestHelpers.explode_splits, Res.ok_bind]
        rfl) hl2
    exact ⟨h₃, q1, q2⟩
  · intro inHex expectHex inp m hw hok hl1 hl2
    have hb : _root_.Hex.ToBytesFast bd inHex = .ok (HexSpec.decode inHex) := by
      rw [_root_.Hex.ToBytesFast_eq]
      cases hd : HexSpec.decode inHex with
      | none =>
        obtain ⟨e, he⟩ := _root_.Hex.toBytesRef_decode_none inHex 0 [] hd
        rw [he]
      | some b => rw [_root_.Hex.toBytesRef_decode _ _ _ _ hd]; simp
    obtain ⟨s1, e1, r1⟩ := hR.write s _ inp hRs hw
    obtain ⟨s2, e2, _⟩ := hR.sum s1 _ [] r1
    rw [List.nil_append, hd _ hok] at e2
    obtain ⟨h₃, q1, q2, _⟩ := Test.returns_HashHexTest hT hP.word hP.std hP.strings hX hI hk ht hmW hmS hL ha2 c3 c2 hne hb hl1 e1 e2 expectHex
      (r := messages TestHelpers.explode (ascii "HashHex(" ++ abbreviated inHex ++ ascii ")") [] expectHex (HexSpec.encode (digest m))) (by
        unfold TestHelpers.HashHexTest
        rw [hb, Res.ok_bind, e1, Res.ok_bind]
        simp only
        rw [e2, Res.ok_bind]
        simp only
        rw [_root_.Hex.FromBytes_eq, Res.ok_bind, TestHelpers.C56_abbr, Res.ok_bind, TestHelpers.StringMatchTitle,
          TestHelpers.messages_eq _ TestHelpers.explode_splits, Res.ok_bind]
        rfl) hl2
    exact ⟨h₃, q1, q2⟩

/-- A method, found by its name. -/
theorem methods_of {P : Prog} {kp ty f : Name} {k : Pkg} (hP : findPkg kp P.pkgs = some k) {b : Bool} (h : recvPtr? ty f k.decls = some b) :
    P.methods kp ty f = some b := by
  simp only [Prog.methods, hP, h]

/-- **C98** With the texts of packages ripemd and test, run: tests pass exactly for the published digests. -/
theorem C98_ripemd {P : Prog} {bd : _root_.Hex.Build} (hP : TestHosts P bd) (hR : RipemdHosts P) :
    TestsCode P Ripemd.path Ripemd.ty (n! "New128") 0 (fun _ _ => True) RipemdSpec.ripemd128 (fun _ => True) ∧
    TestsCode P Ripemd.path Ripemd.ty (n! "New160") 0 (fun _ _ => True) RipemdSpec.ripemd160 (fun _ => True) ∧
    TestsCode P Ripemd.path Ripemd.ty (n! "New256") 0 (fun _ _ => True) RipemdSpec.ripemd256 (fun _ => True) ∧
    TestsCode P Ripemd.path Ripemd.ty (n! "New320") 0 (fun _ _ => True) RipemdSpec.ripemd320 (fun _ => True) := by
  have hk : Nat.beq Ripemd.path Test.path = false := by kernel_rfl
  have ht : Nat.beq Ripemd.ty 0 = false := by kernel_rfl
  have hw := methods_of (hR.text.find Ripemd.text) (ty := Ripemd.ty) (f := n! "Write") (b := true) (by kernel_rfl)
  have hs := methods_of (hR.text.find Ripemd.text) (ty := Ripemd.ty) (f := n! "Sum") (b := true) (by kernel_rfl)
  exact ⟨testsCode_of hP (C93_ripemd128 hR) hk ht hw hs _root_.Ripemd.refines128 fun _ _ => rfl,
    testsCode_of hP (C93_ripemd160 hR) hk ht hw hs _root_.Ripemd.refines160 fun _ _ => rfl,
    testsCode_of hP (C93_ripemd256 hR) hk ht hw hs _root_.Ripemd.refines256 fun _ _ => rfl,
    testsCode_of hP (C93_ripemd320 hR) hk ht hw hs _root_.Ripemd.refines320 fun _ _ => rfl⟩

/-- **C98** With the texts of packages whirlpool and test, run: tests of fewer than 2^64 bytes pass exactly for the published digest. -/
theorem C98_whirlpool {P : Prog} {bd : _root_.Hex.Build} (hP : TestHosts P bd) (hR : WhirlpoolHosts P) :
    TestsCode P Whirlpool.path Whirlpool.ty (n! "New") 0 (fun _ _ => True) WhirlpoolSpec.whirlpool (fun m => m.length < 2 ^ 64) :=
  testsCode_of hP (C95_whirlpool hR) (by kernel_rfl) (by kernel_rfl)
    (methods_of (hR.text.find Whirlpool.text) (by kernel_rfl)) (methods_of (hR.text.find Whirlpool.text) (by kernel_rfl))
    _root_.Whirlpool.refines fun _ h => _root_.Whirlpool.whirlpoolMod_eq h

/-- **C98** With the texts of the checksum packages and of package test, run: tests pass exactly for the checksums, where C88 says so of the
packages themselves. -/
theorem C98_checksum {P : Prog} {bd : _root_.Hex.Build} (hP : TestHosts P bd) (hb : P.Has Bcc.path [Bcc.src] []) (hl : P.Has Lrc.path [Lrc.src] [])
    (hf : P.Has Fletcher.path fletcherTexts []) :
    TestsCode P Bcc.path (n! "digest") (n! "New") (n! "Sum8") (fun _ _ => True) (fun m => [xorAll m]) (fun _ => True) ∧
    TestsCode P Lrc.path (n! "digest") (n! "New") (n! "Sum8") (fun log _ => log = []) (fun m => [BitVec.ofNat 8 (256 - byteSum m % 256)])
      (fun _ => True) ∧
    TestsCode P Fletcher.path (n! "digest16") (n! "New16") (n! "Sum16") Ok16 (fun m => beBytes 2 (fletcher 1 (words 1 m))) (fun _ => True) ∧
    TestsCode P Fletcher.path (n! "digest32") (n! "New32") (n! "Sum32") (Aligned 2) (fun m => beBytes 4 (fletcher 2 (words 2 m))) (fun _ => True) ∧
    TestsCode P Fletcher.path (n! "digest64") (n! "New64") (n! "Sum64") (Aligned 4) (fun m => beBytes 8 (fletcher 4 (words 4 m))) (fun _ => True) := by
  have fb := hb.find Bcc.text
  have fl := hl.find Lrc.text
  have ff := hf.find Fletcher.text
  exact ⟨testsCode_of hP (C87_bcc P hb hP.word) (by kernel_rfl) (by kernel_rfl) (methods_of fb (by kernel_rfl)) (methods_of fb (by kernel_rfl))
      bcc_refines fun _ _ => rfl,
    testsCode_of hP (C87_lrc P hl hP.word) (by kernel_rfl) (by kernel_rfl) (methods_of fl (by kernel_rfl)) (methods_of fl (by kernel_rfl))
      lrc_refines fun _ _ => rfl,
    testsCode_of hP (C87_fletcher16 P hf hP.word) (by kernel_rfl) (by kernel_rfl) (methods_of ff (by kernel_rfl)) (methods_of ff (by kernel_rfl))
      refines16 fun _ _ => rfl,
    testsCode_of hP (C87_fletcher32 P hf hP.word) (by kernel_rfl) (by kernel_rfl) (methods_of ff (by kernel_rfl)) (methods_of ff (by kernel_rfl))
      refines32 fun _ _ => rfl,
    testsCode_of hP (C87_fletcher64 P hf hP.word) (by kernel_rfl) (by kernel_rfl) (methods_of ff (by kernel_rfl)) (methods_of ff (by kernel_rfl))
      refines64 fun _ _ => rfl⟩

/-- **C98** Testing Fletcher-16 with more than 5803 bytes that are no multiple of it panics, instead of reporting. -/
theorem C98_fletcher16_panics {P : Prog} {bd : _root_.Hex.Build} (hP : TestHosts P bd) (hf : P.Has Fletcher.path fletcherTexts []) (h : List Val) :
    ∃ h₁, Returns P Fletcher.path 0 (n! "New16") [] h [obj Fletcher.path (n! "digest16") h.length] h₁ ∧
      ∀ (t : Nat) h₂ v inp expectHex, h₁ <+: h₂ → IsBytes h₂ v inp → base v ≠ some h.length → (inp.length : Int) < 2 ^ (P.W - 1) → 5803 < inp.length →
        inp.length % 5803 ≠ 0 →
        ∃ h₃, Panics P Test.path 0 (n! "HashTest") [.native t, obj Fletcher.path (n! "digest16") h.length, v, .str expectHex] h₂ h₃ := by
  have hI := C87_fletcher16 P hf hP.word
  obtain ⟨s₀, h₁, n1, n2, n3, n4⟩ := hI.new h
  refine ⟨h₁, n3, fun t h₂ v inp expectHex hp hb hv hl h5 h6 => ?_⟩
  have hw := methods_of (hf.find Fletcher.text) (ty := n! "digest16") (f := n! "Write") (b := true) (by kernel_rfl)
  have hs := methods_of (hf.find Fletcher.text) (ty := n! "digest16") (f := n! "Sum") (b := true) (by kernel_rfl)
  exact Test.panics_HashTest (hP.text.find Test.text) hP.word hP.std hP.strings (hP.hex.find (Hex.text bd)) hI (by kernel_rfl) (by kernel_rfl) hw hs
    n2 (prefix_get hp (prefix_get n4 (get_last _ _))) hb hv hl (C38_fletcher16_panics s₀ inp h5 h6) t expectHex

/-- **C98** What the messages say: none exactly if the expected text is the digest in upper-case hexadecimal. -/
theorem C98_passes (title expectHex d : List U8) : messages TestHelpers.explode title [] expectHex (HexSpec.encode d) = [] ↔ expectHex = HexSpec.encode d := by
  have hm := TestHelpers.messages_length TestHelpers.explode title [] expectHex (HexSpec.encode d)
  rw [← List.length_eq_zero_iff, hm]
  split_ifs with h1 h2
  · simp [h1]
  · simp [Ne.symm h1]
  · simp [Ne.symm h1]

/-! ## Examples -/

/-- A test that keeps its messages in the array at `a`. -/
def recorder (a : Nat) : Nat → Name → List Val → M Val := fun _ m args s =>
  bif Nat.beq m (n! "Errorf") then
    match args with
    | .str f :: vs =>
      match (Test.shownAll s.heap vs).bind (sprintf f), s.heap[a]? with
      | some msg, some (.arr l) => .ok .nil ⟨s.heap.set a (.arr (l ++ [.str msg])), s.env⟩
      | _, _ => .stuck
    | _ => .stuck
  else .stuck

/-- A program of these packages on a 64-bit machine; its tests keep their messages in the first object. -/
def testProg : Prog :=
  { W := 64, pkgs := [Test.pkg, Hex.pkg .table, Ripemd.pkg, Whirlpool.pkg, Bytes.pkg, Bcc.pkg, Lrc.pkg, Fletcher.pkg], other := fun _ _ => none, std := stdlib, native := recorder 0,
    grow := id }

theorem testProg_hosts : TestHosts testProg .table ∧ RipemdHosts testProg ∧ WhirlpoolHosts testProg :=
  ⟨⟨⟨_, Test.text, by kernel_rfl⟩, ⟨_, Hex.text .table, by kernel_rfl⟩, rfl, by kernel_rfl, by decide⟩,
    ⟨⟨_, Ripemd.text, by kernel_rfl⟩, ⟨_, Bytes.text, by kernel_rfl⟩, rfl, by kernel_rfl, by kernel_rfl, by decide⟩,
    ⟨⟨_, Whirlpool.text, by kernel_rfl⟩, ⟨_, Bytes.text, by kernel_rfl⟩, rfl, by kernel_rfl, by decide⟩⟩

example : testProg.Has Bcc.path [Bcc.src] [] ∧ testProg.Has Lrc.path [Lrc.src] [] ∧ testProg.Has Fletcher.path fletcherTexts [] :=
  ⟨⟨_, Bcc.text, by kernel_rfl⟩, ⟨_, Lrc.text, by kernel_rfl⟩, ⟨_, Fletcher.text, by kernel_rfl⟩⟩

theorem testProg_logs (t : Nat) : Test.Logs testProg t 0 := by
  intro h e ms f args ws msg ha hs hf
  simp only [testProg, recorder, hs, Option.bind_some, hf, ha, List.map_append, List.map_cons, List.map_nil]
  rfl

/-- The text of the code, run: a comparison of "abc" with "aXc" on a test that has one message. -/
example : ∃ more, Returns testProg Test.path 0 (n! "StringMatch") [.native 7, .str (ascii "abc"), .str (ascii "aXc")] [.arr [.str (ascii "old")]] []
    (.arr [.str (ascii "old"), .str (ascii "Expect, found:\n" ++ ascii "a\x1b[7mb\x1b[0mc" ++ etx ++ ascii "\n" ++ ascii "a\x1b[7mX\x1b[0mc" ++ etx ++
      ascii "\n" ++ ascii "-^-\x00")] :: more) := by
  obtain ⟨more, h⟩ := C97_match testProg_hosts.1 (testProg_logs 7) (h := [.arr [.str (ascii "old")]]) (ms := [ascii "old"]) rfl (ascii "abc") (ascii "aXc")
    (by decide)
  refine ⟨more, ?_⟩
  have : messages TestHelpers.explode [] [] (ascii "abc") (ascii "aXc") = [ascii "Expect, found:\n" ++ ascii "a\x1b[7mb\x1b[0mc" ++ etx ++ ascii "\n" ++
    ascii "a\x1b[7mX\x1b[0mc" ++ etx ++ ascii "\n" ++ ascii "-^-\x00"] := by decide +kernel
  rw [this] at h
  exact h

/-- The text of the code, run: the RIPEMD-160 of "abc", after "a" was written, tested with the digest of the standard (no message) and with
another text (a message). -/
example : ∃ h₁ h₂, Returns testProg Ripemd.path 0 (n! "New160") [] [.arr []] [obj Ripemd.path Ripemd.ty 1] h₁ ∧
    Test.Calls testProg Ripemd.path Ripemd.ty 0 1 h₁ [.write (ascii "a")] h₂ ∧
    (∃ h₃, Returns testProg Test.path 0 (n! "HashHexTest") [.native 7, obj Ripemd.path Ripemd.ty 1, .str (ascii "6263"),
      .str (ascii "8EB208F7E05D987A9B044A8E98C6B087F15A0BFC")] h₂ [] h₃ ∧ h₃[0]? = some (.arr [])) ∧
    ∃ h₃ m, Returns testProg Test.path 0 (n! "HashHexTest") [.native 7, obj Ripemd.path Ripemd.ty 1, .str (ascii "6263"),
      .str (ascii "8eb208f7e05d987a9b044a8e98c6b087f15a0bfc")] h₂ [] h₃ ∧ h₃[0]? = some (.arr [.str m]) := by
  obtain ⟨h₁, r1, hc⟩ := (C98_ripemd testProg_hosts.1 testProg_hosts.2.1).2.1 7 0 [.arr []] [] (testProg_logs 7) rfl
  obtain ⟨h₂, c, _, hx⟩ := hc [.write (ascii "a")] ⟨by
    intro p hp
    simp at hp
    subst hp
    decide, by simp⟩ ⟨trivial, trivial⟩
  have hd : HexSpec.decode (ascii "6263") = some (ascii "bc") := by decide +kernel
  have hm : RipemdSpec.ripemd160 (logFrom [] [.write (ascii "a")] ++ ascii "bc") = [0x8e, 0xb2, 0x08, 0xf7, 0xe0, 0x5d, 0x98, 0x7a, 0x9b, 0x04, 0x4a, 0x8e,
    0x98, 0xc6, 0xb0, 0x87, 0xf1, 0x5a, 0x0b, 0xfc] := by decide +kernel
  refine ⟨h₁, h₂, r1, c, ?_, ?_⟩
  · obtain ⟨h₃, q1, q2⟩ := hx (ascii "6263") (ascii "8EB208F7E05D987A9B044A8E98C6B087F15A0BFC") trivial trivial (by decide) (by
      rw [hd, Option.getD_some, hm]; decide)
    refine ⟨h₃, q1, ?_⟩
    rw [hd, Option.getD_some, hm, (C98_passes _ _ _).2 (by decide +kernel)] at q2
    exact q2
  · obtain ⟨h₃, q1, q2⟩ := hx (ascii "6263") (ascii "8eb208f7e05d987a9b044a8e98c6b087f15a0bfc") trivial trivial (by decide) (by
      rw [hd, Option.getD_some, hm]; decide)
    refine ⟨h₃, report TestHelpers.explode (ascii "HashHex(" ++ abbreviated (ascii "6263") ++ ascii ")") [] (ascii "8eb208f7e05d987a9b044a8e98c6b087f15a0bfc")
      (HexSpec.encode [0x8e, 0xb2, 0x08, 0xf7, 0xe0, 0x5d, 0x98, 0x7a, 0x9b, 0x04, 0x4a, 0x8e, 0x98, 0xc6, 0xb0, 0x87, 0xf1, 0x5a, 0x0b, 0xfc]), q1, ?_⟩
    rw [hd, Option.getD_some, hm, messages, if_neg (by decide +kernel), if_pos (by decide +kernel)] at q2
    exact q2

end Source
