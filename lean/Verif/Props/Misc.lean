import Verif.Model.Endian
import Verif.Lemmas.TestHelpers
import Verif.Lemmas.Hex
import Verif.Lemmas.Ripemd
import Verif.Props.Whirlpool

/-! # Theorems about packages `endian` and `test` -/

namespace Endian

/-- What a store of a 16-bit value writes at the lower and the higher address on a little-endian machine. -/
def lowFirst (v : U16) : U8 × U8 := (BitVec.ofNat 8 (v.toNat % 256), BitVec.ofNat 8 (v.toNat / 256))
/-- The same on a big-endian machine. -/
def highFirst (v : U16) : U8 × U8 := (BitVec.ofNat 8 (v.toNat / 256), BitVec.ofNat 8 (v.toNat % 256))

/-- **C55** On either kind of machine `init` sets the variables to what the machine does, and big endian for the others. -/
theorem C55_detects : init lowFirst = .ok ⟨.littleEndian, .bigEndian, .bigEndian⟩ ∧
    init highFirst = .ok ⟨.bigEndian, .bigEndian, .bigEndian⟩ := by decide

theorem uint16_low (v : U16) : ByteOrder.littleEndian.uint16 (lowFirst v) = v := by
  have hv := v.isLt
  show (BitVec.ofNat 8 (v.toNat % 256)).setWidth 16 ||| (BitVec.ofNat 8 (v.toNat / 256)).setWidth 16 <<< 8 = v
  rw [BitVec.or_comm]
  apply BitVec.eq_of_toNat_eq
  rw [BitVec.toNat_or, BitVec.toNat_shiftLeft, BitVec.toNat_setWidth, BitVec.toNat_setWidth, BitVec.toNat_ofNat, BitVec.toNat_ofNat,
    Nat.shiftLeft_eq, Nat.mod_eq_of_lt (by omega : v.toNat / 256 < 2 ^ 8), Nat.mod_eq_of_lt (by omega : v.toNat / 256 < 2 ^ 16),
    Nat.mod_eq_of_lt (by omega : v.toNat % 256 < 2 ^ 8), Nat.mod_eq_of_lt (by omega : v.toNat % 256 < 2 ^ 16),
    Nat.mod_eq_of_lt (by omega), Nat.mul_comm, ← Nat.two_pow_add_eq_or_of_lt (by omega)]
  omega

theorem uint16_high (v : U16) : ByteOrder.bigEndian.uint16 (highFirst v) = v := uint16_low v

/-- **C55** Reading a stored value back with the detected order gives the value, for every value, and with the other order only
if both of its bytes are the same. -/
theorem C55_reads (store : U16 → U8 × U8) (hs : store = lowFirst ∨ store = highFirst) :
    ∃ w, init store = .ok w ∧ ∀ v o, o.uint16 (store v) = v ↔ o = w.platform ∨ v.toNat / 256 = v.toNat % 256 := by
  have key : ∀ v, ByteOrder.bigEndian.uint16 (lowFirst v) = v ↔ v.toNat / 256 = v.toNat % 256 := by
    intro v
    have hv := v.isLt
    have h0 := uint16_high (BitVec.ofNat 16 (v.toNat % 256 * 256 + v.toNat / 256))
    have h1 : highFirst (BitVec.ofNat 16 (v.toNat % 256 * 256 + v.toNat / 256)) = lowFirst v := by
      unfold highFirst lowFirst
      rw [BitVec.toNat_ofNat, Nat.mod_eq_of_lt (by omega), show (v.toNat % 256 * 256 + v.toNat / 256) / 256 = v.toNat % 256 by omega,
        show (v.toNat % 256 * 256 + v.toNat / 256) % 256 = v.toNat / 256 by omega]
    rw [h1] at h0
    rw [h0, ← BitVec.toNat_inj, BitVec.toNat_ofNat, Nat.mod_eq_of_lt (by omega)]
    omega
  rcases hs with rfl | rfl
  · refine ⟨_, C55_detects.1, fun v o => ?_⟩
    cases o
    · simp [uint16_low]
    · simp [key]
  · refine ⟨_, C55_detects.2, fun v o => ?_⟩
    cases o
    · have : ByteOrder.littleEndian.uint16 (highFirst v) = ByteOrder.bigEndian.uint16 (lowFirst v) := rfl
      simp [this, key]
    · simp [uint16_high]

/-- **C55** On a machine that does neither, `init` panics: it does so exactly if the first byte of a stored `0xABCD` is neither
of the two. -/
theorem C55_panics (store : U16 → U8 × U8) : init store = .panic ↔ (store 0xABCD#16).1 ≠ 0xAB#8 ∧ (store 0xABCD#16).1 ≠ 0xCD#8 := by
  unfold init
  simp only
  split_ifs with h1 h2 <;> simp [*]

example : init (fun _ => (0, 0)) = .panic := by decide
example : ByteOrder.littleEndian.uint16 (0xCD, 0xAB) = 0xABCD := by decide
example : ByteOrder.bigEndian.uint16 (0xCD, 0xAB) = 0xCDAB := by decide

end Endian

namespace TestHelpers
open TestSpec

/-- **C56** `Abbr` returns a string of at most 20 bytes as it is, of a longer one the first 19 bytes and "…". -/
theorem C56_abbr (s : List U8) :
    Abbr s = .ok (if s.length ≤ 20 then s else s.take 19 ++ [0xE2#8, 0x80#8, 0xA6#8]) := by
  unfold Abbr
  simp only
  by_cases h : s.length ≤ 20
  · rw [if_neg (by omega), if_pos h]; rfl
  · rw [if_pos (by omega), if_neg h, goSlice, if_pos (by constructor <;> omega)]
    rfl

/-- **C56** The result has at most 22 bytes, and is never longer than that by an abbreviation: it is the argument, or starts with
19 bytes of it. -/
theorem C56_length (s r : List U8) (h : Abbr s = .ok r) : r.length ≤ 22 ∧ r.take 19 = s.take 19 := by
  rw [C56_abbr] at h
  obtain rfl := Res.ok.inj h
  split
  · exact ⟨by omega, rfl⟩
  · next hl =>
    rw [List.take_left' (by rw [List.length_take]; omega)]
    refine ⟨?_, rfl⟩
    rw [List.length_append, List.length_take]
    simp only [List.length_cons, List.length_nil]
    omega

/-- The length alone is not kept below that of the argument: 21 bytes become 22. -/
example : Abbr (List.replicate 21 0x61#8) = .ok (List.replicate 19 0x61#8 ++ [0xE2#8, 0x80#8, 0xA6#8]) := by decide +kernel
example : Abbr (ascii "0123456789abcdefghij") = .ok (ascii "0123456789abcdefghij") := by decide +kernel

/-! ## StringMatch -/

/-- **C57** Whatever the strings, title and prefix, and however the strings are cut into non-empty characters, comparing them
does not panic, and the messages are as specified. -/
theorem C57_messages (split : List U8 → List (List U8)) (hs : Splits split) (title pre expect found : List U8) :
    stringMatchTitle split title pre expect found = .ok (messages split title pre expect found) :=
  messages_eq split hs title pre expect found

/-- **C57** `strings.Split(s, "")` cuts every string, valid UTF-8 or not, into non-empty characters. -/
theorem C57_split : Splits explode := explode_splits

/-- **C57** No message exactly if the strings are equal; two exactly if their lengths differ; otherwise one. -/
theorem C57_count (title pre expect found : List U8) : ∃ r, StringMatchTitle title pre expect found = .ok r ∧
    (r = [] ↔ found = expect) ∧ (r.length = 2 ↔ found.length ≠ expect.length) ∧ r.length ≤ 2 := by
  refine ⟨_, messages_eq explode explode_splits _ _ _ _, ?_⟩
  have h := messages_length explode title pre expect found
  rw [← List.length_eq_zero_iff, h]
  split_ifs with h1 h2
  · simp [h1]
  · simp [h1, h2]
  · simp [h1, h2]

/-- **C57** The same for `StringMatch`. -/
theorem C57_plain (expect found : List U8) : ∃ r, StringMatch expect found = .ok r ∧ (r = [] ↔ found = expect) ∧
    (r.length = 2 ↔ found.length ≠ expect.length) := by
  obtain ⟨r, h1, h2, h3, _⟩ := C57_count [] [] expect found
  exact ⟨r, h1, h2, h3⟩

example : (do let r ← StringMatch (ascii "abcd") (ascii "abXd"); pure r.length) = Res.ok 1 := by decide +kernel
example : (do let r ← StringMatch (ascii "abcd") (ascii "abcde"); pure r.length) = Res.ok 2 := by decide +kernel
example : StringMatch [0xC3, 0xA9] [0xC3, 0xA9] = .ok [] := by decide +kernel
/-- "é" is one character, a byte that is not UTF-8 also. -/
example : explode [0xC3, 0xA9, 0xFF, 0x61] = [[0xC3, 0xA9], [0xFF], [0x61]] := by decide +kernel

/-- **C59** If the characters before the first difference and those after the last are single bytes, the report shows exactly the
rest inverted. (Without that condition it does not, see `C59_false`.) -/
theorem C59_inverted_partial (split : List U8 → List (List U8)) (hs : Splits split) (title pre expect found : List U8)
    (hh : ∀ r ∈ (split expect).take (headMatch (split expect) (split found)), r.length = 1)
    (hk : ∀ r ∈ (split expect).drop ((split expect).length - tailMatch (split expect) (split found)), r.length = 1)
    (hh' : ∀ r ∈ (split found).take (headMatch (split expect) (split found)), r.length = 1)
    (hk' : ∀ r ∈ (split found).drop ((split found).length - tailMatch (split expect) (split found)), r.length = 1)
    (hne : found ≠ expect) :
    ∃ r, stringMatchTitle split title pre expect found = .ok r ∧ r.getLast? = some (reportChars split title pre expect found) := by
  refine ⟨_, messages_eq split hs _ _ _ _, ?_⟩
  unfold messages
  rw [if_neg hne, List.getLast?_append_of_ne_nil _ (by simp), List.getLast?_singleton]
  congr 1
  have h1 := headMatch_le (split expect) (split found)
  have h2 := tailMatch_le (split expect) (split found)
  have r1 := fun b (h : headMatch (split expect) (split found) + tailMatch (split expect) (split found) ≤ (split expect).length) =>
    render_chars (split expect) b _ _ h hh hk
  have r2 := fun b (h : headMatch (split expect) (split found) + tailMatch (split expect) (split found) ≤ (split found).length) =>
    render_chars (split found) b _ _ h hh' hk'
  rw [(hs expect).1] at r1
  rw [(hs found).1] at r2
  unfold report reportChars
  simp only
  rw [r1 _ (by omega), r2 _ (by omega)]

/-- "aéb" and "aéc" have the two-byte character before the difference and do not qualify; "abé" and "acé" have it after; "abc" and
"aéc" have it in the difference and do. -/
example : headMatch (explode (ascii "abc")) (explode [0x61, 0xC3, 0xA9, 0x63]) = 1 ∧
    tailMatch (explode (ascii "abc")) (explode [0x61, 0xC3, 0xA9, 0x63]) = 1 ∧
    (∀ r ∈ (explode [0x61, 0xC3, 0xA9, 0x63]).take 1, r.length = 1) ∧
    (∀ r ∈ (explode [0x61, 0xC3, 0xA9, 0x63]).drop 2, r.length = 1) := by decide +kernel

/-- **C59** is false in general: "éa" and "éb" differ in the last character, but the inverted part starts within "é": the number of
equal characters is used as a number of bytes (test/StringMatch.go:36-53). -/
theorem C59_false : ¬ ∀ expect found : List U8, found ≠ expect →
    ∃ r, StringMatch expect found = .ok r ∧ r.getLast? = some (reportChars explode [] [] expect found) := by
  intro h
  obtain ⟨r, h1, h2⟩ := h [0xC3, 0xA9, 0x61] [0xC3, 0xA9, 0x62] (by decide)
  have h3 : StringMatch [0xC3, 0xA9, 0x61] [0xC3, 0xA9, 0x62] = .ok [report explode [] [] [0xC3, 0xA9, 0x61] [0xC3, 0xA9, 0x62]] := by
    decide +kernel
  rw [h3] at h1
  obtain rfl := Res.ok.inj h1
  revert h2
  decide +kernel

/-- **C59** The marker line has one mark per character of the string with more bytes (the expected one if they have the same number) and a zero byte
after them: every report ends in a zero byte. -/
theorem C59_nul (split : List U8 → List (List U8)) (hs : Splits split) (title pre expect found : List U8) (hne : found ≠ expect) :
    ∃ r m, stringMatchTitle split title pre expect found = .ok r ∧ r.getLast? = some (m ++ [0#8]) := by
  have hlt := head_lt (hs expect).2 (hs found).2 (by rw [(hs expect).1, (hs found).1]; exact hne)
  rw [(hs expect).1, (hs found).1] at hlt
  have key : ∀ (e f : List (List U8)) (n : Nat), headMatch e f < n →
      markers e f n = (markers e f n).take n ++ [0#8] := by
    intro e f n h
    conv => lhs; rw [← List.take_append_drop n (markers e f n)]
    congr 1
    unfold markers
    rw [List.range_succ, List.map_append, List.drop_left' (by simp)]
    simp only [List.map_cons, List.map_nil]
    rw [if_neg (by omega), if_neg (by omega), if_neg (by omega), if_neg (by omega)]
  have hm : (messages split title pre expect found).getLast? = some (report split title pre expect found) := by
    unfold messages
    rw [if_neg hne, List.getLast?_append_of_ne_nil _ (by simp), List.getLast?_singleton]
  rw [report, layout] at hm
  rw [key _ _ _ hlt, ← List.append_assoc] at hm
  exact ⟨_, _, messages_eq split hs _ _ _ _, hm⟩

example : StringMatch (ascii "abc") (ascii "aXc") = .ok [ascii "Expect, found:\n" ++
    ascii "a\x1b[7mb\x1b[0mc" ++ etx ++ ascii "\n" ++ ascii "a\x1b[7mX\x1b[0mc" ++ etx ++ ascii "\n" ++
    ascii "-^-\x00"] := by decide +kernel

/-! ## Hash comparison -/

/-- **C60** For any hash object: `HashTest` writes the message, asks for the digest, and reports nothing exactly if `expectHex` is
that digest in upper-case hexadecimal. -/
theorem C60_any {σ : Type} (I : GoHash.Impl σ) (h h1 h2 : σ) (n : Nat) (err : Bool) (inp d expectHex : List U8)
    (hw : I.write h inp = .ok (h1, n, err)) (hs : I.sum h1 [] = .ok (h2, d)) :
    ∃ r, HashTest I h inp expectHex = .ok (h2, r) ∧ (r = [] ↔ expectHex = HexSpec.encode d) := by
  obtain ⟨r, hr, h0, _⟩ := C57_count (ascii "Hash(" ++ (if inp.length ≤ 20 then inp else inp.take 19 ++ [0xE2#8, 0x80#8, 0xA6#8]) ++ ascii ")")
    [] expectHex (HexSpec.encode d)
  refine ⟨r, ?_, h0.trans eq_comm⟩
  unfold HashTest
  rw [hw]
  simp only [Res.ok_bind]
  rw [hs]
  simp only [Res.ok_bind]
  rw [Hex.FromBytes_eq, Res.ok_bind, C56_abbr, Res.ok_bind, hr]
  rfl

/-- The object has the state some history of calls leaves. -/
def Reached {σ : Type} (I : GoHash.Impl σ) (ops : List GoHash.Op) (s : σ) : Prop :=
  ∃ s₀ outs, I.new = .ok s₀ ∧ GoHash.runFrom I s₀ ops = .ok (s, outs)

/-- `HashTest` does what it should for objects of `I`: after any history, it does not panic and reports nothing exactly
if the expected text is the digest, by `digest`, of all that was written, `inp` included, provided that `ok` holds for it. -/
def Tests {σ : Type} (I : GoHash.Impl σ) (digest : List U8 → List U8) (ok : List U8 → Prop) : Prop :=
  ∀ ops s inp expectHex, Reached I ops s → ok (HashSpec.logFrom [] ops ++ inp) → ∃ s' r, HashTest I s inp expectHex = .ok (s', r) ∧
    (r = [] ↔ expectHex = HexSpec.encode (digest (HashSpec.logFrom [] ops ++ inp)))

theorem reached_rel {σ : Type} {I : GoHash.Impl σ} {A : HashSpec.Algo} {R : σ → List U8 → Prop}
    (hR : HashSpec.Refines I A (fun _ _ => True) R) {ops : List GoHash.Op} {s : σ} (h : Reached I ops s) :
    R s (HashSpec.logFrom [] ops) := by
  obtain ⟨s₀, outs, hn, hr⟩ := h
  obtain ⟨t, ht, hRt⟩ := hR.new
  rw [hn] at ht
  obtain rfl := Res.ok.inj ht
  obtain ⟨s', hs', hR'⟩ := hR.runFrom ops s₀ [] hRt (HashSpec.writesOk_true _ _)
  rw [hr] at hs'
  obtain ⟨rfl, _⟩ := Prod.mk.inj (Res.ok.inj hs')
  exact hR'

theorem tests_of {σ : Type} {I : GoHash.Impl σ} {A : HashSpec.Algo} {R : σ → List U8 → Prop}
    (hR : HashSpec.Refines I A (fun _ _ => True) R) {digest : List U8 → List U8} {ok : List U8 → Prop}
    (hd : ∀ m, ok m → A.digest m = digest m) : Tests I digest ok := by
  intro ops s inp expectHex h hok
  rw [← hd _ hok]
  obtain ⟨s1, e1, r1⟩ := hR.write s _ inp (reached_rel hR h) trivial
  obtain ⟨s2, e2, _⟩ := hR.sum s1 _ [] r1
  obtain ⟨r, h1, h2⟩ := C60_any I s s1 s2 _ _ inp _ expectHex e1 e2
  exact ⟨s2, r, h1, h2⟩

/-- **C60** With the repository's hashes, a test made with `HashTest` passes exactly if the expected text is the standard's digest,
in upper-case hexadecimal, of the bytes written so far and the given ones. -/
theorem C60_hashes : Tests (Ripemd.impl Ripemd.v128) RipemdSpec.ripemd128 (fun _ => True) ∧
    Tests (Ripemd.impl Ripemd.v160) RipemdSpec.ripemd160 (fun _ => True) ∧
    Tests (Ripemd.impl Ripemd.v256) RipemdSpec.ripemd256 (fun _ => True) ∧
    Tests (Ripemd.impl Ripemd.v320) RipemdSpec.ripemd320 (fun _ => True) ∧
    Tests Whirlpool.impl WhirlpoolSpec.whirlpool (fun m => m.length < 2 ^ 64) :=
  ⟨tests_of Ripemd.refines128 fun _ _ => rfl, tests_of Ripemd.refines160 fun _ _ => rfl, tests_of Ripemd.refines256 fun _ _ => rfl,
    tests_of Ripemd.refines320 fun _ _ => rfl, tests_of Whirlpool.refines fun _ h => Whirlpool.whirlpoolMod_eq h⟩

/-- A new object is reached by the empty history. -/
example : ∃ s, Reached (Ripemd.impl Ripemd.v128) [] s := by
  obtain ⟨s, h, _⟩ := Ripemd.refines128.new
  exact ⟨s, s, [], h, rfl⟩

/-- **C61** For any hash object: `HashHexTest` hashes the bytes `inHex` stands for, and no bytes at all if `inHex` is not
hexadecimal text. It reports nothing exactly if `expectHex` is the digest in upper-case hexadecimal. -/
theorem C61_any {σ : Type} (build : Hex.Build) (I : GoHash.Impl σ) (h h1 h2 : σ) (n : Nat) (err : Bool) (inHex d expectHex : List U8)
    (hw : I.write h ((HexSpec.decode inHex).getD []) = .ok (h1, n, err)) (hs : I.sum h1 [] = .ok (h2, d)) :
    ∃ r, HashHexTest build I h inHex expectHex = .ok (h2, r) ∧ (r = [] ↔ expectHex = HexSpec.encode d) := by
  obtain ⟨r, hr, h0, _⟩ := C57_count (ascii "HashHex(" ++ (if inHex.length ≤ 20 then inHex else inHex.take 19 ++ [0xE2#8, 0x80#8, 0xA6#8]) ++ ascii ")")
    [] expectHex (HexSpec.encode d)
  refine ⟨r, ?_, h0.trans eq_comm⟩
  have hb : Hex.ToBytesFast build inHex = .ok (HexSpec.decode inHex) := by
    rw [Hex.ToBytesFast_eq]
    cases hd : HexSpec.decode inHex with
    | none =>
      obtain ⟨e, he⟩ := Hex.toBytesRef_decode_none inHex 0 [] hd
      rw [he]
    | some b => rw [Hex.toBytesRef_decode _ _ _ _ hd]; simp
  unfold HashHexTest
  rw [hb]
  simp only [Res.ok_bind]
  rw [hw]
  simp only [Res.ok_bind]
  rw [hs]
  simp only [Res.ok_bind]
  rw [Hex.FromBytes_eq, Res.ok_bind, C56_abbr, Res.ok_bind, hr]
  rfl

/-- The same as `Tests`, for `HashHexTest` on texts that are hexadecimal. -/
def HexTests {σ : Type} (build : Hex.Build) (I : GoHash.Impl σ) (digest : List U8 → List U8) (ok : List U8 → Prop) : Prop :=
  ∀ ops s inHex b expectHex, Reached I ops s → HexSpec.decode inHex = some b → ok (HashSpec.logFrom [] ops ++ b) →
    ∃ s' r, HashHexTest build I s inHex expectHex = .ok (s', r) ∧
      (r = [] ↔ expectHex = HexSpec.encode (digest (HashSpec.logFrom [] ops ++ b)))

theorem hexTests_of {σ : Type} (build : Hex.Build) {I : GoHash.Impl σ} {A : HashSpec.Algo} {R : σ → List U8 → Prop}
    (hR : HashSpec.Refines I A (fun _ _ => True) R) {digest : List U8 → List U8} {ok : List U8 → Prop}
    (hdg : ∀ m, ok m → A.digest m = digest m) : HexTests build I digest ok := by
  intro ops s inHex b expectHex h hd hok
  rw [← hdg _ hok]
  obtain ⟨s1, e1, r1⟩ := hR.write s _ b (reached_rel hR h) trivial
  obtain ⟨s2, e2, _⟩ := hR.sum s1 _ [] r1
  obtain ⟨r, h1, h2⟩ := C61_any build I s s1 s2 _ _ inHex _ expectHex (by rw [hd]; exact e1) e2
  exact ⟨s2, r, h1, h2⟩

/-- **C61** With the repository's hashes and hexadecimal input, `HashHexTest` passes exactly if the expected text is the standard's
digest. (If the input is not hexadecimal it does not fail, see `C61_false`.) -/
theorem C61_hashes_partial (build : Hex.Build) : HexTests build (Ripemd.impl Ripemd.v128) RipemdSpec.ripemd128 (fun _ => True) ∧
    HexTests build (Ripemd.impl Ripemd.v160) RipemdSpec.ripemd160 (fun _ => True) ∧
    HexTests build (Ripemd.impl Ripemd.v256) RipemdSpec.ripemd256 (fun _ => True) ∧
    HexTests build (Ripemd.impl Ripemd.v320) RipemdSpec.ripemd320 (fun _ => True) ∧
    HexTests build Whirlpool.impl WhirlpoolSpec.whirlpool (fun m => m.length < 2 ^ 64) :=
  ⟨hexTests_of build Ripemd.refines128 fun _ _ => rfl, hexTests_of build Ripemd.refines160 fun _ _ => rfl,
    hexTests_of build Ripemd.refines256 fun _ _ => rfl, hexTests_of build Ripemd.refines320 fun _ _ => rfl,
    hexTests_of build Whirlpool.refines fun _ h => Whirlpool.whirlpoolMod_eq h⟩

/-- The empty history and the text "00Ff" are such. -/
example : ∃ s, Reached Whirlpool.impl [] s ∧ HexSpec.decode (ascii "00Ff") = some [0, 255] := by
  obtain ⟨s, h, _⟩ := Whirlpool.refines.new
  exact ⟨s, ⟨s, [], h, rfl⟩, by decide⟩

/-- `HashHexTest` on texts that are not hexadecimal: they count as the empty message, so that with the digest of all that was
written before expected, the test passes. -/
def InvalidIsEmpty {σ : Type} (build : Hex.Build) (I : GoHash.Impl σ) (digest : List U8 → List U8) (ok : List U8 → Prop) : Prop :=
  ∀ ops s inHex expectHex, Reached I ops s → HexSpec.decode inHex = none → ok (HashSpec.logFrom [] ops) →
    ∃ s' r, HashHexTest build I s inHex expectHex = .ok (s', r) ∧
      (r = [] ↔ expectHex = HexSpec.encode (digest (HashSpec.logFrom [] ops)))

theorem invalid_of {σ : Type} (build : Hex.Build) {I : GoHash.Impl σ} {A : HashSpec.Algo} {R : σ → List U8 → Prop}
    (hR : HashSpec.Refines I A (fun _ _ => True) R) {digest : List U8 → List U8} {ok : List U8 → Prop}
    (hdg : ∀ m, ok m → A.digest m = digest m) : InvalidIsEmpty build I digest ok := by
  intro ops s inHex expectHex h hd hok
  rw [← hdg _ hok]
  obtain ⟨s1, e1, r1⟩ := hR.write s _ [] (reached_rel hR h) trivial
  obtain ⟨s2, e2, _⟩ := hR.sum s1 _ [] r1
  obtain ⟨r, h1, h2⟩ := C61_any build _ s s1 s2 _ _ inHex _ expectHex (by rw [hd]; exact e1) e2
  rw [List.append_nil] at h2
  exact ⟨s2, r, h1, h2⟩

/-- **C61** (negation, in general) With each of the repository's hashes, input that is not hexadecimal text counts as the empty
message. -/
theorem C61_invalid (build : Hex.Build) : InvalidIsEmpty build (Ripemd.impl Ripemd.v128) RipemdSpec.ripemd128 (fun _ => True) ∧
    InvalidIsEmpty build (Ripemd.impl Ripemd.v160) RipemdSpec.ripemd160 (fun _ => True) ∧
    InvalidIsEmpty build (Ripemd.impl Ripemd.v256) RipemdSpec.ripemd256 (fun _ => True) ∧
    InvalidIsEmpty build (Ripemd.impl Ripemd.v320) RipemdSpec.ripemd320 (fun _ => True) ∧
    InvalidIsEmpty build Whirlpool.impl WhirlpoolSpec.whirlpool (fun m => m.length < 2 ^ 64) :=
  ⟨invalid_of build Ripemd.refines128 fun _ _ => rfl, invalid_of build Ripemd.refines160 fun _ _ => rfl,
    invalid_of build Ripemd.refines256 fun _ _ => rfl, invalid_of build Ripemd.refines320 fun _ _ => rfl,
    invalid_of build Whirlpool.refines fun _ h => Whirlpool.whirlpoolMod_eq h⟩

example : HexSpec.decode (ascii "zz") = none ∧ HexSpec.decode (ascii "abc") = none := by decide

/-- **C61** So it is false that a test with input that is not hexadecimal always fails. -/
theorem C61_false (build : Hex.Build) : ¬ ∀ (s s' : BlockHash.Ctx U32) (inHex expectHex : List U8) (r : List (List U8)),
    (Ripemd.impl Ripemd.v128).new = .ok s → HexSpec.decode inHex = none →
    HashHexTest build (Ripemd.impl Ripemd.v128) s inHex expectHex = .ok (s', r) → r ≠ [] := by
  intro h
  obtain ⟨s, hn, _⟩ := Ripemd.refines128.new
  obtain ⟨s', r, h1, h2⟩ := (C61_invalid build).1 [] s (ascii "zz") _ ⟨s, [], hn, rfl⟩ (by decide) trivial
  exact h s s' (ascii "zz") _ r hn (by decide) h1 (h2.mpr rfl)

end TestHelpers
