import Verif.Lemmas.Hex

/-! # C01-C06, C62: package `encoding/hex` -/
namespace Hex
open HexSpec

/-- C01. Encoding never panics, and decoding the encoding gives back the input, in both builds and with both decoders. -/
theorem C01_hex_roundtrip (build : Build) (b : List U8) :
    ∃ s, FromBytes b = .ok s ∧
      ToBytes build s = .ok ⟨some b, none⟩ ∧ ToBytesFast build s = .ok (some b) := by
  refine ⟨encode b, FromBytes_eq b, ?_, ?_⟩
  · rw [ToBytes_eq, toBytesRef_decode _ _ _ _ (decode_encode b)]; simp
  · rw [ToBytesFast_eq, toBytesRef_decode _ _ _ _ (decode_encode b)]; simp

/-- C02. The text is two characters per byte; character `2i` is the upper-case digit of the high nibble of
byte `i`, character `2i+1` that of the low nibble. -/
theorem C02_hex_canonical (b : List U8) :
    ∃ s, FromBytes b = .ok s ∧ s.length = 2 * b.length ∧
      ∀ i (h : i < b.length),
        s[2 * i]? = some (upperDigit (b[i].toNat / 16)) ∧
        s[2 * i + 1]? = some (upperDigit (b[i].toNat % 16)) := by
  refine ⟨encode b, FromBytes_eq b, ?_, ?_⟩
  · induction b with
    | nil => rfl
    | cons x xs ih => simp [encode] at ih ⊢; omega
  · induction b with
    | nil => intro i h; simp at h
    | cons x xs ih =>
      intro i h
      have e : encode (x :: xs) = upperDigit (x.toNat / 16) :: upperDigit (x.toNat % 16) :: encode xs := by
        simp [encode]
      cases i with
      | zero => simp [e]
      | succ i =>
        have := ih i (by simpa using h)
        rw [e, show 2 * (i + 1) = 2 * i + 1 + 1 by omega]
        simpa using this

/-- C02. Different byte strings have different texts. -/
theorem C02_hex_injective (a b : List U8) (h : FromBytes a = FromBytes b) : a = b := by
  rw [FromBytes_eq, FromBytes_eq] at h
  have h' : encode a = encode b := by simpa using h
  have h1 := decode_encode a
  rw [h', decode_encode] at h1
  exact (Option.some.inj h1).symm

/-- C02. The texts are exactly the digits of the RFC 4648 alphabet (`upperDigit` spelled out). -/
theorem C02_hex_alphabet : (List.range 16).map upperDigit = ascii "0123456789ABCDEF" := by decide +kernel

/-- C03. `ToBytes` succeeds exactly on even-length texts of hexadecimal digits (either case), and then returns
the value of each pair. -/
theorem C03_hex_accepts_iff (build : Build) (s : List U8) :
    (∃ b, ToBytes build s = .ok ⟨some b, none⟩) ↔ s.length % 2 = 0 ∧ ∀ c ∈ s, IsHex c := by
  rw [ToBytes_eq, ← decode_isSome_iff]
  constructor
  · rintro ⟨b, hb⟩
    cases h : HexSpec.decode s with
    | some x => exact ⟨x, rfl⟩
    | none =>
      obtain ⟨e, he⟩ := toBytesRef_decode_none s 0 [] h
      rw [he] at hb; simp at hb
  · rintro ⟨b, hb⟩
    exact ⟨b, by rw [toBytesRef_decode _ _ _ _ hb]; simp⟩

/-- C03. The value returned is the specified one: byte `i` is `16 * value s[2i] + value s[2i+1]`. -/
theorem C03_hex_value (build : Build) (s b : List U8) (h : ToBytes build s = .ok ⟨some b, none⟩) :
    b.length = s.length / 2 ∧
    ∀ i (hi : i < b.length), ∃ x y hv lv, s[2 * i]? = some x ∧ s[2 * i + 1]? = some y ∧
      digitVal x = some hv ∧ digitVal y = some lv ∧ b[i].toNat = 16 * hv + lv := by
  have hd : HexSpec.decode s = some b := by
    rw [ToBytes_eq] at h
    cases hs : HexSpec.decode s with
    | none =>
      obtain ⟨e, he⟩ := toBytesRef_decode_none s 0 [] hs
      rw [he] at h; simp at h
    | some x =>
      rw [toBytesRef_decode _ _ _ _ hs] at h; simp at h; rw [h]
  clear h
  have key : ∀ (s b : List U8), HexSpec.decode s = some b → b.length = s.length / 2 ∧
    ∀ i (hi : i < b.length), ∃ x y hv lv, s[2 * i]? = some x ∧ s[2 * i + 1]? = some y ∧
      digitVal x = some hv ∧ digitVal y = some lv ∧ b[i].toNat = 16 * hv + lv := by
    intro s
    induction s using HexSpec.decode.induct with
    | case1 => intro b h; simp [HexSpec.decode] at h; subst h; simp
    | case2 => intro b h; simp [HexSpec.decode] at h
    | case3 a c t hv lv r ht hc ha ih =>
      intro b h
      simp [HexSpec.decode, ha, hc, ht] at h
      obtain ⟨h1, h2⟩ := ih r ht
      subst h
      refine ⟨by simp; omega, ?_⟩
      intro i hi
      have hp := (decode_hex (build := .table) ha).1
      have hq := (decode_hex (build := .table) hc).1
      cases i with
      | zero => exact ⟨a, c, hv, lv, by simp, by simp, ha, hc, by simp; omega⟩
      | succ i =>
        obtain ⟨x, y, p, q, e⟩ := h2 i (by simpa using hi)
        refine ⟨x, y, p, q, ?_⟩
        rw [show 2 * (i + 1) = 2 * i + 1 + 1 by omega]
        simpa using e
    | case4 a c t hn =>
      intro b h
      rw [HexSpec.decode] at h
      cases ha : digitVal a <;> cases hb : digitVal c <;> cases ht : HexSpec.decode t <;>
        simp [ha, hb, ht] at h
      exact absurd ht (hn _ _ _ ha hb)
  exact key s b hd

/-- C03. Re-encoding a successfully decoded text gives the text in upper case. -/
theorem C03_hex_reencode (build : Build) (s b : List U8) (h : ToBytes build s = .ok ⟨some b, none⟩) :
    FromBytes b = .ok (s.map upper) := by
  rw [FromBytes_eq]
  cases hs : HexSpec.decode s with
  | none =>
    obtain ⟨e, he⟩ := toBytesRef_decode_none s 0 [] hs
    rw [ToBytes_eq, he] at h; simp at h
  | some x =>
    rw [ToBytes_eq, toBytesRef_decode _ _ _ _ hs] at h
    simp at h; subst h
    rw [encode_decode_upper _ _ hs]

example : ToBytes .table (ascii "0aFf") = .ok ⟨some [10, 255], none⟩ := by decide +kernel

/-- C04. If the text has a non-hexadecimal character, the result is a nil slice and an error naming the leftmost
such character and its index (whatever the parity of the length). -/
theorem C04_hex_leftmost_error (build : Build) (pre : List U8) (c : U8) (post : List U8)
    (hpre : ∀ x ∈ pre, IsHex x) (hc : ¬ IsHex c) :
    ToBytes build (pre ++ c :: post) = .ok ⟨none, some (.invalidHexAt c pre.length)⟩ := by
  rw [ToBytes_eq, toBytesRef_invalid pre c post 0 [] hpre hc]; simp

/-- C04. An odd number of hexadecimal digits gives a nil slice and `ErrLength`. -/
theorem C04_hex_length_error (build : Build) (s : List U8) (hs : ∀ x ∈ s, IsHex x) (ho : s.length % 2 = 1) :
    ToBytes build s = .ok ⟨none, some .errLength⟩ := by
  rw [ToBytes_eq, toBytesRef_odd s 0 [] hs ho]

/-- C04. Those are all the cases: `ToBytes` never panics, and returns either a slice and no error, or no slice and an error. -/
theorem C04_hex_total (build : Build) (s : List U8) :
    (∃ b, ToBytes build s = .ok ⟨some b, none⟩) ∨ (∃ e, ToBytes build s = .ok ⟨none, some e⟩) := by
  rw [ToBytes_eq]
  cases hs : HexSpec.decode s with
  | none =>
    obtain ⟨e, he⟩ := toBytesRef_decode_none s 0 [] hs
    exact Or.inr ⟨e, by rw [he]⟩
  | some x => exact Or.inl ⟨x, by rw [toBytesRef_decode _ _ _ _ hs]; simp⟩

/-- C05. `ToBytesFast` returns nil exactly when `ToBytes` returns an error, and otherwise the same non-nil slice. -/
theorem C05_hex_fast_agrees (build : Build) (s : List U8) :
    (∀ b, ToBytesFast build s = .ok (some b) ↔ ToBytes build s = .ok ⟨some b, none⟩) ∧
    (ToBytesFast build s = .ok none ↔ ∃ e, ToBytes build s = .ok ⟨none, some e⟩) := by
  rw [ToBytes_eq, ToBytesFast_eq]
  cases hs : HexSpec.decode s with
  | none =>
    obtain ⟨e, he⟩ := toBytesRef_decode_none s 0 [] hs
    rw [he]; simp
  | some x => rw [toBytesRef_decode _ _ _ _ hs]; simp

/-- C06. The `tiny` build cannot be told apart from the default build through the API. -/
theorem C06_hex_builds_agree (s : List U8) :
    ToBytes .tiny s = ToBytes .table s ∧ ToBytesFast .tiny s = ToBytesFast .table s := by
  simp [ToBytes_eq, ToBytesFast_eq]

/-- C62. The text of an invalid-character error, for every byte and every position (also negative ones):
the byte read as a code point and UTF-8 encoded, then the position in decimal. -/
theorem C62_text (b : U8) (at_ : Int) : ∃ d, IsSigned d at_ ∧
    invalidText b at_ = ascii "Invalid hex: " ++ utf8 b.toNat ++ ascii " @ " ++ d :=
  ⟨fmtInt at_, fmtInt_isSigned at_, by rw [invalidText, stringOfByte_eq]⟩

/-- C62, for ASCII. Decoding a text whose leftmost non-hexadecimal character is an ASCII one gives an error whose text
quotes that character as it stands in the text, and its index in decimal.
Missing from the full statement: characters that are not ASCII, where it is false (`C62_false`). -/
theorem C62_names_partial (build : Build) (pre : List U8) (c : U8) (post : List U8)
    (hpre : ∀ x ∈ pre, IsHex x) (hc : ¬ IsHex c) (hascii : c.toNat < 128) :
    ∃ e d, ToBytes build (pre ++ c :: post) = .ok ⟨none, some e⟩ ∧ IsDecimal d pre.length ∧
      e.text = ascii "Invalid hex: " ++ [c] ++ ascii " @ " ++ d := by
  refine ⟨_, fmtInt pre.length, C04_hex_leftmost_error build pre c post hpre hc, fmtInt_isSigned pre.length, ?_⟩
  rw [HexErr.text, invalidText, stringOfByte_eq, utf8, if_pos hascii, BitVec.ofNat_toNat, BitVec.setWidth_eq]

example : ¬ IsHex (0x67 : U8) ∧ (0x67#8 : U8).toNat < 128 ∧ 128 ≤ (0xE9#8 : U8).toNat := by decide +kernel

/-- C62. Exactly for the other bytes the character is not quoted as it stands in the text: whatever the text is,
the message has two other bytes in its place. -/
theorem C62_not_ascii (b : U8) (at_ : Int) (h : 128 ≤ b.toNat) :
    ¬ ∃ d, invalidText b at_ = ascii "Invalid hex: " ++ [b] ++ ascii " @ " ++ d := by
  rintro ⟨d, hd⟩
  have h2 : invalidText b at_ = ascii "Invalid hex: " ++ (stringOfByte b ++ 32#8 :: (ascii "@ " ++ fmtInt at_)) := by
    simp [invalidText, ascii]
  have h3 : ascii "Invalid hex: " ++ [b] ++ ascii " @ " ++ d =
      ascii "Invalid hex: " ++ (b :: 32#8 :: (ascii "@ " ++ d)) := by simp [ascii]
  rw [h2, h3] at hd
  have hd := List.append_cancel_left hd
  have : ∀ b : U8, 128 ≤ b.toNat → ∃ x y, stringOfByte b = [x, y] ∧ y ≠ 32#8 := by
    intro b hb
    refine ⟨_, _, if_neg (by rw [BitVec.lt_def]; simpa using hb), ?_⟩
    revert b; apply Bits.forall_u8; decide +kernel
  obtain ⟨x, y, e, hy⟩ := this b h
  rw [e] at hd
  simp only [List.cons_append, List.cons.injEq] at hd
  exact hy hd.2.1

/-- C62 fails: the text `é0` in UTF-8 (C3 A9 30) is rejected with a message that contains `Ã` (C3 83), which does
not occur in the text. -/
theorem C62_false : ∃ e, ToBytes .table [0xC3#8, 0xA9#8, 0x30#8] = .ok ⟨none, some e⟩ ∧
    e.text = ascii "Invalid hex: " ++ [0xC3#8, 0x83#8] ++ ascii " @ 0" ∧
    ¬ ∃ c ∈ [0xC3#8, 0xA9#8, 0x30#8], ∃ d, e.text = ascii "Invalid hex: " ++ [c] ++ ascii " @ " ++ d := by
  refine ⟨.invalidHexAt 0xC3#8 0, by decide +kernel, by decide +kernel, ?_⟩
  rintro ⟨c, hc, d, hd⟩
  have h4 : ∀ c ∈ [0xC3#8, 0xA9#8, 0x30#8],
      (HexErr.text (.invalidHexAt 0xC3#8 0)).take 15 ≠ ascii "Invalid hex: " ++ [c] ++ [32#8] := by decide +kernel
  refine h4 c hc ?_
  rw [hd]
  simp [ascii]

/-- C62. The text tells the errors apart: different errors have different texts. -/
theorem C62_injective (e f : HexErr) (h : e.text = f.text) : e = f := by
  have hne : ∀ b at_, HexErr.text .errLength ≠ invalidText b at_ := by
    intro b at_ h
    have h1 : (HexErr.text .errLength).head? = some 104#8 := by decide +kernel
    rw [h] at h1
    simp [invalidText, ascii] at h1
  cases e with
  | errLength =>
    cases f with
    | errLength => rfl
    | invalidHexAt b n => exact absurd h (hne b n)
  | invalidHexAt a m =>
    cases f with
    | errLength => exact absurd h.symm (hne a m)
    | invalidHexAt b n =>
      have e : ∀ (b : U8) (n : Int), invalidText b n =
          ascii "Invalid hex: " ++ (stringOfByte b ++ 32#8 :: (ascii "@ " ++ fmtInt n)) := by
        intro b n; simp [invalidText, ascii]
      simp only [HexErr.text, e] at h
      obtain ⟨h1, h2⟩ := stringOfByte_cancel _ _ _ _ (List.append_cancel_left h)
      have h3 := List.append_cancel_left h2
      have h4 := isSigned_inj (h3 ▸ fmtInt_isSigned (m : Int)) (fmtInt_isSigned (n : Int))
      rw [h1, Int.ofNat.inj h4]

/-! Non-vacuity -/
example : HexErr.text (.invalidHexAt 0x67#8 103) = ascii "Invalid hex: g @ 103" := by decide +kernel
example : IsDecimal (ascii "103") 103 ∧ ¬ IsDecimal (ascii "0103") 103 := by
  constructor
  · exact ⟨by decide, by decide +kernel, by decide, by decide +kernel⟩
  · exact fun h => absurd (h.2.2.1 (by decide)) (by decide)
example : invalidText 0x20#8 (-7) = ascii "Invalid hex:   @ -7" := by decide +kernel
example : ToBytes .tiny (ascii "0aFf") = .ok ⟨some [10, 255], none⟩ := by decide +kernel
example : (∀ x ∈ ascii "0aF", IsHex x) ∧ ¬ IsHex (103 : U8) := by decide +kernel
example : ToBytes .table (ascii "0aFg1") = .ok ⟨none, some (.invalidHexAt 103 3)⟩ := by decide +kernel
example : (∀ x ∈ ascii "0aF", IsHex x) ∧ (ascii "0aF").length % 2 = 1 := by decide +kernel
example : FromBytes [0xDE, 0xAD] = .ok (ascii "DEAD") := by decide +kernel

end Hex
