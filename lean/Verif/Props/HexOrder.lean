import Verif.Props.Hex

/-! # Hexadecimal text: order, concatenation, case -/
namespace Hex
open HexSpec

theorem upperDigit_lt : ∀ m n : Fin 16, (upperDigit m.1 < upperDigit n.1 ↔ m < n) ∧ (upperDigit m.1 = upperDigit n.1 ↔ m = n) := by
  decide +kernel

theorem encode_lt : ∀ a b : List U8, encode a < encode b ↔ a < b
  | [], [] => by simp [encode]
  | [], y :: b => by simp [encode]
  | x :: a, [] => by simp [encode]
  | x :: a, y :: b => by
    have ih := encode_lt a b
    have h1 := upperDigit_lt ⟨x.toNat / 16, by have := x.isLt; omega⟩ ⟨y.toNat / 16, by have := y.isLt; omega⟩
    have h2 := upperDigit_lt ⟨x.toNat % 16, by omega⟩ ⟨y.toNat % 16, by omega⟩
    simp only [Fin.mk.injEq, Fin.mk_lt_mk] at h1 h2
    have e : ∀ (x : U8) (a : List U8), encode (x :: a) = upperDigit (x.toNat / 16) :: upperDigit (x.toNat % 16) :: encode a :=
      fun _ _ => rfl
    rw [e, e, List.cons_lt_cons_iff, List.cons_lt_cons_iff, List.cons_lt_cons_iff, ih, h1.1, h1.2, h2.1, h2.2, BitVec.lt_def,
      ← BitVec.toNat_inj]
    constructor
    · rintro (h | ⟨h, h' | ⟨h', hl⟩⟩)
      · left; omega
      · left; omega
      · right; exact ⟨by omega, hl⟩
    · rintro (h | ⟨h, hl⟩)
      · by_cases hx : x.toNat / 16 = y.toNat / 16
        · right; exact ⟨hx, .inl (by omega)⟩
        · left; omega
      · right; exact ⟨by omega, .inr ⟨by omega, hl⟩⟩

/-- C76. Encoding keeps the order: the texts compare (byte by byte, as Go compares strings) as the byte strings do. -/
theorem C76_order (a b : List U8) : ∃ s t, FromBytes a = .ok s ∧ FromBytes b = .ok t ∧ (s < t ↔ a < b) :=
  ⟨_, _, FromBytes_eq a, FromBytes_eq b, encode_lt a b⟩

/-- C76. The text of a concatenation is the concatenation of the texts. -/
theorem C76_append (a b : List U8) : ∃ s t, FromBytes a = .ok s ∧ FromBytes b = .ok t ∧ FromBytes (a ++ b) = .ok (s ++ t) :=
  ⟨_, _, FromBytes_eq a, FromBytes_eq b, by rw [FromBytes_eq]; simp [encode]⟩

theorem ToBytes_some (build : Build) (s b : List U8) :
    ToBytes build s = .ok ⟨some b, none⟩ ↔ HexSpec.decode s = some b := by
  rw [ToBytes_eq]
  cases hs : HexSpec.decode s with
  | none => obtain ⟨e, he⟩ := toBytesRef_decode_none s 0 [] hs; rw [he]; simp
  | some x => rw [toBytesRef_decode _ _ _ _ hs]; simp

theorem digitVal_upper : ∀ c : U8, digitVal (upper c) = digitVal c := by decide +kernel

theorem decode_map_upper : ∀ s : List U8, HexSpec.decode (s.map upper) = HexSpec.decode s
  | [] => rfl
  | [_] => rfl
  | c :: d :: s => by
    simp only [List.map_cons, HexSpec.decode, digitVal_upper, decode_map_upper s]

/-- C76. Texts of an even number of digits can be decoded piece by piece; pieces cannot be accepted otherwise than the whole. -/
theorem C76_pieces (build : Build) (s t : List U8) (h : s.length % 2 = 0) (b : List U8) :
    ToBytes build (s ++ t) = .ok ⟨some b, none⟩ ↔
      ∃ x y, b = x ++ y ∧ ToBytes build s = .ok ⟨some x, none⟩ ∧ ToBytes build t = .ok ⟨some y, none⟩ := by
  have app : ∀ n (s t : List U8), s.length = 2 * n → HexSpec.decode (s ++ t) =
      (HexSpec.decode s).bind fun x => (HexSpec.decode t).map (x ++ ·) := by
    intro n
    induction n with
    | zero =>
      intro s t h
      obtain rfl : s = [] := List.length_eq_zero_iff.mp (by omega)
      simp [HexSpec.decode]
    | succ n ih =>
      intro s t h
      match s, h with
      | c :: d :: s, h =>
        simp only [List.cons_append, HexSpec.decode, ih s t (by simp at h; omega)]
        cases digitVal c <;> cases digitVal d <;> cases HexSpec.decode s <;> cases HexSpec.decode t <;> simp
      | [_], h => simp at h; omega
      | [], h => simp at h
  rw [ToBytes_some, app (s.length / 2) s t (by omega)]
  simp only [ToBytes_some, Option.bind_eq_some_iff, Option.map_eq_some_iff]
  constructor
  · rintro ⟨x, hx, y, hy, rfl⟩; exact ⟨x, y, rfl, hx, hy⟩
  · rintro ⟨x, y, rfl, hx, hy⟩; exact ⟨x, hx, y, hy, rfl⟩

/-- C76. Two texts that differ only in the case of letters are accepted together and give the same bytes; and two accepted
texts give the same bytes only then. -/
theorem C76_case (build : Build) (s t b : List U8) (h : ToBytes build s = .ok ⟨some b, none⟩) :
    ToBytes build t = .ok ⟨some b, none⟩ ↔ s.map upper = t.map upper := by
  constructor
  · intro ht
    rw [ToBytes_some] at h ht
    rw [← encode_decode_upper s b h, ← encode_decode_upper t b ht]
  · intro hu
    rw [ToBytes_some] at h ⊢
    rw [← decode_map_upper, ← hu, decode_map_upper, h]

example : ([0x9f#8, 0x00#8] : List U8) < [0xa0#8] ∧ (ascii "9F00" : List U8) < ascii "A0" := by decide
example : FromBytes ([0x9f#8] ++ [0x0a#8]) = .ok (ascii "9F" ++ ascii "0A") := by decide +kernel
example : ToBytes .table (ascii "9f" ++ ascii "0A") = .ok ⟨some ([0x9f#8] ++ [0x0a#8]), none⟩ := by decide +kernel
/-- The even length is needed: the text of three digits is refused, the whole is not. -/
example : ToBytes .table (ascii "9f0" ++ ascii "A") = .ok ⟨some [0x9f#8, 0x0a#8], none⟩ ∧
    ToBytes .table (ascii "9f0") = .ok ⟨none, some .errLength⟩ := by decide +kernel
example : (ascii "9f").map upper = (ascii "9F").map upper ∧ ToBytes .table (ascii "9f") = ToBytes .tiny (ascii "9F") := by
  decide +kernel

end Hex
