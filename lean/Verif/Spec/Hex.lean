import Verif.Go.Basic

/-! # Specification of hexadecimal text (RFC 4648 §8), independent of the code -/
namespace HexSpec

/-- The value of a hexadecimal digit, either case, given by the ASCII ranges 0-9, A-F, a-f. -/
def digitVal (c : U8) : Option Nat :=
  if 48 ≤ c.toNat ∧ c.toNat ≤ 57 then some (c.toNat - 48)
  else if 65 ≤ c.toNat ∧ c.toNat ≤ 70 then some (c.toNat - 65 + 10)
  else if 97 ≤ c.toNat ∧ c.toNat ≤ 102 then some (c.toNat - 97 + 10)
  else none

/-- The character is a hexadecimal digit. -/
def IsHex (c : U8) : Prop := (digitVal c).isSome

instance (c : U8) : Decidable (IsHex c) := inferInstanceAs (Decidable ((digitVal c).isSome = true))

/-- The upper-case digit for a value 0..15. -/
def upperDigit (n : Nat) : U8 :=
  if n < 10 then BitVec.ofNat 8 (48 + n) else BitVec.ofNat 8 (65 + (n - 10))

/-- ASCII upper-casing of one character. -/
def upper (c : U8) : U8 :=
  if 97 ≤ c.toNat ∧ c.toNat ≤ 122 then BitVec.ofNat 8 (c.toNat - 32) else c

/-- Text of a byte string: two upper-case digits per byte, high nibble first. -/
def encode (bs : List U8) : List U8 :=
  bs.flatMap (fun b => [upperDigit (b.toNat / 16), upperDigit (b.toNat % 16)])

/-- Value of a text: `none` unless it is an even number of hexadecimal digits. -/
def decode : List U8 → Option (List U8)
  | [] => some []
  | [_] => none
  | a :: b :: t =>
    match digitVal a, digitVal b, decode t with
    | some h, some l, some r => some (BitVec.ofNat 8 (16 * h + l) :: r)
    | _, _, _ => none

/-- The text is the decimal notation of the number: digits 0-9, no leading zero, of that value. -/
def IsDecimal (t : List U8) (n : Nat) : Prop :=
  t ≠ [] ∧ (∀ c ∈ t, 48 ≤ c.toNat ∧ c.toNat ≤ 57) ∧ (t.head? = some 48#8 → t = [48#8]) ∧
  t.foldl (fun v c => 10 * v + (c.toNat - 48)) 0 = n

/-- Decimal notation with a minus sign for negative numbers. -/
def IsSigned (t : List U8) : Int → Prop
  | .ofNat n => IsDecimal t n
  | .negSucc n => ∃ d, t = 45#8 :: d ∧ IsDecimal d (n + 1)

/-- UTF-8 (RFC 3629) of a code point below 256. -/
def utf8 (cp : Nat) : List U8 :=
  if cp < 128 then [BitVec.ofNat 8 cp] else [BitVec.ofNat 8 (192 + cp / 64), BitVec.ofNat 8 (128 + cp % 64)]

end HexSpec
