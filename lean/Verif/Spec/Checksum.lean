import Verif.Spec.Stream

/-!
# Published definitions of the checksums

Written from the definitions (BCC: XOR of all bytes; LRC: two's complement of the byte sum, ISO 1155; Fletcher:
A = sum of the words, B = sum of the running sums, both modulo 2^k-1; Luhn: ISO/IEC 7812-1 annex B), on natural
numbers and without any looping strategy.
-/
namespace ChecksumSpec
open HashSpec

/-- XOR of all bytes. -/
def xorAll : List U8 → U8
  | [] => 0#8
  | b :: t => b ^^^ xorAll t

/-- Sum of all bytes. -/
def byteSum (l : List U8) : Nat := (l.map BitVec.toNat).sum

/-- The `n` big-endian bytes of `v`. -/
def beBytes (n v : Nat) : List U8 := (List.range n).map (fun i => BitVec.ofNat 8 (v / 256 ^ (n - 1 - i)))

/-- Value of bytes, least significant first. -/
def leNat : List U8 → Nat
  | [] => 0
  | b :: t => b.toNat + 256 * leNat t

/-- The little-endian `k`-byte words of `l`; a short last word counts as if zero-padded. -/
def words (k : Nat) (l : List U8) : List Nat :=
  (List.range ((l.length + (k - 1)) / k)).map (fun i => leNat ((l.drop (k * i)).take k))

/-- Sum of all running sums `w₀ + (w₀+w₁) + …`. -/
def runningTotal (ws : List Nat) : Nat :=
  ((List.range ws.length).map (fun i => (ws.take (i + 1)).sum)).sum

/-- Fletcher checksum of a list of `k`-byte words: `B·256^k + A`. -/
def fletcher (k : Nat) (ws : List Nat) : Nat :=
  runningTotal ws % (256 ^ k - 1) * 256 ^ k + ws.sum % (256 ^ k - 1)

/-- Block check character. -/
def bcc : Algo where
  digest l := [xorAll l]
  num l := some (xorAll l).toNat
  size := 1
  blockSize := 1

/-- Longitudinal redundancy check. -/
def lrc : Algo where
  digest l := [BitVec.ofNat 8 (256 - byteSum l % 256)]
  num l := some ((256 - byteSum l % 256) % 256)
  size := 1
  blockSize := 1

/-- Fletcher-16k over a byte stream; the digest is the big-endian checksum. -/
def fletcherAlgo (k : Nat) : Algo where
  digest l := beBytes (2 * k) (fletcher k (words k l))
  num l := some (fletcher k (words k l))
  size := 2 * k
  blockSize := k

/-- Luhn contribution of one digit: doubled digits have their decimal digits added. -/
def luhnDigit (dbl : Bool) (d : Nat) : Nat := if dbl then 2 * d / 10 + 2 * d % 10 else d

/-- Luhn total of the decimal digits of `n`, rightmost first, doubling every second one; `dbl` tells whether the
rightmost is doubled. -/
def luhnTotal (dbl : Bool) (n : Nat) : Nat :=
  if n = 0 then 0 else luhnDigit dbl (n % 10) + luhnTotal (!dbl) (n / 10)
termination_by n
decreasing_by omega

/-- A number (including its check digit, which is not doubled) passes the Luhn check. -/
def luhnValid (n : Nat) : Prop := luhnTotal false n % 10 = 0

/-- Decimal digit `k` of `n` (0 = units). -/
def decDigit (n k : Nat) : Nat := n / 10 ^ k % 10

end ChecksumSpec
