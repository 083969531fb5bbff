import Verif.Spec.Stream
import Verif.Spec.Bytes
import Verif.Spec.Blocks

/-!
# The RIPEMD family as published

H. Dobbertin, A. Bosselaers, B. Preneel, "RIPEMD-160: A Strengthened Version of RIPEMD" (1996), and the authors' pseudo-code for
RIPEMD-128, -256 and -320. Constants are given by their defining properties, message orders by the permutations ρ and π,
and shifts by the one table from which both lines take theirs.
-/
namespace RipemdSpec
open BytesSpec BlockSpec

/-! ## Message -/

/-- Padding, with the length in bits modulo 2^64. -/
def pad (m : List U8) : List U8 := padWith (leBytes 8 (8 * m.length)) m

/-- Word `i` of a block. -/
def word (b : List U8) (i : Nat) : U32 := BitVec.ofNat 32 (leVal ((b.drop (4 * i)).take 4))

/-! ## Tables -/

/-- The boolean functions. -/
def f : Nat → U32 → U32 → U32 → U32
  | 0, x, y, z => x ^^^ y ^^^ z
  | 1, x, y, z => (x &&& y) ||| (~~~x &&& z)
  | 2, x, y, z => (x ||| ~~~y) ^^^ z
  | 3, x, y, z => (x &&& z) ||| (y &&& ~~~z)
  | _, x, y, z => x ^^^ (y ||| ~~~z)

/-- ρ -/
def rho (i : Nat) : Nat := [7, 4, 13, 1, 10, 6, 15, 3, 12, 0, 9, 5, 2, 14, 11, 8].getD i 0

/-- π -/
def pi (i : Nat) : Nat := (9 * i + 5) % 16

/-- ρ applied `n` times. -/
def rhoN : Nat → Nat → Nat
  | 0, i => i
  | n + 1, i => rho (rhoN n i)

/-- Message word of step `i` of a round: id, ρ, ρ², ρ³, ρ⁴ on the left; π, ρπ, ρ²π, ρ³π, ρ⁴π on the right. -/
def order (right : Bool) (round i : Nat) : Nat := rhoN round (if right then pi i else i)

/-- Shifts by round and message word, the same table for both lines. -/
def shiftTable : List (List Nat) := [
  [11, 14, 15, 12, 5, 8, 7, 9, 11, 13, 14, 15, 6, 7, 9, 8],
  [12, 13, 11, 15, 6, 9, 9, 7, 12, 15, 11, 13, 7, 8, 7, 7],
  [13, 15, 14, 11, 7, 7, 6, 8, 13, 14, 13, 12, 5, 5, 6, 9],
  [14, 11, 12, 14, 8, 6, 5, 5, 15, 12, 15, 14, 9, 9, 8, 6],
  [15, 12, 13, 13, 9, 5, 8, 6, 14, 11, 12, 11, 8, 6, 5, 5]]

def shift (round w : Nat) : Nat := (shiftTable.getD round []).getD w 0

/-- The integer part of the `e`-th root of `n`, found bit by bit. -/
def root (e n : Nat) : Nat :=
  ((List.range 32).reverse).foldl (fun acc b => if (acc + 2 ^ b) ^ e ≤ n then acc + 2 ^ b else acc) 0

/-- The first four primes. -/
def prime (i : Nat) : Nat := [2, 3, 5, 7].getD i 0

/-- Left constants: 0, then the integer part of 2^30·√p. -/
def kLeft : Nat → U32
  | 0 => 0#32
  | i + 1 => BitVec.ofNat 32 (root 2 (prime i * 2 ^ 60))

/-- Right constants of an algorithm with `n` rounds: the integer part of 2^30·∛p, and 0 in the last round. -/
def kRight (n i : Nat) : U32 := if i + 1 < n then BitVec.ofNat 32 (root 3 (prime i * 2 ^ 90)) else 0#32

/-! ## Lines -/

/-- Registers of a line of RIPEMD-128 and -256. -/
structure Line4 where
  (a b c d : U32)
  deriving DecidableEq, Repr

/-- Registers of a line of RIPEMD-160 and -320. -/
structure Line5 where
  (a b c d e : U32)
  deriving DecidableEq, Repr

/-- Which boolean function a round uses: the right line takes them in the opposite order. -/
def fIndex (n : Nat) (right : Bool) (round : Nat) : Nat := if right then n - 1 - round else round

def kOf (n : Nat) (right : Bool) (round : Nat) : U32 := if right then kRight n round else kLeft round

def step4 (x : Nat → U32) (right : Bool) (round : Nat) (l : Line4) (i : Nat) : Line4 :=
  let w := order right round i
  ⟨l.d, (l.a + f (fIndex 4 right round) l.b l.c l.d + x w + kOf 4 right round).rotateLeft (shift round w), l.b, l.c⟩

def step5 (x : Nat → U32) (right : Bool) (round : Nat) (l : Line5) (i : Nat) : Line5 :=
  let w := order right round i
  ⟨l.e, (l.a + f (fIndex 5 right round) l.b l.c l.d + x w + kOf 5 right round).rotateLeft (shift round w) + l.e, l.b,
    l.c.rotateLeft 10, l.d⟩

/-- The 16 steps of a round. -/
def round4 (x : Nat → U32) (right : Bool) (round : Nat) (l : Line4) : Line4 := (List.range 16).foldl (step4 x right round) l
def round5 (x : Nat → U32) (right : Bool) (round : Nat) (l : Line5) : Line5 := (List.range 16).foldl (step5 x right round) l

/-- A whole line. -/
def line4 (x : Nat → U32) (right : Bool) (l : Line4) : Line4 := (List.range 4).foldl (fun l i => round4 x right i l) l
def line5 (x : Nat → U32) (right : Bool) (l : Line5) : Line5 := (List.range 5).foldl (fun l i => round5 x right i l) l

/-! ## Compression functions -/

def compress128 (h : Line4) (b : List U8) : Line4 :=
  let l := line4 (word b) false h
  let r := line4 (word b) true h
  ⟨h.b + l.c + r.d, h.c + l.d + r.a, h.d + l.a + r.b, h.a + l.b + r.c⟩

def compress160 (h : Line5) (b : List U8) : Line5 :=
  let l := line5 (word b) false h
  let r := line5 (word b) true h
  ⟨h.b + l.c + r.d, h.c + l.d + r.e, h.d + l.e + r.a, h.e + l.a + r.b, h.a + l.b + r.c⟩

/-- After round 1, 2, 3, 4 the lines exchange A, B, C, D. -/
def exchange4 : Nat → Line4 × Line4 → Line4 × Line4
  | 0, (l, r) => ({ l with a := r.a }, { r with a := l.a })
  | 1, (l, r) => ({ l with b := r.b }, { r with b := l.b })
  | 2, (l, r) => ({ l with c := r.c }, { r with c := l.c })
  | _, (l, r) => ({ l with d := r.d }, { r with d := l.d })

/-- After round 1, 2, 3, 4, 5 the lines exchange B, D, A, C, E. -/
def exchange5 : Nat → Line5 × Line5 → Line5 × Line5
  | 0, (l, r) => ({ l with b := r.b }, { r with b := l.b })
  | 1, (l, r) => ({ l with d := r.d }, { r with d := l.d })
  | 2, (l, r) => ({ l with a := r.a }, { r with a := l.a })
  | 3, (l, r) => ({ l with c := r.c }, { r with c := l.c })
  | _, (l, r) => ({ l with e := r.e }, { r with e := l.e })

def add4 (h l : Line4) : Line4 := ⟨h.a + l.a, h.b + l.b, h.c + l.c, h.d + l.d⟩
def add5 (h l : Line5) : Line5 := ⟨h.a + l.a, h.b + l.b, h.c + l.c, h.d + l.d, h.e + l.e⟩

def compress256 (h : Line4 × Line4) (b : List U8) : Line4 × Line4 :=
  let z := (List.range 4).foldl (fun (z : Line4 × Line4) i =>
    exchange4 i (round4 (word b) false i z.1, round4 (word b) true i z.2)) h
  (add4 h.1 z.1, add4 h.2 z.2)

def compress320 (h : Line5 × Line5) (b : List U8) : Line5 × Line5 :=
  let z := (List.range 5).foldl (fun (z : Line5 × Line5) i =>
    exchange5 i (round5 (word b) false i z.1, round5 (word b) true i z.2)) h
  (add5 h.1 z.1, add5 h.2 z.2)

/-! ## Initial values and digests -/

def iv4 : Line4 := ⟨0x67452301, 0xEFCDAB89, 0x98BADCFE, 0x10325476⟩
def iv5 : Line5 := ⟨0x67452301, 0xEFCDAB89, 0x98BADCFE, 0x10325476, 0xC3D2E1F0⟩
def iv4' : Line4 := ⟨0x76543210, 0xFEDCBA98, 0x89ABCDEF, 0x01234567⟩
def iv5' : Line5 := ⟨0x76543210, 0xFEDCBA98, 0x89ABCDEF, 0x01234567, 0x3C2D1E0F⟩

def Line4.words (l : Line4) : List U32 := [l.a, l.b, l.c, l.d]
def Line5.words (l : Line5) : List U32 := [l.a, l.b, l.c, l.d, l.e]

/-- Words as bytes. -/
def out (ws : List U32) : List U8 := ws.flatMap fun w => leBytes 4 w.toNat

def ripemd128 (m : List U8) : List U8 := out ((blocks (pad m)).foldl compress128 iv4).words
def ripemd160 (m : List U8) : List U8 := out ((blocks (pad m)).foldl compress160 iv5).words
def ripemd256 (m : List U8) : List U8 :=
  let z := (blocks (pad m)).foldl compress256 (iv4, iv4')
  out (z.1.words ++ z.2.words)
def ripemd320 (m : List U8) : List U8 :=
  let z := (blocks (pad m)).foldl compress320 (iv5, iv5')
  out (z.1.words ++ z.2.words)

/-- A variant as an interface specification. -/
def algo (digest : List U8 → List U8) (size : Nat) : HashSpec.Algo := ⟨digest, fun _ => none, size, 64⟩

end RipemdSpec
