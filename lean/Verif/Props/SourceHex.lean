import Verif.Code.Hex
import Verif.Props.Hex

/-!
# The source text of package `hex`, run

C89: the text of hex.go with either hex_256b.go or hex_tiny.go, read by the parser and run by the interpreter of `Verif/Lang`, converts
between bytes and hexadecimal text as specified. Lengths are bounded only by what an `int` can hold.
-/
namespace Source
open GoLang HexSpec _root_.Hex

/-- The number fits in an `int` of the program's size. -/
def Fits (P : Prog) (n : Nat) : Prop := (n : Int) < 2 ^ (P.W - 1)

/-- The value that `InvalidHexAt(c, i)` returns. -/
abbrev invalidAt (c : BitVec 8) (i : Int) : Val := .struct Hex.path (n! "invalidHexAtError") [(n! "Byte", .u8 c), (n! "At", .int i)]

/-- **C89** `FromBytes` returns two upper-case digits per byte, and adds one new object to memory. -/
theorem C89_encode (P : Prog) (bd : Build) (hP : P.Has Hex.path (Hex.texts bd) []) (hW : 32 ≤ P.W) (h : List Val) (v : Val) (b : List U8)
    (hb : HasBytes h v b) (hl : Fits P (b.length * 2)) :
    Returns P Hex.path 0 (n! "FromBytes") [v] h [.str (encode b)] (h ++ [.arr ((encode b).map .u8)]) :=
  .add 1 (b.length + 1) fun n hn => Hex.run_FromBytes (hP.find (Hex.text bd)) (FromBytes_eq b) hb hW hl (by omega)

/-- **C89** For an even number of hexadecimal digits, `ToBytes` and `ToBytesFast` return a new slice with their value, and `ToBytes` no error. -/
theorem C89_decode (P : Prog) (bd : Build) (hP : P.Has Hex.path (Hex.texts bd) []) (hW : 32 ≤ P.W) (h : List Val) (s b : List U8)
    (hs : HexSpec.decode s = some b) (hl : Fits P (s.length + 1)) :
    Returns P Hex.path 0 (n! "ToBytes") [.str s] h [.slice h.length [] 0 b.length b.length, .nil] (h ++ [.arr (b.map .u8)]) ∧
    Returns P Hex.path 0 (n! "ToBytesFast") [.str s] h [.slice h.length [] 0 b.length b.length] (h ++ [.arr (b.map .u8)]) := by
  have e1 : _root_.Hex.ToBytes bd s = .ok ⟨some b, none⟩ := by
    rw [ToBytes_eq, toBytesRef_decode _ _ _ _ hs]; simp
  have e2 : _root_.Hex.ToBytesFast bd s = .ok (some b) := by
    rw [ToBytesFast_eq, toBytesRef_decode _ _ _ _ hs]; simp
  constructor
  · refine .add 2 (s.length + 1) fun n hn => ?_
    obtain ⟨x, _, hx, hr⟩ := Hex.run_ToBytes (hP.find (Hex.text bd)) (h := h) e1 hW hl (n := n) (by omega)
    rw [hx b rfl] at hr
    exact hr
  · refine .add 2 (s.length + 1) fun n hn => ?_
    obtain ⟨x, _, hx, hr⟩ := Hex.run_ToBytesFast (hP.find (Hex.text bd)) (h := h) e2 hW hl (n := n) (by omega)
    rw [hx b rfl] at hr
    exact hr

/-- What is left of the result after an error: an array of half the length of the text, which nothing points to. -/
def Left (h h' : List Val) (k : Nat) : Prop := ∃ x : List U8, x.length = k ∧ h' = h ++ [.arr (x.map .u8)]

/-- **C89** If the text has a character that is no hexadecimal digit, `ToBytes` returns nil and an error with the first of them and its place. -/
theorem C89_invalid (P : Prog) (bd : Build) (hP : P.Has Hex.path (Hex.texts bd) []) (hW : 32 ≤ P.W) (h : List Val) (pre : List U8) (c : U8)
    (post : List U8) (hpre : ∀ x ∈ pre, IsHex x) (hc : ¬ IsHex c) (hl : Fits P ((pre ++ c :: post).length + 1)) :
    (∃ h', Returns P Hex.path 0 (n! "ToBytes") [.str (pre ++ c :: post)] h [.nil, invalidAt c pre.length] h' ∧
      Left h h' ((pre ++ c :: post).length / 2)) ∧
    ∃ h', Returns P Hex.path 0 (n! "ToBytesFast") [.str (pre ++ c :: post)] h [.nil] h' ∧ Left h h' ((pre ++ c :: post).length / 2) := by
  have e2 : _root_.Hex.ToBytesFast bd (pre ++ c :: post) = .ok none := by
    rw [ToBytesFast_eq, toBytesRef_invalid pre c post 0 [] hpre hc]
  constructor
  · obtain ⟨x, hx, _, hr⟩ := Hex.run_ToBytes (hP.find (Hex.text bd)) (h := h) (C04_hex_leftmost_error bd pre c post hpre hc) hW hl (Nat.lt_succ_self _)
    exact ⟨_, .one hr, x, hx, rfl⟩
  · obtain ⟨x, hx, _, hr⟩ := Hex.run_ToBytesFast (hP.find (Hex.text bd)) (h := h) e2 hW hl (Nat.lt_succ_self _)
    exact ⟨_, .one hr, x, hx, rfl⟩

/-- **C89** An odd number of digits is an error. -/
theorem C89_odd (P : Prog) (bd : Build) (hP : P.Has Hex.path (Hex.texts bd) []) (hW : 32 ≤ P.W) (h : List Val) (s : List U8)
    (hs : ∀ x ∈ s, IsHex x) (ho : s.length % 2 = 1) (hl : Fits P (s.length + 1)) :
    (∃ h', Returns P Hex.path 0 (n! "ToBytes") [.str s] h [.nil, .err (ascii "hex string must be composed of pairs of hex values")] h' ∧ Left h h' (s.length / 2)) ∧
    ∃ h', Returns P Hex.path 0 (n! "ToBytesFast") [.str s] h [.nil] h' ∧ Left h h' (s.length / 2) := by
  have e2 : _root_.Hex.ToBytesFast bd s = .ok none := by
    rw [ToBytesFast_eq, toBytesRef_odd s 0 [] hs ho]
  constructor
  · obtain ⟨x, hx, _, hr⟩ := Hex.run_ToBytes (hP.find (Hex.text bd)) (h := h) (C04_hex_length_error bd s hs ho) hW hl (Nat.lt_succ_self _)
    exact ⟨_, .one hr, x, hx, rfl⟩
  · obtain ⟨x, hx, _, hr⟩ := Hex.run_ToBytesFast (hP.find (Hex.text bd)) (h := h) e2 hW hl (Nat.lt_succ_self _)
    exact ⟨_, .one hr, x, hx, rfl⟩

/-- **C89** `Error` writes the byte as a character and the place in decimal. -/
theorem C89_error (P : Prog) (bd : Build) (hP : P.Has Hex.path (Hex.texts bd) []) (hS : P.std = stdlib)
    (hR : elemN (n! "fmt") (P.pkgs.map Pkg.path) = false) (h : List Val) (c : U8) (i : Int) : ∃ d, IsSigned d i ∧
    Returns P Hex.path (n! "invalidHexAtError") (n! "Error") [invalidAt c i] h [.str (ascii "Invalid hex: " ++ utf8 c.toNat ++ ascii " @ " ++ d)] h := by
  obtain ⟨d, hd, e⟩ := C62_text c i
  refine ⟨d, hd, .one (n := 1) ?_⟩
  rw [← e]
  exact Hex.run_Error (hP.find (Hex.text bd)) hS c i hR 0

/-! ## Examples -/

/-- A program of this package on a 64-bit machine. -/
def hexProg (bd : Build) : Prog :=
  { W := 64, pkgs := [Hex.pkg bd], other := fun _ _ => none, std := stdlib, native := fun _ _ _ => stuck, grow := fun n => n }

theorem hexProg_has (bd : Build) : (hexProg bd).Has Hex.path (Hex.texts bd) [] := ⟨Hex.pkg bd, Hex.text bd, by cases bd <;> kernel_rfl⟩

/-- The premises of the theorems hold of that program. -/
example (bd : Build) : Returns (hexProg bd) Hex.path 0 (n! "FromBytes") [.slice 0 [] 0 2 2] [.arr [.u8 0xab, .u8 7]] [.str (encode [0xab, 7])]
    ([.arr [.u8 0xab, .u8 7]] ++ [.arr ((encode [0xab, 7]).map .u8)]) :=
  C89_encode _ bd (hexProg_has bd) (by simp [hexProg]) _ _ _ (IsBytes.has (.inr ⟨0, [], 0, 2, _, _, rfl, rfl, rfl, by decide, by decide, rfl⟩)) (by simp [Fits, hexProg])

/-- The run itself: "aG" has no value. -/
example : run (hexProg .tiny) 5 Hex.path 0 (n! "ToBytes") [.str (ascii "aG")] [] =
    .ok [.nil, invalidAt 0x47 1] ⟨[.arr [.u8 0]], []⟩ := by kernel_rfl

end Source
