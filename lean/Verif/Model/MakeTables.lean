import Verif.Model.Whirlpool
import Verif.Model.Hex

/-!
# Model of the text output of `hash/whirlpool/make_tables.go`

An `io.Writer` is a `bytes.Buffer` here (make_tables.go:71), so writing is appending to a byte list and cannot fail.
Not modelled: `format.Source` (line 79), which only changes the layout, and writing the file (line 84).
-/
namespace MakeTables

/-- A lower-case hexadecimal digit, as printed by `fmt`'s `%x`. -/
def lowerDigit (n : Nat) : U8 := if n < 10 then BitVec.ofNat 8 (48 + n) else BitVec.ofNat 8 (87 + n)

/-- `fmt`'s `%0kx`: the digits of `n` from the last to the first, zero padded to `k`. A `uint64` has at most 16 digits, so
with `k = 16` (make_tables.go:123) nothing is cut off. -/
def hexPad : (k n : Nat) → List U8
  | 0, _ => []
  | k + 1, n => hexPad k (n / 16) ++ [lowerDigit (n % 16)]

/-- Loop of `writeU64LE`, make_tables.go:132-134, `n` iterations left: prints `\x` and two characters of `h`. -/
def escapeLoop (h : List U8) : (n i : Nat) → (w : List U8) → Res (List U8)
  | 0, _, w => .ok w
  | n + 1, i, w => do escapeLoop h n (i + 2) (w ++ (ascii "\\x" ++ (← goSlice h i (i + 2))))

/-- `binary.LittleEndian.PutUint64`, make_tables.go:130. -/
def lePut64 (v : U64) : List U8 := (List.range 8).map fun i => (v >>> (8 * i)).setWidth 8

/-- `writeU64LE`, make_tables.go:128-135. -/
def writeU64LE (w : List U8) (v : U64) : Res (List U8) := do
  let h ← Hex.FromBytes (lePut64 v)
  escapeLoop h 8 0 w

/-- Loop of `genConst`, make_tables.go:92-107, from index `i` on. -/
def constLoop : (data : List U64) → (i : Nat) → (w : List U8) → Res (List U8)
  | [], _, w => .ok w
  | v :: data, i, w => do
    let w := if i > 0 then (if i % 2 = 0 then w ++ ascii "+\n" else w ++ ascii "+") else w
    let w := if i % 16 = 0 then w ++ ascii "//" ++ Hex.fmtNat i ++ ascii "\n" else w
    let w := w ++ ascii "\""
    let w ← writeU64LE w v
    let w := w ++ ascii "\""
    constLoop data (i + 1) w

/-- `genConst`, make_tables.go:90-109. -/
def genConst (w name : List U8) (data : List U64) : Res (List U8) := do
  let w := w ++ ascii "const " ++ name ++ ascii " =\"\"+\n"
  let w ← constLoop data 0 w
  return w ++ ascii "\n\n"

/-- Loop of `genVar`, make_tables.go:113-124, from index `i` on. -/
def varLoop : (data : List U64) → (i : Nat) → (w : List U8) → List U8
  | [], _, w => w
  | v :: data, i, w =>
    let w := if i > 0 then (if i % 4 = 0 then w ++ ascii "\n" else w) else w
    let w := if i % 16 = 0 then w ++ ascii "//" ++ Hex.fmtNat i ++ ascii "\n" else w
    let w := w ++ ascii "0x" ++ hexPad 16 v.toNat ++ ascii ","
    varLoop data (i + 1) w

/-- `genVar`, make_tables.go:111-126. -/
def genVar (w name : List U8) (data : List U64) : List U8 :=
  let w := w ++ ascii "var " ++ name ++ ascii " =[...]uint64{\n"
  let w := varLoop data 0 w
  w ++ ascii "}\n\n"

/-- `header`, make_tables.go:50-57. -/
def header : List U8 :=
  ascii "// Copyright 2023 gnabgib\n// This Source Code Form is subject to the terms of the Mozilla Public License v2.0\n\n" ++
  ascii "// Code generated by go run make_tables.go. DO NOT EDIT.\n\npackage whirlpool\n\n"

/-- `main` up to the call of `format.Source`, make_tables.go:64-77: the text in `buf`. -/
def mainText : Res (List U8) := do
  let ct ← Whirlpool.buildCirculantTable
  let rc ← Whirlpool.buildRoundConstants ct
  let buf := header ++ (ascii "const rounds=" ++ Hex.fmtNat Whirlpool.rounds ++ ascii "\n\n")
  let buf := genVar buf (ascii "rc") rc
  return genVar buf (ascii "ct") ct

end MakeTables
