import Verif.Go.Hash
import Verif.Model.Hex

/-!
# Model of package `test`

`t.Errorf` is modelled by the list of messages it is given, formatted. `%s` of a string or byte slice is its bytes, `%d` the
decimal digits.
-/
namespace TestHelpers

/-- "…" in UTF-8. -/
def ellipsis : List U8 := [0xE2, 0x80, 0xA6]

/-- `Abbr`, test/Abbr.go:7-13. -/
def Abbr (s : List U8) : Res (List U8) :=
  let n := s.length
  if n > 20 then do
    let h ← goSlice s 0 19
    return h ++ ellipsis
  else return s

/-! ## `strings.Split(s, "")` -/

def inRange (lo hi : Nat) (b : U8) : Bool := lo ≤ b.toNat && b.toNat ≤ hi

/-- The length of the first character as `utf8.DecodeRuneInString` reports it: that of a valid encoding, and 1 if there is
none. -/
def runeSize : List U8 → Nat
  | [] => 0
  | [_] => 1
  | [b0, b1] => if inRange 0xC2 0xDF b0 && inRange 0x80 0xBF b1 then 2 else 1
  | [b0, b1, b2] => if inRange 0xC2 0xDF b0 && inRange 0x80 0xBF b1 then 2 else if three b0 b1 b2 then 3 else 1
  | b0 :: b1 :: b2 :: b3 :: _ =>
    if inRange 0xC2 0xDF b0 && inRange 0x80 0xBF b1 then 2
    else if three b0 b1 b2 then 3
    else if inRange 0xF0 0xF4 b0 && inRange (if b0 = 0xF0 then 0x90 else 0x80) (if b0 = 0xF4 then 0x8F else 0xBF) b1 &&
      inRange 0x80 0xBF b2 && inRange 0x80 0xBF b3 then 4
    else 1
where
  three (b0 b1 b2 : U8) : Bool := inRange 0xE0 0xEF b0 &&
    inRange (if b0 = 0xE0 then 0xA0 else 0x80) (if b0 = 0xED then 0x9F else 0xBF) b1 && inRange 0x80 0xBF b2

theorem runeSize_bounds (s : List U8) (h : s ≠ []) : 1 ≤ runeSize s ∧ runeSize s ≤ s.length := by
  match s, h with
  | [_], _ => simp [runeSize]
  | [_, _], _ => simp only [runeSize]; split <;> simp
  | [_, _, _], _ => simp only [runeSize]; repeat' split
                    all_goals simp
  | _ :: _ :: _ :: _ :: _, _ =>
    simp only [runeSize]; repeat' split
    all_goals simp

/-- `strings.Split(s, "")`: the characters of `s`, each as a string. (The library first counts them and lets the last one be
all that is left, which is the same.) -/
def explode (s : List U8) : List (List U8) :=
  if h : s = [] then [] else s.take (runeSize s) :: explode (s.drop (runeSize s))
termination_by s.length
decreasing_by
  have := runeSize_bounds s h
  simp only [List.length_drop]; omega

/-! ## StringMatch.go -/

/-- The switch test/StringMatch.go:66-75: the marker for a matching character. -/
def markByte (r : List U8) : Res U8 :=
  if r = [0x7f#8] then .ok 0x7f#8
  else do
    let b ← goIdx r 0
    if b.toNat < 32 then return b else return 0x2D#8

/-- Loop test/StringMatch.go:62-76. -/
def firstLoop (e f : List (List U8)) (i : Nat) (marker : List U8) : Res (Nat × List U8) :=
  if h : i < e.length then
    if i ≥ f.length then .ok (i, marker)
    else do
      let ei ← goIdx e i
      let fi ← goIdx f i
      if ei ≠ fi then return (i, marker)
      else
        let m ← goSet marker i (← markByte ei)
        firstLoop e f (i + 1) m
  else .ok (i, marker)
termination_by e.length - i

/-- `findFirstMismatch`, test/StringMatch.go:58-79. -/
def findFirstMismatch (e f : List (List U8)) (marker : List U8) : Res (Nat × List U8) := do
  let (i, marker) ← firstLoop e f 0 marker
  let marker ← goSet marker i 0x5E#8
  return (i, marker)

/-- First loop of `findLastMismatch`, test/StringMatch.go:85-93. -/
def lastLoop (eRunes fRunes : List (List U8)) (markerDelta first e f : Int) (marker : List U8) : Res (Int × List U8) :=
  if h : e > first ∧ f > first then do
    let a ← goIdxZ eRunes e
    let b ← goIdxZ fRunes f
    if a ≠ b then return (e, marker)
    else
      let m ← goSetZ marker (e + markerDelta) 0x2D#8
      lastLoop eRunes fRunes markerDelta first (e - 1) (f - 1) m
  else .ok (e, marker)
termination_by (e - first).toNat
decreasing_by omega

/-- Second loop of `findLastMismatch`, test/StringMatch.go:95-97. -/
def fillLoop (first i : Int) (marker : List U8) : Res (List U8) :=
  if h : i > first then do
    let m ← goSetZ marker i 0x20#8
    fillLoop first (i - 1) m
  else .ok marker
termination_by (i - first).toNat
decreasing_by omega

/-- `findLastMismatch`, test/StringMatch.go:82-101. -/
def findLastMismatch (eRunes fRunes : List (List U8)) (marker : List U8) (first : Int) : Res (Int × List U8) := do
  let markerDelta : Int := (marker.length : Int) - eRunes.length - 1
  let (e, marker) ← lastLoop eRunes fRunes markerDelta first ((eRunes.length : Int) - 1) ((fRunes.length : Int) - 1) marker
  let marker ← fillLoop first (e - 1 + markerDelta) marker
  let marker ← goSetZ marker (e + markerDelta) 0x5E#8
  return (e - eRunes.length + 1, marker)

/-- Loop of `renderText`, test/StringMatch.go:125-128, `k` iterations left. -/
def blankLoop (markEnd : Int) : (k : Nat) → (i : Int) → List U8 → Res (List U8)
  | 0, _, ret => .ok ret
  | k + 1, i, ret => do
    let ret ← goSetZ ret (markEnd + 4 + i) 0xC2#8
    let ret ← goSetZ ret (markEnd + 4 + i + 1) 0xB7#8
    blankLoop markEnd k (i + 2) ret

/-- `renderText`, test/StringMatch.go:106-135. -/
def renderText (t : List U8) (blankChars markStart markEndOffset : Int) : Res (List U8) := do
  let n : Int := t.length
  let n := n + (4 + 4)
  let n := n + blankChars * 2
  let markEnd : Int := t.length + markEndOffset
  let ret ← goMakeZ n
  let ret ← goCopyAt ret 0 (← goSliceZ t 0 markStart)
  let ret ← goCopyAtZ ret markStart [0x1b#8, 0x5b#8, 0x37#8, 0x6d#8]
  let ret ← goCopyAtZ ret (markStart + 4) (← goSliceZ t markStart markEnd)
  let ret ← blankLoop markEnd blankChars.toNat 0 ret
  let ret ← goCopyAtZ ret (markEnd + 4 + blankChars * 2) [0x1b#8, 0x5b#8, 0x30#8, 0x6d#8]
  let ret ← goCopyAtZ ret (markEnd + 8 + blankChars * 2) (← goSliceZ t markEnd t.length)
  return ret

/-- "␃" in UTF-8. -/
def etx : List U8 := [0xE2, 0x90, 0x83]

/-- `%d` of a length. -/
def decimal (n : Nat) : List U8 := ascii (toString n)

/-- `nBytes` and `nRunes`, test/StringMatch.go:30-35. -/
def sizes (expect found : List U8) (eRunes fRunes : List (List U8)) : Nat × Nat :=
  if found.length > expect.length then (found.length, fRunes.length) else (expect.length, eRunes.length)

/-- The message of test/StringMatch.go:23-25, if any. -/
def lengthReport (expect found : List U8) : List (List U8) :=
  if found.length ≠ expect.length then
    [ascii "Expected " ++ decimal expect.length ++ ascii " chars, got " ++ decimal found.length]
  else []

/-- `StringMatchTitle`, test/StringMatch.go:18-55: the messages given to `t.Errorf`. `split` is `strings.Split(·, "")`. -/
def stringMatchTitle (split : List U8 → List (List U8)) (title pre expect found : List U8) : Res (List (List U8)) :=
  if found = expect then .ok []
  else do
    let r := lengthReport expect found
    let eRunes := split expect
    let fRunes := split found
    let (nBytes, nRunes) := sizes expect found eRunes fRunes
    let marker := List.replicate (nRunes + 1) 0#8
    let (first, marker) ← findFirstMismatch eRunes fRunes marker
    let (last, marker) ← findLastMismatch eRunes fRunes marker first
    let fullTitle := if title.length > 0 then title ++ ascii ": " else []
    let l1 ← renderText expect ((nBytes : Int) - expect.length) first last
    let l2 ← renderText found ((nBytes : Int) - found.length) first last
    return r ++ [fullTitle ++ ascii "Expect, found:\n" ++ pre ++ l1 ++ etx ++ ascii "\n" ++ pre ++ l2 ++ etx ++ ascii "\n" ++
      pre ++ marker]

/-- `StringMatchTitle` with the library's `strings.Split`. -/
def StringMatchTitle (title pre expect found : List U8) : Res (List (List U8)) := stringMatchTitle explode title pre expect found

/-- `StringMatch`, test/StringMatch.go:14-16. -/
def StringMatch (expect found : List U8) : Res (List (List U8)) := StringMatchTitle [] [] expect found

/-! ## HashCompare.go -/

/-- `HashTest`, test/HashCompare.go:10-16. Returns the object as the call leaves it, and the messages. -/
def HashTest {σ : Type} (I : GoHash.Impl σ) (h : σ) (inp expectHex : List U8) : Res (σ × List (List U8)) := do
  let (h, _, _) ← I.write h inp
  let (h, found) ← I.sum h []
  let foundHex ← Hex.FromBytes found
  let a ← Abbr inp
  let r ← StringMatchTitle (ascii "Hash(" ++ a ++ ascii ")") [] expectHex foundHex
  return (h, r)

/-- `HashHexTest`, test/HashCompare.go:18-25. A nil slice has no elements. -/
def HashHexTest {σ : Type} (build : Hex.Build) (I : GoHash.Impl σ) (h : σ) (inHex expectHex : List U8) :
    Res (σ × List (List U8)) := do
  let b ← Hex.ToBytesFast build inHex
  let (h, _, _) ← I.write h (b.getD [])
  let (h, found) ← I.sum h []
  let foundHex ← Hex.FromBytes found
  let a ← Abbr inHex
  let r ← StringMatchTitle (ascii "HashHex(" ++ a ++ ascii ")") [] expectHex foundHex
  return (h, r)

end TestHelpers
