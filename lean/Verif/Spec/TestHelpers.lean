import Verif.Go.Basic

/-! # What the string comparison report should show -/
namespace TestSpec

/-- Length of the longest common prefix. -/
def common {α : Type} [DecidableEq α] : List α → List α → Nat
  | a :: as, b :: bs => if a = b then common as bs + 1 else 0
  | _, _ => 0

/-- Splitting into characters: the pieces are not empty and make up the string. -/
def Splits (split : List U8 → List (List U8)) : Prop := ∀ s, (split s).flatten = s ∧ ∀ r ∈ split s, r ≠ []

/-- Terminal sequences: inverse video on, and off. -/
def invOn : List U8 := 0x1b#8 :: ascii "[7m"
def invOff : List U8 := 0x1b#8 :: ascii "[0m"

/-- `b` middle dots in UTF-8. -/
def dots (b : Nat) : List U8 := (List.replicate b [0xC2#8, 0xB7#8]).flatten

/-- A text with the part from byte `start` to `stop` bytes before its end inverted, and `b` dots at the end of that part. -/
def render (t : List U8) (b start stop : Nat) : List U8 :=
  t.take start ++ invOn ++ (t.take (t.length - stop)).drop start ++ dots b ++ invOff ++ t.drop (t.length - stop)

/-- Number of equal characters at the start. -/
def headMatch (e f : List (List U8)) : Nat := common e f

/-- Number of equal characters at the end, not counting what is within or just after the common start. -/
def tailMatch (e f : List (List U8)) : Nat :=
  common (e.drop (headMatch e f + 1)).reverse (f.drop (headMatch e f + 1)).reverse

/-- The mark below an equal character: control characters stand for themselves, others give `-`. -/
def mark (r : List U8) : U8 :=
  if r = [0x7f#8] then 0x7f#8 else if (r.headD 0#8).toNat < 32 then r.headD 0#8 else 0x2D#8

/-- The marker line for `n` characters (those of the string with more bytes): marks below the common start, `^` below the first and
last difference, blanks between, `-` below the common end; and a zero byte. -/
def markers (e f : List (List U8)) (n : Nat) : List U8 :=
  (List.range (n + 1)).map fun m =>
    if m < headMatch e f then mark (e.getD m [])
    else if m = headMatch e f ∨ m + 1 + tailMatch e f = n then 0x5E#8
    else if m + 1 + tailMatch e f < n then 0x20#8
    else if m < n then 0x2D#8
    else 0#8

/-- "␃" in UTF-8, put at the end of each text. -/
def etx : List U8 := [0xE2, 0x90, 0x83]

/-- The report, given how to render the two texts and the marker line: a title, the expected text, the found text, the marker line. -/
def layout (title pre expect found marks : List U8) : List U8 :=
  (if title = [] then [] else title ++ ascii ": ") ++ ascii "Expect, found:\n" ++
    pre ++ expect ++ etx ++ ascii "\n" ++ pre ++ found ++ etx ++ ascii "\n" ++ pre ++ marks

/-- The whole report: the shorter text gets a dot for each byte it is shorter. -/
def report (split : List U8 → List (List U8)) (title pre expect found : List U8) : List U8 :=
  let n := max expect.length found.length
  let h := headMatch (split expect) (split found)
  let k := tailMatch (split expect) (split found)
  layout title pre (render expect (n - expect.length) h k) (render found (n - found.length) h k)
    (markers (split expect) (split found) (if found.length > expect.length then (split found).length else (split expect).length))

/-- The messages: none for equal strings; otherwise the report, after a line about the lengths if they differ. -/
def messages (split : List U8 → List (List U8)) (title pre expect found : List U8) : List (List U8) :=
  if found = expect then []
  else (if found.length = expect.length then [] else
      [ascii "Expected " ++ ascii (toString expect.length) ++ ascii " chars, got " ++ ascii (toString found.length)]) ++
    [report split title pre expect found]

/-! ## What the report is meant to show -/

/-- A text of which all characters but the first `h` and the last `k` are inverted, followed by `b` dots. -/
def renderChars (e : List (List U8)) (b h k : Nat) : List U8 :=
  (e.take h).flatten ++ invOn ++ ((e.take (e.length - k)).drop h).flatten ++ dots b ++ invOff ++ (e.drop (e.length - k)).flatten

/-- The report with the characters inverted that differ. -/
def reportChars (split : List U8 → List (List U8)) (title pre expect found : List U8) : List U8 :=
  let e := split expect
  let f := split found
  let n := max expect.length found.length
  let h := headMatch e f
  let k := tailMatch e f
  layout title pre (renderChars e (n - expect.length) h k) (renderChars f (n - found.length) h k)
    (markers e f (if found.length > expect.length then f.length else e.length))

end TestSpec
