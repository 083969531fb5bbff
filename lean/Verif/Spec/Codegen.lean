import Verif.Spec.Hex

/-!
# What the generated Go source should look like, and what it means

`sections` cuts the input; `stringExpr`/`compositeBody` are the intended texts; `evalString`/`evalBody` are readers for the
fragment of Go source needed to say what the text denotes (The Go Programming Language Specification, "String literals"
— `\x` escapes only — and "Composite literals").
-/
namespace CodegenSpec
open HexSpec

/-- The input cut into pieces of `n` bytes, the last possibly shorter. -/
def sections (n : Nat) (l : List U8) : List (List U8) :=
  (List.range ((l.length + (n - 1)) / n)).map (fun i => (l.drop (n * i)).take n)

/-- `\xHH` for each byte, in double quotes. -/
def quoted (l : List U8) : List U8 := ascii "\"" ++ l.flatMap (fun b => ascii "\\x" ++ encode [b]) ++ ascii "\""

/-- `"…"+"…"`; for no bytes `""`. -/
def stringExpr (n : Nat) (l : List U8) : List U8 :=
  if l = [] then quoted [] else (ascii "+").intercalate ((sections n l).map quoted)

/-- `{0xHH, 0xHH, ⏎0xHH, …}` with a line break after every `n` elements. -/
def compositeBody (n : Nat) (l : List U8) : List U8 :=
  ascii "{" ++
  (ascii ", \n").intercalate ((sections n l).map fun s =>
    (ascii ", ").intercalate (s.map fun b => ascii "0x" ++ encode [b])) ++
  ascii "}"

/-- Where a reader of a Go string expression is. -/
inductive StrState where
  | start  -- a literal must begin
  | inside -- inside a literal
  | after  -- a literal has just ended

/-- The value of a Go constant expression `lit + lit + …` of double-quoted literals with `\xHH` escapes. -/
def evalStringFrom : StrState → List U8 → Option (List U8)
  | .after, [] => some []
  | .after, c :: t => if c = 0x2b#8 then evalStringFrom .start t else none
  | .start, c :: t => if c = 0x22#8 then evalStringFrom .inside t else none
  | .inside, c :: t =>
    if c = 0x22#8 then evalStringFrom .after t
    else match t with
      | x :: a :: b :: t =>
        if c = 0x5c#8 ∧ x = 0x78#8 then
          match digitVal a, digitVal b, evalStringFrom .inside t with
          | some h, some l, some r => some (BitVec.ofNat 8 (16 * h + l) :: r)
          | _, _, _ => none
        else none
      | _ => none
  | _, [] => none

/-- The value of a whole text as a Go string expression. -/
def evalString (s : List U8) : Option (List U8) := evalStringFrom .start s

/-- Where a reader of a composite-literal body is. -/
inductive BodyState where
  | start  -- the brace must come
  | elem   -- an element or the closing brace may come, after any blanks
  | after  -- an element has just ended

/-- The element values of a Go composite-literal body `{0xHH, …}`; blanks may follow a comma, and line breaks only do so
there (elsewhere a line break would end the statement). -/
def evalBodyFrom : BodyState → List U8 → Option (List U8)
  | _, [] => none
  | .start, c :: t => if c = 0x7b#8 then evalBodyFrom .elem t else none
  | .after, c :: t =>
    if c = 0x2c#8 then evalBodyFrom .elem t
    else if c = 0x7d#8 ∧ t = [] then some []
    else none
  | .elem, c :: t =>
    if c = 0x20#8 ∨ c = 0x0a#8 ∨ c = 0x09#8 then evalBodyFrom .elem t
    else if c = 0x7d#8 ∧ t = [] then some []
    else match t with
      | x :: a :: b :: t =>
        if c = 0x30#8 ∧ x = 0x78#8 then
          match digitVal a, digitVal b, evalBodyFrom .after t with
          | some h, some l, some r => some (BitVec.ofNat 8 (16 * h + l) :: r)
          | _, _, _ => none
        else none
      | _ => none

/-- The element values of a whole text as a composite-literal body. -/
def evalBody (s : List U8) : Option (List U8) := evalBodyFrom .start s

end CodegenSpec
