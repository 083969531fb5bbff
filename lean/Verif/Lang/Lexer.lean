import Verif.Lang.Syntax

/-!
# Lexical analysis

The Go language specification, "Lexical elements", without comments that span lines. A source file is a list of texts, to be joined by line
ends: each is a line, or several if a raw string spans them.
-/
namespace GoLang

/-- Tokens. Keywords are names. -/
inductive Tok where
  | id (n : Name)
  | int (n : Nat)
  | str (s : List Nat)
  | op (n : Name)
  deriving Repr

/-- The bytes of a text. -/
def bytesOf (s : String) : List Nat := s.toByteArray.data.toList.map UInt8.toNat

def isDigit (c : Nat) : Bool := Nat.ble 48 c && Nat.ble c 57
/-- Letters and `_`. -/
def isLetter (c : Nat) : Bool := (Nat.ble 65 c && Nat.ble c 90) || (Nat.ble 97 c && Nat.ble c 122) || Nat.beq c 95

/-- The value of a digit, up to base 16; 16 for other characters. -/
def digitVal (c : Nat) : Nat :=
  bif isDigit c then c - 48 else bif Nat.ble 97 c && Nat.ble c 102 then c - 87 else bif Nat.ble 65 c && Nat.ble c 70 then c - 55 else 16

/-- Split after the longest prefix whose characters satisfy `p`. -/
def spanWhile (p : Nat → Bool) : List Nat → List Nat × List Nat
  | [] => ([], [])
  | c :: l => bif p c then (c :: (spanWhile p l).1, (spanWhile p l).2) else ([], c :: l)

/-- A number in a base. -/
def number (base : Nat) (l : List Nat) : Nat := l.foldl (fun n c => n * base + digitVal c) 0

/-- Operators and punctuation of three, two and one characters. -/
def ops3 : List Name := [n! "<<=", n! ">>=", n! "...", n! "&^="]
def ops2 : List Name :=
  [n! "<<", n! ">>", n! "&^", n! "+=", n! "-=", n! "*=", n! "/=", n! "%=", n! "&=", n! "|=", n! "^=", n! "&&", n! "||", n! "++",
   n! "--", n! "==", n! "!=", n! "<=", n! ">=", n! ":=", n! "<-"]
def ops1 : List Name :=
  [n! "+", n! "-", n! "*", n! "/", n! "%", n! "&", n! "|", n! "^", n! "<", n! ">", n! "=", n! "!", n! "(", n! ")", n! "[", n! "]",
   n! "{", n! "}", n! ",", n! ";", n! ".", n! ":"]

def elemN (n : Nat) : List Nat → Bool
  | [] => false
  | m :: l => Nat.beq n m || elemN n l

/-- One character of a string or character literal between the quotes `q`: its bytes, and the rest. Other escapes than those of the table are
not in the fragment. -/
def escape (q : Nat) : List Nat → Option (List Nat × List Nat)
  | 92 :: 120 :: a :: b :: l =>                                             -- \xab
    bif Nat.blt (digitVal a) 16 && Nat.blt (digitVal b) 16 then some ([digitVal a * 16 + digitVal b], l) else none
  | 92 :: 110 :: l => some ([10], l)                                       -- \n
  | 92 :: 116 :: l => some ([9], l)                                        -- \t
  | 92 :: 92 :: l => some ([92], l)                                        -- \\
  | 92 :: c :: l => bif Nat.beq c q then some ([q], l) else none           -- \" and \'
  | 92 :: [] => none
  | c :: l => bif Nat.beq c 10 || Nat.beq c q then none else some ([c], l)
  | [] => none

/-- An interpreted string literal, after the opening quote. -/
def strLit : Nat → List Nat → Option (List Nat × List Nat)
  | 0, _ => none
  | _ + 1, 34 :: l => some ([], l)
  | n + 1, l =>
    match escape 34 l with
    | some (b, l) =>
      match strLit n l with
      | some (s, l) => some (b ++ s, l)
      | none => none
    | none => none

/-- A character literal of one byte, after the opening quote. -/
def runeLit (l : List Nat) : Option (Nat × List Nat) :=
  match escape 39 l with
  | some ([c], 39 :: l) => some (c, l)
  | _ => none

/-- Whether a number ends here: what follows is not a letter or digit. -/
def endsNum : List Nat → Bool
  | [] => true
  | c :: _ => !(isLetter c || isDigit c)

/-- The value of digits: octal if the first of several is zero. -/
def decOrOct : List Nat → Option Nat
  | 48 :: c :: l => bif (c :: l).all (Nat.blt · 56) then some (number 8 (c :: l)) else none
  | l => some (number 10 l)

/-- A raw string literal, after the opening quote: up to the next one, without carriage returns. -/
def rawLit : List Nat → Option (List Nat × List Nat)
  | [] => none
  | c :: l =>
    bif Nat.beq c 96 then some ([], l)
    else
      match rawLit l with
      | some (s, l) => some (bif Nat.beq c 13 then s else c :: s, l)
      | none => none

/-- Whether a text begins with `c`. -/
def beginsWith (c : Nat) : List Nat → Bool
  | [] => false
  | d :: _ => Nat.beq d c

/-- A number, and the rest. -/
def lexNum : List Nat → Option (Nat × List Nat)
  | 48 :: 120 :: c :: l =>
    let p := spanWhile (fun c => Nat.blt (digitVal c) 16) (c :: l)
    bif Nat.blt (digitVal c) 16 && endsNum p.2 then some (number 16 p.1, p.2) else none
  | 48 :: 98 :: c :: l =>
    let p := spanWhile (fun c => Nat.blt (digitVal c) 2) (c :: l)
    bif Nat.blt (digitVal c) 2 && endsNum p.2 then some (number 2 p.1, p.2) else none
  | l =>
    let p := spanWhile isDigit l
    bif endsNum p.2 then
      match decOrOct p.1 with
      | some i => some (i, p.2)
      | none => none
    else none

/-- The token that begins with the character `c`, and the rest. -/
def lexTok (c : Nat) (l : List Nat) : Option (Tok × List Nat) :=
  bif isLetter c then
    let p := spanWhile (fun c => isLetter c || isDigit c) l
    some (.id (nameOf (c :: p.1)), p.2)
  else bif isDigit c then
    match lexNum (c :: l) with
    | some (i, l) => some (.int i, l)
    | none => none
  else bif Nat.beq c 34 then
    match strLit (l.length + 1) l with
    | some (s, l) => some (.str s, l)
    | none => none
  else bif Nat.beq c 96 then
    match rawLit l with
    | some (s, l) => some (.str s, l)
    | none => none
  else bif Nat.beq c 39 then
    match runeLit l with
    | some (i, l) => some (.int i, l)
    | none => none
  else bif elemN (nameOf (c :: l.take 2)) ops3 then some (.op (nameOf (c :: l.take 2)), l.drop 2)
  else bif elemN (nameOf (c :: l.take 1)) ops2 then some (.op (nameOf (c :: l.take 1)), l.drop 1)
  else bif elemN c ops1 then some (.op c, l)
  else none

/-- The tokens of a line. -/
def lexLine : Nat → List Nat → Option (List Tok)
  | 0, _ => none
  | _ + 1, [] => some []
  | n + 1, c :: l =>
    bif Nat.beq c 32 || Nat.beq c 9 || Nat.beq c 13 then lexLine n l
    else bif Nat.beq c 47 && beginsWith 47 l then bif elemN 10 l then none else some []
    else bif Nat.beq c 47 && beginsWith 42 l then none
    else
      match lexTok c l with
      | some (t, l) =>
        match lexLine n l with
        | some ts => some (t :: ts)
        | none => none
      | none => none

/-- Keywords after which no semicolon is inserted. -/
def keywords : List Name :=
  [n! "case", n! "chan", n! "const", n! "default", n! "defer", n! "else", n! "for", n! "func", n! "go", n! "goto", n! "if", n! "import",
   n! "interface", n! "map", n! "package", n! "range", n! "select", n! "struct", n! "switch", n! "type", n! "var"]

/-- Whether a semicolon is inserted at the end of a line whose last token is `t`. -/
def semiAfter : Tok → Bool
  | .id n => !elemN n keywords
  | .int _ => true
  | .str _ => true
  | .op n => elemN n [n! ")", n! "]", n! "}", n! "++", n! "--"]

/-- The tokens of a line, with the semicolon inserted at its end. -/
def withSemi : List Tok → List Tok
  | [] => []
  | [t] => bif semiAfter t then [t, .op (n! ";")] else [t]
  | t :: l => t :: withSemi l

/-- The tokens of a file. -/
def lex : List String → Option (List Tok)
  | [] => some []
  | s :: ls =>
    match lexLine ((bytesOf s).length + 1) (bytesOf s), lex ls with
    | some t, some ts => some (withSemi t ++ ts)
    | _, _ => none

end GoLang
