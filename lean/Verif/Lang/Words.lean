import Verif.Lang.Lexer

/-!
# Lexical grammar

How texts spell tokens, after "Lexical elements" of the Go language specification, as relations between bytes and tokens. C109 proves that the
lexer finds the tokens that a text spells, and that there is at most one list of them.
-/
namespace GoLang

/-- A hexadecimal digit and its value. -/
inductive HexDigit : Nat → Nat → Prop
  | digit {d : Nat} : d < 10 → HexDigit (48 + d) d
  | lower {d : Nat} : d < 6 → HexDigit (97 + d) (10 + d)
  | upper {d : Nat} : d < 6 → HexDigit (65 + d) (10 + d)

/-- Digits below `base` and the number that they write; `n` is what the digits before them write. -/
inductive Digits (base : Nat) : Nat → List Nat → Nat → Prop
  | nil {n : Nat} : Digits base n [] n
  | cons {n c d m : Nat} {l : List Nat} : HexDigit c d → d < base → Digits base (n * base + d) l m → Digits base n (c :: l) m

/-- int_lit: a decimal number without leading zeros, an octal number after 0, a hexadecimal number after 0x, a binary number after 0b. -/
inductive IntLit : List Nat → Nat → Prop
  | zero : IntLit [48] 0
  | dec {d : Nat} {l : List Nat} {n : Nat} : 0 < d → d < 10 → Digits 10 d l n → IntLit ((48 + d) :: l) n
  | oct {l : List Nat} {n : Nat} : l ≠ [] → Digits 8 0 l n → IntLit (48 :: l) n
  | hex {l : List Nat} {n : Nat} : l ≠ [] → Digits 16 0 l n → IntLit (48 :: 120 :: l) n
  | bin {l : List Nat} {n : Nat} : l ≠ [] → Digits 2 0 l n → IntLit (48 :: 98 :: l) n

/-- A character between quotes `q` and the byte it stands for: any but the quote, the backslash and the line end, or an escape. -/
inductive CharLit (q : Nat) : List Nat → Nat → Prop
  | plain {c : Nat} : c ≠ q → c ≠ 92 → c ≠ 10 → CharLit q [c] c
  | hex {a b x y : Nat} : HexDigit a x → HexDigit b y → CharLit q [92, 120, a, b] (x * 16 + y)
  | newline : CharLit q [92, 110] 10
  | tab : CharLit q [92, 116] 9
  | backslash : CharLit q [92, 92] 92
  | quote : CharLit q [92, q] q

/-- Characters between quotes. -/
inductive CharLits (q : Nat) : List Nat → List Nat → Prop
  | nil : CharLits q [] []
  | cons {w l s : List Nat} {b : Nat} : CharLit q w b → CharLits q l s → CharLits q (w ++ l) (b :: s)

/-- Letters, with `_`. -/
def Letter (c : Nat) : Prop := 65 ≤ c ∧ c ≤ 90 ∨ 97 ≤ c ∧ c ≤ 122 ∨ c = 95

/-- Decimal digits. -/
def Decimal (c : Nat) : Prop := 48 ≤ c ∧ c ≤ 57

/-- identifier, keyword or int_lit: what must not be followed by a letter or digit. -/
inductive Word : List Nat → Tok → Prop
  | id {c : Nat} {l : List Nat} : Letter c → (∀ d ∈ l, Letter d ∨ Decimal d) → Word (c :: l) (.id (nameOf (c :: l)))
  | int {w : List Nat} {n : Nat} : IntLit w n → Word w (.int n)

/-- rune_lit, interpreted_string_lit or raw_string_lit: what ends at a quote. A carriage return in a raw string does not count. -/
inductive Quoted : List Nat → Tok → Prop
  | char {w : List Nat} {b : Nat} : CharLit 39 w b → Quoted (39 :: w ++ [39]) (.int b)
  | str {w s : List Nat} : CharLits 34 w s → Quoted (34 :: w ++ [34]) (.str s)
  | raw {w : List Nat} : 96 ∉ w → Quoted (96 :: w ++ [96]) (.str (w.filter (· ≠ 13)))

/-- Operators and punctuation. -/
def operators : List (List Nat) := [[43], [45], [42], [47], [37], [38], [124], [94], [60], [62], [61], [33], [40], [41], [91], [93], [123], [125], [44],
  [59], [46], [58], [60, 60], [62, 62], [38, 94], [43, 61], [45, 61], [42, 61], [47, 61], [37, 61], [38, 61], [124, 61], [94, 61], [38, 38],
  [124, 124], [43, 43], [45, 45], [61, 61], [33, 61], [60, 61], [62, 61], [58, 61], [60, 45], [60, 60, 61], [62, 62, 61], [46, 46, 46], [38, 94, 61]]

example : operators.map (fun w => String.ofList (w.map Char.ofNat)) =
    ["+", "-", "*", "/", "%", "&", "|", "^", "<", ">", "=", "!", "(", ")", "[", "]", "{", "}", ",", ";", ".", ":", "<<", ">>", "&^", "+=", "-=", "*=",
     "/=", "%=", "&=", "|=", "^=", "&&", "||", "++", "--", "==", "!=", "<=", ">=", ":=", "<-", "<<=", ">>=", "...", "&^="] := by decide +kernel

/-- The tokens of a line, with blanks, tabs and carriage returns between them, and a comment at the end. A token is as long as it can be. -/
inductive LineOf : List Nat → List Tok → Prop
  | nil : LineOf [] []
  | blank {c : Nat} {l : List Nat} {ts : List Tok} : c = 32 ∨ c = 9 ∨ c = 13 → LineOf l ts → LineOf (c :: l) ts
  | comment {l : List Nat} : 10 ∉ l → LineOf (47 :: 47 :: l) []
  | word {w l : List Nat} {t : Tok} {ts : List Tok} : Word w t → (∀ c r, l = c :: r → ¬ (Letter c ∨ Decimal c)) → LineOf l ts → LineOf (w ++ l) (t :: ts)
  | quoted {w l : List Nat} {t : Tok} {ts : List Tok} : Quoted w t → LineOf l ts → LineOf (w ++ l) (t :: ts)
  | op {w l : List Nat} {ts : List Tok} : w ∈ operators → (∀ v ∈ operators, v <+: w ++ l → v.length ≤ w.length) →
      ¬ [47, 47] <+: w ++ l → ¬ [47, 42] <+: w ++ l → LineOf l ts → LineOf (w ++ l) (.op (nameOf w) :: ts)

/-- Tokens after which a line end ends a statement: identifiers, literals, some keywords and closing brackets. -/
def EndsStmt : Tok → Prop
  | .id n => n ∉ [n! "break", n! "case", n! "chan", n! "const", n! "continue", n! "default", n! "defer", n! "else", n! "fallthrough", n! "for",
      n! "func", n! "go", n! "goto", n! "if", n! "import", n! "interface", n! "map", n! "package", n! "range", n! "return", n! "select",
      n! "struct", n! "switch", n! "type", n! "var"] ∨ n ∈ [n! "break", n! "continue", n! "fallthrough", n! "return"]
  | .int _ => True
  | .str _ => True
  | .op n => n ∈ [n! "++", n! "--", n! ")", n! "]", n! "}"]

/-- The semicolon that is inserted at the end of a line. -/
inductive LineEnd : List Tok → List Tok → Prop
  | nil : LineEnd [] []
  | semi {ts : List Tok} {t : Tok} : EndsStmt t → LineEnd (ts ++ [t]) (ts ++ [t, .op (n! ";")])
  | open {ts : List Tok} {t : Tok} : ¬ EndsStmt t → LineEnd (ts ++ [t]) (ts ++ [t])

/-- The tokens of a file. -/
inductive TextOf : List String → List Tok → Prop
  | nil : TextOf [] []
  | cons {s : String} {ls : List String} {ts us vs : List Tok} : LineOf (bytesOf s) ts → LineEnd ts us → TextOf ls vs → TextOf (s :: ls) (us ++ vs)

end GoLang
