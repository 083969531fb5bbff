import Verif.Spec.Hex

/-!
# A reader for a fragment of Go source

Enough of "The Go Programming Language Specification" to say what generated declarations mean: tokens ("Lexical elements":
comments, automatic semicolons, identifiers, integer and interpreted string literals), the package clause, and constant and
variable declarations of an integer, of a sum of string literals, or of a `[...]uint64{…}` literal.
-/
namespace GoSource
open HexSpec

inductive Tok where
  | word (s : List U8)
  | num (n : Nat)
  | str (s : List U8)
  | op (c : U8)
  deriving DecidableEq, Repr

/-- Letters (ASCII only, and underscore). -/
def isLetter (c : U8) : Bool :=
  (65 ≤ c.toNat && c.toNat ≤ 90) || (97 ≤ c.toNat && c.toNat ≤ 122) || c.toNat == 95

def isDigit (c : U8) : Bool := 48 ≤ c.toNat && c.toNat ≤ 57

def isAlnum (c : U8) : Bool := isLetter c || isDigit c

/-- The value of the digits in base `b`, most significant first. -/
def digitsVal (b : Nat) (ds : List Nat) : Nat := ds.foldl (fun v d => b * v + d) 0

/-- The value of an integer literal: `0x` and hexadecimal digits, or decimal digits without leading zero. -/
def intVal : List U8 → Option Nat
  | [] => none
  | c :: t =>
    if c = 48#8 then
      match t with
      | [] => some 0
      | x :: t' => if x = 120#8 ∧ t' ≠ [] then (t'.mapM digitVal).map (digitsVal 16) else none
    else if (c :: t).all isDigit then some (digitsVal 10 ((c :: t).map fun c => c.toNat - 48)) else none

/-- Keywords that can begin a declaration; a line break after them adds no semicolon. -/
def keywords : List (List U8) := [ascii "package", ascii "const", ascii "var"]

/-- Where the reader is. In `gap semi`, `semi` tells whether a line break here becomes a semicolon (it does after an
identifier, a literal, or one of `) ] }`). -/
inductive LexState where
  | gap (semi : Bool)
  | slash (semi : Bool)
  | comment (semi : Bool)
  | word (s : List U8)
  | num (s : List U8)
  | str (s : List U8)
  | esc (s : List U8)
  | escX (s : List U8)
  | escH (s : List U8) (h : Nat)
  deriving DecidableEq

/-- One character between tokens. -/
def gapStep (semi : Bool) (c : U8) : Option (List Tok × LexState) :=
  if c = 10#8 then some (if semi then [.op 59#8] else [], .gap false)
  else if c = 32#8 ∨ c = 9#8 then some ([], .gap semi)
  else if c = 47#8 then some ([], .slash semi)
  else if c = 34#8 then some ([], .str [])
  else if isLetter c then some ([], .word [c])
  else if isDigit c then some ([], .num [c])
  else if c ∈ ascii "{[=+,.;" then some ([.op c], .gap false)
  else if c ∈ ascii "}]" then some ([.op c], .gap true)
  else none

/-- Put tokens in front. -/
def emit (ts : List Tok) : Option (List Tok × LexState) → Option (List Tok × LexState)
  | some (us, s) => some (ts ++ us, s)
  | none => none

/-- One character. -/
def lexStep : LexState → U8 → Option (List Tok × LexState)
  | .gap semi, c => gapStep semi c
  | .slash semi, c => if c = 47#8 then some ([], .comment semi) else none
  | .comment semi, c => if c = 10#8 then gapStep semi 10#8 else some ([], .comment semi)
  | .word s, c => if isAlnum c then some ([], .word (s ++ [c])) else emit [.word s] (gapStep (s ∉ keywords) c)
  | .num s, c =>
    if isAlnum c then some ([], .num (s ++ [c]))
    else match intVal s with
      | some v => emit [.num v] (gapStep true c)
      | none => none
  | .str s, c =>
    if c = 34#8 then some ([.str s], .gap true)
    else if c = 92#8 then some ([], .esc s)
    else if c = 10#8 then none
    else some ([], .str (s ++ [c]))
  | .esc s, c => if c = 120#8 then some ([], .escX s) else none
  | .escX s, c => (digitVal c).map fun h => ([], .escH s h)
  | .escH s h, c => (digitVal c).map fun l => ([], .str (s ++ [BitVec.ofNat 8 (16 * h + l)]))

/-- A text, from a state: the tokens and the state at its end. -/
def runLex : LexState → List U8 → Option (List Tok × LexState)
  | s, [] => some ([], s)
  | s, c :: t =>
    match lexStep s c with
    | some (ts, s') => emit ts (runLex s' t)
    | none => none

/-- The tokens of a text that ends in a line break. -/
def lex (text : List U8) : Option (List Tok) :=
  match runLex (.gap false) text with
  | some (ts, .gap false) => some ts
  | _ => none

/-- What a declaration declares. -/
inductive Decl where
  | int (name : List U8) (n : Nat)
  | str (name : List U8) (s : List U8)
  | u64s (name : List U8) (ns : List Nat)
  deriving DecidableEq, Repr

/-- `lit + lit + … ;`: the value and what follows. -/
def parseSum : List Tok → Option (List U8 × List Tok)
  | .str s :: .op c :: t =>
    if c = 43#8 then (parseSum t).map fun (r, t') => (s ++ r, t')
    else if c = 59#8 then some (s, t)
    else none
  | _ => none

/-- `n, n, … }` with optional last comma: the values (which must fit in 64 bits) and what follows. -/
def parseElems : List Tok → Option (List Nat × List Tok)
  | .op c :: t => if c = 125#8 then some ([], t) else none
  | .num n :: .op c :: t =>
    if 2 ^ 64 ≤ n then none
    else if c = 44#8 then (parseElems t).map fun (r, t') => (n :: r, t')
    else if c = 125#8 then some ([n], t)
    else none
  | _ => none

/-- Declarations up to the end; `fuel` bounds their number. -/
def parseDecls : (fuel : Nat) → List Tok → Option (List Decl)
  | _, [] => some []
  | 0, _ => none
  | fuel + 1, .word kw :: .word name :: .op eq :: rest =>
    if eq ≠ 61#8 ∨ name ∈ keywords then none
    else if kw = ascii "const" then
      match rest with
      | .num n :: .op semi :: t => if semi = 59#8 then (parseDecls fuel t).map (.int name n :: ·) else none
      | _ =>
        match parseSum rest with
        | some (s, t) => (parseDecls fuel t).map (.str name s :: ·)
        | none => none
    else if kw = ascii "var" then
      match rest with
      | .op a :: .op b :: .op c :: .op d :: .op e :: .word ty :: .op f :: t =>
        if [a, b, c, d, e] = ascii "[...]" ∧ ty = ascii "uint64" ∧ f = 123#8 then
          match parseElems t with
          | some (ns, .op semi :: t) => if semi = 59#8 then (parseDecls fuel t).map (.u64s name ns :: ·) else none
          | _ => none
        else none
      | _ => none
    else none
  | _, _ => none

/-- The declarations a text consists of. -/
def readDecls (text : List U8) : Option (List Decl) :=
  match lex text with
  | some ts => parseDecls ts.length ts
  | none => none

/-- A source file: `package name` and declarations. -/
def readFile (text : List U8) : Option (List U8 × List Decl) :=
  match lex text with
  | some (.word kw :: .word name :: .op semi :: ts) =>
    if kw = ascii "package" ∧ name ∉ keywords ∧ semi = 59#8 then (parseDecls ts.length ts).map fun ds => (name, ds) else none
  | _ => none

/-- An identifier: a letter, then letters and digits; not one of the keywords. -/
def IsIdent (s : List U8) : Prop :=
  (∃ c t, s = c :: t ∧ isLetter c = true) ∧ s.all isAlnum = true ∧ s ∉ keywords

end GoSource
