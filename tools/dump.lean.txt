import Verif.Lang.Parser
/-! Prints the syntax tree of a Go file as a Lean module: `lake env lean --run ../tools/dump.lean NAMESPACE FILE CITE`. -/
open GoLang

partial def nameBytes (n : Nat) (acc : List UInt8 := []) : List UInt8 :=
  if n = 0 then acc else nameBytes (n / 256) (UInt8.ofNat (n % 256) :: acc)
def nameStr (n : Name) : String := String.fromUTF8! ⟨(nameBytes n).toArray⟩
def pn (n : Name) : String := if n = 0 then "0" else s!"(n! \"{nameStr n}\")"
def pl (l : List Nat) : String := "[" ++ ", ".intercalate (l.map toString) ++ "]"
def pns (l : List Name) : String := "[" ++ ", ".intercalate (l.map fun n => s!"n! \"{nameStr n}\"") ++ "]"

def pop : BinOp → String
  | .add => ".add" | .sub => ".sub" | .mul => ".mul" | .div => ".div" | .rem => ".rem" | .and => ".and" | .or => ".or"
  | .xor => ".xor" | .shl => ".shl" | .shr => ".shr" | .eq => ".eq" | .ne => ".ne" | .lt => ".lt" | .le => ".le" | .gt => ".gt"
  | .ge => ".ge" | .land => ".land" | .lor => ".lor"
def puop : UnOp → String
  | .neg => ".neg" | .com => ".com" | .not => ".not" | .addr => ".addr" | .deref => ".deref"

mutual
partial def pTy : Ty → String
  | .name n => s!"(.name {pn n})"
  | .qual p n => s!"(.qual {pn p} {pn n})"
  | .slice t => s!"(.slice {pTy t})"
  | .array e t => s!"(.array {pE e} {pTy t})"
  | .dots t => s!"(.dots {pTy t})"
  | .ptr t => s!"(.ptr {pTy t})"
  | .func a b => s!"(.func {pPs a} {pPs b})"
  | .iface => ".iface"
  | .struct a => s!"(.struct {pPs a})"
  | .none => ".none"
partial def pPs : Params → String
  | .nil => ".nil"
  | .cons n t r => s!"(.cons {pn n} {pTy t} {pPs r})"
partial def pE : Expr → String
  | .int n => s!"(.int {n})"
  | .str s => s!"(.str {pl s})"
  | .id n => s!"(.id {pn n})"
  | .bin op a b => s!"(.bin {pop op} {pE a} {pE b})"
  | .un op a => s!"(.un {puop op} {pE a})"
  | .call f a d => s!"(.call {pE f} {pEs a} {d})"
  | .sel e n => s!"(.sel {pE e} {pn n})"
  | .idx e i => s!"(.idx {pE e} {pE i})"
  | .slc e a b => s!"(.slc {pE e} {pE a} {pE b})"
  | .comp t es => s!"(.comp {pTy t} {pEl es})"
  | .ty t => s!"(.ty {pTy t})"
  | .assert e t => s!"(.assert {pE e} {pTy t})"
  | .func a b c => s!"(.func {pPs a} {pPs b} {pSs "      " c})"
  | .none => ".none"
partial def pEs : Exprs → String
  | .nil => ".nil"
  | .cons e r => s!"(.cons {pE e} {pEs r})"
partial def pEl : Elts → String
  | .nil => ".nil"
  | .cons k e r => s!"(.cons {pn k} {pE e} {pEl r})"
partial def pS (i : String) : Stmt → String
  | .expr e => s!"(.expr {pE e})"
  | .assign a b => s!"(.assign {pEs a} {pEs b})"
  | .opAssign op a b => s!"(.opAssign {pop op} {pE a} {pE b})"
  | .define a b => s!"(.define {pns a} {pEs b})"
  | .var a t b => s!"(.var {pns a} {pTy t} {pEs b})"
  | .const n e => s!"(.const {pn n} {pE e})"
  | .ret es => s!"(.ret {pEs es})"
  | .ifs s c a b => s!"(.ifs {pS i s} {pE c} {pSs (i ++ "  ") a} {pSs (i ++ "  ") b})"
  | .for a c p b => s!"(.for {pS i a} {pE c} {pS i p} {pSs (i ++ "  ") b})"
  | .range k v e b => s!"(.range {pn k} {pn v} {pE e} {pSs (i ++ "  ") b})"
  | .switch e cs => s!"(.switch {pE e} {pCs (i ++ "  ") cs})"
  | .brk => ".brk"
  | .cont => ".cont"
  | .block b => s!"(.block {pSs (i ++ "  ") b})"
  | .skip => ".skip"
partial def pSs (i : String) : Stmts → String
  | .nil => ".nil"
  | .cons s r => s!"(.cons\n{i}{pS i s} {pSs i r})"
partial def pCs (i : String) : Cases → String
  | .nil => ".nil"
  | .cons es b r => s!"(.cons {pEs es} {pSs i b} {pCs i r})"
end

def declName : Decl → Option String
  | .func _ _ t n _ _ _ => some ((if t = 0 then "" else nameStr t ++ "_") ++ nameStr n)
  | _ => none
def pD : Decl → String
  | .func r p t n ps rs b => s!".func {pn r} {p} {pn t} {pn n} {pPs ps} {pPs rs} {pSs "    " b}"
  | .type n t => s!".type {pn n} {pTy t}"
  | .const n e => s!".const {pn n} {pE e}"
  | .var n t e => s!".var {pn n} {pTy t} {pE e}"

/-- Lines that a raw string spans are put together. -/
partial def join : List String → List String
  | a :: b :: l =>
    if (lexLine ((bytesOf a).length + 1) (bytesOf a)).isNone && a.any (· == '`') then join ((a ++ "\n" ++ b) :: l) else a :: join (b :: l)
  | l => l

def main (args : List String) : IO Unit := do
  let [ns, file, cite] := args | throw (IO.userError "usage")
  let text ← IO.FS.readFile file
  let lines := join ((text.replace "\r" "").splitOn "\n")
  IO.println s!"import Verif.Lang.Parser\n\n/-!\n# Source of {cite}\n\nThe text of the file, line by line without line ends, and its syntax tree as found by the parser. Generated by `tools/source.py`.\n-/\nnamespace Source.{ns}\nopen GoLang\n"
  IO.println "/-- The text. -/"
  IO.println ("def src : List String := [\n" ++ ",\n".intercalate (lines.map fun l => "r#\"" ++ l ++ "\"#") ++ "]\n")
  let some f := parse lines | throw (IO.userError s!"no parse of {file}")
  let mut names : List String := []
  for d in f.decls do
    match declName d with
    | some n =>
      IO.println s!"def {n} : Decl :=\n  {pD d}\n"
      names := names ++ [n]
    | none => names := names ++ [s!"({pD d})"]
  IO.println ("/-- The syntax tree. -/\ndef file : File := ⟨n! \"" ++ nameStr f.pkg ++ "\", [" ++ ", ".intercalate (f.imports.map pl) ++ "], [\n  "
    ++ ",\n  ".intercalate names ++ "]⟩\n")
  IO.println "/-- The parser finds this tree in the text. -/\ntheorem parsed : parse src = some file := by kernel_rfl\n"
  IO.println s!"end Source.{ns}"
