import Verif.Lang.Eval

/-!
# Packages, and the functions of the standard library that the repository calls
-/
namespace GoLang

/-! ## Loading packages -/

/-- The part of a path after the last `/`. -/
def lastPart (l : List Nat) : List Nat :=
  match l with
  | [] => []
  | c :: r => bif elemN 47 r then lastPart r else bif Nat.beq c 47 then r else c :: r

/-- The imports of a file: the last part of each path, and the path. -/
def importTable (l : List (List Nat)) : List (Name × Name) := l.map fun p => (nameOf (lastPart p), nameOf p)

/-- The context in which constants and variables of a package are evaluated: the functions of the standard library are those of `std`. -/
def initCtx (std : Name → Name → Name → List Val → M Val) (k : Pkg) : Ctx :=
  { W := 64, fuel := 0, pkg := k, boxed := [], results := .nil, repo := [], methods := fun _ _ _ => none, other := fun _ _ => none, call := fun _ _ _ _ _ => .stuck,
    clo := fun _ _ _ _ _ _ => .stuck, std := std, native := fun _ _ _ => stuck, grow := fun _ => 0 }

/-- The first value of a variable of a package. -/
def initVal (c : Ctx) (t : Ty) (e : Expr) : M Val :=
  bif isAbsent e then lift (zero c tyDepth t)
  else do
    let v ← eval c e
    match t with
    | .none => return deflt v
    | t => coerce c t v

/-- The constants and variables of a package, in the order of declaration. -/
def initVars (std : Name → Name → Name → List Val → M Val) (k : Pkg) : List Decl → Option (List (Name × Val))
  | [] => some k.genv
  | .const n e :: l =>
    match eval (initCtx std k) e ⟨[], []⟩ with
    | .ok v _ => initVars std { k with genv := k.genv ++ [(n, v)] } l
    | _ => none
  | .var n t e :: l =>
    match initVal (initCtx std k) t e ⟨[], []⟩ with
    | .ok v ⟨[], _⟩ => initVars std { k with genv := k.genv ++ [(n, v)] } l
    | _ => none
  | _ :: l => initVars std k l

/-- A package made of files. -/
def loadPkg (std : Name → Name → Name → List Val → M Val) (path : Name) (files : List File) (boxed : List (Name × List Name)) : Option Pkg :=
  let k : Pkg := ⟨path, files.flatMap fun f => importTable f.imports, files.flatMap File.decls, [], boxed⟩
  (initVars std k k.decls).map fun g => { k with genv := g }

/-- The constants and variables of a package, and memory after their initialisation; the variables in `vars` live in memory. -/
def initMem (std : Name → Name → Name → List Val → M Val) (vars : List Name) (k : Pkg) (h : List Val) : List Decl → Option (List (Name × Val) × List Val)
  | [] => some (k.genv, h)
  | .const n e :: l =>
    match eval (initCtx std k) e ⟨[], []⟩ with
    | .ok v _ => initMem std vars { k with genv := k.genv ++ [(n, v)] } h l
    | _ => none
  | .var n t e :: l =>
    match initVal (initCtx std k) t e ⟨h, []⟩ with
    | .ok v s =>
      bif elemN n vars then initMem std vars { k with genv := k.genv ++ [(n, .box s.heap.length)] } (s.heap ++ [v]) l
      else initMem std vars { k with genv := k.genv ++ [(n, v)] } s.heap l
    | _ => none
  | _ :: l => initMem std vars k h l

/-- A package made of files, with the variables `vars` in memory, and memory when the program starts. -/
def loadMem (std : Name → Name → Name → List Val → M Val) (path : Name) (files : List File) (boxed : List (Name × List Name)) (vars : List Name) :
    Option (Pkg × List Val) :=
  let k : Pkg := ⟨path, files.flatMap fun f => importTable f.imports, files.flatMap File.decls, [], boxed⟩
  (initMem std vars k [] k.decls).map fun g => ({ k with genv := g.1 }, g.2)

/-! ## Standard library -/

/-- The bytes of an unsigned integer, least significant first. -/
def leBytes : Nat → Nat → List Val
  | 0, _ => []
  | k + 1, x => .u8 (BitVec.ofNat 8 x) :: leBytes k (x / 256)

/-- The number with the given bytes, least significant first. -/
def leNat : List (BitVec 8) → Nat
  | [] => 0
  | x :: l => x.toNat + 256 * leNat l

/-- The first `k` elements of a slice; a shorter one panics. -/
def firstElems (v : Val) (k : Nat) : M (List Val) :=
  match v with
  | .slice a p off len _ => if k ≤ len then elems a p off k else panic
  | .nil => panic
  | _ => stuck

/-- `Uint16`, `Uint32`, `Uint64` of package encoding/binary, as numbers. -/
def readUint (big : Bool) (k : Nat) (v : Val) : M Nat := do
  let l ← firstElems v k
  let b ← lift (valBytes l)
  return leNat (bif big then b.reverse else b)

/-- `PutUint16`, `PutUint32`, `PutUint64` of package encoding/binary. -/
def putUint (big : Bool) (k : Nat) (v : Val) (x : Nat) : M Val :=
  match v with
  | .slice a p off len _ =>
    if k ≤ len then do
      storeElems a p off (bif big then (leBytes k x).reverse else leBytes k x)
      return .tuple []
    else panic
  | .nil => panic
  | _ => stuck

/-- The methods of `binary.LittleEndian` and `binary.BigEndian`. -/
def byteOrder (big : Bool) (m : Name) (args : List Val) : M Val :=
  match args with
  | [v] =>
    bif Nat.beq m (n! "Uint16") then do return .u16 (.ofNat 16 (← readUint big 2 v))
    else bif Nat.beq m (n! "Uint32") then do return .u32 (.ofNat 32 (← readUint big 4 v))
    else bif Nat.beq m (n! "Uint64") then do return .u64 (.ofNat 64 (← readUint big 8 v))
    else stuck
  | [v, .u16 x] => bif Nat.beq m (n! "PutUint16") then putUint big 2 v x.toNat else stuck
  | [v, .u32 x] => bif Nat.beq m (n! "PutUint32") then putUint big 4 v x.toNat else stuck
  | [v, .u64 x] => bif Nat.beq m (n! "PutUint64") then putUint big 8 v x.toNat else stuck
  | _ => stuck

/-- `net.IP.To4`: an IPv4 address as four bytes, the same memory. -/
def to4 (v : Val) : M Val := do
  match v with
  | .nil => return .nil
  | .slice a p off len cap =>
    if len = 4 then return v
    else if len = 16 then do
      let b ← bytesIn v
      if b.take 12 = [0, 0, 0, 0, 0, 0, 0, 0, 0, 0, 255, 255] then return .slice a p (off + 12) 4 (cap - 12) else return .nil
    else return .nil
  | _ => stuck

/-- The number of leading one bits. -/
def leadingOnes : List Bool → Nat
  | true :: l => leadingOnes l + 1
  | _ => 0

/-- The bits of bytes, most significant first. -/
def bitsOf (l : List (BitVec 8)) : List Bool := l.flatMap fun b => (List.range 8).map fun i => b.getMsbD i

/-- `net.IPMask.Size`: the number of leading ones and of bits, or zeros if ones follow a zero. -/
def maskSize (v : Val) : M Val := do
  let b ← bytesIn v
  let n := leadingOnes (bitsOf b)
  if (bitsOf b).drop n = List.replicate ((bitsOf b).length - n) false then return .tuple [.int n, .int (8 * b.length : Nat)]
  else return .tuple [.int 0, .int 0]

/-- `bytes.Compare` of the standard library. -/
def compareBytes (a b : List (BitVec 8)) : Int :=
  match a, b with
  | [], [] => 0
  | [], _ :: _ => -1
  | _ :: _, [] => 1
  | x :: a, y :: b => if x < y then -1 else if y < x then 1 else compareBytes a b

/-- A natural number in decimal. -/
def decimal (n : Nat) : List (BitVec 8) :=
  if n < 10 then [.ofNat 8 (48 + n)] else decimal (n / 10) ++ [.ofNat 8 (48 + n % 10)]

/-- The last `k` digits of a number in hexadecimal. -/
def hexDigits : Nat → Nat → List (BitVec 8)
  | 0, _ => []
  | k + 1, n => hexDigits k (n / 16) ++ [.ofNat 8 (bif Nat.blt (n % 16) 10 then 48 + n % 16 else 87 + n % 16)]

/-- `fmt.Sprintf` with `%s` for strings, `%d` for integers and `%016x` for 64-bit unsigned integers. -/
def sprintf : List (BitVec 8) → List Val → Option (List (BitVec 8))
  | 37#8 :: 115#8 :: f, .str s :: args => (sprintf f args).map (s ++ ·)
  | 37#8 :: 100#8 :: f, v :: args => do
    let i ← exact v
    (sprintf f args).map ((if i < 0 then 45#8 :: decimal i.natAbs else decimal i.natAbs) ++ ·)
  | 37#8 :: 48#8 :: 49#8 :: 54#8 :: 120#8 :: f, .u64 x :: args => (sprintf f args).map (hexDigits 16 x.toNat ++ ·)
  | 37#8 :: _, _ => none
  | x :: f, args => (sprintf f args).map (x :: ·)
  | [], [] => some []
  | [], _ => none

/-- A byte in a range. -/
def inRange (lo hi : Nat) (b : BitVec 8) : Bool := Nat.ble lo b.toNat && Nat.ble b.toNat hi

/-- The length of the first character of a string in UTF-8, Table 3-7 of the Unicode Standard; 1 where there is no valid encoding. -/
def charSize : List (BitVec 8) → Nat
  | b0 :: b1 :: l =>
    bif inRange 0xC2 0xDF b0 then bif inRange 0x80 0xBF b1 then 2 else 1
    else bif inRange 0xE0 0xEF b0 && inRange (bif inRange 0xE0 0xE0 b0 then 0xA0 else 0x80) (bif inRange 0xED 0xED b0 then 0x9F else 0xBF) b1 then
      match l with
      | b2 :: _ => bif inRange 0x80 0xBF b2 then 3 else 1
      | [] => 1
    else bif inRange 0xF0 0xF4 b0 && inRange (bif inRange 0xF0 0xF0 b0 then 0x90 else 0x80) (bif inRange 0xF4 0xF4 b0 then 0x8F else 0xBF) b1 then
      match l with
      | b2 :: b3 :: _ => bif inRange 0x80 0xBF b2 && inRange 0x80 0xBF b3 then 4 else 1
      | _ => 1
    else 1
  | _ => 1

/-- The characters of a string, each as a string; the first argument bounds their number. -/
def chars : Nat → List (BitVec 8) → List (List (BitVec 8))
  | 0, _ => []
  | _ + 1, [] => []
  | n + 1, s => s.take (charSize s) :: chars n (s.drop (charSize s))

/-- `strings.Split` with an empty separator: the characters of the string in a new slice. -/
def splitChars (s : List (BitVec 8)) : M Val := do
  let l := (chars s.length s).map .str
  let a ← alloc (.arr l)
  return .slice a [] 0 l.length l.length

/-- The functions of the standard library that the repository uses: path, name (0 for a method of a slice type), method (or function if
the name is 0), arguments. -/
def stdlib (path n m : Name) (args : List Val) : M Val :=
  bif Nat.beq path 0 then
    match args with
    | [v] =>
      bif Nat.beq m (n! "To4") then to4 v
      else bif Nat.beq m (n! "Size") then maskSize v
      else stuck
    | _ => stuck
  else bif Nat.beq path (n! "encoding/binary") then
    bif Nat.beq n (n! "LittleEndian") then byteOrder false m args
    else bif Nat.beq n (n! "BigEndian") then byteOrder true m args
    else stuck
  else bif Nat.beq path (n! "errors") then
    match args with
    | [.str s] => bif Nat.beq m (n! "New") then return .err s else stuck
    | _ => stuck
  else bif Nat.beq path (n! "fmt") then
    match args with
    | .str f :: vs => bif Nat.beq m (n! "Sprintf") then do return .str (← lift (sprintf f vs)) else stuck
    | _ => stuck
  else bif Nat.beq path (n! "math/bits") then
    bif Nat.beq m (n! "RotateLeft32") then
      match args with
      | [.u32 x, .int k] => return .u32 (x.rotateLeft (k % 32).toNat)
      | [.u32 x, .const k] => return .u32 (x.rotateLeft (k % 32).toNat)
      | _ => stuck
    else bif Nat.beq m (n! "RotateLeft64") then
      match args with
      | [.u64 x, .int k] => return .u64 (x.rotateLeft (k % 64).toNat)
      | [.u64 x, .const k] => return .u64 (x.rotateLeft (k % 64).toNat)
      | _ => stuck
    else stuck
  else bif Nat.beq path (n! "bytes") then
    match args with
    | [a, b] =>
      bif Nat.beq m (n! "Compare") then do
        let x ← bytesIn a
        let y ← bytesIn b
        return .int (compareBytes x y)
      else stuck
    | _ => stuck
  else bif Nat.beq path (n! "strings") then
    match args with
    | [.str s, .str []] => bif Nat.beq m (n! "Split") then splitChars s else stuck
    | _ => stuck
  else stuck

end GoLang
