import Verif.Lang.Parser

/-!
# Values, memory and operators

Integers have the width of their type; `int` has `W` bits and wraps around. An untyped constant is an exact integer that takes the type
of the other operand, or of the place it is assigned to.
-/
namespace GoLang

/-- A step from an object to a part of it: a field or an element. -/
inductive Sel where
  | fld (n : Name)
  | idx (i : Nat)

/-- Values. -/
inductive Val where
  /-- an untyped integer constant -/
  | const (i : Int)
  | u8 (x : BitVec 8)
  | u16 (x : BitVec 16)
  | u32 (x : BitVec 32)
  | u64 (x : BitVec 64)
  /-- an `int` -/
  | int (i : Int)
  | bool (b : Bool)
  | str (s : List (BitVec 8))
  /-- the nil of any type -/
  | nil
  /-- elements `off` to `off + len` of the array at path `p` in object `a`, with capacity `cap` -/
  | slice (a : Nat) (p : List Sel) (off len cap : Nat)
  | arr (l : List Val)
  /-- a struct of the type `t` of package `pkg` -/
  | struct (pkg t : Name) (fs : List (Name × Val))
  /-- a pointer to path `p` in object `a`; `pkg` and `t` name the type it points to, if that is a named type -/
  | ptr (pkg t : Name) (a : Nat) (p : List Sel)
  /-- a function of a package -/
  | func (pkg f : Name)
  /-- a name of a package of the standard library -/
  | std (path n : Name)
  /-- a function or an object with methods, given by the caller -/
  | native (i : Nat)
  /-- a function literal with the variables it refers to -/
  | clo (ps rs : Params) (body : Stmts) (env : List (Name × Val))
  /-- the results of a call with no or several results -/
  | tuple (l : List Val)
  /-- in an environment only: the variable lives in object `a` -/
  | box (a : Nat)
  /-- a type, as an argument of `make` and `new` -/
  | type (t : Ty)
  /-- an error made by `errors.New` -/
  | err (s : List (BitVec 8))
  /-- an unsafe pointer to the bytes of the array at path `p` in object `a`, from `i` on; `st` is how the machine stores 16 bits -/
  | raw (st : BitVec 16 → BitVec 8 × BitVec 8) (a : Nat) (p : List Sel) (i : Nat)

/-- The state: the objects, and the variables of the running function, innermost first. -/
structure St where
  heap : List Val
  env : List (Name × Val)

/-- Outcomes. A panic leaves the memory; nothing in the fragment can recover from it. `stuck` means that the program is outside the fragment, ill-typed, or that the fuel is used up; no theorem allows it. -/
inductive Out (α : Type) where
  | ok (a : α) (s : St)
  | panic (h : List Val)
  | stuck

/-- Computations. -/
def M (α : Type) := St → Out α

def Out.bind {α β : Type} (x : Out α) (f : α → M β) : Out β :=
  match x with
  | .ok a s => f a s
  | .panic h => .panic h
  | .stuck => .stuck

instance : Monad M where
  pure a := fun s => .ok a s
  bind x f := fun s => (x s).bind f

def stuck {α : Type} : M α := fun _ => .stuck
def panic {α : Type} : M α := fun s => .panic s.heap

/-- A partial function, stuck where it is undefined. -/
def lift {α : Type} : Option α → M α
  | some a => pure a
  | none => stuck

/-- A partial function, panicking where it is undefined. -/
def orPanic {α : Type} : Option α → M α
  | some a => pure a
  | none => panic

/-! ## Parts of objects -/

def setField (n : Name) (v : Val) : List (Name × Val) → Option (List (Name × Val))
  | [] => none
  | (m, w) :: l => bif Nat.beq n m then some ((m, v) :: l) else (setField n v l).map ((m, w) :: ·)

def getPath : Val → List Sel → Option Val
  | v, [] => some v
  | .struct _ _ fs, .fld n :: p =>
    match find n fs with
    | some v => getPath v p
    | none => none
  | .arr l, .idx i :: p =>
    match l[i]? with
    | some v => getPath v p
    | none => none
  | _, _ :: _ => none

def setPath : Val → List Sel → Val → Option Val
  | _, [], w => some w
  | .struct k t fs, .fld n :: p, w =>
    match find n fs with
    | some v =>
      match setPath v p w with
      | some v => (setField n v fs).map (.struct k t)
      | none => none
    | none => none
  | .arr l, .idx i :: p, w =>
    match l[i]? with
    | some v =>
      match setPath v p w with
      | some v => some (.arr (l.set i v))
      | none => none
    | none => none
  | _, _ :: _, _ => none

/-- Load from the heap. -/
def load (a : Nat) (p : List Sel) : M Val := fun s =>
  match s.heap[a]? with
  | some v =>
    match getPath v p with
    | some v => .ok v s
    | none => .stuck
  | none => .stuck

/-- Store into the heap. -/
def store (a : Nat) (p : List Sel) (w : Val) : M Unit := fun s =>
  match s.heap[a]? with
  | some v =>
    match setPath v p w with
    | some v => .ok () { s with heap := s.heap.set a v }
    | none => .stuck
  | none => .stuck

/-- A new object. -/
def alloc (v : Val) : M Nat := fun s => .ok s.heap.length { s with heap := s.heap ++ [v] }

/-- The elements of a slice. -/
def elems (a : Nat) (p : List Sel) (off len : Nat) : M (List Val) := do
  match ← load a p with
  | .arr l => if off + len ≤ l.length then return (l.drop off).take len else stuck
  | _ => stuck

/-- Replace elements of an array by others, from an index on. -/
def splice (l : List Val) (off : Nat) (vs : List Val) : List Val := l.take off ++ vs ++ l.drop (off + vs.length)

/-- Store elements into a slice that is long enough. -/
def storeElems (a : Nat) (p : List Sel) (off : Nat) (vs : List Val) : M Unit := do
  match ← load a p with
  | .arr l => if off + vs.length ≤ l.length then store a p (.arr (splice l off vs)) else stuck
  | _ => stuck

/-- The bytes of a list of values. -/
def valBytes : List Val → Option (List (BitVec 8))
  | [] => some []
  | .u8 x :: l => (valBytes l).map (x :: ·)
  | _ :: _ => none

/-- The bytes of a string or byte slice. -/
def bytesIn : Val → M (List (BitVec 8))
  | .str s => pure s
  | .nil => pure []
  | .slice a p off len _ => do
    let l ← elems a p off len
    lift (valBytes l)
  | _ => stuck

/-- The elements of a slice, or the bytes of a string. -/
def elemsIn : Val → M (List Val)
  | .str s => pure (s.map .u8)
  | .nil => pure []
  | .slice a p off len _ => elems a p off len
  | _ => stuck

/-! ## Operators -/

/-- The `W`-bit signed integer that an exact result wraps to. -/
def wrap (W : Nat) (i : Int) : Int := Int.bmod i (2 ^ W)

/-- Convert a constant to the kind of `v`. -/
def like (v w : Val) : Val :=
  match w with
  | .const i =>
    match v with
    | .u8 _ => .u8 (.ofInt 8 i)
    | .u16 _ => .u16 (.ofInt 16 i)
    | .u32 _ => .u32 (.ofInt 32 i)
    | .u64 _ => .u64 (.ofInt 64 i)
    | .int _ => .int i
    | _ => w
  | _ => w

/-- The default type of a constant. -/
def deflt (w : Val) : Val :=
  match w with
  | .const i => .int i
  | _ => w

/-- Arithmetic on unsigned integers; `none` is a panic. -/
def arithU {w : Nat} (op : BinOp) (x y : BitVec w) : Option (BitVec w) :=
  match op with
  | .add => some (x + y)
  | .sub => some (x - y)
  | .mul => some (x * y)
  | .div => if y = 0 then none else some (x / y)
  | .rem => if y = 0 then none else some (x % y)
  | .and => some (x &&& y)
  | .or => some (x ||| y)
  | .xor => some (x ^^^ y)
  | _ => none

/-- Arithmetic on `int`. -/
def arithI (W : Nat) (op : BinOp) (x y : Int) : Option Int :=
  match op with
  | .add => some (wrap W (x + y))
  | .sub => some (wrap W (x - y))
  | .mul => some (wrap W (x * y))
  | .div => if y = 0 then none else some (wrap W (x.tdiv y))
  | .rem => if y = 0 then none else some (x.tmod y)
  | .and => some (BitVec.ofInt W x &&& BitVec.ofInt W y).toInt
  | .or => some (BitVec.ofInt W x ||| BitVec.ofInt W y).toInt
  | .xor => some (BitVec.ofInt W x ^^^ BitVec.ofInt W y).toInt
  | _ => none

/-- Arithmetic on constants. -/
def arithC (op : BinOp) (x y : Int) : Option Int :=
  match op with
  | .add => some (x + y)
  | .sub => some (x - y)
  | .mul => some (x * y)
  | .div => if y = 0 then none else some (x.tdiv y)
  | .rem => if y = 0 then none else some (x.tmod y)
  | _ => none

/-- Arithmetic and bit operators. -/
def arith (W : Nat) (op : BinOp) (a b : Val) : M Val :=
  match a, b with
  | .u8 x, .u8 y => do return .u8 (← orPanic (arithU op x y))
  | .u16 x, .u16 y => do return .u16 (← orPanic (arithU op x y))
  | .u32 x, .u32 y => do return .u32 (← orPanic (arithU op x y))
  | .u64 x, .u64 y => do return .u64 (← orPanic (arithU op x y))
  | .int x, .int y => do return .int (← orPanic (arithI W op x y))
  | .const x, .const y => do return .const (← lift (arithC op x y))
  | .str s, .str t =>
    match op with
    | .add => return .str (s ++ t)
    | _ => stuck
  | _, _ => stuck

/-- A shift count; a negative one panics. -/
def count : Val → M Nat
  | .u8 x => pure x.toNat
  | .u16 x => pure x.toNat
  | .u32 x => pure x.toNat
  | .u64 x => pure x.toNat
  | .int i => if i < 0 then panic else pure i.toNat
  | .const i => pure i.toNat
  | _ => stuck

/-- Shifts. -/
def shift (W : Nat) (left : Bool) (a : Val) (n : Nat) : M Val :=
  match a with
  | .u8 x => pure (.u8 (bif left then x <<< n else x >>> n))
  | .u16 x => pure (.u16 (bif left then x <<< n else x >>> n))
  | .u32 x => pure (.u32 (bif left then x <<< n else x >>> n))
  | .u64 x => pure (.u64 (bif left then x <<< n else x >>> n))
  | .int i => pure (.int (bif left then wrap W (i * 2 ^ n) else i >>> n))
  | .const i => pure (.const (bif left then i * 2 ^ n else i >>> n))
  | _ => stuck

/-- The same place. -/
def samePath : List Sel → List Sel → Bool
  | [], [] => true
  | .fld n :: p, .fld m :: q => Nat.beq n m && samePath p q
  | .idx i :: p, .idx j :: q => Nat.beq i j && samePath p q
  | _, _ => false

/-- Equality, where the fragment uses it. -/
def equal (a b : Val) : M Bool :=
  match a, b with
  | .u8 x, .u8 y => pure (x == y)
  | .u16 x, .u16 y => pure (x == y)
  | .u32 x, .u32 y => pure (x == y)
  | .u64 x, .u64 y => pure (x == y)
  | .int x, .int y => pure (x == y)
  | .const x, .const y => pure (x == y)
  | .bool x, .bool y => pure (x == y)
  | .str x, .str y => pure (x == y)
  | .ptr _ _ x p, .ptr _ _ y q => pure (Nat.beq x y && samePath p q)
  | .std x n, .std y m => pure (Nat.beq x y && Nat.beq n m)
  | .nil, .nil => pure true
  | .nil, .err _ => pure false
  | .err _, .nil => pure false
  | .nil, .slice .. => pure false
  | .slice .., .nil => pure false
  | _, _ => stuck

/-- Order of integers. -/
def less (a b : Val) : M Bool :=
  match a, b with
  | .u8 x, .u8 y => pure (decide (x < y))
  | .u16 x, .u16 y => pure (decide (x < y))
  | .u32 x, .u32 y => pure (decide (x < y))
  | .u64 x, .u64 y => pure (decide (x < y))
  | .int x, .int y => pure (decide (x < y))
  | .const x, .const y => pure (decide (x < y))
  | _, _ => stuck

/-- Binary operators other than `&&` and `||`. -/
def binary (W : Nat) (op : BinOp) (a b : Val) : M Val :=
  match op with
  | .shl => do shift W true a (← count b)
  | .shr => do shift W false a (← count b)
  | .eq => do return .bool (← equal (like b a) (like a b))
  | .ne => do return .bool (!(← equal (like b a) (like a b)))
  | .lt => do return .bool (← less (like b a) (like a b))
  | .le => do return .bool (!(← less (like a b) (like b a)))
  | .gt => do return .bool (← less (like a b) (like b a))
  | .ge => do return .bool (!(← less (like b a) (like a b)))
  | _ => arith W op (like b a) (like a b)

/-- Unary operators other than `&` and `*`. -/
def unary (W : Nat) (op : UnOp) (a : Val) : M Val :=
  match op, a with
  | .com, .u8 x => pure (.u8 (~~~ x))
  | .com, .u16 x => pure (.u16 (~~~ x))
  | .com, .u32 x => pure (.u32 (~~~ x))
  | .com, .u64 x => pure (.u64 (~~~ x))
  | .neg, .int i => pure (.int (wrap W (-i)))
  | .neg, .const i => pure (.const (-i))
  | .not, .bool b => pure (.bool (!b))
  | _, _ => stuck

/-- The exact value of an integer, and conversions to integer types. -/
def exact : Val → Option Int
  | .u8 x => some x.toNat
  | .u16 x => some x.toNat
  | .u32 x => some x.toNat
  | .u64 x => some x.toNat
  | .int i => some i
  | .const i => some i
  | _ => none

/-- Conversion to an unsigned type of `w` bits. -/
def toBits (w : Nat) : Val → M (BitVec w)
  | .u8 x => pure (x.setWidth w)
  | .u16 x => pure (x.setWidth w)
  | .u32 x => pure (x.setWidth w)
  | .u64 x => pure (x.setWidth w)
  | .int i => pure (.ofInt w i)
  | .const i => pure (.ofInt w i)
  | _ => stuck

/-- The UTF-8 encoding of a byte read as a code point. -/
def byteText (x : BitVec 8) : List (BitVec 8) :=
  if x.toNat < 128 then [x] else [.ofNat 8 (192 + x.toNat / 64), .ofNat 8 (128 + x.toNat % 64)]

/-- The length of a value. -/
def lenOf : Val → M Int
  | .str s => pure s.length
  | .nil => pure 0
  | .slice _ _ _ len _ => pure len
  | .arr l => pure l.length
  | _ => stuck

/-- An index that is used for an array of `n` elements. -/
def index (n : Nat) (v : Val) : M Nat :=
  match exact v with
  | some i => if 0 ≤ i ∧ i < n then pure i.toNat else panic
  | none => stuck

end GoLang
