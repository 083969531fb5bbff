import Verif.Lang.Value

/-!
# Meaning of expressions, statements and functions

Big-step, after the Go language specification. Operands are evaluated from left to right; in an assignment the places on the left are
found (and their bounds checked) before the right side is evaluated.

A variable lives in the environment of its function, except those listed as `boxed`, which live in memory. A program that takes the
address of another variable, or refers to one from a function literal, is stuck; so the list does not affect what a theorem claims.
-/
namespace GoLang

/-- A package: its path, its imports (name and path), its declarations, the values of its constants and variables, and for its functions
the variables that live in memory. A variable of the package that is assigned to lives in memory, too; its value here is a `box`. -/
structure Pkg where
  path : Name
  imports : List (Name × Name)
  decls : List Decl
  genv : List (Name × Val)
  boxed : List (Name × List Name)

/-- What an expression is evaluated in. -/
structure Ctx where
  /-- the size of `int` -/
  W : Nat
  /-- bound for the iterations of a loop -/
  fuel : Nat
  pkg : Pkg
  /-- the variables of this function that live in memory -/
  boxed : List Name
  /-- the results of this function -/
  results : Params
  /-- the paths of the packages of this repository -/
  repo : List Name
  /-- whether a method of a type of another package of this repository (package, type, name) has a pointer receiver -/
  methods : Name → Name → Name → Option Bool
  /-- variables of other packages -/
  other : Name → Name → Option Val
  /-- call a function of this repository (package, receiver type, name) with arguments and memory -/
  call : Name → Name → Name → List Val → List Val → Out (List Val)
  /-- call a function literal -/
  clo : Params → Params → Stmts → List (Name × Val) → List Val → List Val → Out (List Val)
  /-- call a function of the standard library (path, name), or a method (path, name of the object, name of the method) -/
  std : Name → Name → Name → List Val → M Val
  /-- call something given by the caller; the name is 0 if it is a function, or else that of the method -/
  native : Nat → Name → List Val → M Val
  /-- spare capacity of the slice that `append` makes for a number of elements -/
  grow : Nat → Nat

/-! ## Declarations -/

/-- Find a function or method. -/
def findFunc (t f : Name) : List Decl → Option Decl
  | [] => none
  | .func r p u g ps rs b :: l => bif Nat.beq t u && Nat.beq f g then some (.func r p u g ps rs b) else findFunc t f l
  | _ :: l => findFunc t f l

def findType (n : Name) : List Decl → Option Ty
  | [] => none
  | .type m t :: l => bif Nat.beq n m then some t else findType n l
  | _ :: l => findType n l

/-- The predeclared types. -/
def basicTypes : List Name :=
  [n! "byte", n! "uint8", n! "uint16", n! "uint32", n! "uint64", n! "int", n! "bool", n! "string", n! "error"]

def isType (c : Ctx) (n : Name) : Bool := elemN n basicTypes || (findType n c.pkg.decls).isSome

/-- The type that a name stands for. -/
def resolve (c : Ctx) (t : Ty) : Ty :=
  match t with
  | .name n => (findType n c.pkg.decls).getD t
  | _ => t

/-! ## Variables -/

/-- The value of a variable, from what the environment holds. -/
def unbox : Val → M Val
  | .box a => load a []
  | v => pure v

def getVar (n : Name) : M Val := fun s =>
  match find n s.env with
  | some v => unbox v s
  | none => .stuck

/-- A new constant, not converted. -/
def pushVar (n : Name) (v : Val) : M Unit := fun s => .ok () { s with env := (n, v) :: s.env }

/-- A new variable. -/
def declare (c : Ctx) (n : Name) (v : Val) : M Unit := fun s =>
  bif Nat.beq n (n! "_") then .ok () s
  else bif elemN n c.boxed then .ok () { heap := s.heap ++ [v], env := (n, .box s.heap.length) :: s.env }
  else .ok () { s with env := (n, v) :: s.env }

/-- Run in a new scope. -/
def scope {α : Type} (x : M α) : M α := fun s =>
  match x s with
  | .ok a t => .ok a { t with env := t.env.drop (t.env.length - s.env.length) }
  | r => r

/-- Places: part of a variable, or of an object, or two bytes as a 16-bit number, or nothing (`_`). -/
inductive Loc where
  | var (n : Name) (p : List Sel)
  | heap (a : Nat) (p : List Sel)
  | word (st : BitVec 16 → BitVec 8 × BitVec 8) (a : Nat) (p : List Sel) (i : Nat)
  | blank

def Loc.sub (l : Loc) (x : Sel) : Loc :=
  match l with
  | .var n p => .var n (p ++ [x])
  | .heap a p => .heap a (p ++ [x])
  | .word .. => l
  | .blank => .blank

def loadLoc (l : Loc) : M Val :=
  match l with
  | .var n p => do lift (getPath (← getVar n) p)
  | .heap a p => load a p
  | .word .. => stuck
  | .blank => stuck

/-- Assign to a place; a constant gets the type of the place. -/
def storeLoc (l : Loc) (w : Val) : M Unit :=
  match l with
  | .var n p => fun s =>
    match find n s.env with
    | some v =>
      match getPath v p with
      | some o =>
        match setPath v p (like o w) with
        | some v =>
          match setField n v s.env with
          | some env => .ok () { s with env := env }
          | none => .stuck
        | none => .stuck
      | none => .stuck
    | none => .stuck
  | .heap a p => do
    let o ← load a p
    store a p (like o w)
  | .word st a p i =>
    match w with
    | .u16 x => storeElems a p i [.u8 (st x).1, .u8 (st x).2]
    | _ => stuck
  | .blank => pure ()

def storeAll : List Loc → List Val → M Unit
  | [], [] => pure ()
  | l :: ls, v :: vs => do
    storeLoc l v
    storeAll ls vs
  | _, _ => stuck

def declareAll (c : Ctx) : List Name → List Val → M Unit
  | [], [] => pure ()
  | n :: ns, v :: vs => do
    declare c n (deflt v)
    declareAll c ns vs
  | _, _ => stuck

/-! ## Types -/

/-- Constant expressions in the length of an array type. -/
def constNat (c : Ctx) : Expr → Option Nat
  | .int n => some n
  | .id n =>
    match find n c.pkg.genv with
    | some (.const i) => some i.toNat
    | _ => none
  | .bin .mul a b => do return (← constNat c a) * (← constNat c b)
  | _ => none

/-- The zero value of a type. The first argument bounds the depth. -/
def zero (c : Ctx) : Nat → Ty → Option Val
  | 0, _ => none
  | f + 1, t =>
    match t with
    | .name n =>
      bif Nat.beq n (n! "byte") || Nat.beq n (n! "uint8") then some (.u8 0)
      else bif Nat.beq n (n! "uint16") then some (.u16 0)
      else bif Nat.beq n (n! "uint32") then some (.u32 0)
      else bif Nat.beq n (n! "uint64") then some (.u64 0)
      else bif Nat.beq n (n! "int") then some (.int 0)
      else bif Nat.beq n (n! "bool") then some (.bool false)
      else bif Nat.beq n (n! "string") then some (.str [])
      else bif Nat.beq n (n! "error") then some .nil
      else
        match findType n c.pkg.decls with
        | some (.struct fs) => (zeros f fs).map (.struct c.pkg.path n)
        | some t => zero c f t
        | none => none
    | .array e t =>
      match constNat c e, zero c f t with
      | some k, some v => some (.arr (List.replicate k v))
      | _, _ => none
    | .struct fs => (zeros f fs).map (.struct 0 0)
    | .dots _ => none
    | .none => none
    | .qual _ _ => some .nil
    | _ => some .nil
where
  /-- The zero values of fields. -/
  zeros : Nat → Params → Option (List (Name × Val))
  | 0, _ => none
  | _ + 1, .nil => some []
  | f + 1, .cons n t r =>
    match zero c f t, zeros f r with
    | some v, some l => some ((n, v) :: l)
    | _, _ => none

/-- How deep the types of the fragment are nested. -/
def tyDepth : Nat := 12

/-- Convert a value to a type. -/
def convert (c : Ctx) (t : Ty) (v : Val) : M Val :=
  match resolve c t with
  | .name n =>
    bif Nat.beq n (n! "byte") || Nat.beq n (n! "uint8") then do return .u8 (← toBits 8 v)
    else bif Nat.beq n (n! "uint16") then do return .u16 (← toBits 16 v)
    else bif Nat.beq n (n! "uint32") then do return .u32 (← toBits 32 v)
    else bif Nat.beq n (n! "uint64") then do return .u64 (← toBits 64 v)
    else bif Nat.beq n (n! "int") then do return .int (wrap c.W (← lift (exact v)))
    else bif Nat.beq n (n! "string") then
      match v with
      | .str s => return .str s
      | .slice .. | .nil => do return .str (← bytesIn v)
      | .u8 x => return .str (byteText x)
      | _ => stuck
    else stuck
  | .slice (.name n) =>
    bif Nat.beq n (n! "byte") then
      match v with
      | .str s => do
        let a ← alloc (.arr (s.map .u8))
        return .slice a [] 0 s.length s.length
      | _ => stuck
    else stuck
  | .ptr (.name n) =>
    bif Nat.beq n (n! "uint16") then
      match v with
      | .raw st a p i => return .raw st a p i
      | _ => stuck
    else stuck
  | _ => stuck

/-- Pass a value to a variable of a type: only constants change. -/
def coerce (c : Ctx) (t : Ty) (v : Val) : M Val :=
  match v with
  | .const i =>
    match resolve c t with
    | .iface => return .int i
    | t => convert c t v
  | _ => return v

/-- Pass results. -/
def coerceAll (c : Ctx) : Params → List Val → M (List Val)
  | .nil, [] => pure []
  | .cons _ t r, v :: vs => do
    let w ← coerce c t v
    let ws ← coerceAll c r vs
    return w :: ws
  | _, _ => stuck

/-- Bind parameters. -/
def bindParams (c : Ctx) : Params → List Val → M Unit
  | .nil, [] => pure ()
  | .cons n t r, v :: vs => do
    let w ← coerce c t v
    declare c n w
    bindParams c r vs
  | _, _ => stuck

/-- Named results start with their zero values. -/
def bindResults (c : Ctx) : Params → M Unit
  | .nil => pure ()
  | .cons n t r =>
    bif Nat.beq n 0 then pure ()
    else do
      let v ← lift (zero c tyDepth t)
      declare c n v
      bindResults c r

/-- The values of the named results. -/
def namedResults : Params → M (List Val)
  | .nil => pure []
  | .cons n _ r => do
    let v ← getVar n
    let vs ← namedResults r
    return v :: vs

/-- Results as a value. -/
def ofResults : List Val → Val
  | [v] => v
  | l => .tuple l

/-! ## Built-in functions -/

/-- A bound of a slice expression that is at most `n`, or the default `d`. -/
def bound (n d : Nat) : Option Val → M Nat
  | some x => index (n + 1) x
  | none => pure d

/-- `s[lo:hi]` for bounds that are given or not. -/
def slicing (v : Val) (lo hi : Option Val) : M Val :=
  match v with
  | .slice a p off len cap => do
    let l ← bound cap 0 lo
    let h ← bound cap len hi
    if l ≤ h then return .slice a p (off + l) (h - l) (cap - l) else panic
  | .nil => do
    let _ ← bound 0 0 lo
    let _ ← bound 0 0 hi
    return .nil
  | .str s => do
    let l ← bound s.length 0 lo
    let h ← bound s.length s.length hi
    if l ≤ h then return .str ((s.drop l).take (h - l)) else panic
  | _ => stuck

/-- The zero value of the type of the elements of a non-empty list. -/
def zeroLike : List Val → Val
  | .u8 _ :: _ => .u8 0
  | .u16 _ :: _ => .u16 0
  | .u32 _ :: _ => .u32 0
  | .u64 _ :: _ => .u64 0
  | .int _ :: _ => .int 0
  | _ => .nil

/-- `append` of elements. A new array is made if the capacity does not suffice. -/
def appendTo (grow : Nat → Nat) (v : Val) (vs : List Val) : M Val :=
  match v with
  | .slice a p off len cap =>
    if len + vs.length ≤ cap then do
      storeElems a p (off + len) vs
      return .slice a p off (len + vs.length) cap
    else do
      let old ← elems a p off len
      let b ← alloc (.arr (old ++ vs ++ List.replicate (grow (len + vs.length)) (zeroLike (old ++ vs))))
      return .slice b [] 0 (len + vs.length) (len + vs.length + grow (len + vs.length))
  | .nil =>
    match vs with
    | [] => return .nil
    | _ => do
      let b ← alloc (.arr (vs ++ List.replicate (grow vs.length) (zeroLike vs)))
      return .slice b [] 0 vs.length (vs.length + grow vs.length)
  | _ => stuck

/-- `copy`: the elements are read before they are written. -/
def copyTo (dst : Val) (vs : List Val) : M Val :=
  match dst with
  | .slice a p off len _ => do
    storeElems a p off (vs.take len)
    return .int (min len vs.length : Nat)
  | .nil => return .int 0
  | _ => stuck

/-- A new array of that length. -/
def makeLen (c : Ctx) (t : Ty) : Option Int → M Val
  | some i =>
    if i < 0 then panic
    else do
      let v ← lift (zero c tyDepth t)
      let a ← alloc (.arr (List.replicate i.toNat v))
      return .slice a [] 0 i.toNat i.toNat
  | none => stuck

/-- `make([]t, n)`. -/
def makeSlice (c : Ctx) (t : Ty) (n : Val) : M Val :=
  match t with
  | .slice t => makeLen c t (exact n)
  | _ => stuck

/-- The name of a type, for values that carry it. -/
def typeName (c : Ctx) : Ty → Name × Name
  | .name n => (c.pkg.path, n)
  | .qual p n => ((find p c.pkg.imports).getD 0, n)
  | _ => (0, 0)

/-- `len`. -/
def callLen : List Val → M Val
  | [v] => do return .int (← lenOf v)
  | _ => stuck

/-- `append`. -/
def callAppend (c : Ctx) : List Val → M Val
  | v :: vs => appendTo c.grow v vs
  | _ => stuck

/-- `append` with `...`. -/
def callAppendDots (c : Ctx) : List Val → M Val
  | [v, w] => do appendTo c.grow v (← elemsIn w)
  | _ => stuck

/-- `copy`. -/
def callCopy : List Val → M Val
  | [d, s] => do copyTo d (← elemsIn s)
  | _ => stuck

/-- `make`. -/
def callMake (c : Ctx) : List Val → M Val
  | [.type t, k] => makeSlice c t k
  | _ => stuck

/-- `new`. -/
def callNew (c : Ctx) : List Val → M Val
  | [.type t] => do
    let v ← lift (zero c tyDepth t)
    let a ← alloc v
    return .ptr (typeName c t).1 (typeName c t).2 a []
  | _ => stuck

/-- The built-in functions on values. -/
def builtin (c : Ctx) (n : Name) (args : List Val) (dots : Bool) : M Val :=
  bif Nat.beq n (n! "len") then callLen args
  else bif Nat.beq n (n! "append") then bif dots then callAppendDots c args else callAppend c args
  else bif Nat.beq n (n! "copy") then callCopy args
  else bif Nat.beq n (n! "make") then callMake c args
  else bif Nat.beq n (n! "new") then callNew c args
  else bif Nat.beq n (n! "panic") then panic
  else stuck

/-- Whether an expression is missing. -/
def isAbsent : Expr → Bool
  | .none => true
  | _ => false

/-- The value of an expression that may be missing. -/
def optional (e : Expr) (x : M Val) : M (Option Val) :=
  bif isAbsent e then pure none else do return some (← x)

/-- What is sliced: an array is sliced at its place. -/
def sliceable (v : Val) (place : M Loc) : M Val :=
  match v with
  | .arr l => do
    match ← place with
    | .heap a p => return .slice a p 0 l.length l.length
    | _ => stuck
  | _ => return v

/-- Use the outcome of a call. -/
def fromCall (x : List Val → Out (List Val)) : M Val := fun s =>
  match x s.heap with
  | .ok vs t => .ok (ofResults vs) { t with env := s.env }
  | .panic h => .panic h
  | .stuck => .stuck

/-- Call a function of a package of this repository or of the standard library. -/
def callPkg (c : Ctx) (path f : Name) (args : List Val) : M Val :=
  bif elemN path c.repo then fromCall (c.call path 0 f args) else c.std path 0 f args

/-- Call a function value; a nil one panics. -/
def callVal (c : Ctx) (v : Val) (args : List Val) : M Val :=
  match v with
  | .func path f => callPkg c path f args
  | .native i => c.native i 0 args
  | .clo ps rs body env => fromCall (c.clo ps rs body env args)
  | .nil => panic
  | _ => stuck

/-- What is called. -/
inductive Callee where
  | conv (t : Ty)
  | func (path f : Name)
  | builtin (n : Name)
  | method (m : Name)
  | value

/-- Whether a name is a variable or constant. -/
def isVar (c : Ctx) (n : Name) (env : List (Name × Val)) : Bool := (find n env).isSome || (find n c.pkg.genv).isSome

/-- What an expression that is called stands for. -/
def callee (c : Ctx) (env : List (Name × Val)) : Expr → Callee
  | .ty t => .conv t
  | .id n =>
    bif isVar c n env then .value
    else bif isType c n then .conv (.name n)
    else bif (findFunc 0 n c.pkg.decls).isSome then .func c.pkg.path n
    else .builtin n
  | .sel (.id p) m =>
    bif isVar c p env then .method m
    else
      match find p c.pkg.imports with
      | some path => .func path m
      | none => .method m
  | .sel _ m => .method m
  | .un .deref (.id n) => bif isVar c n env then .value else bif isType c n then .conv (.ptr (.name n)) else .value
  | _ => .value

def getEnv : M (List (Name × Val)) := fun s => .ok s.env s

/-- A name that is not a variable of the function. -/
def globalId (c : Ctx) (n : Name) : M Val :=
  match find n c.pkg.genv with
  | some v => unbox v
  | none =>
    bif (findFunc 0 n c.pkg.decls).isSome then return .func c.pkg.path n
    else bif Nat.beq n (n! "true") then return .bool true
    else bif Nat.beq n (n! "false") then return .bool false
    else bif Nat.beq n (n! "nil") then return .nil
    else bif isType c n then return .type (.name n)
    else stuck

/-- A name. -/
def evalId (c : Ctx) (n : Name) : M Val := fun s =>
  match find n s.env with
  | some v => unbox v s
  | none => globalId c n s

/-- A variable of another package. -/
def otherVar (c : Ctx) (path n : Name) : M Val :=
  bif elemN path c.repo then lift (c.other path n) else return .std path n

/-- The package that a name stands for, if it is one here. -/
def asPkg (c : Ctx) (env : List (Name × Val)) : Expr → Option Name
  | .id p => bif isVar c p env then none else find p c.pkg.imports
  | _ => none

/-- A field of a struct or of the struct that a pointer points to. -/
def field (v : Val) (n : Name) : M Val :=
  match v with
  | .struct _ _ fs => lift (find n fs)
  | .ptr _ _ a p => load a (p ++ [.fld n])
  | .nil => panic
  | _ => stuck

/-- An element. -/
def elemAt (v i : Val) : M Val :=
  match v with
  | .arr l => do
    let k ← index l.length i
    lift l[k]?
  | .slice a p off len _ => do
    let k ← index len i
    load a (p ++ [.idx (off + k)])
  | .str s => do
    let k ← index s.length i
    lift (s[k]?.map .u8)
  | .nil => do
    let _ ← index 0 i
    stuck
  | _ => stuck

/-- Whether the dynamic type of a value is a struct type of this package. -/
def hasType (c : Ctx) (v : Val) (t : Ty) : Bool :=
  match v, t with
  | .struct k n _, .name m => Nat.beq k c.pkg.path && Nat.beq n m
  | _, _ => false

/-- The given value of a field, or zero. -/
def fieldValue (c : Ctx) (t : Ty) : Option Val → M Val
  | some v => coerce c t v
  | none => lift (zero c tyDepth t)

/-- The values of fields in the order of the type. -/
def fillFields (c : Ctx) (given : List (Name × Val)) : Params → M (List (Name × Val))
  | .nil => pure []
  | .cons n t r => do
    let v ← fieldValue c t (find n given)
    let l ← fillFields c given r
    return (n, v) :: l

/-- Fields given without names. -/
def fillByPos (c : Ctx) : Params → List (Name × Val) → M (List (Name × Val))
  | .nil, [] => pure []
  | .cons n t r, (_, v) :: l => do
    let w ← coerce c t v
    let ws ← fillByPos c r l
    return (n, w) :: ws
  | _, _ => stuck

def coerceElems (c : Ctx) (t : Ty) : List (Name × Val) → M (List Val)
  | [] => pure []
  | (_, v) :: l => do
    let w ← coerce c t v
    let ws ← coerceElems c t l
    return w :: ws

/-- A composite literal. -/
def compLit (c : Ctx) (t : Ty) (given : List (Name × Val)) : M Val :=
  match t with
  | .name n =>
    match findType n c.pkg.decls with
    | some (.struct fs) =>
      match given with
      | (0, _) :: _ => do return .struct c.pkg.path n (← fillByPos c fs given)
      | _ => do return .struct c.pkg.path n (← fillFields c given fs)
    | _ => stuck
  | .qual p n =>
    match find p c.pkg.imports with
    | some path => return .struct path n given
    | none => stuck
  | .dots t => do return .arr (← coerceElems c t given)
  | .array e t => do
    let l ← coerceElems c t given
    let k ← lift (constNat c e)
    let z ← lift (zero c tyDepth t)
    return .arr (l ++ List.replicate (k - l.length) z)
  | .slice t => do
    let l ← coerceElems c t given
    let a ← alloc (.arr l)
    return .slice a [] 0 l.length l.length
  | _ => stuck

/-- Whether a method among these declarations has a pointer receiver. -/
def recvPtr? (t m : Name) (l : List Decl) : Option Bool :=
  match findFunc t m l with
  | some (.func _ p _ _ _ _ _) => some p
  | _ => none

/-- Whether a method of a type of this or another package of the repository has a pointer receiver. -/
def method? (c : Ctx) (k t m : Name) : Option Bool :=
  bif Nat.beq t 0 then none
  else bif Nat.beq k c.pkg.path then recvPtr? t m c.pkg.decls
  else c.methods k t m

/-- Whether methods of that name are declared here, all with a struct as receiver, none with a pointer. A call of one with nil, whether
that is a nil interface or a nil pointer, panics. -/
def nilPanics (m : Name) (decls : List Decl) : List Decl → (seen : Bool) → Bool
  | [], seen => seen
  | .func _ p u g _ _ _ :: l, seen =>
    bif Nat.beq m g && !(Nat.beq u 0) then
      match findType u decls with
      | some (.struct _) => !p && nilPanics m decls l true
      | _ => false
    else nilPanics m decls l seen
  | _ :: l, seen => nilPanics m decls l seen

/-- Call a method, or a function in a field. `place` finds the place of the receiver. -/
def callMethod (c : Ctx) (recv : Val) (place : M Loc) (m : Name) (args : List Val) : M Val :=
  match recv with
  | .ptr k t a p =>
    match method? c k t m with
    | some true => fromCall (c.call k t m (.ptr k t a p :: args))
    | some false => do
      let v ← load a p
      fromCall (c.call k t m (v :: args))
    | none => do callVal c (← field recv m) args
  | .struct k t fs =>
    match method? c k t m with
    | some true => do
      match ← place with
      | .heap a p => fromCall (c.call k t m (.ptr k t a p :: args))
      | _ => stuck
    | some false => fromCall (c.call k t m (.struct k t fs :: args))
    | none => do callVal c (← field recv m) args
  | .std path n => c.std path n m args
  | .native i => c.native i m args
  | .slice .. => c.std 0 0 m (recv :: args)
  | .nil => bif nilPanics m c.pkg.decls c.pkg.decls false then panic else c.std 0 0 m (recv :: args)
  | _ => stuck

/-- The place that a pointer points to. -/
def derefLoc (v : Val) : M Loc :=
  match v with
  | .ptr _ _ a p => return .heap a p
  | .raw st a p i => return .word st a p i
  | .nil => panic
  | _ => stuck

/-- The address of a place, with the type of the value in it. -/
def addrOf (l : Loc) : M Val :=
  match l with
  | .heap a p => do
    match ← load a p with
    | .struct k t _ => return .ptr k t a p
    | _ => return .ptr 0 0 a p
  | _ => stuck

/-- `a && b`: the second operand is evaluated if the first is true. -/
def andThen (x y : M Val) : M Val := do
  match ← x with
  | .bool b => bif b then y else return .bool false
  | _ => stuck

/-- `a || b`. -/
def orElse (x y : M Val) : M Val := do
  match ← x with
  | .bool b => bif b then return .bool true else y
  | _ => stuck

/-- Binary operators. -/
def binOp (W : Nat) (op : BinOp) (x y : M Val) : M Val :=
  match op with
  | .land => andThen x y
  | .lor => orElse x y
  | op => do
    let a ← x
    let b ← y
    binary W op a b

/-- The type of a composite literal. -/
def compType : Expr → Option Ty
  | .comp t _ => some t
  | _ => none

/-- The address of a composite literal, or of a place. -/
def address (c : Ctx) (lit : Option Ty) (v : M Val) (place : M Loc) : M Val :=
  match lit with
  | some t => do
    let x ← v
    let a ← alloc x
    return .ptr (typeName c t).1 (typeName c t).2 a []
  | none => do addrOf (← place)

/-- Load from a place in memory. -/
def loadHeap : Loc → M Val
  | .heap a p => load a p
  | _ => stuck

/-- Unary operators. -/
def unOp (c : Ctx) (op : UnOp) (lit : Option Ty) (v : M Val) (place : M Loc) : M Val :=
  match op with
  | .addr => address c lit v place
  | .deref => do loadHeap (← derefLoc (← v))
  | op => do unary c.W op (← v)

/-- A conversion. -/
def callConv (c : Ctx) (t : Ty) : List Val → M Val
  | [v] => convert c t v
  | _ => stuck

/-- A call of what `f` stands for. -/
def callAs (c : Ctx) (f : Callee) (val recv : M Val) (place : M Loc) (args : M (List Val)) (dots : Bool) : M Val :=
  match f with
  | .conv t => do callConv c t (← args)
  | .func path g => do callPkg c path g (← args)
  | .builtin n => do builtin c n (← args) dots
  | .method m => do
    let v ← recv
    let vs ← args
    callMethod c v place m vs
  | .value => do
    let v ← val
    let vs ← args
    callVal c v vs

/-- A variable of a package, or a field. -/
def select (c : Ctx) (path : Option Name) (v : M Val) (n : Name) : M Val :=
  match path with
  | some path => otherVar c path n
  | none => do field (← v) n

/-- Whether a variable is in memory. -/
def isBox (p : Name × Val) : Bool :=
  match p.2 with
  | .box _ => true
  | _ => false

/-- The place of a variable, from what the environment holds. -/
def placeOf (n : Name) : Val → Loc
  | .box a => .heap a []
  | _ => .var n []

/-- The place of a variable of the package that lives in memory. -/
def globalLoc : Option Val → M Loc
  | some (.box a) => return .heap a []
  | _ => stuck

/-- The place of a variable. -/
def varLoc (c : Ctx) (n : Name) : M Loc := fun s =>
  bif Nat.beq n (n! "_") then .ok .blank s
  else
    match find n s.env with
    | some v => .ok (placeOf n v) s
    | none => globalLoc (find n c.pkg.genv) s

/-- The place of a field of the struct, or of what the pointer `v` points to. -/
def fieldLoc (v : Val) (place : M Loc) (n : Name) : M Loc :=
  match v with
  | .ptr _ _ a p => return .heap a (p ++ [.fld n])
  | .struct .. => do return (← place).sub (.fld n)
  | .nil => panic
  | _ => stuck

/-- The place of an element. -/
def elemLoc (v : Val) (place : M Loc) (i : M Val) : M Loc :=
  match v with
  | .slice a p off len _ => do
    let k ← index len (← i)
    return .heap a (p ++ [.idx (off + k)])
  | .arr l => do
    let k ← index l.length (← i)
    return (← place).sub (.idx k)
  | .nil => do
    let _ ← index 0 (← i)
    stuck
  | _ => stuck

/-- The place that `*v` stands for. -/
def unLoc (op : UnOp) (v : M Val) : M Loc :=
  match op with
  | .deref => do derefLoc (← v)
  | _ => stuck

mutual

/-- Expressions. -/
def eval (c : Ctx) : Expr → M Val
  | .int n => pure (.const n)
  | .str s => pure (.str (s.map (BitVec.ofNat 8)))
  | .id n => evalId c n
  | .bin op a b => binOp c.W op (eval c a) (eval c b)
  | .un op e => do
    let t ← pure (compType e)
    unOp c op t (eval c e) (lval c e)
  | .call f args dots => do
    let env ← getEnv
    let k ← pure (callee c env f)
    callAs c k (eval c f) (evalRecv c f) (recvPlace c f) (evals c args) dots
  | .sel e n => do
    let env ← getEnv
    let path ← pure (asPkg c env e)
    select c path (eval c e) n
  | .idx e i => do
    let v ← eval c e
    let k ← eval c i
    elemAt v k
  | .slc e lo hi => do
    let v ← eval c e
    let s ← sliceable v (lval c e)
    let x ← optional lo (eval c lo)
    let y ← optional hi (eval c hi)
    slicing s x y
  | .comp t es => do compLit c t (← evalElts c es)
  | .func ps rs b => do return .clo ps rs b ((← getEnv).filter isBox)
  | .ty t => pure (.type t)
  | .assert _ _ => stuck
  | .none => stuck

/-- The receiver of a method call. -/
def evalRecv (c : Ctx) : Expr → M Val
  | .sel e _ => eval c e
  | _ => stuck

/-- The place of the receiver of a method call. -/
def recvPlace (c : Ctx) : Expr → M Loc
  | .sel e _ => lval c e
  | _ => stuck

/-- Several expressions. -/
def evals (c : Ctx) : Exprs → M (List Val)
  | .nil => pure []
  | .cons e r => do
    let v ← eval c e
    let vs ← evals c r
    return v :: vs

/-- Elements of a composite literal. -/
def evalElts (c : Ctx) : Elts → M (List (Name × Val))
  | .nil => pure []
  | .cons k e r => do
    let v ← eval c e
    let l ← evalElts c r
    return (k, v) :: l

/-- The place that an expression stands for. -/
def lval (c : Ctx) : Expr → M Loc
  | .id n => varLoc c n
  | .sel e n => do fieldLoc (← eval c e) (lval c e) n
  | .idx e i => do elemLoc (← eval c e) (lval c e) (eval c i)
  | .un op e => unLoc op (eval c e)
  | _ => stuck

end

/-- The places on the left of an assignment. -/
def lvals (c : Ctx) : Exprs → M (List Loc)
  | .nil => pure []
  | .cons e r => do
    let l ← lval c e
    let ls ← lvals c r
    return l :: ls

/-- `v, ok := e.(t)`. -/
def typeTest (c : Ctx) (t : Ty) (v : Val) : M (List Val) :=
  bif hasType c v t then return [v, .bool true]
  else do
    let z ← lift (zero c tyDepth t)
    return [z, .bool false]

/-- The results of a call as values. -/
def ofTuple : Val → M (List Val)
  | .tuple l => pure l
  | _ => stuck

/-- An expression with several values. -/
def evalMulti (c : Ctx) : Expr → M (List Val)
  | .assert e t => do typeTest c t (← eval c e)
  | e => do ofTuple (← eval c e)

/-- The only expression of a list, if it is to give another number of values. -/
def single (k : Nat) : Exprs → Option Expr
  | .cons e r =>
    match r with
    | .nil => bif Nat.beq k 1 then none else some e
    | .cons _ _ => none
  | .nil => none

/-- The right side of an assignment to `k` places, or a return of `k` results. -/
def evalRhs (c : Ctx) (k : Nat) (es : Exprs) : M (List Val) :=
  match single k es with
  | some e => evalMulti c e
  | none => evals c es

/-- How a statement ends. -/
inductive Ctl where
  | next
  | brk
  | cont
  | ret (vs : List Val)

/-- A condition. -/
def evalBool (c : Ctx) (e : Expr) : M Bool := do
  match ← eval c e with
  | .bool b => return b
  | _ => stuck

/-- What follows the body of a loop. -/
def afterBody (rest : M Ctl) : Ctl → M Ctl
  | .brk => return .next
  | .ret vs => return .ret vs
  | .next => rest
  | .cont => rest

/-- A loop, with a bound for its iterations. -/
def loop (cond : M Bool) (body : M Ctl) (post : M Unit) : Nat → M Ctl
  | 0 => stuck
  | n + 1 => do
    if ← cond then
      afterBody (do post; loop cond body post n) (← body)
    else return .next

/-- The number of iterations of a `range` over a slice or an array. (Over a string it goes by characters; that is not in the fragment.) -/
def rangeLen : Val → M Int
  | .str _ => stuck
  | v => lenOf v

/-- A loop over the indices `i`, …, `i + n - 1`. -/
def rangeLoop (body : Nat → M Ctl) : Nat → Nat → M Ctl
  | _, 0 => return .next
  | i, n + 1 => do
    afterBody (rangeLoop body (i + 1) n) (← body i)

def Params.length : Params → Nat
  | .nil => 0
  | .cons _ _ r => r.length + 1

def Exprs.length : Exprs → Nat
  | .nil => 0
  | .cons _ r => r.length + 1

/-- Whether a switch tag equals a value; without a tag, whether the value is true. -/
def caseIs (tag : Option Val) (v : Val) : M Bool :=
  match tag with
  | some t => equal (like v t) (like t v)
  | none =>
    match v with
    | .bool b => pure b
    | _ => stuck

/-- Whether a switch tag equals one of the values of a case; without a tag, whether one of the conditions holds. -/
def caseMatches (c : Ctx) (tag : Option Val) : Exprs → M Bool
  | .nil => pure false
  | .cons e r => do
    let v ← eval c e
    if ← caseIs tag v then return true else caseMatches c tag r

/-- The values of declared variables; without expressions, zero values. -/
def varValues (c : Ctx) (k : Nat) (t : Ty) (rs : Exprs) : M (List Val) :=
  match rs with
  | .nil => do
    let v ← lift (zero c tyDepth t)
    return List.replicate k v
  | _ =>
    match t with
    | .none => evalRhs c k rs
    | _ => stuck

/-- The results of a return; without expressions, those with names. -/
def retValues (c : Ctx) (es : Exprs) : M (List Val) :=
  match es with
  | .nil => namedResults c.results
  | _ => do coerceAll c c.results (← evalRhs c c.results.length es)

/-- Declare a variable unless its name is 0. -/
def declareIf (c : Ctx) (n : Name) (v : M Val) : M Unit :=
  bif Nat.beq n 0 then pure () else do declare c n (← v)

/-- A `break` leaves the switch. -/
def noBrk : Ctl → Ctl
  | .brk => .next
  | r => r

/-- Whether a case is the default. -/
def isDefault : Exprs → Bool
  | .nil => true
  | .cons _ _ => false

def isLast : Cases → Bool
  | .nil => true
  | .cons _ _ _ => false

/-- What a case does: `default` must be the last. -/
def caseOf (dflt last : Bool) (test : M Bool) (body rest : M Ctl) : M Ctl :=
  bif dflt then bif last then scope body else stuck
  else do if ← test then scope body else rest

/-- What follows a statement. -/
def andNext (rest : M Ctl) : Ctl → M Ctl
  | .next => rest
  | x => pure x

mutual

/-- Statements. -/
def exec (c : Ctx) : Stmt → M Ctl
  | .expr e => do
    let _ ← eval c e
    return .next
  | .assign ls rs => do
    let ps ← lvals c ls
    let vs ← evalRhs c ls.length rs
    storeAll ps vs
    return .next
  | .opAssign op l r => do
    let p ← lval c l
    let x ← loadLoc p
    let y ← eval c r
    storeLoc p (← binary c.W op x y)
    return .next
  | .define ns rs => do
    let vs ← evalRhs c ns.length rs
    declareAll c ns vs
    return .next
  | .var ns t rs => do
    declareAll c ns (← varValues c ns.length t rs)
    return .next
  | .const n e => do
    pushVar n (← eval c e)
    return .next
  | .ret es => do return .ret (← retValues c es)
  | .ifs init cond th el => scope do
    let _ ← exec c init
    if ← evalBool c cond then scope (execs c th) else scope (execs c el)
  | .for init cond post body => scope do
    let _ ← exec c init
    loop (evalBool c cond) (scope (execs c body)) (do let _ ← exec c post; pure ()) c.fuel
  | .range k v e body => do
    let x ← eval c e
    let n ← rangeLen x
    rangeLoop (fun i => scope do
      declareIf c k (return .int i)
      declareIf c v (elemAt x (.int i))
      execs c body) 0 n.toNat
  | .switch tag cs => do
    let v ← optional tag (eval c tag)
    return noBrk (← execCases c v cs)
  | .brk => return .brk
  | .cont => return .cont
  | .block b => scope (execs c b)
  | .skip => return .next

/-- Statements one after the other. -/
def execs (c : Ctx) : Stmts → M Ctl
  | .nil => pure .next
  | .cons s r => do andNext (execs c r) (← exec c s)

/-- The cases of a switch; `default` must be the last. -/
def execCases (c : Ctx) (tag : Option Val) : Cases → M Ctl
  | .nil => pure .next
  | .cons es b r => caseOf (isDefault es) (isLast r) (caseMatches c tag es) (execs c b) (execCases c tag r)

end

/-! ## Functions -/

/-- A program: the packages, and what it is linked with. -/
structure Prog where
  W : Nat
  pkgs : List Pkg
  other : Name → Name → Option Val
  std : Name → Name → Name → List Val → M Val
  native : Nat → Name → List Val → M Val
  grow : Nat → Nat

def findPkg (path : Name) : List Pkg → Option Pkg
  | [] => none
  | p :: l => bif Nat.beq path p.path then some p else findPkg path l

/-- Find a method of a type of a package. -/
def Prog.methods (P : Prog) (k t m : Name) : Option Bool :=
  match findPkg k P.pkgs with
  | some p => recvPtr? t m p.decls
  | none => none

/-- What the body of a function returns. -/
def result (rs : Params) (r : Ctl) : M (List Val) :=
  match r, rs with
  | .ret vs, _ => return vs
  | .next, .nil => return []
  | _, _ => stuck

/-- The variables of a function end with it. -/
def leave {α : Type} (x : Out α) : Out α :=
  match x with
  | .ok a s => .ok a { s with env := [] }
  | .panic h => .panic h
  | .stuck => .stuck

/-- The context of a function of a package; calls go to `call`. -/
def Prog.ctx (P : Prog) (fuel : Nat) (k : Pkg) (f : Name) (rs : Params)
    (call : Name → Name → Name → List Val → List Val → Out (List Val)) : Ctx :=
  { W := P.W, fuel := fuel, pkg := k, boxed := (find f k.boxed).getD [], results := rs, repo := P.pkgs.map Pkg.path, methods := P.methods, other := P.other
    call := call, std := P.std, native := P.native, grow := P.grow
    clo := fun ps rs body env args heap =>
      let c : Ctx :=
        { W := P.W, fuel := fuel, pkg := k, boxed := [], results := rs, repo := P.pkgs.map Pkg.path, methods := P.methods, other := P.other
          call := call, std := P.std, native := P.native, grow := P.grow, clo := fun _ _ _ _ _ _ => .stuck }
      leave ((do
        bindParams c ps args
        result rs (← execs c body)) ⟨heap, env⟩) }

/-- The parameters of a function, the receiver first. -/
def allParams (r t : Name) (ps : Params) : Params := bif Nat.beq t 0 then ps else .cons r .none ps

/-- Run the body of a function. -/
def callBody (c : Ctx) (ps rs : Params) (body : Stmts) (args heap : List Val) : Out (List Val) :=
  leave ((do
    bindParams c ps args
    bindResults c rs
    result rs (← execs c body)) ⟨heap, []⟩)

/-- Call a function: package, type of the receiver (0 if it is not a method), name, arguments, memory. The first argument bounds the depth
of calls and the iterations of loops. -/
def run (P : Prog) : Nat → Name → Name → Name → List Val → List Val → Out (List Val)
  | 0, _, _, _, _, _ => .stuck
  | n + 1, path, t, f, args, heap =>
    match findPkg path P.pkgs with
    | some k =>
      match findFunc t f k.decls with
      | some (.func r _ _ _ ps rs body) => callBody (P.ctx n k f rs (run P n)) (allParams r t ps) rs body args heap
      | _ => .stuck
    | none => .stuck

end GoLang
