/-!
# The fragment of Go used by the model

Fixed-width unsigned integers are bit vectors, so `+ - * <<< >>>` wrap exactly as in Go.
-/

/-- Go `byte`/`uint8`. -/
abbrev U8 := BitVec 8
/-- Go `uint16`. -/
abbrev U16 := BitVec 16
/-- Go `uint32`. -/
abbrev U32 := BitVec 32
/-- Go `uint64`. -/
abbrev U64 := BitVec 64

/-- Outcome of running Go code that may panic (index out of range, bad slice bounds,
negative `make`, explicit `panic`). -/
inductive Res (α : Type u) where
  | ok : α → Res α
  | panic : Res α
  deriving DecidableEq, Repr

namespace Res

@[inline] def bind {α : Type u} {β : Type v} : Res α → (α → Res β) → Res β
  | ok a, f => f a
  | panic, _ => panic

instance : Monad Res where
  pure := ok
  bind := bind

@[simp] theorem ok_bind {α β : Type u} (a : α) (f : α → Res β) : (ok a >>= f) = f a := rfl
@[simp] theorem panic_bind {α β : Type u} (f : α → Res β) : ((panic : Res α) >>= f) = panic := rfl
@[simp] theorem pure_eq {α : Type u} (a : α) : (pure a : Res α) = ok a := rfl
@[simp] theorem bind_ok' {α β : Type u} (a : α) (f : α → Res β) : Res.bind (ok a) f = f a := rfl

end Res

/-- Go index expression `s[i]` on a slice/string/array: panics when out of range. -/
def goIdx {α : Type u} (s : List α) (i : Nat) : Res α :=
  match s[i]? with
  | some a => .ok a
  | none => .panic

/-- Go element assignment `s[i] = v` on a slice the function owns: panics when out of range. -/
def goSet {α : Type u} (s : List α) (i : Nat) (v : α) : Res (List α) :=
  if i < s.length then .ok (s.set i v) else .panic

/-- Go slice expression `s[lo:hi]` with `hi` at most the length (for strings and arrays this is
exactly Go's rule; for slices Go also allows `hi` up to the capacity, which the modelled code never uses). -/
def goSlice {α : Type u} (s : List α) (lo hi : Nat) : Res (List α) :=
  if lo ≤ hi ∧ hi ≤ s.length then .ok ((s.take hi).drop lo) else .panic

/-- Go `copy(dst[pos:], src)` on an owned buffer `dst`, returning the new content: copies
`min (len dst - pos) (len src)` elements; panics if `pos > len dst` (the slice expression does). -/
def goCopyAt {α : Type u} (dst : List α) (pos : Nat) (src : List α) : Res (List α) :=
  if pos ≤ dst.length then
    let n := min (dst.length - pos) src.length
    .ok (dst.take pos ++ src.take n ++ dst.drop (pos + n))
  else .panic

/-- `s[i]` with a signed index: negative indices panic. -/
def goIdxZ {α : Type u} (s : List α) (i : Int) : Res α := if 0 ≤ i then goIdx s i.toNat else .panic

/-- `s[i] = v` with a signed index: negative indices panic. -/
def goSetZ {α : Type u} (s : List α) (i : Int) (v : α) : Res (List α) := if 0 ≤ i then goSet s i.toNat v else .panic

/-- `s[lo:hi]` with signed bounds: negative bounds panic. -/
def goSliceZ {α : Type u} (s : List α) (lo hi : Int) : Res (List α) :=
  if 0 ≤ lo ∧ 0 ≤ hi then goSlice s lo.toNat hi.toNat else .panic

/-- `copy(dst[pos:], src)` with a signed position: a negative one panics. -/
def goCopyAtZ {α : Type u} (dst : List α) (pos : Int) (src : List α) : Res (List α) :=
  if 0 ≤ pos then goCopyAt dst pos.toNat src else .panic

/-- `make([]byte, n)`: panics on a negative length. -/
def goMakeZ (n : Int) : Res (List U8) := if 0 ≤ n then .ok (List.replicate n.toNat 0#8) else .panic

theorem goIdx_lt {α : Type u} {s : List α} {i : Nat} (h : i < s.length) : goIdx s i = .ok s[i] := by
  simp [goIdx, h]

theorem goIdx_ge {α : Type u} {s : List α} {i : Nat} (h : s.length ≤ i) : goIdx s i = .panic := by
  simp [goIdx, h]

theorem goSet_lt {α : Type u} {s : List α} {i : Nat} {v : α} (h : i < s.length) :
    goSet s i v = .ok (s.set i v) := by simp [goSet, h]

theorem goSet_ge {α : Type u} {s : List α} {i : Nat} {v : α} (h : s.length ≤ i) :
    goSet s i v = .panic := by simp [goSet, Nat.not_lt.mpr h]

/-- An ASCII string literal as the bytes of a Go string. -/
def ascii (s : String) : List U8 := s.toList.map (fun c => BitVec.ofNat 8 c.toNat)
