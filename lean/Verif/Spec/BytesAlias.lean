import Verif.Spec.Bytes

/-! # Specification: addition in bytes with operands that overlap -/
namespace BytesSpec

/-- Memory once the little-endian `a` is stored, cut or zero-extended to `n` bytes, in `sum`: a non-empty `a` starting where `sum`
starts is left where it is. -/
def storedLE (m : Mem) (sum a : Slice) (n : Nat) : Mem := fun x =>
  if sum.base ≤ x ∧ x < sum.base + n ∧ ¬ (0 < a.len ∧ a.base = sum.base) then
    (if x - sum.base < a.len then m (a.base + (x - sum.base)) else 0#8)
  else m x

/-- Byte `j` of `b` as it is read: the bytes of `sum` below `4 * (j / 4)` already hold the result `m'`, the others still the first
operand. -/
def readLE (st m' : Mem) (sum b : Slice) (j : Nat) : U8 :=
  if j < b.len then
    (if sum.base ≤ b.base + j ∧ b.base + j < sum.base + 4 * (j / 4) then m' (b.base + j) else st (b.base + j))
  else 0#8

/-- Memory once the big-endian `a` is stored: the missing bytes are zeroed first, then as much of `a` as fits in all of `sum` is
copied. -/
def storedBE (m : Mem) (sum a : Slice) (n : Nat) : Mem := fun x =>
  if sum.base + (n - a.len) ≤ x ∧ x < sum.base + (n - a.len) + a.len ∧ x < sum.base + sum.len then
    (if sum.base ≤ a.base + (x - (sum.base + (n - a.len))) ∧ a.base + (x - (sum.base + (n - a.len))) < sum.base + (n - a.len) then 0#8
     else m (a.base + (x - (sum.base + (n - a.len)))))
  else if sum.base ≤ x ∧ x < sum.base + (n - a.len) then 0#8 else m x

/-- The part of a big-endian `b` that is used: the 16- and 32-bit functions read the first bytes, the others all. -/
def usedBE (w : Width) (b : Slice) : Slice := if w.bytes ≤ 4 then firstN b w.bytes else b

/-- Byte `j`, counted from the last, of the big-endian `b` as it is read: the last `4 * (j / 4)` bytes of the `n` bytes of `sum`
already hold the result. -/
def readBE (st m' : Mem) (sum b : Slice) (n j : Nat) : U8 :=
  if j < b.len then
    (if sum.base + (n - 4 * (j / 4)) ≤ b.base + (b.len - 1 - j) ∧ b.base + (b.len - 1 - j) < sum.base + n
     then m' (b.base + (b.len - 1 - j)) else st (b.base + (b.len - 1 - j)))
  else 0#8

end BytesSpec
