import Verif.Go.Hash

/-! # Models of packages `checksum/bcc`, `checksum/lrc`, `checksum/fletcher`, `checksum/luhn` -/

namespace Bcc

/-- `digest.update`, checksum/bcc/bcc.go:18-24 (loop over all bytes of `p`). -/
def update (d : U8) (p : List U8) : U8 := p.foldl (fun dig b => dig ^^^ b) d

/-- `New` (bcc.go:12-16), `Write` (26-29), `Sum` (31-34), `Sum8` (47), `Reset` (37-39), `Size` (41-43), `BlockSize` (45). -/
def impl : GoHash.Impl U8 where
  new := .ok 0#8
  write d p := .ok (update d p, p.length, false)
  sum d inp := .ok (d, inp ++ [d])
  sumN d := some d.toNat
  reset _ := .ok 0#8
  size _ := 1
  blockSize _ := 1

end Bcc

namespace Lrc

/-- `digest.update`, checksum/lrc/lrc.go:19-25: accumulates and then stores the two's complement `^dig+1`. -/
def update (d : U8) (p : List U8) : U8 := ~~~(p.foldl (fun dig b => dig + b) d) + 1#8

/-- `New` (lrc.go:13-17), `Write` (27-30), `Sum` (32), `Reset` (34), `Size` (36), `BlockSize` (38), `Sum8` (40). -/
def impl : GoHash.Impl U8 where
  new := .ok 0#8
  write d p := .ok (update d p, p.length, false)
  sum d inp := .ok (d, inp ++ [d])
  sumN d := some d.toNat
  reset _ := .ok 0#8
  size _ := 1
  blockSize _ := 1

end Lrc

namespace Fletcher

/-! ## Fletcher-16, checksum/fletcher/fletcher16.go -/

/-- `digest16`, fletcher16.go:16-18. -/
structure Digest16 where
  a : U8
  b : U8
  deriving DecidableEq, Repr

/-- Inner loop, fletcher16.go:41-46: `cnt` iterations from index `i` on; panics when `p[i]` is out of range.
The index after the loop is `i + cnt`. -/
def inner16 (p : List U8) : (cnt i : Nat) → (c0 c1 : U32) → Res (U32 × U32)
  | 0, _, c0, c1 => .ok (c0, c1)
  | cnt + 1, i, c0, c1 => do
    let x ← goIdx p i
    let c0 := c0 + x.setWidth 32
    let c1 := c1 + c0
    inner16 p cnt (i + 1) c0 c1

/-- `c1Overflow`, fletcher16.go:31. -/
def c1Overflow16 : Nat := 5803

/-- Batch length, fletcher16.go:37-40. -/
def batch16 (n : Nat) : Nat := if n > c1Overflow16 then c1Overflow16 else n

theorem batch16_pos {n : Nat} (h : 0 < n) : 0 < batch16 n := by
  unfold batch16; split
  · decide
  · exact h

/-- Outer loop, fletcher16.go:36-49. Note `len := len(p)` (line 37), not what is left of `p`. -/
def outer16 (p : List U8) (i : Nat) (c0 c1 : U32) : Res (U32 × U32) :=
  if _h : i < p.length then
    inner16 p (batch16 p.length) i c0 c1 >>= fun (c0, c1) =>
      outer16 p (i + batch16 p.length) (c0 % 0xff#32) (c1 % 0xff#32)
  else .ok (c0, c1)
termination_by p.length - i
decreasing_by
  have : 0 < batch16 p.length := batch16_pos (by omega)
  omega

/-- `digest16.update`, fletcher16.go:27-52. -/
def update16 (d : Digest16) (p : List U8) : Res Digest16 := do
  let (c0, c1) ← outer16 p 0 (d.a.setWidth 32) (d.b.setWidth 32)
  return ⟨c0.setWidth 8, c1.setWidth 8⟩

/-- `Sum16`, fletcher16.go:72. -/
def sum16 (d : Digest16) : U16 := d.b.setWidth 16 <<< 8 ||| d.a.setWidth 16

/-- `New16` (fletcher16.go:21-25), `Write` (54-57), `Sum` (59-61), `Reset` (63-66), `Size` (68), `BlockSize` (70), `Sum16` (72). -/
def impl16 : GoHash.Impl Digest16 where
  new := .ok ⟨0#8, 0#8⟩
  write d p := do
    let d ← update16 d p
    return (d, p.length, false)
  sum d inp := .ok (d, inp ++ [d.b, d.a])
  sumN d := some (sum16 d).toNat
  reset _ := .ok ⟨0#8, 0#8⟩
  size _ := 2
  blockSize _ := 2 / 2

/-! ## Fletcher-32, checksum/fletcher/fletcher32.go -/

/-- `digest32`, fletcher32.go:15-17. -/
structure Digest32 where
  a : U16
  b : U16
  deriving DecidableEq, Repr

/-- Inner loop, fletcher32.go:40-52. `rest` stands for `p[i:]`, so `p[i]` panics when `rest` is empty and
`i < n` means that something is left. -/
def inner32 (len j : Nat) (rest : List U8) (c0 c1 : U64) : Res (List U8 × U64 × U64) :=
  if _h : j < len then
    match rest with
    | [] => .panic
    | x :: rest =>
      let add : U64 := x.setWidth 64
      match rest with
      | [] =>
        let c0 := c0 + add
        let c1 := c1 + c0
        inner32 len (j + 2) [] c0 c1
      | y :: rest =>
        let add := add ||| y.setWidth 64 <<< 8
        let c0 := c0 + add
        let c1 := c1 + c0
        inner32 len (j + 2) rest c0 c1
  else .ok (rest, c0, c1)
termination_by len - j

theorem inner32_le (len j : Nat) (rest : List U8) (c0 c1 : U64) :
    ∀ r x y, inner32 len j rest c0 c1 = .ok (r, x, y) → r.length ≤ rest.length := by
  fun_induction inner32 len j rest c0 c1 <;> intro r x y hr <;> simp_all <;> omega

theorem inner32_lt (len : Nat) (rest : List U8) (c0 c1 : U64) (h0 : 0 < len) :
    ∀ r x y, inner32 len 0 rest c0 c1 = .ok (r, x, y) → r.length < rest.length := by
  intro r x y h
  rw [inner32.eq_def, dif_pos h0] at h
  split at h
  · simp at h
  · split at h
    · have := inner32_le _ _ _ _ _ _ _ _ h
      simp at this ⊢; omega
    · have := inner32_le _ _ _ _ _ _ _ _ h
      simp at this ⊢; omega

/-- `c1Overflow`, fletcher32.go:29. -/
def c1Overflow32 : Nat := 23726746

/-- Outer loop, fletcher32.go:35-55 (`rest` is `p[i:]`, so `n - i` is its length). -/
def outer32 (rest : List U8) (c0 c1 : U64) : Res (U64 × U64) :=
  if _h : 0 < rest.length then
    let len := if rest.length > c1Overflow32 then c1Overflow32 else rest.length
    match _hr : inner32 len 0 rest c0 c1 with
    | .panic => .panic
    | .ok (rest', c0, c1) => outer32 rest' (c0 % 0xffff#64) (c1 % 0xffff#64)
  else .ok (c0, c1)
termination_by rest.length
decreasing_by
  refine inner32_lt _ _ _ _ ?_ _ _ _ _hr
  show 0 < (if rest.length > c1Overflow32 then c1Overflow32 else rest.length)
  split
  · decide
  · exact _h

/-- `digest32.update`, fletcher32.go:26-58. -/
def update32 (d : Digest32) (p : List U8) : Res Digest32 := do
  let (c0, c1) ← outer32 p (d.a.setWidth 64) (d.b.setWidth 64)
  return ⟨c0.setWidth 16, c1.setWidth 16⟩

/-- `Sum32`, fletcher32.go:78. -/
def sum32 (d : Digest32) : U32 := d.b.setWidth 32 <<< 16 ||| d.a.setWidth 32

/-- `New32` (fletcher32.go:20-24), `Write` (60-63), `Sum` (65-67), `Reset` (69-72), `Size` (74), `BlockSize` (76), `Sum32` (78). -/
def impl32 : GoHash.Impl Digest32 where
  new := .ok ⟨0#16, 0#16⟩
  write d p := do
    let d ← update32 d p
    return (d, p.length, false)
  sum d inp := .ok (d, inp ++ [(d.b >>> 8).setWidth 8, d.b.setWidth 8, (d.a >>> 8).setWidth 8, d.a.setWidth 8])
  sumN d := some (sum32 d).toNat
  reset _ := .ok ⟨0#16, 0#16⟩
  size _ := 4
  blockSize _ := 4 / 2

/-! ## Fletcher-64, checksum/fletcher/fletcher64.go -/

/-- `digest64`, fletcher64.go:15-17. -/
structure Digest64 where
  a : U32
  b : U32
  deriving DecidableEq, Repr

/-- Inner loop, fletcher64.go:40-60 (`rest` is `p[i:]`). -/
def inner64 (len j : Nat) (rest : List U8) (c0 c1 : U64) : Res (List U8 × U64 × U64) :=
  if _h : j < len then
    match rest with
    | [] => .panic
    | x :: rest =>
      let add : U64 := x.setWidth 64
      match rest with
      | [] =>
        let c0 := c0 + add
        let c1 := c1 + c0
        inner64 len (j + 4) [] c0 c1
      | y :: rest =>
        let add := add ||| y.setWidth 64 <<< 8
        match rest with
        | [] =>
          let c0 := c0 + add
          let c1 := c1 + c0
          inner64 len (j + 4) [] c0 c1
        | z :: rest =>
          let add := add ||| z.setWidth 64 <<< 16
          match rest with
          | [] =>
            let c0 := c0 + add
            let c1 := c1 + c0
            inner64 len (j + 4) [] c0 c1
          | w :: rest =>
            let add := add ||| w.setWidth 64 <<< 24
            let c0 := c0 + add
            let c1 := c1 + c0
            inner64 len (j + 4) rest c0 c1
  else .ok (rest, c0, c1)
termination_by len - j

theorem inner64_le (len j : Nat) (rest : List U8) (c0 c1 : U64) :
    ∀ r x y, inner64 len j rest c0 c1 = .ok (r, x, y) → r.length ≤ rest.length := by
  fun_induction inner64 len j rest c0 c1 <;> intro r x y hr
  case case1 => simp at hr
  case case6 => simp at hr; simp [hr.1]
  all_goals
    rename_i ih
    have := ih r x y hr
    simp at this ⊢
    first | omega | simp [this]

theorem inner64_lt (len : Nat) (rest : List U8) (c0 c1 : U64) (h0 : 0 < len) :
    ∀ r x y, inner64 len 0 rest c0 c1 = .ok (r, x, y) → r.length < rest.length := by
  intro r x y h
  rw [inner64.eq_def, dif_pos h0] at h
  repeat' split at h
  all_goals first
    | (simp at h; done)
    | (have := inner64_le _ _ _ _ _ _ _ _ h
       simp only [List.length_cons, List.length_nil] at this ⊢; omega)

/-- `c1Overflow`, fletcher64.go:29. -/
def c1Overflow64 : Nat := 92681

/-- Outer loop, fletcher64.go:34-63 (`rest` is `p[i:]`, so `n - i` is its length). -/
def outer64 (rest : List U8) (c0 c1 : U64) : Res (U64 × U64) :=
  if _h : 0 < rest.length then
    let len := if rest.length > c1Overflow64 then c1Overflow64 else rest.length
    match _hr : inner64 len 0 rest c0 c1 with
    | .panic => .panic
    | .ok (rest', c0, c1) => outer64 rest' (c0 % 0xffffffff#64) (c1 % 0xffffffff#64)
  else .ok (c0, c1)
termination_by rest.length
decreasing_by
  refine inner64_lt _ _ _ _ ?_ _ _ _ _hr
  show 0 < (if rest.length > c1Overflow64 then c1Overflow64 else rest.length)
  split
  · decide
  · exact _h

/-- `digest64.update`, fletcher64.go:26-66. -/
def update64 (d : Digest64) (p : List U8) : Res Digest64 := do
  let (c0, c1) ← outer64 p (d.a.setWidth 64) (d.b.setWidth 64)
  return ⟨c0.setWidth 32, c1.setWidth 32⟩

/-- `Sum64`, fletcher64.go:87. -/
def sum64 (d : Digest64) : U64 := d.b.setWidth 64 <<< 32 ||| d.a.setWidth 64

/-- `New64` (fletcher64.go:20-24), `Write` (68-71), `Sum` (73-76), `Reset` (78-81), `Size` (83), `BlockSize` (85), `Sum64` (87). -/
def impl64 : GoHash.Impl Digest64 where
  new := .ok ⟨0#32, 0#32⟩
  write d p := do
    let d ← update64 d p
    return (d, p.length, false)
  sum d inp := .ok (d, inp ++
    [(d.b >>> 24).setWidth 8, (d.b >>> 16).setWidth 8, (d.b >>> 8).setWidth 8, d.b.setWidth 8,
     (d.a >>> 24).setWidth 8, (d.a >>> 16).setWidth 8, (d.a >>> 8).setWidth 8, d.a.setWidth 8])
  sumN d := some (sum64 d).toNat
  reset _ := .ok ⟨0#32, 0#32⟩
  size _ := 8
  blockSize _ := 8 / 2

end Fletcher

namespace Luhn

/-- Loop of `Checksum`, checksum/luhn/luhn.go:13-19; returns the accumulated `ret`. -/
def loop (i ret mul : U64) : U64 :=
  if _h : i > 0#64 then
    let v := i % 10#64
    let i' := (i - v) / 10#64
    let v' := v * mul
    loop i' (ret + ((v' % 10#64) + (v' / 10#64))) (1#64 + mul % 2#64)
  else ret
termination_by i.toNat
decreasing_by
  simp only [BitVec.toNat_udiv]
  have h0 : 0 < i.toNat := by simpa [BitVec.lt_def] using _h
  have h1 : (i - i % 10#64).toNat ≤ i.toNat := by
    have : (i % 10#64).toNat ≤ i.toNat := by
      rw [BitVec.toNat_umod]; exact Nat.mod_le _ _
    rw [BitVec.toNat_sub_of_le (by rw [BitVec.le_def]; exact this)]
    omega
  have h2 : (10#64).toNat = 10 := rfl
  rw [h2]
  omega

/-- `Checksum`, checksum/luhn/luhn.go:10-21. -/
def Checksum (i : U64) : U8 :=
  ((10#64 - loop i 0#64 2#64 % 10#64) % 10#64).setWidth 8

end Luhn
