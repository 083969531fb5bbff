import Verif.Lemmas.Ripemd
import Mathlib.Tactic.Linarith

/-! # Properties of package `hash/ripemd` (C46-C48, C52, C53) -/
namespace Ripemd
open BlockHash BlockSpec RipemdSpec HashSpec GoHash

/-! ## Streaming -/

/-- **C46** Every history on a `New128()` object gives exactly the results prescribed for the published RIPEMD-128 of what was
written since the last Reset. -/
theorem C46_stream128 (ops : List Op) : run (impl v128) ops = .ok (expect (algo ripemd128 16) ops) :=
  refines128.run ops (writesOk_true _ _)

/-- **C46** The same for `New160()`. -/
theorem C46_stream160 (ops : List Op) : run (impl v160) ops = .ok (expect (algo ripemd160 20) ops) :=
  refines160.run ops (writesOk_true _ _)

/-- **C46** The same for `New256()`. -/
theorem C46_stream256 (ops : List Op) : run (impl v256) ops = .ok (expect (algo ripemd256 32) ops) :=
  refines256.run ops (writesOk_true _ _)

/-- **C46** The same for `New320()`. -/
theorem C46_stream320 (ops : List Op) : run (impl v320) ops = .ok (expect (algo ripemd320 40) ops) :=
  refines320.run ops (writesOk_true _ _)

example : run (impl v160) [.write (ascii "a"), .sum [7#8], .write (ascii "bc"), .size, .sum [], .reset, .blockSize, .sum []] =
    .ok [.wrote 1 false, .bytes (7#8 :: ripemd160 (ascii "a")), .wrote 2 false, .num 20, .bytes (ripemd160 (ascii "abc")), .unit,
      .num 64, .bytes (ripemd160 [])] := by
  rw [C46_stream160]; simp [expect, expectFrom, algo, ascii]

/-! ## The published algorithm -/

/-- **C47** `New128`, any chunks, `Sum`: the published RIPEMD-128 of the message. -/
theorem C47_digest128 (cs : List (List U8)) (inp : List U8) : run (impl v128) (cs.map .write ++ [.sum inp]) =
    .ok (cs.map (fun c => .wrote c.length false) ++ [.bytes (inp ++ ripemd128 cs.flatten)]) := by
  rw [C46_stream128, expect_chunks]; rfl

/-- **C47** `New160`, any chunks, `Sum`: the published RIPEMD-160 of the message. -/
theorem C47_digest160 (cs : List (List U8)) (inp : List U8) : run (impl v160) (cs.map .write ++ [.sum inp]) =
    .ok (cs.map (fun c => .wrote c.length false) ++ [.bytes (inp ++ ripemd160 cs.flatten)]) := by
  rw [C46_stream160, expect_chunks]; rfl

/-- **C47** `New256`, any chunks, `Sum`: the published RIPEMD-256 of the message. -/
theorem C47_digest256 (cs : List (List U8)) (inp : List U8) : run (impl v256) (cs.map .write ++ [.sum inp]) =
    .ok (cs.map (fun c => .wrote c.length false) ++ [.bytes (inp ++ ripemd256 cs.flatten)]) := by
  rw [C46_stream256, expect_chunks]; rfl

/-- **C47** `New320`, any chunks, `Sum`: the published RIPEMD-320 of the message. -/
theorem C47_digest320 (cs : List (List U8)) (inp : List U8) : run (impl v320) (cs.map .write ++ [.sum inp]) =
    .ok (cs.map (fun c => .wrote c.length false) ++ [.bytes (inp ++ ripemd320 cs.flatten)]) := by
  rw [C46_stream320, expect_chunks]; rfl

/-! The specification itself, on the published test vectors (empty message and "abc"). -/

example : ripemd128 [] = [0xcd, 0xf2, 0x62, 0x13, 0xa1, 0x50, 0xdc, 0x3e, 0xcb, 0x61, 0x0f, 0x18, 0xf6, 0xb3, 0x8b, 0x46] := by
  decide +kernel
example : ripemd160 [] = [0x9c, 0x11, 0x85, 0xa5, 0xc5, 0xe9, 0xfc, 0x54, 0x61, 0x28, 0x08, 0x97, 0x7e, 0xe8, 0xf5, 0x48, 0xb2,
    0x25, 0x8d, 0x31] := by decide +kernel
example : ripemd256 [] = [0x02, 0xba, 0x4c, 0x4e, 0x5f, 0x8e, 0xcd, 0x18, 0x77, 0xfc, 0x52, 0xd6, 0x4d, 0x30, 0xe3, 0x7a, 0x2d,
    0x97, 0x74, 0xfb, 0x1e, 0x5d, 0x02, 0x63, 0x80, 0xae, 0x01, 0x68, 0xe3, 0xc5, 0x52, 0x2d] := by decide +kernel
example : ripemd320 (ascii "abc") = [0xde, 0x4c, 0x01, 0xb3, 0x05, 0x4f, 0x89, 0x30, 0xa7, 0x9d, 0x09, 0xae, 0x73, 0x8e, 0x92, 0x30,
    0x1e, 0x5a, 0x17, 0x08, 0x5b, 0xef, 0xfd, 0xc1, 0xb8, 0xd1, 0x16, 0x71, 0x3e, 0x74, 0xf8, 0x2f, 0xa9, 0x42, 0xd6, 0x4c, 0xdb,
    0xc4, 0x68, 0x2d] := by decide +kernel

/-- **C47** On any object with a full block, whatever its state words, `hash128` is the compression function of RIPEMD-128
(and it touches nothing else but `bPos`). -/
theorem C47_compress128 (h0 h1 h2 h3 : U32) (rest : List U32) (len : U64) (block : List U8) (bPos : Nat)
    (hb : block.length = 64) (hr : rest = [0, 0, 0, 0, 0, 0]) :
    hash128 ⟨[h0, h1, h2, h3] ++ rest, len, block, bPos⟩ =
      .ok ⟨(compress128 ⟨h0, h1, h2, h3⟩ block).words ++ rest, len, block, 0⟩ := by
  subst hr
  exact hash128_eq ⟨h0, h1, h2, h3⟩ ⟨_, len, block, bPos⟩ rfl hb

/-- **C47** `hash160` is the compression function of RIPEMD-160. -/
theorem C47_compress160 (h0 h1 h2 h3 h4 : U32) (rest : List U32) (len : U64) (block : List U8) (bPos : Nat)
    (hb : block.length = 64) (hr : rest = [0, 0, 0, 0, 0]) :
    hash160 ⟨[h0, h1, h2, h3, h4] ++ rest, len, block, bPos⟩ =
      .ok ⟨(compress160 ⟨h0, h1, h2, h3, h4⟩ block).words ++ rest, len, block, 0⟩ := by
  subst hr
  exact hash160_eq ⟨h0, h1, h2, h3, h4⟩ ⟨_, len, block, bPos⟩ rfl hb

/-- **C47** `hash256` is the compression function of RIPEMD-256. -/
theorem C47_compress256 (h h' : Line4) (len : U64) (block : List U8) (bPos : Nat) (hb : block.length = 64) :
    hash256 ⟨h.words ++ h'.words ++ [0, 0], len, block, bPos⟩ =
      .ok ⟨(compress256 (h, h') block).1.words ++ (compress256 (h, h') block).2.words ++ [0, 0], len, block, 0⟩ :=
  hash256_eq (h, h') ⟨_, len, block, bPos⟩ rfl hb

/-- **C47** `hash320` is the compression function of RIPEMD-320. -/
theorem C47_compress320 (h h' : Line5) (len : U64) (block : List U8) (bPos : Nat) (hb : block.length = 64) :
    hash320 ⟨h.words ++ h'.words, len, block, bPos⟩ =
      .ok ⟨(compress320 (h, h') block).1.words ++ (compress320 (h, h') block).2.words, len, block, 0⟩ :=
  hash320_eq (h, h') ⟨_, len, block, bPos⟩ rfl hb

example : (List.replicate 64 0x61#8).length = 64 := rfl

/-! ## Tables -/

/-- **C48** The message word and shift of step `16·round + j`, for both lines: orders generated by ρ and π, shifts from the one
published table. -/
theorem C48_orders : ∀ round : Fin 5, ∀ j : Fin 16,
    goIdx r (16 * round.val + j.val) = .ok (BitVec.ofNat 8 (order false round j)) ∧
    goIdx rr (16 * round.val + j.val) = .ok (BitVec.ofNat 8 (order true round j)) ∧
    goIdx s (16 * round.val + j.val) = .ok (BitVec.ofNat 8 (shift round (order false round j))) ∧
    goIdx ss (16 * round.val + j.val) = .ok (BitVec.ofNat 8 (shift round (order true round j))) :=
  fun i j => ⟨r_at i j, rr_at i j, s_at i j, ss_at i j⟩

/-- **C48** Every round of each line uses each of the 16 message words once. -/
theorem C48_permutation : ∀ round : Fin 5,
    ((r.drop (16 * round.val)).take 16).Perm ((List.range 16).map (BitVec.ofNat 8)) ∧
    ((rr.drop (16 * round.val)).take 16).Perm ((List.range 16).map (BitVec.ofNat 8)) := by decide +kernel

/-- **C48** There are exactly 80 steps in the tables, and every shift is between 5 and 15. -/
theorem C48_sizes : r.length = 80 ∧ rr.length = 80 ∧ s.length = 80 ∧ ss.length = 80 ∧
    (∀ x ∈ s ++ ss, 5 ≤ x.toNat ∧ x.toNat ≤ 15) := by decide +kernel

/-- **C48** Left constants: 0 and the integer parts of 2^30·√2, 2^30·√3, 2^30·√5, 2^30·√7. -/
theorem C48_left_constants : constAt k 0 = .ok 0#32 ∧ ∀ i : Fin 4, ∃ c, constAt k (i.val + 1) = .ok c ∧
    c.toNat ^ 2 ≤ prime i * (2 ^ 30) ^ 2 ∧ prime i * (2 ^ 30) ^ 2 < (c.toNat + 1) ^ 2 :=
  ⟨by decide +kernel, fun i => ⟨kLeft (i.val + 1), by revert i; decide +kernel, by revert i; decide +kernel,
    by revert i; decide +kernel⟩⟩

/-- **C48** Right constants: the integer parts of 2^30·∛2, 2^30·∛3, 2^30·∛5, 2^30·∛7 and 0 with five rounds; the same without
the last but one with four. -/
theorem C48_right_constants : constAt kk 4 = .ok 0#32 ∧ constAt kk128 3 = .ok 0#32 ∧
    (∀ i : Fin 4, ∃ c, constAt kk i = .ok c ∧ c.toNat ^ 3 ≤ prime i * (2 ^ 30) ^ 3 ∧ prime i * (2 ^ 30) ^ 3 < (c.toNat + 1) ^ 3) ∧
    (∀ i : Fin 3, constAt kk128 i = constAt kk i) :=
  ⟨by decide +kernel, by decide +kernel, fun i => ⟨kRight 5 i, by revert i; decide +kernel, by revert i; decide +kernel,
    by revert i; decide +kernel⟩, by decide +kernel⟩

/-- **C48** The optimised boolean functions are the published ones. -/
theorem C48_functions (x y z : U32) : f0 x y z = x ^^^ y ^^^ z ∧ f1 x y z = (x &&& y) ||| (~~~x &&& z) ∧
    f2 x y z = (x ||| ~~~y) ^^^ z ∧ f3 x y z = (x &&& z) ||| (y &&& ~~~z) ∧ f4 x y z = x ^^^ (y ||| ~~~z) :=
  ⟨rfl, f1_eq x y z, rfl, f3_eq x y z, rfl⟩

/-- `root e n` is the integer part of the `e`-th root of `n` (as long as that fits 32 bits). -/
theorem root_spec (e n : Nat) (he : e ≠ 0) (hn : n < (2 ^ 32) ^ e) : root e n ^ e ≤ n ∧ n < (root e n + 1) ^ e := by
  have key : ∀ (m acc : Nat), acc ^ e ≤ n → n < (acc + 2 ^ m) ^ e →
      let z := ((List.range m).reverse).foldl (fun acc b => if (acc + 2 ^ b) ^ e ≤ n then acc + 2 ^ b else acc) acc
      z ^ e ≤ n ∧ n < (z + 1) ^ e := by
    intro m
    induction m with
    | zero => intro acc h1 h2; exact ⟨h1, by simpa using h2⟩
    | succ m ih =>
      intro acc h1 h2
      rw [List.range_succ, List.reverse_append, List.reverse_singleton, List.singleton_append, List.foldl_cons]
      by_cases hc : (acc + 2 ^ m) ^ e ≤ n
      · rw [if_pos hc]
        exact ih _ hc (by rw [Nat.add_assoc, ← Nat.two_mul, ← Nat.pow_succ']; exact h2)
      · rw [if_neg hc]
        exact ih _ h1 (by omega)
  exact key 32 0 (by rw [Nat.zero_pow (by omega)]; omega) (by rw [Nat.zero_add]; exact hn)

/-! ## Sizes -/

theorem out_length (ws : List U32) : (out ws).length = 4 * ws.length := by
  induction ws with
  | nil => rfl
  | cons w ws ih =>
    have h : out (w :: ws) = leBytes 4 w.toNat ++ out ws := rfl
    rw [h, List.length_append, leBytes_length, ih]; simp; omega

/-- **C52** In every reachable state of each RIPEMD object `Sum` appends `Size()` bytes to its argument, and `Size` and
`BlockSize` never change. -/
theorem C52_ripemd : SizeContract (impl v128) (fun _ _ => True) ∧ SizeContract (impl v160) (fun _ _ => True) ∧
    SizeContract (impl v256) (fun _ _ => True) ∧ SizeContract (impl v320) (fun _ _ => True) := by
  refine ⟨refines128.contract ?_, refines160.contract ?_, refines256.contract ?_, refines320.contract ?_⟩ <;>
    (intro m; exact out_length _)

/-! ## Padding -/

theorem pad_len_field (m m' : List U8) (h : leBytes 8 (8 * m.length) = leBytes 8 (8 * m'.length)) :
    (8 * m.length) % 2 ^ 64 = (8 * m'.length) % 2 ^ 64 := leBytes_inj h

/-- **C53** Different messages, of any length, never give the same sequence of blocks. -/
theorem C53_ripemd_injective (m m' : List U8) (h : blocks (pad m) = blocks (pad m')) : m = m' := by
  have hl : ∀ m : List U8, (leBytes 8 (8 * m.length)).length < 64 := fun m => by rw [leBytes_length]; omega
  refine padWith_inj (by simp [leBytes_length]) (blocks_inj (padWith_length _ _ (hl m)) (padWith_length _ _ (hl m')) h) (hl m) ?_
  intro e h1 h2
  have := pad_len_field m m' e
  omega

/-- **C53** Conversely the blocks do hold the message: they are the padded message cut in pieces of 64 bytes. -/
theorem C53_ripemd_blocks (m : List U8) : (blocks (pad m)).flatten = pad m ∧ (∀ b ∈ blocks (pad m), b.length = 64) ∧
    m <+: pad m := by
  obtain ⟨n, hn⟩ := padWith_length (leBytes 8 (8 * m.length)) m (by rw [leBytes_length]; omega)
  exact ⟨flatten_blocks n _ hn, fun b hb => blocks_mem_length hb, by
    unfold pad padWith
    rw [List.append_assoc]
    exact List.prefix_append _ _⟩

theorem out_inj {ws ws' : List U32} (h : out ws = out ws') (hl : ws.length = ws'.length) : ws = ws' := by
  induction ws generalizing ws' with
  | nil => exact (List.length_eq_zero_iff.mp hl.symm).symm
  | cons w ws ih =>
    cases ws' with
    | nil => simp at hl
    | cons w' ws' =>
      rw [show out (w :: ws) = leBytes 4 w.toNat ++ out ws from rfl,
        show out (w' :: ws') = leBytes 4 w'.toNat ++ out ws' from rfl] at h
      obtain ⟨h1, h2⟩ := List.append_inj h (by simp [leBytes_length])
      have := leBytes_inj h1
      have hw := w.isLt
      have hw' := w'.isLt
      rw [ih h2 (by simpa using hl), BitVec.eq_of_toNat_eq (x := w) (y := w') (by omega)]

theorem collision_ripemd {τ : Type} (comp : τ → List U8 → τ) (iv : τ) (m m' : List U8) (hm : m.length < 2 ^ 61)
    (hm' : m'.length < 2 ^ 61) (hne : m ≠ m') (he : (blocks (pad m)).foldl comp iv = (blocks (pad m')).foldl comp iv) :
    Collision comp iv (blocks (pad m)) (blocks (pad m')) := by
  refine md_collision (by simp [leBytes_length]) (by rw [leBytes_length]; omega) ?_ (fun h => by rw [h]) hne he
  intro h e
  have := pad_len_field m m' e
  omega

/-- **C53** If `New128` objects give the same digest for different messages of fewer than 2^61 bytes, then hashing them meets a
collision of the compression function. -/
theorem C53_ripemd128_collision (m m' d : List U8) (hm : m.length < 2 ^ 61) (hm' : m'.length < 2 ^ 61) (hne : m ≠ m')
    (h : run (impl v128) [.write m, .sum []] = .ok [.wrote m.length false, .bytes d])
    (h' : run (impl v128) [.write m', .sum []] = .ok [.wrote m'.length false, .bytes d]) :
    Collision compress128 iv4 (blocks (pad m)) (blocks (pad m')) := by
  have e : ripemd128 m = ripemd128 m' := by
    rw [C46_stream128] at h h'
    simp only [expect, expectFrom, algo, List.nil_append, Res.ok.injEq, List.cons.injEq, Out.bytes.injEq, true_and, and_true] at h h'
    rw [h, h']
  have e := out_inj e rfl
  apply collision_ripemd _ _ _ _ hm hm' hne
  revert e
  generalize (blocks (pad m)).foldl compress128 iv4 = z
  generalize (blocks (pad m')).foldl compress128 iv4 = z'
  intro e
  cases z; cases z'; simpa [Line4.words] using e

/-- **C53** The same for `New160`. -/
theorem C53_ripemd160_collision (m m' d : List U8) (hm : m.length < 2 ^ 61) (hm' : m'.length < 2 ^ 61) (hne : m ≠ m')
    (h : run (impl v160) [.write m, .sum []] = .ok [.wrote m.length false, .bytes d])
    (h' : run (impl v160) [.write m', .sum []] = .ok [.wrote m'.length false, .bytes d]) :
    Collision compress160 iv5 (blocks (pad m)) (blocks (pad m')) := by
  have e : ripemd160 m = ripemd160 m' := by
    rw [C46_stream160] at h h'
    simp only [expect, expectFrom, algo, List.nil_append, Res.ok.injEq, List.cons.injEq, Out.bytes.injEq, true_and, and_true] at h h'
    rw [h, h']
  have e := out_inj e rfl
  apply collision_ripemd _ _ _ _ hm hm' hne
  revert e
  generalize (blocks (pad m)).foldl compress160 iv5 = z
  generalize (blocks (pad m')).foldl compress160 iv5 = z'
  intro e
  cases z; cases z'; simpa [Line5.words] using e

/-- **C53** The same for `New256`. -/
theorem C53_ripemd256_collision (m m' d : List U8) (hm : m.length < 2 ^ 61) (hm' : m'.length < 2 ^ 61) (hne : m ≠ m')
    (h : run (impl v256) [.write m, .sum []] = .ok [.wrote m.length false, .bytes d])
    (h' : run (impl v256) [.write m', .sum []] = .ok [.wrote m'.length false, .bytes d]) :
    Collision compress256 (iv4, iv4') (blocks (pad m)) (blocks (pad m')) := by
  have e : ripemd256 m = ripemd256 m' := by
    rw [C46_stream256] at h h'
    simp only [expect, expectFrom, algo, List.nil_append, Res.ok.injEq, List.cons.injEq, Out.bytes.injEq, true_and, and_true] at h h'
    rw [h, h']
  have e := out_inj e rfl
  apply collision_ripemd _ _ _ _ hm hm' hne
  revert e
  generalize (blocks (pad m)).foldl compress256 (iv4, iv4') = z
  generalize (blocks (pad m')).foldl compress256 (iv4, iv4') = z'
  intro e
  obtain ⟨⟨⟩, ⟨⟩⟩ := z
  obtain ⟨⟨⟩, ⟨⟩⟩ := z'
  simpa [Line4.words, and_assoc] using e

/-- **C53** The same for `New320`. -/
theorem C53_ripemd320_collision (m m' d : List U8) (hm : m.length < 2 ^ 61) (hm' : m'.length < 2 ^ 61) (hne : m ≠ m')
    (h : run (impl v320) [.write m, .sum []] = .ok [.wrote m.length false, .bytes d])
    (h' : run (impl v320) [.write m', .sum []] = .ok [.wrote m'.length false, .bytes d]) :
    Collision compress320 (iv5, iv5') (blocks (pad m)) (blocks (pad m')) := by
  have e : ripemd320 m = ripemd320 m' := by
    rw [C46_stream320] at h h'
    simp only [expect, expectFrom, algo, List.nil_append, Res.ok.injEq, List.cons.injEq, Out.bytes.injEq, true_and, and_true] at h h'
    rw [h, h']
  have e := out_inj e rfl
  apply collision_ripemd _ _ _ _ hm hm' hne
  revert e
  generalize (blocks (pad m)).foldl compress320 (iv5, iv5') = z
  generalize (blocks (pad m')).foldl compress320 (iv5, iv5') = z'
  intro e
  obtain ⟨⟨⟩, ⟨⟩⟩ := z
  obtain ⟨⟨⟩, ⟨⟩⟩ := z'
  simpa [Line5.words, and_assoc] using e

/-- A compression function for which the hypotheses of the collision theorems are met: with a constant function all messages
collide, and the theorem finds a collision. -/
example : Collision (fun (_ : Nat) _ => 0) 0 (blocks (pad [1#8])) (blocks (pad [2#8])) := by
  refine collision_ripemd _ _ _ _ (by decide) (by decide) (by decide) ?_
  decide +kernel

end Ripemd
