import Verif.Props.Ripemd
import Verif.Props.Whirlpool

/-! # Structure of the block hashes: length extension and invertibility (C70, C71) -/
namespace BlockHash
open BlockSpec

variable {α τ : Type}

/-- An object between blocks holds the chaining value of all blocks so far, whatever its buffer contains. -/
theorem rel_between (emb : τ → List α) (comp : τ → List U8 → τ) (iv : τ) (m block : List U8) (hm : 64 ∣ m.length)
    (hb : block.length = 64) :
    Rel emb comp iv ⟨emb ((blocks m).foldl comp iv), BitVec.ofNat 64 m.length, block, 0⟩ m := by
  obtain ⟨n, hn⟩ := hm
  exact ⟨⟨blocks m, [], by rw [List.append_nil, flatten_blocks n m hn], fun b h => blocks_mem_length h, rfl, by show 0 < 64; omega, hb,
    rfl, rfl⟩, rfl⟩

end BlockHash

namespace Ripemd
open BlockHash BlockSpec RipemdSpec HashSpec GoHash

/-! ## Length extension -/

/-- The words of a digest. -/
def digestWords (d : List U8) : List U32 := (List.range (d.length / 4)).map (word d)

/-- What RIPEMD appends to a message of `n` bytes. -/
def glue (n : Nat) : List U8 := 0x80#8 :: List.replicate ((64 - (n + 9) % 64) % 64) 0#8 ++ leBytes 8 (8 * n)

/-- An object made from a digest of a message of `n` bytes, without the message: the words of the digest as state (of ten words), the
length with the padding, and any buffer. -/
def forged (d : List U8) (n : Nat) (block : List U8) : Ctx U32 :=
  ⟨digestWords d ++ List.replicate (10 - d.length / 4) 0#32, BitVec.ofNat 64 (n + (glue n).length), block, 0⟩

/-- For an object of the variant that hashed `m` to `d`: an object forged from `d` and the length of `m` behaves, for every
continuation, like a new object to which `m` and the padding of `m` have been written. -/
def Extends (v : Variant) : Prop := ∀ (m d block : List U8) (ops : List Op), block.length = 64 →
  run (impl v) [.write m, .sum []] = .ok [.wrote m.length false, .bytes d] →
  ∃ s outs, runFrom (impl v) (forged d m.length block) ops = .ok (s, outs) ∧
    run (impl v) (.write m :: .write (glue m.length) :: ops) =
      .ok (.wrote m.length false :: .wrote (glue m.length).length false :: outs)

theorem pad_eq (m : List U8) : pad m = m ++ glue m.length := by
  unfold pad padWith glue
  rw [leBytes_length, List.append_assoc, Nat.add_assoc]

theorem word_out : ∀ (ws : List U32), digestWords (out ws) = ws := by
  intro ws
  apply List.ext_getElem
  · simp [digestWords, out_length]
  · intro i h1 h2
    simp only [digestWords, List.getElem_map, List.getElem_range, word]
    have e : ∀ (ws : List U32) (i : Nat) (h : i < ws.length), ((out ws).drop (4 * i)).take 4 = leBytes 4 ws[i].toNat := by
      intro ws
      induction ws with
      | nil => intro i h; simp at h
      | cons w ws ih =>
        intro i h
        rw [show out (w :: ws) = leBytes 4 w.toNat ++ out ws from rfl]
        cases i with
        | zero => rw [Nat.mul_zero, List.drop_zero, List.take_left' (leBytes_length _ _)]; rfl
        | succ i =>
          rw [List.drop_append, List.drop_of_length_le (by rw [leBytes_length]; omega), leBytes_length, List.nil_append,
            show 4 * (i + 1) - 4 = 4 * i by omega, ih i (by simpa using h)]
          rfl
    rw [e ws i h2, leVal_leBytes, show 256 ^ 4 = 2 ^ 32 from rfl, Nat.mod_eq_of_lt (ws[i].isLt), BitVec.ofNat_toNat, BitVec.setWidth_eq]

theorem extends_of {τ : Type} {v : Variant} {emb : τ → List U32} {comp : τ → List U8 → τ} {iv : τ} {digest : List U8 → List U8}
    {n : Nat} (h : Refines (impl v) (algo digest n) (fun _ _ => True) (Rel emb comp iv)) (ws : τ → List U32)
    (hd : ∀ m, digest m = out (ws ((blocks (pad m)).foldl comp iv)))
    (hw : ∀ t, emb t = ws t ++ List.replicate (10 - (ws t).length) 0#32) : Extends v := by
  intro m d block ops hb hr
  rw [h.run _ (writesOk_true _ _)] at hr
  simp only [expect, expectFrom, algo, List.nil_append, Res.ok.injEq, List.cons.injEq, Out.bytes.injEq, true_and, and_true] at hr
  subst hr
  have hp : 64 ∣ (pad m).length := padWith_length _ _ (by rw [leBytes_length]; omega)
  have hf : forged (digest m) m.length block = ⟨emb ((blocks (pad m)).foldl comp iv), BitVec.ofNat 64 (pad m).length, block, 0⟩ := by
    rw [forged, hd, word_out, hw, out_length, Nat.mul_div_cancel_left _ (by omega), pad_eq m, List.length_append]
  obtain ⟨s, e, -⟩ := h.runFrom ops _ (pad m) (rel_between emb comp iv (pad m) block hp hb) (writesOk_true _ _)
  refine ⟨s, _, by rw [hf]; exact e, ?_⟩
  rw [h.run _ (writesOk_true _ _)]
  simp only [expect, expectFrom, List.nil_append, pad_eq m]

/-- **C70** Length extension: whoever knows the digest and the length of a message, but not the message, can continue each of the four
RIPEMD hashes behind the padded message. -/
theorem C70_ripemd : Extends v128 ∧ Extends v160 ∧ Extends v256 ∧ Extends v320 :=
  ⟨extends_of refines128 (fun t => t.words) (fun _ => rfl) (fun _ => rfl),
    extends_of refines160 (fun t => t.words) (fun _ => rfl) (fun _ => rfl),
    extends_of refines256 (fun t => t.1.words ++ t.2.words) (fun _ => rfl) (fun _ => rfl),
    extends_of refines320 (fun t => t.1.words ++ t.2.words) (fun _ => rfl) (fun _ => rfl)⟩

/-- The hypotheses are met by every message: here the digest of a secret followed by public data. -/
example (secret ext : List U8) : ∃ s, runFrom (impl v160) (forged (ripemd160 secret) secret.length (List.replicate 64 0#8))
    [.write ext, .sum []] = .ok (s, [.wrote ext.length false, .bytes (ripemd160 (secret ++ glue secret.length ++ ext))]) := by
  obtain ⟨s, outs, h1, h2⟩ := C70_ripemd.2.1 secret (ripemd160 secret) (List.replicate 64 0#8) [.write ext, .sum []]
    (List.length_replicate ..) (by rw [C46_stream160]; rfl)
  rw [C46_stream160] at h2
  simp only [expect, expectFrom, algo, List.nil_append, Res.ok.injEq, List.cons.injEq, true_and] at h2
  exact ⟨s, by rw [h1, ← h2]⟩

/-! ## Invertibility -/

theorem rotr_rotl (n : Nat) (x : U32) : (x.rotateLeft n).rotateRight n = x := by
  have hn := Nat.mod_lt n (show 0 < 32 by omega)
  apply BitVec.eq_of_getLsbD_eq
  intro i hi
  rw [BitVec.getLsbD_rotateRight, BitVec.getLsbD_rotateLeft, BitVec.getLsbD_rotateLeft]
  simp only [cond_eq_ite, decide_eq_true_eq]
  split
  · rw [if_neg (by omega), Nat.add_sub_cancel_left]
    simp; omega
  · rw [if_pos (by omega), show 32 - n % 32 + (i - (32 - n % 32)) = i by omega]
    simp [hi]

theorem rotl_rotr (n : Nat) (x : U32) : (x.rotateRight n).rotateLeft n = x := by
  have hn := Nat.mod_lt n (show 0 < 32 by omega)
  apply BitVec.eq_of_getLsbD_eq
  intro i hi
  rw [BitVec.getLsbD_rotateLeft, BitVec.getLsbD_rotateRight, BitVec.getLsbD_rotateRight]
  simp only [cond_eq_ite, decide_eq_true_eq]
  split
  · rw [if_neg (by omega), show 32 - n % 32 + i - (32 - n % 32) = i by omega]
    simp; omega
  · rw [if_pos (by omega), show n % 32 + (i - n % 32) = i by omega]
    simp [hi]

theorem step4_bij (x : Nat → U32) (right : Bool) (round i : Nat) :
    Function.Bijective fun l => RipemdSpec.step4 x right round l i := by
  refine Function.bijective_iff_has_inverse.mpr ⟨fun l => ⟨l.b.rotateRight (shift round (order right round i)) -
    kOf 4 right round - x (order right round i) - RipemdSpec.f (fIndex 4 right round) l.c l.d l.a, l.c, l.d, l.a⟩, ?_, ?_⟩
  · rintro ⟨a, b, c, d⟩
    simp only [RipemdSpec.step4, rotr_rotl, RipemdSpec.Line4.mk.injEq, and_self, and_true, BitVec.add_sub_cancel]
  · rintro ⟨a, b, c, d⟩
    simp only [RipemdSpec.step4, RipemdSpec.Line4.mk.injEq, true_and, and_true]
    rw [BitVec.sub_add_cancel, BitVec.sub_add_cancel, BitVec.sub_add_cancel, rotl_rotr]

theorem step5_bij (x : Nat → U32) (right : Bool) (round i : Nat) :
    Function.Bijective fun l => RipemdSpec.step5 x right round l i := by
  refine Function.bijective_iff_has_inverse.mpr ⟨fun l => ⟨(l.b - l.a).rotateRight (shift round (order right round i)) -
    kOf 5 right round - x (order right round i) - RipemdSpec.f (fIndex 5 right round) l.c (l.d.rotateRight 10) l.e, l.c,
    l.d.rotateRight 10, l.e, l.a⟩, ?_, ?_⟩
  · rintro ⟨a, b, c, d, e⟩
    simp only [RipemdSpec.step5, rotr_rotl, RipemdSpec.Line5.mk.injEq, and_self, and_true, BitVec.add_sub_cancel]
  · rintro ⟨a, b, c, d, e⟩
    simp only [RipemdSpec.step5, RipemdSpec.Line5.mk.injEq, rotl_rotr, true_and, and_true]
    rw [BitVec.sub_add_cancel, BitVec.sub_add_cancel, BitVec.sub_add_cancel, rotl_rotr, BitVec.sub_add_cancel]

theorem foldl_bij {σ ι : Type} (g : σ → ι → σ) (hg : ∀ i, Function.Bijective fun s => g s i) :
    ∀ l : List ι, Function.Bijective fun s => l.foldl g s
  | [] => Function.bijective_id
  | i :: l => (foldl_bij g hg l).comp (hg i)

theorem round4_bij (x : Nat → U32) (right : Bool) (round : Nat) : Function.Bijective (RipemdSpec.round4 x right round) :=
  foldl_bij _ (step4_bij x right round) _

theorem round5_bij (x : Nat → U32) (right : Bool) (round : Nat) : Function.Bijective (RipemdSpec.round5 x right round) :=
  foldl_bij _ (step5_bij x right round) _

theorem line4_bij (x : Nat → U32) (right : Bool) : Function.Bijective (RipemdSpec.line4 x right) :=
  foldl_bij _ (round4_bij x right) _

theorem line5_bij (x : Nat → U32) (right : Bool) : Function.Bijective (RipemdSpec.line5 x right) :=
  foldl_bij _ (round5_bij x right) _

theorem exchange4_bij (i : Nat) : Function.Bijective (exchange4 i) := by
  refine Function.Involutive.bijective fun z => ?_
  match i with
  | 0 | 1 | 2 | _ + 3 => rfl

theorem exchange5_bij (i : Nat) : Function.Bijective (exchange5 i) := by
  refine Function.Involutive.bijective fun z => ?_
  match i with
  | 0 | 1 | 2 | 3 | _ + 4 => rfl

theorem mix256_bij (x : Nat → U32) : Function.Bijective fun h : RipemdSpec.Line4 × RipemdSpec.Line4 =>
    (List.range 4).foldl (fun (z : RipemdSpec.Line4 × RipemdSpec.Line4) i =>
      exchange4 i (RipemdSpec.round4 x false i z.1, RipemdSpec.round4 x true i z.2)) h :=
  foldl_bij _ (fun i => (exchange4_bij i).comp ((round4_bij x false i).prodMap (round4_bij x true i))) _

theorem mix320_bij (x : Nat → U32) : Function.Bijective fun h : RipemdSpec.Line5 × RipemdSpec.Line5 =>
    (List.range 5).foldl (fun (z : RipemdSpec.Line5 × RipemdSpec.Line5) i =>
      exchange5 i (RipemdSpec.round5 x false i z.1, RipemdSpec.round5 x true i z.2)) h :=
  foldl_bij _ (fun i => (exchange5_bij i).comp ((round5_bij x false i).prodMap (round5_bij x true i))) _

/-- Word-wise sum. -/
def addWords (a b : List U32) : List U32 := List.zipWith (· + ·) a b

theorem emb44_eq (z : RipemdSpec.Line4 × RipemdSpec.Line4) : emb44 z = (z.1.words ++ z.2.words) ++ [0, 0] := rfl
theorem emb55_eq (z : RipemdSpec.Line5 × RipemdSpec.Line5) : emb55 z = z.1.words ++ z.2.words := rfl

/-- **C71** RIPEMD-256: for every block, every value `y` is what the code's `hash` adds to the state for exactly one state. In
particular (`y = 0`) every block leaves exactly one state fixed. -/
theorem C71_ripemd256 (block : List U8) (hb : block.length = 64) (y : List U32) (hy : y.length = 8) (len : U64) (bPos : Nat) :
    ∃! st : List U32, st.length = 8 ∧
      hash256 ⟨st ++ [0, 0], len, block, bPos⟩ = .ok ⟨addWords st y ++ [0, 0], len, block, 0⟩ := by
  obtain ⟨z, rfl⟩ : ∃ z : RipemdSpec.Line4 × RipemdSpec.Line4, y = z.1.words ++ z.2.words := by
    match y, hy with
    | [y0, y1, y2, y3, y4, y5, y6, y7], _ => exact ⟨(⟨y0, y1, y2, y3⟩, ⟨y4, y5, y6, y7⟩), rfl⟩
  have key : ∀ t : RipemdSpec.Line4 × RipemdSpec.Line4,
      (hash256 ⟨(t.1.words ++ t.2.words) ++ [0, 0], len, block, bPos⟩ =
        .ok ⟨addWords (t.1.words ++ t.2.words) (z.1.words ++ z.2.words) ++ [0, 0], len, block, 0⟩ ↔
      (List.range 4).foldl (fun (z : RipemdSpec.Line4 × RipemdSpec.Line4) i =>
        exchange4 i (RipemdSpec.round4 (word block) false i z.1, RipemdSpec.round4 (word block) true i z.2)) t = z) := by
    intro t
    rw [hash256_eq t ⟨_, len, block, bPos⟩ (emb44_eq t).symm hb, compress256]
    generalize (List.range 4).foldl _ t = w
    obtain ⟨⟨w0, w1, w2, w3⟩, ⟨w4, w5, w6, w7⟩⟩ := w
    obtain ⟨⟨z0, z1, z2, z3⟩, ⟨z4, z5, z6, z7⟩⟩ := z
    obtain ⟨⟨t0, t1, t2, t3⟩, ⟨t4, t5, t6, t7⟩⟩ := t
    simp [emb44, add4, addWords, RipemdSpec.Line4.words, and_assoc]
  obtain ⟨t, ht⟩ := (mix256_bij (word block)).2 z
  refine ⟨t.1.words ++ t.2.words, ⟨rfl, (key t).mpr ht⟩, ?_⟩
  rintro st ⟨hl, he⟩
  obtain ⟨u, rfl⟩ : ∃ u : RipemdSpec.Line4 × RipemdSpec.Line4, st = u.1.words ++ u.2.words := by
    match st, hl with
    | [y0, y1, y2, y3, y4, y5, y6, y7], _ => exact ⟨(⟨y0, y1, y2, y3⟩, ⟨y4, y5, y6, y7⟩), rfl⟩
  rw [(mix256_bij (word block)).1 (((key u).mp he).trans ht.symm)]

/-- **C71** The same for RIPEMD-320. -/
theorem C71_ripemd320 (block : List U8) (hb : block.length = 64) (y : List U32) (hy : y.length = 10) (len : U64) (bPos : Nat) :
    ∃! st : List U32, st.length = 10 ∧
      hash320 ⟨st, len, block, bPos⟩ = .ok ⟨addWords st y, len, block, 0⟩ := by
  obtain ⟨z, rfl⟩ : ∃ z : RipemdSpec.Line5 × RipemdSpec.Line5, y = z.1.words ++ z.2.words := by
    match y, hy with
    | [y0, y1, y2, y3, y4, y5, y6, y7, y8, y9], _ => exact ⟨(⟨y0, y1, y2, y3, y4⟩, ⟨y5, y6, y7, y8, y9⟩), rfl⟩
  have key : ∀ t : RipemdSpec.Line5 × RipemdSpec.Line5,
      (hash320 ⟨t.1.words ++ t.2.words, len, block, bPos⟩ =
        .ok ⟨addWords (t.1.words ++ t.2.words) (z.1.words ++ z.2.words), len, block, 0⟩ ↔
      (List.range 5).foldl (fun (z : RipemdSpec.Line5 × RipemdSpec.Line5) i =>
        exchange5 i (RipemdSpec.round5 (word block) false i z.1, RipemdSpec.round5 (word block) true i z.2)) t = z) := by
    intro t
    rw [hash320_eq t ⟨_, len, block, bPos⟩ (emb55_eq t).symm hb, compress320]
    generalize (List.range 5).foldl _ t = w
    obtain ⟨⟨w0, w1, w2, w3, w4⟩, ⟨w5, w6, w7, w8, w9⟩⟩ := w
    obtain ⟨⟨z0, z1, z2, z3, z4⟩, ⟨z5, z6, z7, z8, z9⟩⟩ := z
    obtain ⟨⟨t0, t1, t2, t3, t4⟩, ⟨t5, t6, t7, t8, t9⟩⟩ := t
    simp [emb55, add5, addWords, RipemdSpec.Line5.words, and_assoc]
  obtain ⟨t, ht⟩ := (mix320_bij (word block)).2 z
  refine ⟨t.1.words ++ t.2.words, ⟨rfl, (key t).mpr ht⟩, ?_⟩
  rintro st ⟨hl, he⟩
  obtain ⟨u, rfl⟩ : ∃ u : RipemdSpec.Line5 × RipemdSpec.Line5, st = u.1.words ++ u.2.words := by
    match st, hl with
    | [y0, y1, y2, y3, y4, y5, y6, y7, y8, y9], _ => exact ⟨(⟨y0, y1, y2, y3, y4⟩, ⟨y5, y6, y7, y8, y9⟩), rfl⟩
  rw [(mix320_bij (word block)).1 (((key u).mp he).trans ht.symm)]

example : (List.replicate 64 7#8).length = 64 ∧ (List.replicate 8 0#32).length = 8 ∧ (List.replicate 10 0#32).length = 10 := by decide

theorem words_of (x : List U32) (hx : x.length = 16) : ∃ b : List U8, x = (List.range 16).map (word b) :=
  ⟨out x, by
    have := word_out x
    rwa [digestWords, out_length, Nat.mul_div_cancel_left _ (by omega), hx, eq_comm] at this⟩

/-- **C71** RIPEMD-128: for every block, the four rounds of the code permute the values of the eight registers. -/
theorem C71_ripemd128 (x : List U32) (hx : x.length = 16) (g' : Regs4) : ∃! g, rounds4 x 4 0 g = .ok g' := by
  obtain ⟨b, rfl⟩ := words_of x hx
  obtain ⟨l, hl⟩ := (line4_bij (word b) false).2 ⟨g'.a, g'.b, g'.c, g'.d⟩
  obtain ⟨r, hr⟩ := (line4_bij (word b) true).2 ⟨g'.aa, g'.bb, g'.cc, g'.dd⟩
  refine ⟨join4 l r, by show _ = _; rw [rounds4_eq, hl, hr]; rfl, fun g hg => ?_⟩
  rw [show g = join4 ⟨g.a, g.b, g.c, g.d⟩ ⟨g.aa, g.bb, g.cc, g.dd⟩ from rfl, rounds4_eq, Res.ok.injEq] at hg
  rw [show g = join4 ⟨g.a, g.b, g.c, g.d⟩ ⟨g.aa, g.bb, g.cc, g.dd⟩ from rfl]
  congr 1
  · apply (line4_bij (word b) false).1; rw [hl, ← hg]; rfl
  · apply (line4_bij (word b) true).1; rw [hr, ← hg]; rfl

/-- **C71** RIPEMD-160: for every block, the five rounds of the code permute the values of the ten registers. -/
theorem C71_ripemd160 (x : List U32) (hx : x.length = 16) (g' : Regs5) : ∃! g, rounds5 x 5 0 g = .ok g' := by
  obtain ⟨b, rfl⟩ := words_of x hx
  obtain ⟨l, hl⟩ := (line5_bij (word b) false).2 ⟨g'.a, g'.b, g'.c, g'.d, g'.e⟩
  obtain ⟨r, hr⟩ := (line5_bij (word b) true).2 ⟨g'.aa, g'.bb, g'.cc, g'.dd, g'.ee⟩
  refine ⟨join5 l r, by show _ = _; rw [rounds5_eq, hl, hr]; rfl, fun g hg => ?_⟩
  rw [show g = join5 ⟨g.a, g.b, g.c, g.d, g.e⟩ ⟨g.aa, g.bb, g.cc, g.dd, g.ee⟩ from rfl, rounds5_eq, Res.ok.injEq] at hg
  rw [show g = join5 ⟨g.a, g.b, g.c, g.d, g.e⟩ ⟨g.aa, g.bb, g.cc, g.dd, g.ee⟩ from rfl]
  congr 1
  · apply (line5_bij (word b) false).1; rw [hl, ← hg]; rfl
  · apply (line5_bij (word b) true).1; rw [hr, ← hg]; rfl

example : (List.replicate 16 7#32).length = 16 := by decide

end Ripemd

namespace Whirlpool
open BlockHash BlockSpec WhirlpoolSpec HashSpec GoHash

/-- What Whirlpool appends to a message of `n` bytes. -/
def glue (n : Nat) : List U8 := 0x80#8 :: List.replicate ((64 - (n + 33) % 64) % 64) 0#8 ++ beBytes 32 (8 * (n % 2 ^ 64))

/-- An object made from a digest of a message of `n` bytes, without the message. -/
def forged (d : List U8) (n : Nat) (block : List U8) : Ctx U64 :=
  ⟨beWords d, BitVec.ofNat 64 (n + (glue n).length), block, 0⟩

theorem pad_eq (m : List U8) : padMod m = m ++ glue m.length := by
  unfold padMod padWith glue
  rw [beBytes_length, List.append_assoc, Nat.add_assoc]

/-- **C70** The same for Whirlpool: an object forged from the digest and the length of `m` behaves, for every continuation, like a
new object to which `m` and the padding of `m` have been written. -/
theorem C70_whirlpool (m d block : List U8) (ops : List Op) (hb : block.length = 64)
    (hr : run impl [.write m, .sum []] = .ok [.wrote m.length false, .bytes d]) :
    ∃ s outs, runFrom impl (forged d m.length block) ops = .ok (s, outs) ∧
      run impl (.write m :: .write (glue m.length) :: ops) =
        .ok (.wrote m.length false :: .wrote (glue m.length).length false :: outs) := by
  rw [C49_stream] at hr
  simp only [expect, expectFrom, algo, List.nil_append, Res.ok.injEq, List.cons.injEq, Out.bytes.injEq, true_and, and_true] at hr
  subst hr
  have hp : 64 ∣ (padMod m).length := padWith_length _ _ (by rw [beBytes_length]; omega)
  have hf : forged (whirlpoolMod m) m.length block =
      ⟨emb ((blocks (padMod m)).foldl compress zeroMat), BitVec.ofNat 64 (padMod m).length, block, 0⟩ := by
    rw [forged, whirlpoolMod, emb_bytes, pad_eq m, List.length_append]
  obtain ⟨s, e, -⟩ := refines.runFrom ops _ (padMod m) (rel_between emb compress zeroMat (padMod m) block hp hb) (writesOk_true _ _)
  refine ⟨s, _, by rw [hf]; exact e, ?_⟩
  rw [C49_stream]
  simp only [expect, expectFrom, List.nil_append, pad_eq m]

example (secret ext : List U8) : ∃ s, runFrom impl (forged (whirlpoolMod secret) secret.length (List.replicate 64 0#8))
    [.write ext, .sum []] = .ok (s, [.wrote ext.length false, .bytes (whirlpoolMod (secret ++ glue secret.length ++ ext))]) := by
  obtain ⟨s, outs, h1, h2⟩ := C70_whirlpool secret (whirlpoolMod secret) (List.replicate 64 0#8) [.write ext, .sum []]
    (List.length_replicate ..) (by rw [C49_stream]; rfl)
  rw [C49_stream] at h2
  simp only [expect, expectFrom, algo, List.nil_append, Res.ok.injEq, List.cons.injEq, true_and] at h2
  exact ⟨s, by rw [h1, ← h2]⟩

end Whirlpool
