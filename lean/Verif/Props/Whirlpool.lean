import Verif.Lemmas.Whirlpool
import Verif.Lemmas.WhirlpoolGen
import Verif.Lemmas.WhirlpoolCipher

/-! # Properties of package `hash/whirlpool` (C49-C54) -/
namespace Whirlpool
open BlockHash BlockSpec WhirlpoolSpec HashSpec GoHash

/-! ## Streaming -/

/-- **C49** Every history on a `New()` object gives exactly the results prescribed for the Whirlpool hash (with the length field
taken modulo 2^64 bytes) of what was written since the last Reset. No call panics. -/
theorem C49_stream (ops : List Op) : run impl ops = .ok (expect algo ops) := refines.run ops (writesOk_true _ _)

example (p q r : List U8) : run impl [.write p, .sum q, .write r, .size, .sum [], .reset, .blockSize, .sum q] =
    .ok [.wrote p.length false, .bytes (q ++ whirlpoolMod p), .wrote r.length false, .num 64, .bytes (whirlpoolMod (p ++ r)), .unit,
      .num 64, .bytes (q ++ whirlpoolMod [])] := by
  rw [C49_stream]
  simp only [expect, expectFrom, algo, List.nil_append]

/-! ## The published algorithm -/

theorem whirlpoolMod_eq {m : List U8} (h : m.length < 2 ^ 64) : whirlpoolMod m = whirlpool m := by
  rw [whirlpoolMod, whirlpool, padMod, pad, Nat.mod_eq_of_lt h]

/-- **C50** `New`, any chunks of fewer than 2^64 bytes in all, `Sum`: the published Whirlpool of the message. -/
theorem C50_digest (cs : List (List U8)) (inp : List U8) (h : cs.flatten.length < 2 ^ 64) :
    run impl (cs.map .write ++ [.sum inp]) =
      .ok (cs.map (fun c => .wrote c.length false) ++ [.bytes (inp ++ whirlpool cs.flatten)]) := by
  rw [C49_stream, expect_chunks, ← whirlpoolMod_eq h]; rfl

example : ([ascii "ab", [], ascii "c"] : List (List U8)).flatten.length < 2 ^ 64 := by decide

/-! The specification itself is run on published test vectors in `Verif.Spec.WhirlpoolVectors`. -/

/-- Word `i` of a block, most significant byte first. -/
def beWord (b : List U8) (i : Nat) : U64 := BitVec.ofNat 64 (((b.drop (8 * i)).take 8).foldl (fun v x => 256 * v + x.toNat) 0)

/-- The eight words of a block. -/
def beWords (b : List U8) : List U64 := (List.range 8).map (beWord b)

theorem beWord_eq (b : List U8) (hb : b.length = 64) (i : Fin 8) : beWord b i.val = row (toMat b) i := by
  have hi := i.isLt
  have hl : ((b.drop (8 * i.val)).take 8).length = 8 := by simp; omega
  have hg : ∀ (k : Nat), k < 8 → ((b.drop (8 * i.val)).take 8)[k]? = some (b.getD (8 * i.val + k) 0#8) := by
    intro k hk
    rw [List.getElem?_take_of_lt hk, List.getElem?_drop, List.getD_eq_getElem?_getD, List.getElem?_eq_getElem (by omega)]
    rfl
  apply BitVec.eq_of_toNat_eq
  rw [row, ofBytes_toNat]
  simp only [toMat, Mat.at_of]
  unfold beWord
  generalize (b.drop (8 * i.val)).take 8 = l at hl hg
  match l, hl with
  | [b0, b1, b2, b3, b4, b5, b6, b7], _ =>
    have e : ∀ k x, k < 8 → [b0, b1, b2, b3, b4, b5, b6, b7][k]? = some x → b.getD (8 * i.val + k) 0#8 = x := by
      intro k x hk hx
      rw [hg k hk] at hx
      simpa using hx
    have e0 : b.getD (8 * i.val + (0 : Fin 8).val) 0 = _ := e 0 _ (by omega) rfl
    have e1 : b.getD (8 * i.val + (1 : Fin 8).val) 0 = _ := e 1 _ (by omega) rfl
    have e2 : b.getD (8 * i.val + (2 : Fin 8).val) 0 = _ := e 2 _ (by omega) rfl
    have e3 : b.getD (8 * i.val + (3 : Fin 8).val) 0 = _ := e 3 _ (by omega) rfl
    have e4 : b.getD (8 * i.val + (4 : Fin 8).val) 0 = _ := e 4 _ (by omega) rfl
    have e5 : b.getD (8 * i.val + (5 : Fin 8).val) 0 = _ := e 5 _ (by omega) rfl
    have e6 : b.getD (8 * i.val + (6 : Fin 8).val) 0 = _ := e 6 _ (by omega) rfl
    have e7 : b.getD (8 * i.val + (7 : Fin 8).val) 0 = _ := e 7 _ (by omega) rfl
    rw [e0, e1, e2, e3, e4, e5, e6, e7]
    simp only [List.foldl_cons, List.foldl_nil, BitVec.toNat_ofNat]
    omega

theorem beWords_eq (b : List U8) (hb : b.length = 64) : beWords b = emb (toMat b) := by
  have h0 : beWord b 0 = _ := beWord_eq b hb 0
  have h1 : beWord b 1 = _ := beWord_eq b hb 1
  have h2 : beWord b 2 = _ := beWord_eq b hb 2
  have h3 : beWord b 3 = _ := beWord_eq b hb 3
  have h4 : beWord b 4 = _ := beWord_eq b hb 4
  have h5 : beWord b 5 = _ := beWord_eq b hb 5
  have h6 : beWord b 6 = _ := beWord_eq b hb 6
  have h7 : beWord b 7 = _ := beWord_eq b hb 7
  rw [beWords, show List.range 8 = [0, 1, 2, 3, 4, 5, 6, 7] from rfl, emb_eq]
  simp only [List.map_cons, List.map_nil, h0, h1, h2, h3, h4, h5, h6, h7]

theorem bytes_length (m : Mat) : m.bytes.length = 64 := by
  rw [Mat.bytes, toList8 m]; simp

theorem bytes_at (m : Mat) : m.bytes = (List.range 64).map fun n => m.at (Fin.ofNat 8 (n / 8)) (Fin.ofNat 8 n) := by
  rw [Mat.bytes, toList8 m]
  simp only [List.flatMap_cons, List.flatMap_nil, toList8]
  rfl

theorem toMat_bytes (m : Mat) : toMat m.bytes = m := by
  apply Mat.ext
  intro i j
  have hi := i.isLt
  have hj := j.isLt
  rw [toMat, Mat.at_of, List.getD_eq_getElem?_getD, bytes_at, List.getElem?_map, List.getElem?_range (by omega)]
  show m.at (Fin.ofNat 8 ((8 * i.val + j.val) / 8)) (Fin.ofNat 8 (8 * i.val + j.val)) = m.at i j
  congr 1
  · apply Fin.ext; show (8 * i.val + j.val) / 8 % 8 = _; omega
  · apply Fin.ext; show (8 * i.val + j.val) % 8 = _; omega

theorem bytes_toMat (b : List U8) (hb : b.length = 64) : (toMat b).bytes = b := by
  rw [bytes_at]
  apply List.ext_getElem
  · simp [hb]
  · intro k h1 h2
    simp only [List.getElem_map, List.getElem_range, toMat, Mat.at_of]
    rw [List.getD_eq_getElem?_getD, show 8 * (Fin.ofNat 8 (k / 8)).val + (Fin.ofNat 8 k).val = k by
      show 8 * (k / 8 % 8) + k % 8 = k; omega, List.getElem?_eq_getElem h2]
    rfl

theorem emb_bytes (m : Mat) : beWords m.bytes = emb m := by
  rw [beWords_eq _ (bytes_length m), toMat_bytes]

/-- **C50** On any object with a full block, whatever its chaining value `h`, `hash` is the compression function of Whirlpool
(and it touches nothing else but `bPos`). -/
theorem C50_compress (h : Mat) (len : U64) (block : List U8) (bPos : Nat) (hb : block.length = 64) :
    hash ⟨beWords h.bytes, len, block, bPos⟩ = .ok ⟨beWords (compress h block).bytes, len, block, 0⟩ := by
  rw [emb_bytes, emb_bytes]
  exact hash_eq h ⟨emb h, len, block, bPos⟩ rfl hb

/-- The matrix of eight words. -/
def ofWords (w : Fin 8 → U64) : Mat := .of fun i j => byteOf (w i) j

theorem emb_ofWords (w : Fin 8 → U64) : emb (ofWords w) = [w 0, w 1, w 2, w 3, w 4, w 5, w 6, w 7] :=
  (emb_ext fun i j => by rw [ofWords, Mat.at_of]).symm

/-- **C50** Every value of the eight state words is a chaining value of the previous theorem. -/
theorem C50_states (st : List U64) (h : st.length = 8) : ∃ m : Mat, st = beWords m.bytes := by
  match st, h with
  | [w0, w1, w2, w3, w4, w5, w6, w7], _ =>
    refine ⟨ofWords fun i => [w0, w1, w2, w3, w4, w5, w6, w7].getD i.val 0, ?_⟩
    rw [emb_bytes, emb_ofWords]
    rfl

example : ([1, 2, 3, 4, 5, 6, 7, 8] : List U64).length = 8 := rfl

/-! ## Tables -/

/-- **C51** Running the generator's loops on the generator's S-box gives the committed table `ct`. -/
theorem C51_circulant : buildCirculantTable = .ok ct := buildCirculantTable_eq

/-- **C51** Running the generator's round constant loop on the committed `ct` gives the committed `rc`. -/
theorem C51_constants : buildRoundConstants ct = .ok rc := buildRoundConstants_eq

/-- **C51** The generator's S-box is the one built from the mini-boxes E and R. -/
theorem C51_sbox : sBox = (List.range 256).map fun x => S (BitVec.ofNat 8 x) := by decide +kernel

/-- **C51** E lists the powers of B in GF(2^4) modulo x^4+x+1 and then 0; R is a permutation. -/
theorem C51_boxes :
    (∀ i : Fin 14, E (BitVec.ofNat 4 (i.val + 1)) = gf16Mul (E (BitVec.ofNat 4 i.val)) 0xB) ∧ E 0 = 1 ∧ E 15 = 0 ∧
    (∀ x, Einv (E x) = x) ∧ (∀ y, E (Einv y) = y) ∧ boxR.Perm ((List.range 16).map (BitVec.ofNat 4)) := by decide +kernel

/-- **C51** What every entry means: entry `x` of table `t` is the row S(x)·(1, 1, 4, 1, 8, 5, 2, 9), rotated by `t` bytes. -/
theorem C51_entries : ct.length = 2048 ∧ rc.length = 10 ∧
    (∀ (t : Fin 8) (x : U8), goIdx ct (256 * t.val + x.toNat) =
      .ok (beWord ((List.finRange 8).map fun j => gfMul (S x) (cir (j - t))) 0)) ∧
    (∀ r : Fin 10, goIdx rc r.val = .ok (beWord ((List.range 8).map fun j => S (BitVec.ofNat 8 (8 * r.val + j))) 0)) := by
  have key : ∀ f : Fin 8 → U8, ofBytes f = beWord ((List.finRange 8).map f) 0 := by
    intro f
    apply BitVec.eq_of_toNat_eq
    have h0 := (f 0).isLt
    have h1 := (f 1).isLt
    have h2 := (f 2).isLt
    have h3 := (f 3).isLt
    have h4 := (f 4).isLt
    have h5 := (f 5).isLt
    have h6 := (f 6).isLt
    have h7 := (f 7).isLt
    rw [ofBytes_toNat, beWord, show List.finRange 8 = [0, 1, 2, 3, 4, 5, 6, 7] from by decide, BitVec.toNat_ofNat]
    simp only [List.map_cons, List.map_nil, Nat.mul_zero, List.drop_zero, List.take_succ_cons, List.take_zero, List.foldl_cons, List.foldl_nil]
    omega
  refine ⟨by decide +kernel, by decide +kernel, fun t x => ?_, fun r => ?_⟩
  · rw [ct_at, key]
  · rw [rc_at, key]
    rfl

/-! ## Sizes -/

/-- **C52** In every reachable state of a Whirlpool object `Sum` appends `Size()` bytes to its argument, and `Size` and
`BlockSize` never change. -/
theorem C52_whirlpool : SizeContract impl (fun _ _ => True) := refines.contract fun _ => bytes_length _

/-! ## Padding -/

theorem size_field (n n' : Nat) (h : beBytes 32 (8 * (n % 2 ^ 64)) = beBytes 32 (8 * (n' % 2 ^ 64))) : n % 2 ^ 64 = n' % 2 ^ 64 := by
  have := beBytes_inj h
  rw [show 256 ^ 32 = 2 ^ 256 from rfl, Nat.mod_eq_of_lt (a := 8 * (n % 2 ^ 64)) (by omega),
    Nat.mod_eq_of_lt (a := 8 * (n' % 2 ^ 64)) (by omega)] at this
  omega

/-- **C53** Different messages, of any length, never give the same sequence of blocks. -/
theorem C53_whirlpool_injective (m m' : List U8) (h : blocks (padMod m) = blocks (padMod m')) : m = m' := by
  have hl : ∀ n, (beBytes 32 n).length < 64 := fun n => by rw [beBytes_length]; omega
  refine padWith_inj (by simp [beBytes_length]) (blocks_inj (padWith_length _ _ (hl _)) (padWith_length _ _ (hl _)) h) (hl _) ?_
  intro e h1 h2
  have := size_field _ _ e
  omega

/-- **C53** Conversely the blocks do hold the message: they are the padded message cut in pieces of 64 bytes. -/
theorem C53_whirlpool_blocks (m : List U8) : (blocks (padMod m)).flatten = padMod m ∧ (∀ b ∈ blocks (padMod m), b.length = 64) ∧
    m <+: padMod m := by
  obtain ⟨n, hn⟩ := padWith_length (beBytes 32 (8 * (m.length % 2 ^ 64))) m (by rw [beBytes_length]; omega)
  exact ⟨flatten_blocks n _ hn, fun b hb => blocks_mem_length hb, by
    unfold padMod padWith
    rw [List.append_assoc]
    exact List.prefix_append _ _⟩

theorem collision_whirlpool {τ : Type} (comp : τ → List U8 → τ) (iv : τ) (m m' : List U8) (hm : m.length < 2 ^ 64)
    (hm' : m'.length < 2 ^ 64) (hne : m ≠ m') (he : (blocks (pad m)).foldl comp iv = (blocks (pad m')).foldl comp iv) :
    Collision comp iv (blocks (pad m)) (blocks (pad m')) := by
  refine md_collision (by simp [beBytes_length]) (by rw [beBytes_length]; omega) ?_ (fun h => by rw [h]) hne he
  intro h e
  have := size_field m.length m'.length (by rw [Nat.mod_eq_of_lt hm, Nat.mod_eq_of_lt hm']; exact e)
  omega

/-- **C53** If `New` objects give the same digest for different messages of fewer than 2^64 bytes, then hashing them meets a
collision of the compression function. -/
theorem C53_whirlpool_collision (m m' d : List U8) (hm : m.length < 2 ^ 64) (hm' : m'.length < 2 ^ 64) (hne : m ≠ m')
    (h : run impl [.write m, .sum []] = .ok [.wrote m.length false, .bytes d])
    (h' : run impl [.write m', .sum []] = .ok [.wrote m'.length false, .bytes d]) :
    Collision compress zeroMat (blocks (pad m)) (blocks (pad m')) := by
  have e : whirlpool m = whirlpool m' := by
    rw [C49_stream] at h h'
    simp only [expect, expectFrom, algo, List.nil_append, Res.ok.injEq, List.cons.injEq, Out.bytes.injEq, true_and, and_true] at h h'
    rw [← whirlpoolMod_eq hm, ← whirlpoolMod_eq hm', h, h']
  apply collision_whirlpool _ _ _ _ hm hm' hne
  rw [← toMat_bytes ((blocks (pad m)).foldl _ _), ← toMat_bytes ((blocks (pad m')).foldl _ _)]
  exact congrArg toMat e

/-- With a constant compression function all messages collide, and the theorem finds a collision. -/
example : Collision (fun (_ : Nat) _ => 0) 0 (blocks (pad [1#8])) (blocks (pad [2#8])) := by
  refine collision_whirlpool _ _ _ _ (by decide) (by decide) (by decide) ?_
  decide +kernel

/-! ## The block cipher -/

/-- **C54** For every key, the cipher is a bijection on blocks. -/
theorem C54_cipher (K : Mat) : Function.Bijective (W K) :=
  ⟨Function.LeftInverse.injective (g := decipher K 10) fun a => decipher_cipher K a 10,
    Function.RightInverse.surjective (g := decipher K 10) fun a => cipher_decipher K 10 a⟩

/-- Word-wise exclusive or. -/
def xorWords (a b : List U64) : List U64 := List.zipWith (· ^^^ ·) a b

theorem emb_addKey (a b : Mat) : emb (addKey a b) = xorWords (emb b) (emb a) := by
  rw [emb_eq, emb_eq, emb_eq]
  simp only [row_addKey, xorWords, List.zipWith]

theorem emb_inj {a b : Mat} (h : emb a = emb b) : a = b := by
  have : ∀ i, row a i = row b i := by
    rw [emb_eq, emb_eq] at h
    simp only [List.cons.injEq, and_true] at h
    obtain ⟨h0, h1, h2, h3, h4, h5, h6, h7⟩ := h
    intro i
    match i with
    | 0 => exact h0
    | 1 => exact h1
    | 2 => exact h2
    | 3 => exact h3
    | 4 => exact h4
    | 5 => exact h5
    | 6 => exact h6
    | 7 => exact h7
  apply Mat.ext
  intro i j
  rw [← row_at, ← row_at, this]

theorem addKey_inj {k a b : Mat} (h : addKey k a = addKey k b) : a = b := by
  rw [← addKey_addKey k a, h, addKey_addKey]

/-- **C54** About the code: for every state, every target `y` is the value that the code's `hash` adds to state ⊕ block for
exactly one block. -/
theorem C54_hash (st y : List U64) (hst : st.length = 8) (hy : y.length = 8) (len : U64) (bPos : Nat) :
    ∃! b : List U8, b.length = 64 ∧
      hash ⟨st, len, b, bPos⟩ = .ok ⟨xorWords (xorWords y st) (beWords b), len, b, 0⟩ := by
  obtain ⟨h, rfl⟩ := C50_states st hst
  obtain ⟨z, rfl⟩ := C50_states y hy
  have key : ∀ b : List U8, b.length = 64 →
      (hash ⟨beWords h.bytes, len, b, bPos⟩ = .ok ⟨xorWords (xorWords (beWords z.bytes) (beWords h.bytes)) (beWords b), len, b, 0⟩ ↔
        W h (toMat b) = z) := by
    intro b hb
    rw [C50_compress h len b bPos hb, emb_bytes, emb_bytes, emb_bytes, beWords_eq b hb, ← emb_addKey, ← emb_addKey, compress]
    constructor
    · intro e
      simp only [Res.ok.injEq, Ctx.mk.injEq, and_true] at e
      exact addKey_inj (addKey_inj (emb_inj e))
    · intro e
      rw [e]
  obtain ⟨b, hb⟩ := (C54_cipher h).2 z
  refine ⟨b.bytes, ⟨bytes_length b, (key _ (bytes_length b)).mpr (by rw [toMat_bytes, hb])⟩, ?_⟩
  rintro b' ⟨hl, he⟩
  have := (key b' hl).mp he
  rw [← bytes_toMat b' hl, (C54_cipher h).1 (this.trans hb.symm)]

example : (List.replicate 8 (5 : U64)).length = 8 := rfl

end Whirlpool
