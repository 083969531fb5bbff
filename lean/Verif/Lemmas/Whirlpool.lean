import Verif.Lemmas.WhirlpoolTables

/-! # Whirlpool: the table-driven code computes the matrix description -/
namespace Whirlpool
open BlockHash BlockSpec WhirlpoolSpec

/-! ## Rounds -/

theorem sel_eq (m : Mat) (i t : Fin 8) : sel (emb m) i.val t.val = .ok (row m (i - t) >>> (56 - 8 * t.val) &&& 0xff) := by
  have hi := i.isLt
  have ht := t.isLt
  have h : (if t.val = 0 then i.val else (i.val + 8 - t.val) % 8) = (i - t).val := by
    rw [Fin.sub_def]
    show _ = (8 - t.val + i.val) % 8
    split
    · omega
    · congr 1; omega
  unfold sel
  rw [h, emb_at]
  rfl

theorem idx_eq (w : U64) (t : Fin 8) :
    (BitVec.ofNat 64 (256 * t.val) ||| (w >>> (56 - 8 * t.val) &&& 0xff)).toNat = 256 * t.val + (byteOf w t).toNat := by
  have ht := t.isLt
  rw [byteOf_toNat, BitVec.toNat_or, BitVec.toNat_and, BitVec.toNat_ushiftRight, BitVec.toNat_ofNat, Nat.shiftRight_eq_div_pow]
  rw [show (0xff : U64).toNat = 2 ^ 8 - 1 from rfl, Nat.and_two_pow_sub_one_eq_mod]
  rw [Nat.mod_eq_of_lt (a := 256 * t.val) (by omega)]
  rw [show 256 * t.val = 2 ^ 8 * t.val from rfl]
  exact (Nat.two_pow_add_eq_or_of_lt (Nat.mod_lt _ (by omega)) _).symm

theorem ct_sel (m : Mat) (i t : Fin 8) : (do goIdx ct (BitVec.ofNat 64 (256 * t.val) ||| (← sel (emb m) i.val t.val)).toNat) =
    .ok (ofBytes fun j => gfMul (S (m.at (i - t) t)) (cir (j - t))) := by
  rw [sel_eq, Res.ok_bind, idx_eq, ct_at, row, byteOf_ofBytes]

theorem lookup_eq (m : Mat) (i : Fin 8) :
    lookup (emb m) i.val = .ok (row (mixRows (shiftColumns (subBytes m))) i) := by
  have h0 := ct_sel m i 0
  have h1 := ct_sel m i 1
  have h2 := ct_sel m i 2
  have h3 := ct_sel m i 3
  have h4 := ct_sel m i 4
  have h5 := ct_sel m i 5
  have h6 := ct_sel m i 6
  have h7 := ct_sel m i 7
  rw [sel_eq, Res.ok_bind] at h0 h1 h2 h3 h4 h5 h6 h7
  have z : ∀ x : U64, (BitVec.ofNat 64 (256 * (0 : Fin 8).val) ||| x) = x := fun x => by simp
  rw [z] at h0
  have g0 : goIdx ct ((row m (i - 0) >>> 56 &&& 0xff) : U64).toNat = _ := h0
  have e0 : sel (emb m) i.val 0 = .ok (row m (i - 0) >>> 56 &&& 0xff) := sel_eq m i 0
  have g1 : goIdx ct ((256 : U64) ||| (row m (i - 1) >>> 48 &&& 0xff)).toNat = _ := h1
  have e1 : sel (emb m) i.val 1 = .ok (row m (i - 1) >>> 48 &&& 0xff) := sel_eq m i 1
  have g2 : goIdx ct ((512 : U64) ||| (row m (i - 2) >>> 40 &&& 0xff)).toNat = _ := h2
  have e2 : sel (emb m) i.val 2 = .ok (row m (i - 2) >>> 40 &&& 0xff) := sel_eq m i 2
  have g3 : goIdx ct ((768 : U64) ||| (row m (i - 3) >>> 32 &&& 0xff)).toNat = _ := h3
  have e3 : sel (emb m) i.val 3 = .ok (row m (i - 3) >>> 32 &&& 0xff) := sel_eq m i 3
  have g4 : goIdx ct ((1024 : U64) ||| (row m (i - 4) >>> 24 &&& 0xff)).toNat = _ := h4
  have e4 : sel (emb m) i.val 4 = .ok (row m (i - 4) >>> 24 &&& 0xff) := sel_eq m i 4
  have g5 : goIdx ct ((1280 : U64) ||| (row m (i - 5) >>> 16 &&& 0xff)).toNat = _ := h5
  have e5 : sel (emb m) i.val 5 = .ok (row m (i - 5) >>> 16 &&& 0xff) := sel_eq m i 5
  have g6 : goIdx ct ((1536 : U64) ||| (row m (i - 6) >>> 8 &&& 0xff)).toNat = _ := h6
  have e6 : sel (emb m) i.val 6 = .ok (row m (i - 6) >>> 8 &&& 0xff) := sel_eq m i 6
  have g7 : goIdx ct ((1792 : U64) ||| (row m (i - 7) >>> 0 &&& 0xff)).toNat = _ := h7
  have e7 : sel (emb m) i.val 7 = .ok (row m (i - 7) >>> 0 &&& 0xff) := sel_eq m i 7
  unfold lookup
  rw [e0, e1, e2, e3, e4, e5, e6, e7]
  simp only [Res.ok_bind]
  rw [g0, g1, g2, g3, g4, g5, g6, g7]
  simp only [Res.ok_bind, Res.pure_eq]
  congr 1
  apply ext_bytes
  intro j
  simp only [byteOf_xor, row, byteOf_ofBytes, mixRows, shiftColumns, subBytes, Mat.at_of, xorSum_eq, BitVec.xor_assoc]
  simp

attribute [local irreducible] ct rc row

theorem keyLoop_eq (K : List U64) (v : Fin 8 → U64) (h : ∀ i : Fin 8, lookup K i.val = .ok (v i)) (l : List U64) (hl : l.length = 8) :
    keyLoop K 8 0 l = .ok [v 0, v 1, v 2, v 3, v 4, v 5, v 6, v 7] := by
  have h0 : lookup K 0 = _ := h 0
  have h1 : lookup K 1 = _ := h 1
  have h2 : lookup K 2 = _ := h 2
  have h3 : lookup K 3 = _ := h 3
  have h4 : lookup K 4 = _ := h 4
  have h5 : lookup K 5 = _ := h 5
  have h6 : lookup K 6 = _ := h 6
  have h7 : lookup K 7 = _ := h 7
  match l, hl with
  | [l0, l1, l2, l3, l4, l5, l6, l7], _ =>
    simp [keyLoop, h0, h1, h2, h3, h4, h5, h6, h7, goSet]

theorem stateLoop_eq (st : List U64) (v w : Fin 8 → U64) (h : ∀ i : Fin 8, lookup st i.val = .ok (v i)) (k : List U64)
    (hk : k.length = 8) : stateLoop st 8 0 k [w 0, w 1, w 2, w 3, w 4, w 5, w 6, w 7] =
      .ok ([w 0, w 1, w 2, w 3, w 4, w 5, w 6, w 7],
        [w 0 ^^^ v 0, w 1 ^^^ v 1, w 2 ^^^ v 2, w 3 ^^^ v 3, w 4 ^^^ v 4, w 5 ^^^ v 5, w 6 ^^^ v 6, w 7 ^^^ v 7]) := by
  have h0 : lookup st 0 = _ := h 0
  have h1 : lookup st 1 = _ := h 1
  have h2 : lookup st 2 = _ := h 2
  have h3 : lookup st 3 = _ := h 3
  have h4 : lookup st 4 = _ := h 4
  have h5 : lookup st 5 = _ := h 5
  have h6 : lookup st 6 = _ := h 6
  have h7 : lookup st 7 = _ := h 7
  match k, hk with
  | [l0, l1, l2, l3, l4, l5, l6, l7], _ =>
    simp [stateLoop, h0, h1, h2, h3, h4, h5, h6, h7, goSet, goIdx]

theorem copyLoop_eq (l0 l1 l2 l3 l4 l5 l6 l7 : U64) (k : List U64) (hk : k.length = 8) :
    copyLoop [l0, l1, l2, l3, l4, l5, l6, l7] 8 0 k = .ok [l0, l1, l2, l3, l4, l5, l6, l7] := by
  match k, hk with
  | [m0, m1, m2, m3, m4, m5, m6, m7], _ => simp [copyLoop, goSet, goIdx]

theorem finalLoop_eq (w x y : Fin 8 → U64) :
    finalLoop [w 0, w 1, w 2, w 3, w 4, w 5, w 6, w 7] [x 0, x 1, x 2, x 3, x 4, x 5, x 6, x 7] 8 0
      [y 0, y 1, y 2, y 3, y 4, y 5, y 6, y 7] =
      .ok [y 0 ^^^ (w 0 ^^^ x 0), y 1 ^^^ (w 1 ^^^ x 1), y 2 ^^^ (w 2 ^^^ x 2), y 3 ^^^ (w 3 ^^^ x 3), y 4 ^^^ (w 4 ^^^ x 4),
        y 5 ^^^ (w 5 ^^^ x 5), y 6 ^^^ (w 6 ^^^ x 6), y 7 ^^^ (w 7 ^^^ x 7)] := by
  simp [finalLoop, goSet, goIdx]

theorem goIdx_cons_zero {α} (a : α) (l : List α) : goIdx (a :: l) 0 = .ok a := by simp [goIdx]

theorem goSet_cons_zero {α} (a b : α) (l : List α) : goSet (a :: l) 0 b = .ok (b :: l) := by simp [goSet]

theorem row_at (m : Mat) (i j : Fin 8) : byteOf (row m i) j = m.at i j := by
  unfold row; exact byteOf_ofBytes _ _

theorem emb_length (m : Mat) : (emb m).length = 8 := rfl

theorem row_addKey (k a : Mat) (i : Fin 8) : row (addKey k a) i = row a i ^^^ row k i := by
  apply ext_bytes
  intro j
  rw [byteOf_xor, row_at, row_at, row_at, addKey, Mat.at_of]

theorem row_roundConst_zero (r : Nat) : row (roundConst (r + 1)) 0 = ofBytes fun j => S (BitVec.ofNat 8 (8 * r + j.val)) := by
  apply ext_bytes
  intro j
  rw [row_at, byteOf_ofBytes, roundConst, Mat.at_of]
  simp

theorem row_roundConst_ne (r : Nat) (i : Fin 8) (h : i ≠ 0) : row (roundConst (r + 1)) i = 0#64 := by
  apply ext_bytes
  intro j
  rw [row_at, roundConst, Mat.at_of, if_neg h]
  simp [byteOf]

theorem emb_eq (m : Mat) : emb m = [row m 0, row m 1, row m 2, row m 3, row m 4, row m 5, row m 6, row m 7] := rfl

/-- One round of the code, from any key schedule state `k` and any cipher state `a`. -/
theorem roundLoop_step (k a : Mat) (n r : Nat) (L : List U64) (hr : r < 10) (hL : L.length = 8) :
    roundLoop (n + 1) r (emb k) (emb a) L =
      roundLoop n (r + 1) (emb (roundFn (roundConst (r + 1)) k)) (emb (roundFn (roundFn (roundConst (r + 1)) k) a))
        (emb (roundFn (roundFn (roundConst (r + 1)) k) a)) := by
  conv => lhs; unfold roundLoop
  rw [keyLoop_eq _ _ (lookup_eq k) L hL, Res.ok_bind]
  have hrc := rc_at ⟨r, by omega⟩
  simp only at hrc
  rw [hrc]
  have e : [row (mixRows (shiftColumns (subBytes k))) 0 ^^^ (ofBytes fun j => S (BitVec.ofNat 8 (8 * r + j.val))),
        row (mixRows (shiftColumns (subBytes k))) 1,
        row (mixRows (shiftColumns (subBytes k))) 2, row (mixRows (shiftColumns (subBytes k))) 3,
        row (mixRows (shiftColumns (subBytes k))) 4, row (mixRows (shiftColumns (subBytes k))) 5,
        row (mixRows (shiftColumns (subBytes k))) 6, row (mixRows (shiftColumns (subBytes k))) 7] =
      [row (roundFn (roundConst (r + 1)) k) 0, row (roundFn (roundConst (r + 1)) k) 1, row (roundFn (roundConst (r + 1)) k) 2,
       row (roundFn (roundConst (r + 1)) k) 3, row (roundFn (roundConst (r + 1)) k) 4, row (roundFn (roundConst (r + 1)) k) 5,
       row (roundFn (roundConst (r + 1)) k) 6, row (roundFn (roundConst (r + 1)) k) 7] := by
    simp only [roundFn, row_addKey, row_roundConst_zero]
    rw [row_roundConst_ne r 1 (by decide), row_roundConst_ne r 2 (by decide), row_roundConst_ne r 3 (by decide),
      row_roundConst_ne r 4 (by decide), row_roundConst_ne r 5 (by decide), row_roundConst_ne r 6 (by decide),
      row_roundConst_ne r 7 (by decide)]
    simp only [BitVec.xor_zero]
  rw [goIdx_cons_zero, Res.ok_bind, Res.ok_bind, goSet_cons_zero, Res.ok_bind, e,
    stateLoop_eq _ _ _ (lookup_eq a) _ (emb_length _), Res.ok_bind]
  dsimp only
  rw [copyLoop_eq _ _ _ _ _ _ _ _ _ (emb_length _), Res.ok_bind]
  rw [← emb_eq]
  generalize roundFn (roundConst (r + 1)) k = k'
  have e2 : [row k' 0 ^^^ row (mixRows (shiftColumns (subBytes a))) 0, row k' 1 ^^^ row (mixRows (shiftColumns (subBytes a))) 1,
      row k' 2 ^^^ row (mixRows (shiftColumns (subBytes a))) 2, row k' 3 ^^^ row (mixRows (shiftColumns (subBytes a))) 3,
      row k' 4 ^^^ row (mixRows (shiftColumns (subBytes a))) 4, row k' 5 ^^^ row (mixRows (shiftColumns (subBytes a))) 5,
      row k' 6 ^^^ row (mixRows (shiftColumns (subBytes a))) 6, row k' 7 ^^^ row (mixRows (shiftColumns (subBytes a))) 7] =
      emb (roundFn k' a) := by
    rw [emb_eq]
    simp only [roundFn, row_addKey]
    simp only [BitVec.xor_comm (row k' _)]
  rw [e2]

theorem roundLoop_eq (K a : Mat) : ∀ (n r : Nat) (L : List U64), r + n = 10 → L.length = 8 →
    roundLoop n r (emb (roundKey K r)) (emb (cipher K r a)) L = .ok (emb (cipher K 10 a))
  | 0, r, L, h, _ => by
    have : r = 10 := by omega
    subst this; rfl
  | n + 1, r, L, h, hL => by
    rw [roundLoop_step _ _ _ _ _ (by omega) hL]
    exact roundLoop_eq K a n (r + 1) _ (by omega) rfl

/-! ## Compression -/

theorem wordAt_eq (b : List U8) (hb : b.length = 64) (i : Fin 8) : wordAt b (i.val * 8) = .ok (row (toMat b) i) := by
  have hi := i.isLt
  have g : ∀ k : Fin 8, goIdx b (i.val * 8 + k.val) = .ok ((toMat b).at i k) := by
    intro k
    have hk := k.isLt
    rw [goIdx_lt (by omega), toMat, Mat.at_of, List.getD_eq_getElem?_getD, List.getElem?_eq_getElem (by omega)]
    simp only [Option.getD_some, Nat.mul_comm]
  have g0 : goIdx b (i.val * 8) = _ := g 0
  have g1 : goIdx b (i.val * 8 + 1) = _ := g 1
  have g2 : goIdx b (i.val * 8 + 2) = _ := g 2
  have g3 : goIdx b (i.val * 8 + 3) = _ := g 3
  have g4 : goIdx b (i.val * 8 + 4) = _ := g 4
  have g5 : goIdx b (i.val * 8 + 5) = _ := g 5
  have g6 : goIdx b (i.val * 8 + 6) = _ := g 6
  have g7 : goIdx b (i.val * 8 + 7) = _ := g 7
  unfold wordAt
  rw [g0, g1, g2, g3, g4, g5, g6, g7]
  unfold row
  rfl

theorem initLoop_eq (c : Ctx U64) (v w : Fin 8 → U64) (hv : ∀ i : Fin 8, wordAt c.block (i.val * 8) = .ok (v i))
    (hc : c.state = [w 0, w 1, w 2, w 3, w 4, w 5, w 6, w 7]) :
    initLoop c 8 0 zero8 zero8 zero8 = .ok ([v 0, v 1, v 2, v 3, v 4, v 5, v 6, v 7], [w 0, w 1, w 2, w 3, w 4, w 5, w 6, w 7],
      [v 0 ^^^ w 0, v 1 ^^^ w 1, v 2 ^^^ w 2, v 3 ^^^ w 3, v 4 ^^^ w 4, v 5 ^^^ w 5, v 6 ^^^ w 6, v 7 ^^^ w 7]) := by
  have h0 : wordAt c.block (0 * 8) = _ := hv 0
  have h1 : wordAt c.block (1 * 8) = _ := hv 1
  have h2 : wordAt c.block (2 * 8) = _ := hv 2
  have h3 : wordAt c.block (3 * 8) = _ := hv 3
  have h4 : wordAt c.block (4 * 8) = _ := hv 4
  have h5 : wordAt c.block (5 * 8) = _ := hv 5
  have h6 : wordAt c.block (6 * 8) = _ := hv 6
  have h7 : wordAt c.block (7 * 8) = _ := hv 7
  simp only [Nat.zero_mul, Nat.one_mul, Nat.reduceMul] at h0 h1 h2 h3 h4 h5 h6 h7
  simp [initLoop, h0, h1, h2, h3, h4, h5, h6, h7, goSet, goIdx, hc, zero8, List.replicate]

/-- The code's `hash` is the compression function. -/
theorem hash_eq : Compresses hash emb compress := by
  intro t c hst hb
  unfold hash
  rw [initLoop_eq c (row (toMat c.block)) (row t) (wordAt_eq _ hb) hst, Res.ok_bind]
  dsimp only
  have e0 : [row (toMat c.block) 0 ^^^ row t 0, row (toMat c.block) 1 ^^^ row t 1, row (toMat c.block) 2 ^^^ row t 2,
      row (toMat c.block) 3 ^^^ row t 3, row (toMat c.block) 4 ^^^ row t 4, row (toMat c.block) 5 ^^^ row t 5,
      row (toMat c.block) 6 ^^^ row t 6, row (toMat c.block) 7 ^^^ row t 7] = emb (cipher t 0 (toMat c.block)) := by
    rw [emb_eq, cipher]
    simp only [row_addKey]
  have hr := roundLoop_eq t (toMat c.block) 10 0 zero8 rfl rfl
  rw [e0, ← emb_eq, show rounds = 10 from rfl]
  rw [show roundKey t 0 = t from rfl] at hr
  rw [hr, Res.ok_bind, hst, emb_eq (cipher _ _ _), emb_eq t, finalLoop_eq, Res.ok_bind, Res.pure_eq]
  congr 2
  rw [emb_eq, compress, W]
  simp only [row_addKey]
  have ac : ∀ a b d : U64, a ^^^ (b ^^^ d) = b ^^^ a ^^^ d := fun a b d => by
    rw [← BitVec.xor_assoc, BitVec.xor_comm a b]
  simp only [ac]

/-! ## Reset and Sum -/

theorem row_zeroMat (i : Fin 8) : row zeroMat i = 0#64 := by
  apply ext_bytes
  intro j
  rw [row_at, zeroMat, Mat.at_of]
  simp [byteOf]

theorem emb_zeroMat : emb zeroMat = zero8 := by
  rw [emb_eq]; simp only [row_zeroMat]; rfl

theorem reset_eq (c : Ctx U64) (t : Mat) (h : c.state = emb t) :
    reset c = .ok { c with state := emb zeroMat, len := 0, bPos := 0 } := by
  rw [emb_zeroMat]
  simp only [reset, resetLoop, h, emb, goSet, Res.ok_bind, Res.pure_eq, Nat.zero_add, Nat.reduceAdd, List.length_cons,
    List.length_nil, List.set]
  rfl

theorem beBytes_size (n : Nat) : beBytes 32 (8 * (n % 2 ^ 64)) = List.replicate 23 0#8 ++
    [(BitVec.ofNat 64 n >>> 61).setWidth 8, (BitVec.ofNat 64 n >>> 53).setWidth 8, (BitVec.ofNat 64 n >>> 45).setWidth 8,
     (BitVec.ofNat 64 n >>> 37).setWidth 8, (BitVec.ofNat 64 n >>> 29).setWidth 8, (BitVec.ofNat 64 n >>> 21).setWidth 8,
     (BitVec.ofNat 64 n >>> 13).setWidth 8, (BitVec.ofNat 64 n >>> 5).setWidth 8, (BitVec.ofNat 64 n <<< 3).setWidth 8] := by
  have key : ∀ k, leBytes k 0 = List.replicate k 0#8 := by
    intro k
    induction k with
    | zero => rfl
    | succ k ih => rw [leBytes, Nat.zero_div, ih, List.replicate_succ]
  have e : ∀ v, v < 2 ^ 72 → leBytes 32 v = [BitVec.ofNat 8 v, BitVec.ofNat 8 (v / 256), BitVec.ofNat 8 (v / 256 / 256),
      BitVec.ofNat 8 (v / 256 / 256 / 256), BitVec.ofNat 8 (v / 256 / 256 / 256 / 256),
      BitVec.ofNat 8 (v / 256 / 256 / 256 / 256 / 256), BitVec.ofNat 8 (v / 256 / 256 / 256 / 256 / 256 / 256),
      BitVec.ofNat 8 (v / 256 / 256 / 256 / 256 / 256 / 256 / 256),
      BitVec.ofNat 8 (v / 256 / 256 / 256 / 256 / 256 / 256 / 256 / 256)] ++ leBytes 23 0 := by
    intro v hv
    have h0 : v / 256 / 256 / 256 / 256 / 256 / 256 / 256 / 256 / 256 = 0 := by omega
    rw [← h0]
    rfl
  rw [beBytes, e _ (by omega), key, List.reverse_append, List.reverse_replicate]
  congr 1
  simp only [List.reverse_cons, List.reverse_nil, List.nil_append, List.cons_append, List.cons.injEq, and_true]
  refine ⟨?_, ?_, ?_, ?_, ?_, ?_, ?_, ?_, ?_⟩ <;>
    (apply BitVec.eq_of_toNat_eq
     simp only [BitVec.toNat_setWidth, BitVec.toNat_ushiftRight, BitVec.toNat_shiftLeft, BitVec.toNat_ofNat,
       Nat.shiftRight_eq_div_pow, Nat.shiftLeft_eq]
     omega)

theorem putSize_eq (A B : List U8) (n : Nat) (hA : A.length = 55) (hB : B.length = 9) :
    putSize (A ++ B) (BitVec.ofNat 64 n) = .ok (A ++
    [(BitVec.ofNat 64 n >>> 61).setWidth 8, (BitVec.ofNat 64 n >>> 53).setWidth 8, (BitVec.ofNat 64 n >>> 45).setWidth 8,
     (BitVec.ofNat 64 n >>> 37).setWidth 8, (BitVec.ofNat 64 n >>> 29).setWidth 8, (BitVec.ofNat 64 n >>> 21).setWidth 8,
     (BitVec.ofNat 64 n >>> 13).setWidth 8, (BitVec.ofNat 64 n >>> 5).setWidth 8, (BitVec.ofNat 64 n <<< 3).setWidth 8]) := by
  match B, hB with
  | [b0, b1, b2, b3, b4, b5, b6, b7, b8], _ =>
    unfold putSize blockSizeBytes
    rw [show 64 - 1 = A.length + 8 by omega, show 64 - 2 = A.length + 7 by omega, show 64 - 3 = A.length + 6 by omega,
      show 64 - 4 = A.length + 5 by omega, show 64 - 5 = A.length + 4 by omega, show 64 - 6 = A.length + 3 by omega,
      show 64 - 7 = A.length + 2 by omega, show 64 - 8 = A.length + 1 by omega, show 64 - 9 = A.length + 0 by omega]
    simp only [goSet_append, List.length_cons, List.length_nil, List.set, Nat.reduceAdd, Nat.reduceLT, Res.ok_bind]

theorem bePut64_row (m : Mat) (i : Fin 8) : bePut64 (row m i) = m[i].toList := by
  have h : bePut64 (row m i) = [byteOf (row m i) 0, byteOf (row m i) 1, byteOf (row m i) 2, byteOf (row m i) 3,
    byteOf (row m i) 4, byteOf (row m i) 5, byteOf (row m i) 6, byteOf (row m i) 7] := by
    rfl
  rw [h]
  simp only [row_at]
  have hl : m[i].toList.length = 8 := by simp
  apply List.ext_getElem
  · simp
  · intro k h1 h2
    have : k < 8 := by simpa using h1
    match k, this with
    | 0, _ => rfl
    | 1, _ => rfl
    | 2, _ => rfl
    | 3, _ => rfl
    | 4, _ => rfl
    | 5, _ => rfl
    | 6, _ => rfl
    | 7, _ => rfl

theorem toList8 {α} (m : Vector α 8) : m.toList = [m[0], m[1], m[2], m[3], m[4], m[5], m[6], m[7]] := by
  apply List.ext_getElem
  · simp
  · intro k h1 h2
    have : k < 8 := by simpa using h1
    match k, this with
    | 0, _ => rfl
    | 1, _ => rfl
    | 2, _ => rfl
    | 3, _ => rfl
    | 4, _ => rfl
    | 5, _ => rfl
    | 6, _ => rfl
    | 7, _ => rfl

theorem outLoop_eq (m : Mat) : outLoop (emb m) 8 0 [] = .ok m.bytes := by
  have h0 : goIdx (emb m) 0 = _ := emb_at m 0
  have h1 : goIdx (emb m) 1 = _ := emb_at m 1
  have h2 : goIdx (emb m) 2 = _ := emb_at m 2
  have h3 : goIdx (emb m) 3 = _ := emb_at m 3
  have h4 : goIdx (emb m) 4 = _ := emb_at m 4
  have h5 : goIdx (emb m) 5 = _ := emb_at m 5
  have h6 : goIdx (emb m) 6 = _ := emb_at m 6
  have h7 : goIdx (emb m) 7 = _ := emb_at m 7
  simp only [outLoop, h0, h1, h2, h3, h4, h5, h6, h7, Res.ok_bind, Nat.zero_add, Nat.reduceAdd, bePut64_row]
  rw [Mat.bytes, toList8 m]
  simp only [List.flatMap_cons, List.flatMap_nil, List.nil_append, List.append_nil, List.append_assoc]
  rfl

theorem sum_eq (c : Ctx U64) (log inp : List U8) (h : Rel emb compress zeroMat c log) :
    sum c inp = .ok (c, inp ++ whirlpoolMod log) := by
  obtain ⟨hh, hl⟩ := h
  have hsz : (beBytes 32 (8 * (log.length % 2 ^ 64))).length = 32 := beBytes_length _ _
  have hbl : c.block.length = 64 := by obtain ⟨bs, rest, _, _, _, _, h, _⟩ := hh; exact h
  have hpos : c.bPos < 64 := by obtain ⟨bs, rest, _, _, _, h, _⟩ := hh; exact h
  have hset : (c.block.set c.bPos 0x80#8).take (c.bPos + 1) = c.block.take c.bPos ++ [0x80#8] := by
    rw [List.take_add_one, List.take_set_of_le (Nat.le_refl _)]
    simp [hbl, hpos]
  unfold sum
  simp only
  rw [goSet_lt (by omega), Res.ok_bind]
  unfold closeBlock sizeSpace blockSizeBytes
  rw [whirlpoolMod, padMod]
  by_cases hov : c.bPos + 1 > 32
  · obtain ⟨t, hst, hfold⟩ := foldl_over (beBytes 32 (8 * (log.length % 2 ^ 64))) hh (by omega) (by omega)
    rw [hfold]
    dsimp only
    rw [if_pos (by omega), zeroIn_eq (by simp; omega) (Nat.le_refl _), Res.ok_bind, hset, List.drop_length, List.append_nil,
      List.length_set, hbl, List.append_assoc, List.singleton_append,
      hash_eq t { c with block := c.block.take c.bPos ++ 0x80#8 :: List.replicate (64 - (c.bPos + 1)) 0#8, bPos := c.bPos + 1 }
        hst (by simp; omega), Res.ok_bind]
    dsimp only
    rw [zeroIn_eq (by omega) (by simp; omega), Res.ok_bind]
    rw [hl, putSize_eq _ _ _ (by simp) (by simp; omega), Res.ok_bind]
    simp only [Nat.sub_zero, List.take_zero, List.nil_append]
    rw [show (64 - 9 : Nat) = 32 + 23 from rfl, ← List.replicate_append_replicate, List.append_assoc, ← beBytes_size]
    rw [hash_eq (compress t (c.block.take c.bPos ++ 0x80#8 :: List.replicate (63 - c.bPos) 0#8)) _
      (by dsimp only; rw [show 63 - c.bPos = 64 - (c.bPos + 1) by omega]) (by rw [List.length_append, hsz, List.length_replicate]), Res.ok_bind]
    dsimp only
    rw [outLoop_eq, Res.ok_bind, hsz]
    rfl
  · obtain ⟨t, hst, hfold⟩ := foldl_fit (beBytes 32 (8 * (log.length % 2 ^ 64))) hh (by omega)
    rw [hfold]
    dsimp only
    rw [if_neg (by omega), Res.ok_bind]
    dsimp only
    rw [zeroIn_eq (by omega) (by simp; omega), Res.ok_bind, hset]
    rw [hl, putSize_eq _ _ _ (by simp; omega) (by simp; omega), Res.ok_bind]
    rw [show 64 - 9 - (c.bPos + 1) = (64 - (c.bPos + 1 + 32)) + 23 by omega, ← List.replicate_append_replicate]
    rw [← List.append_assoc (_ ++ [_]), List.append_assoc _ (List.replicate 23 0#8), ← beBytes_size]
    rw [hash_eq t { c with len := BitVec.ofNat 64 log.length, bPos := c.bPos + 1, block := (c.block.take c.bPos ++ [0x80#8] ++
      List.replicate (64 - (c.bPos + 1 + 32)) 0#8 ++ beBytes 32 (8 * (log.length % 2 ^ 64))) } hst (by
        dsimp only; simp only [List.length_append, hsz, List.length_replicate, List.length_take, List.length_cons, List.length_nil]; omega), Res.ok_bind]
    dsimp only
    rw [outLoop_eq, Res.ok_bind, hsz]
    simp only [Res.pure_eq, List.append_assoc, List.singleton_append, List.cons_append, List.nil_append]

/-! ## Refinement -/

theorem rel_init (c : Ctx U64) (hb : c.block.length = 64) :
    Rel emb compress zeroMat { c with state := emb zeroMat, len := 0, bPos := 0 } [] :=
  ⟨⟨[], [], rfl, by simp, rfl, by show 0 < 64; omega, hb, rfl, rfl⟩, rfl⟩

theorem refines : HashSpec.Refines impl algo (fun _ _ => True) (Rel emb compress zeroMat) where
  new := ⟨_, reset_eq ⟨zero8, 0#64, List.replicate 64 0#8, 0⟩ zeroMat emb_zeroMat.symm, rel_init _ (by simp)⟩
  write := fun s log p h _ => write_rel hash_eq zeroMat s log p h
  sum := fun s log inp h => ⟨s, sum_eq s log inp h, h⟩
  sumN := fun _ _ _ => rfl
  reset := fun s log h => by
    obtain ⟨⟨bs, rest, _, _, _, _, hb, _, hst⟩, _⟩ := h
    exact ⟨_, reset_eq s _ hst, rel_init s hb⟩
  size := fun _ _ _ => rfl
  blockSize := fun _ _ _ => rfl

end Whirlpool
