import Verif.Lemmas.Fletcher
import Verif.Lemmas.Luhn
import Mathlib.Data.Nat.ModEq
import Mathlib.Tactic.NormNum

/-! # Properties of the `checksum` packages (C34-C45) -/
namespace Checksum
open ChecksumSpec HashSpec GoHash

/-! ## BCC -/

theorem bcc_update (p : List U8) : ∀ d : U8, Bcc.update d p = d ^^^ xorAll p := by
  induction p with
  | nil => intro d; simp [Bcc.update, xorAll]
  | cons b t ih =>
    intro d
    have := ih (d ^^^ b)
    simp only [Bcc.update, List.foldl_cons] at this ⊢
    rw [this, xorAll, BitVec.xor_assoc]

theorem xorAll_append (p q : List U8) : xorAll (p ++ q) = xorAll p ^^^ xorAll q := by
  induction p with
  | nil => simp [xorAll]
  | cons b t ih => simp [xorAll, ih, BitVec.xor_assoc]

theorem bcc_refines : Refines Bcc.impl bcc (fun _ _ => True) (fun d log => d = xorAll log) where
  new := ⟨0#8, rfl, rfl⟩
  write s log p h _ := ⟨_, rfl, by rw [bcc_update, h, xorAll_append]⟩
  sum s log inp h := ⟨s, by subst h; rfl, h⟩
  sumN s log h := by subst h; rfl
  reset s log h := ⟨0#8, rfl, rfl⟩
  size _ _ _ := rfl
  blockSize _ _ _ := rfl

/-- **C34** Every history on a BCC object gives exactly the results prescribed for "XOR of all bytes written since the
last Reset". -/
theorem C34_bcc_stream (ops : List Op) : run Bcc.impl ops = .ok (expect bcc ops) :=
  bcc_refines.run ops (writesOk_true _ _)

example : run Bcc.impl [.write [1#8, 2#8], .sum [9#8], .write [7#8], .sumN, .reset, .write [5#8], .sumN] =
    .ok [.wrote 2 false, .bytes [9#8, 3#8], .wrote 1 false, .num 4, .unit, .wrote 1 false, .num 5] := by decide

/-- **C35** Replacing one byte by a different one changes the BCC. -/
theorem C35_bcc_detects (l r : List U8) (x y : U8) (h : x ≠ y) :
    run Bcc.impl [.write (l ++ x :: r), .sumN] ≠ run Bcc.impl [.write (l ++ y :: r), .sumN] := by
  rw [C34_bcc_stream, C34_bcc_stream]
  simp only [expect, expectFrom, bcc, List.nil_append, xorAll_append, xorAll, ne_eq, Res.ok.injEq, List.cons.injEq,
    Out.num.injEq, and_true, not_and]
  intro _ e
  have e := BitVec.eq_of_toNat_eq e
  rw [BitVec.xor_right_inj, BitVec.xor_left_inj] at e
  exact h e

example : (3#8 : U8) ≠ 4#8 := by decide

/-- **C35** Permuting the bytes (in any chunking) does not change the BCC. -/
theorem C35_bcc_order (p q : List U8) (h : p.Perm q) :
    run Bcc.impl [.write p, .sumN] = run Bcc.impl [.write q, .sumN] := by
  have e : xorAll p = xorAll q := by
    induction h with
    | nil => rfl
    | cons x _ ih => simp [xorAll, ih]
    | swap x y l => simp only [xorAll, ← BitVec.xor_assoc]; rw [BitVec.xor_comm y x]
    | trans _ _ ih1 ih2 => exact ih1.trans ih2
  rw [C34_bcc_stream, C34_bcc_stream]
  simp [expect, expectFrom, bcc, e, h.length_eq]

example : [1#8, 2#8, 3#8].Perm [3#8, 2#8, (1#8 : U8)] := by decide

/-! ## LRC -/

theorem lrc_fold (p : List U8) : ∀ d : U8, p.foldl (fun dig b => dig + b) d = d + BitVec.ofNat 8 (byteSum p) := by
  induction p with
  | nil => intro d; simp [byteSum]
  | cons b t ih =>
    intro d
    rw [List.foldl_cons, ih]
    apply BitVec.eq_of_toNat_eq
    simp [byteSum, Nat.add_assoc]

theorem lrc_update (d : U8) (p : List U8) : Lrc.update d p = -(d + BitVec.ofNat 8 (byteSum p)) := by
  rw [Lrc.update, lrc_fold, BitVec.neg_eq_not_add]

theorem lrc_ofNat (n : Nat) : BitVec.ofNat 8 (256 - n % 256) = -(BitVec.ofNat 8 n) := by
  apply BitVec.eq_of_toNat_eq
  simp [BitVec.toNat_neg]

/-- **C36** After any history, `Reset`, `Write(p)`, `Sum8` the result plus the sum of the bytes of `p` is 0 mod 256. -/
theorem C36_lrc_single (ops : List Op) (p : List U8) : ∃ outs n,
    run Lrc.impl (ops ++ [.reset, .write p, .sumN]) = .ok (outs ++ [.unit, .wrote p.length false, .num n]) ∧
    n < 256 ∧ (n + byteSum p) % 256 = 0 := by
  have hok : ∀ (ops : List Op) (s : U8), ∃ s' o, runFrom Lrc.impl s ops = .ok (s', o) := by
    intro ops
    induction ops with
    | nil => intro s; exact ⟨s, [], rfl⟩
    | cons op ops ih =>
      intro s
      cases op with
      | write p => obtain ⟨s', o, h⟩ := ih (Lrc.update s p); exact ⟨s', _, by simp [runFrom, step, Lrc.impl] at h ⊢; rw [h]; rfl⟩
      | sum p => obtain ⟨s', o, h⟩ := ih s; exact ⟨s', _, by simp [runFrom, step, Lrc.impl] at h ⊢; rw [h]; rfl⟩
      | sumN => obtain ⟨s', o, h⟩ := ih s; exact ⟨s', _, by simp [runFrom, step, Lrc.impl] at h ⊢; rw [h]; rfl⟩
      | reset => obtain ⟨s', o, h⟩ := ih 0#8; exact ⟨s', _, by simp [runFrom, step, Lrc.impl] at h ⊢; rw [h]; rfl⟩
      | size => obtain ⟨s', o, h⟩ := ih s; exact ⟨s', _, by simp [runFrom, step, Lrc.impl] at h ⊢; rw [h]; rfl⟩
      | blockSize => obtain ⟨s', o, h⟩ := ih s; exact ⟨s', _, by simp [runFrom, step, Lrc.impl] at h ⊢; rw [h]; rfl⟩
  obtain ⟨s', o, h⟩ := hok ops 0#8
  have hrun : run Lrc.impl ops = .ok o := by
    simp only [run]
    show (Res.ok 0#8 >>= _) = _
    simp only [Res.ok_bind, h]; rfl
  refine ⟨o, (Lrc.update 0#8 p).toNat, ?_, BitVec.isLt _, ?_⟩
  · rw [run_reset Lrc.impl (fun _ => rfl) ops [.write p, .sumN] o hrun]; rfl
  · rw [lrc_update]
    simp only [BitVec.toNat_neg, BitVec.toNat_add, BitVec.toNat_ofNat]
    omega

example : run Lrc.impl [.write [3#8], .reset, .write [1#8, 2#8], .sumN] =
    .ok [.wrote 1 false, .unit, .wrote 2 false, .num 253] := by decide

/-- **C37** (negation of the claim) The streaming contract is false of LRC: splitting a Write changes the result. -/
theorem C37_lrc_not_streaming :
    ¬ (∀ ops : List Op, run Lrc.impl ops = .ok (expect lrc ops)) ∧
    ¬ (∀ p q : List U8, (do let o ← run Lrc.impl [.write (p ++ q), .sumN]; goIdx o 1) =
        (do let o ← run Lrc.impl [.write p, .write q, .sumN]; goIdx o 2)) := by
  constructor
  · intro h
    exact absurd (h [.write [1#8], .write [2#8], .sumN]) (by decide)
  · intro h
    exact absurd (h [1#8] [2#8]) (by decide)

/-- **C37** (partial) Splitting one Write in two leaves the LRC unchanged exactly when the byte sum of the first part is a
multiple of 128. Missing for the full claim: it should hold for every split. -/
theorem C37_lrc_split_iff_partial (p q : List U8) :
    (do let o ← run Lrc.impl [.write (p ++ q), .sumN]; goIdx o 1) =
      (do let o ← run Lrc.impl [.write p, .write q, .sumN]; goIdx o 2) ↔ byteSum p % 128 = 0 := by
  show Res.ok (Out.num (Lrc.update 0#8 (p ++ q)).toNat) = Res.ok (Out.num (Lrc.update (Lrc.update 0#8 p) q).toNat) ↔ _
  have : byteSum (p ++ q) = byteSum p + byteSum q := by simp [byteSum]
  simp only [Res.ok.injEq, Out.num.injEq, lrc_update, this, BitVec.toNat_neg, BitVec.toNat_add, BitVec.toNat_ofNat]
  omega

example : byteSum [100#8, 28#8] % 128 = 0 ∧ byteSum [1#8] % 128 ≠ 0 := by decide

theorem lrc_refines : Refines Lrc.impl lrc (fun log _ => log = [])
    (fun d log => d = BitVec.ofNat 8 (256 - byteSum log % 256)) where
  new := ⟨0#8, rfl, by decide⟩
  write s log p h hw := ⟨_, rfl, by
    subst hw
    rw [lrc_update, h, lrc_ofNat, lrc_ofNat, List.nil_append, show byteSum [] = 0 from rfl]; simp⟩
  sum s log inp h := ⟨s, by subst h; rfl, h⟩
  sumN s log h := by subst h; simp [Lrc.impl, lrc]
  reset s log h := ⟨0#8, rfl, by decide⟩
  size _ _ _ := rfl
  blockSize _ _ _ := rfl

/-- **C37** (partial) Histories in which nothing non-empty precedes a Write since New/Reset behave as specified.
Missing for the full claim: histories with two or more non-empty Writes between resets (false, see above). -/
theorem C37_lrc_stream_partial (ops : List Op) (h : writesOk (fun log _ => log = []) [] ops) :
    run Lrc.impl ops = .ok (expect lrc ops) := lrc_refines.run ops h

example : writesOk (fun log _ => log = [])  [] [.write [], .write [1#8, 2#8], .sumN, .sum [], .reset, .write [4#8]] :=
  ⟨rfl, rfl, rfl, trivial⟩

/-! ## Fletcher -/

theorem fletcher_eq_adv (k : Nat) (ws : List Nat) :
    fletcher k ws = (adv (256 ^ k - 1) 0 0 ws).2 * 256 ^ k + (adv (256 ^ k - 1) 0 0 ws).1 := by
  simp [fletcher, adv]

theorem sum16_toNat (d : Fletcher.Digest16) : (Fletcher.sum16 d).toNat = d.b.toNat * 256 + d.a.toNat := by
  have ha := d.a.isLt
  have hb := d.b.isLt
  simp only [Fletcher.sum16, BitVec.toNat_or, BitVec.toNat_shiftLeft, BitVec.toNat_setWidth]
  rw [Nat.mod_eq_of_lt (a := d.a.toNat) (by omega), Nat.mod_eq_of_lt (a := d.b.toNat) (by omega),
    Nat.mod_eq_of_lt (by rw [Nat.shiftLeft_eq]; omega), Nat.or_comm, Fletcher.or_shift_toNat _ _ _ ha]
  omega

theorem sum32_toNat (d : Fletcher.Digest32) : (Fletcher.sum32 d).toNat = d.b.toNat * 65536 + d.a.toNat := by
  have ha := d.a.isLt
  have hb := d.b.isLt
  simp only [Fletcher.sum32, BitVec.toNat_or, BitVec.toNat_shiftLeft, BitVec.toNat_setWidth]
  rw [Nat.mod_eq_of_lt (a := d.a.toNat) (by omega), Nat.mod_eq_of_lt (a := d.b.toNat) (by omega),
    Nat.mod_eq_of_lt (by rw [Nat.shiftLeft_eq]; omega), Nat.or_comm, Fletcher.or_shift_toNat _ _ _ ha]
  omega

theorem sum64_toNat (d : Fletcher.Digest64) : (Fletcher.sum64 d).toNat = d.b.toNat * 4294967296 + d.a.toNat := by
  have ha := d.a.isLt
  have hb := d.b.isLt
  simp only [Fletcher.sum64, BitVec.toNat_or, BitVec.toNat_shiftLeft, BitVec.toNat_setWidth]
  rw [Nat.mod_eq_of_lt (a := d.a.toNat) (by omega), Nat.mod_eq_of_lt (a := d.b.toNat) (by omega),
    Nat.mod_eq_of_lt (by rw [Nat.shiftLeft_eq]; omega), Nat.or_comm, Fletcher.or_shift_toNat _ _ _ ha]
  omega

/-- What the interface calls `Sum`: the input followed by the big-endian bytes of `SumN`, the receiver unchanged. -/
def SumContract {σ : Type} (I : Impl σ) : Prop := ∀ s inp, ∃ n, I.sumN s = some n ∧ n < 256 ^ I.size s ∧
  I.sum s inp = .ok (s, inp ++ beBytes (I.size s) n)

theorem byte_eq_of {x : U8} {n : Nat} (h : n % 256 = x.toNat) : x = BitVec.ofNat 8 n := by
  apply BitVec.eq_of_toNat_eq; simp; omega

/-- **C42** For every checksum and every state, `Sum(in)` is `in` followed by the `Size()` big-endian bytes of
`Sum8/16/32/64`, and the state is unchanged. -/
theorem C42_sum_is_bigendian : SumContract Bcc.impl ∧ SumContract Lrc.impl ∧ SumContract Fletcher.impl16 ∧
    SumContract Fletcher.impl32 ∧ SumContract Fletcher.impl64 := by
  refine ⟨?_, ?_, ?_, ?_, ?_⟩
  · intro s inp
    refine ⟨_, rfl, s.isLt, ?_⟩
    have : beBytes 1 s.toNat = [s] := by simp [beBytes]
    show Res.ok (s, inp ++ [s]) = Res.ok (s, inp ++ beBytes 1 s.toNat)
    rw [this]
  · intro s inp
    refine ⟨_, rfl, s.isLt, ?_⟩
    have : beBytes 1 s.toNat = [s] := by simp [beBytes]
    show Res.ok (s, inp ++ [s]) = Res.ok (s, inp ++ beBytes 1 s.toNat)
    rw [this]
  · intro s inp
    refine ⟨_, rfl, (Fletcher.sum16 s).isLt, ?_⟩
    have ha := s.a.isLt
    have hb := s.b.isLt
    show Res.ok (s, inp ++ [s.b, s.a]) = Res.ok (s, inp ++ beBytes 2 (Fletcher.sum16 s).toNat)
    have : beBytes 2 (Fletcher.sum16 s).toNat = [s.b, s.a] := by
      rw [sum16_toNat]
      simp only [beBytes, List.range, List.range.loop, List.map, List.cons.injEq, and_true]
      exact ⟨(byte_eq_of (by omega)).symm, (byte_eq_of (by omega)).symm⟩
    rw [this]
  · intro s inp
    refine ⟨_, rfl, (Fletcher.sum32 s).isLt, ?_⟩
    have ha := s.a.isLt
    have hb := s.b.isLt
    show Res.ok (s, inp ++ [_, _, _, _]) = Res.ok (s, inp ++ beBytes 4 (Fletcher.sum32 s).toNat)
    have : beBytes 4 (Fletcher.sum32 s).toNat =
        [(s.b >>> 8).setWidth 8, s.b.setWidth 8, (s.a >>> 8).setWidth 8, s.a.setWidth 8] := by
      rw [sum32_toNat]
      simp only [beBytes, List.range, List.range.loop, List.map, List.cons.injEq, and_true]
      refine ⟨(byte_eq_of ?_).symm, (byte_eq_of ?_).symm, (byte_eq_of ?_).symm, (byte_eq_of ?_).symm⟩ <;>
        simp only [BitVec.toNat_setWidth, BitVec.toNat_ushiftRight, Nat.shiftRight_eq_div_pow] <;> omega
    rw [this]
  · intro s inp
    refine ⟨_, rfl, (Fletcher.sum64 s).isLt, ?_⟩
    have ha := s.a.isLt
    have hb := s.b.isLt
    show Res.ok (s, inp ++ [_, _, _, _, _, _, _, _]) = Res.ok (s, inp ++ beBytes 8 (Fletcher.sum64 s).toNat)
    have : beBytes 8 (Fletcher.sum64 s).toNat =
        [(s.b >>> 24).setWidth 8, (s.b >>> 16).setWidth 8, (s.b >>> 8).setWidth 8, s.b.setWidth 8,
         (s.a >>> 24).setWidth 8, (s.a >>> 16).setWidth 8, (s.a >>> 8).setWidth 8, s.a.setWidth 8] := by
      rw [sum64_toNat]
      simp only [beBytes, List.range, List.range.loop, List.map, List.cons.injEq, and_true]
      refine ⟨(byte_eq_of ?_).symm, (byte_eq_of ?_).symm, (byte_eq_of ?_).symm, (byte_eq_of ?_).symm,
        (byte_eq_of ?_).symm, (byte_eq_of ?_).symm, (byte_eq_of ?_).symm, (byte_eq_of ?_).symm⟩ <;>
        simp only [BitVec.toNat_setWidth, BitVec.toNat_ushiftRight, Nat.shiftRight_eq_div_pow] <;> omega
    rw [this]

example : Fletcher.impl32.sum ⟨0x1234#16, 0xabcd#16⟩ [7#8] =
    .ok (⟨0x1234#16, 0xabcd#16⟩, [7#8, 0xab#8, 0xcd#8, 0x12#8, 0x34#8]) := by decide

/-- **C42** For every checksum, a history after `Reset` gives the results it gives on a new object. -/
theorem C42_reset_is_new (ops ops' : List Op) (outs : List Out) :
    (run Bcc.impl ops = .ok outs →
      run Bcc.impl (ops ++ .reset :: ops') = (run Bcc.impl ops' >>= fun o => .ok (outs ++ .unit :: o))) ∧
    (run Lrc.impl ops = .ok outs →
      run Lrc.impl (ops ++ .reset :: ops') = (run Lrc.impl ops' >>= fun o => .ok (outs ++ .unit :: o))) ∧
    (run Fletcher.impl16 ops = .ok outs →
      run Fletcher.impl16 (ops ++ .reset :: ops') = (run Fletcher.impl16 ops' >>= fun o => .ok (outs ++ .unit :: o))) ∧
    (run Fletcher.impl32 ops = .ok outs →
      run Fletcher.impl32 (ops ++ .reset :: ops') = (run Fletcher.impl32 ops' >>= fun o => .ok (outs ++ .unit :: o))) ∧
    (run Fletcher.impl64 ops = .ok outs →
      run Fletcher.impl64 (ops ++ .reset :: ops') = (run Fletcher.impl64 ops' >>= fun o => .ok (outs ++ .unit :: o))) :=
  ⟨run_reset _ (fun _ => rfl) _ _ _, run_reset _ (fun _ => rfl) _ _ _, run_reset _ (fun _ => rfl) _ _ _,
   run_reset _ (fun _ => rfl) _ _ _, run_reset _ (fun _ => rfl) _ _ _⟩

example : ∃ outs, run Fletcher.impl64 [.write [1#8, 2#8, 3#8], .sumN] =
    .ok outs := ⟨[.wrote 3 false, .num 0x0003020100030201], by decide +kernel⟩

theorem contract_digest {σ : Type} {I : Impl σ} (h : SumContract I) {s : σ} {n : Nat} (hn : I.sumN s = some n)
    (inp : List U8) : I.sum s inp = .ok (s, inp ++ beBytes (I.size s) n) := by
  obtain ⟨m, hm, _, e⟩ := h s inp
  rw [hn] at hm; cases hm
  exact e

theorem sumN16 {d : Fletcher.Digest16} {ws : List Nat} (h : Fletcher.R16 d ws) :
    Fletcher.impl16.sumN d = some (fletcher 1 ws) := by
  show some (Fletcher.sum16 d).toNat = _
  rw [sum16_toNat, fletcher_eq_adv, show 256 ^ 1 - 1 = 255 from rfl, ← h]; rfl

theorem sumN32 {d : Fletcher.Digest32} {ws : List Nat} (h : Fletcher.R32 d ws) :
    Fletcher.impl32.sumN d = some (fletcher 2 ws) := by
  show some (Fletcher.sum32 d).toNat = _
  rw [sum32_toNat, fletcher_eq_adv, show 256 ^ 2 - 1 = 65535 from rfl, ← h]; rfl

theorem sumN64 {d : Fletcher.Digest64} {ws : List Nat} (h : Fletcher.R64 d ws) :
    Fletcher.impl64.sumN d = some (fletcher 4 ws) := by
  show some (Fletcher.sum64 d).toNat = _
  rw [sum64_toNat, fletcher_eq_adv, show 256 ^ 4 - 1 = 4294967295 from rfl, ← h]; rfl

/-- Writes Fletcher-16 handles: at most 5802 bytes, or 5803 bytes as the first data. -/
def Ok16 (log p : List U8) : Prop := p.length ≤ 5802 ∨ (p.length = 5803 ∧ log = [])

theorem refines16 : Refines Fletcher.impl16 (fletcherAlgo 1) Ok16 (fun d log => Fletcher.R16 d (words 1 log)) where
  new := ⟨_, rfl, rfl⟩
  write s log p h hw := by
    obtain ⟨d', e, h'⟩ := Fletcher.update16_ok s _ p h (by
      rcases hw with hw | ⟨h1, h2⟩
      · exact .inl hw
      · refine .inr ⟨h1, ?_⟩
        subst h2
        have h3 := congrArg Prod.fst h
        rw [words_nil (by omega), adv_nil _ _ _ (by omega) (by omega)] at h3
        simp at h3
        simp [h3])
    refine ⟨d', by show (Fletcher.update16 s p >>= _) = _; rw [e]; rfl, ?_⟩
    rw [words_append (by omega) log.length log p (by omega)]
    exact h'
  sum s log inp h := ⟨s, contract_digest C42_sum_is_bigendian.2.2.1 (sumN16 h) inp, h⟩
  sumN s log h := sumN16 h
  reset s log h := ⟨_, rfl, rfl⟩
  size _ _ _ := rfl
  blockSize _ _ _ := rfl

/-- **C38/C41** (partial) Fletcher-16 follows its definition in every history whose writes have at most 5802 bytes
(5803 for the first write after New/Reset). Missing for the full claim: longer writes, where the code is wrong (below). -/
theorem C38_fletcher16_partial (ops : List Op) (h : writesOk Ok16 [] ops) :
    run Fletcher.impl16 ops = .ok (expect (fletcherAlgo 1) ops) := refines16.run ops h

example : writesOk Ok16 [] [.write (List.replicate 5803 255#8), .sumN, .write (List.replicate 5802 255#8), .sum []] :=
  ⟨.inr ⟨by rw [List.length_replicate], rfl⟩, .inl (by rw [List.length_replicate]), trivial⟩

/-- **C38** (negation) `Write` panics for every longer slice whose length is not a multiple of 5803, in every state. -/
theorem C38_fletcher16_panics (d : Fletcher.Digest16) (p : List U8) (h : 5803 < p.length) (hm : p.length % 5803 ≠ 0) :
    Fletcher.impl16.write d p = .panic := by
  show (Fletcher.update16 d p >>= _) = _
  rw [Fletcher.update16, Fletcher.outer16_panic p h hm _ 0 _ _ (Nat.le_refl _) (by omega) (by omega)]
  rfl

example : 5803 < (List.replicate 5804 0#8 : List U8).length ∧ (List.replicate 5804 0#8 : List U8).length % 5803 ≠ 0 := by
  rw [List.length_replicate]; omega

theorem overflow_run (n : Nat) (hn : n = 5803) :
    run Fletcher.impl16 [.write [254#8], .write (List.replicate n 255#8), .sumN] =
      .ok [.wrote 1 false, .wrote n false, .num (60 * 256 + 254)] := by
  have hw : words 1 (List.replicate n (255#8 : U8)) = List.replicate n 255 := by
    rw [Fletcher.words_one, List.map_replicate]; rfl
  have ht := runningTotal_replicate n 255
  have hs : (List.replicate n 255).sum = n * 255 := by simp
  obtain ⟨e1, e2⟩ := foldBV_toNat (n := 32) (List.replicate n 255) 254#32 254#32
  rw [hs, show (254#32).toNat = 254 from rfl] at e1
  rw [List.length_replicate, show (254#32).toNat = 254 from rfl] at e2
  have hlen : (List.replicate n (255#8 : U8)).length = n := List.length_replicate
  generalize List.replicate n (255#8 : U8) = p at hw hlen ⊢
  generalize List.replicate n 255 = ws at hw hs e1 e2 ht
  have hu : Fletcher.update16 ⟨254#8, 254#8⟩ p = .ok ⟨254#8, 60#8⟩ := by
    have hne : p ≠ [] := by rintro rfl; simp at hlen; omega
    rw [Fletcher.update16, Fletcher.outer16_small _ _ _ hne (by omega), hw]
    simp only [Res.ok_bind, Res.pure_eq, Res.ok.injEq, Fletcher.Digest16.mk.injEq]
    constructor
    · apply BitVec.eq_of_toNat_eq
      rw [BitVec.toNat_setWidth, BitVec.toNat_umod]
      show (foldBV ws 254#32 254#32).1.toNat % 255 % 256 = 254
      rw [e1, hn]; norm_num
    · apply BitVec.eq_of_toNat_eq
      rw [BitVec.toNat_setWidth, BitVec.toNat_umod]
      show (foldBV ws 254#32 254#32).2.toNat % 255 % 256 = 60
      rw [e2]
      subst hn
      have ht' : runningTotal ws = 4294278030 := by omega
      rw [ht']; norm_num
  have h1 : Fletcher.update16 ⟨0#8, 0#8⟩ [254#8] = .ok ⟨254#8, 254#8⟩ := by decide +kernel
  simp only [run, runFrom, step, Fletcher.impl16, Res.ok_bind, h1, hu, Res.pure_eq, hlen]
  rfl

theorem overflow_expect (n : Nat) (hn : n = 5803) :
    expect (fletcherAlgo 1) [.write [254#8], .write (List.replicate n 255#8), .sumN] =
      [.wrote 1 false, .wrote n false, .num (61 * 256 + 254)] := by
  have hw : words 1 (List.replicate n (255#8 : U8)) = List.replicate n 255 := by
    rw [Fletcher.words_one, List.map_replicate]; rfl
  have ht := runningTotal_replicate n 255
  have hs : (List.replicate n 255).sum = n * 255 := by simp
  have hl : (List.replicate n 255).length = n := List.length_replicate
  have hlen : (List.replicate n (255#8 : U8)).length = n := List.length_replicate
  generalize List.replicate n (255#8 : U8) = p at hw hlen ⊢
  generalize List.replicate n 255 = ws at hw hs ht hl
  have hf : fletcher 1 (words 1 ([] ++ [254#8] ++ p)) = 61 * 256 + 254 := by
    rw [List.nil_append, words_append (by omega) 1 [254#8] p rfl, hw, show words 1 [(254#8 : U8)] = [254] from rfl,
      fletcher, runningTotal_append, List.sum_append, hs, hl, show runningTotal [254] = 254 from rfl,
      show [254].sum = 254 from rfl]
    subst hn
    have ht' : runningTotal ws = 4294278030 := by omega
    rw [ht']
  simp only [expect, expectFrom, fletcherAlgo, hf, hlen]
  rfl

/-- **C38** (negation) Even when nothing panics the value can be wrong: the accumulator overflows in a 5803-byte write
that follows another one. -/
theorem C38_fletcher16_overflow :
    run Fletcher.impl16 [.write [254#8], .write (List.replicate 5803 255#8), .sumN] =
      .ok [.wrote 1 false, .wrote 5803 false, .num (60 * 256 + 254)] ∧
    expect (fletcherAlgo 1) [.write [254#8], .write (List.replicate 5803 255#8), .sumN] =
      [.wrote 1 false, .wrote 5803 false, .num (61 * 256 + 254)] :=
  ⟨overflow_run 5803 rfl, overflow_expect 5803 rfl⟩

/-- **C38** (negation of the full claim) -/
theorem C38_fletcher16_false : ¬ ∀ ops : List Op, run Fletcher.impl16 ops = .ok (expect (fletcherAlgo 1) ops) := by
  intro h
  have := h [.write [254#8], .write (List.replicate 5803 255#8), .sumN]
  rw [C38_fletcher16_overflow.1, C38_fletcher16_overflow.2] at this
  simp at this

/-- Fletcher-32/64: a write is aligned if what was written before fills whole words (or the write is empty). -/
def Aligned (k : Nat) (log p : List U8) : Prop := k ∣ log.length ∨ p = []

theorem refines32 : Refines Fletcher.impl32 (fletcherAlgo 2) (Aligned 2) (fun d log => Fletcher.R32 d (words 2 log)) where
  new := ⟨_, rfl, rfl⟩
  write s log p h hw := by
    obtain ⟨d', e, h'⟩ := Fletcher.update32_ok s _ p h
    refine ⟨d', by show (Fletcher.update32 s p >>= _) = _; rw [e]; rfl, ?_⟩
    rcases hw with ⟨n, hn⟩ | rfl
    · rw [words_append (by omega) n log p hn]; exact h'
    · rw [words_nil (by omega), List.append_nil] at h'
      rw [List.append_nil]; exact h'
  sum s log inp h := ⟨s, contract_digest C42_sum_is_bigendian.2.2.2.1 (sumN32 h) inp, h⟩
  sumN s log h := sumN32 h
  reset s log h := ⟨_, rfl, rfl⟩
  size _ _ _ := rfl
  blockSize _ _ _ := rfl

theorem refines64 : Refines Fletcher.impl64 (fletcherAlgo 4) (Aligned 4) (fun d log => Fletcher.R64 d (words 4 log)) where
  new := ⟨_, rfl, rfl⟩
  write s log p h hw := by
    obtain ⟨d', e, h'⟩ := Fletcher.update64_ok s _ p h
    refine ⟨d', by show (Fletcher.update64 s p >>= _) = _; rw [e]; rfl, ?_⟩
    rcases hw with ⟨n, hn⟩ | rfl
    · rw [words_append (by omega) n log p hn]; exact h'
    · rw [words_nil (by omega), List.append_nil] at h'
      rw [List.append_nil]; exact h'
  sum s log inp h := ⟨s, contract_digest C42_sum_is_bigendian.2.2.2.2 (sumN64 h) inp, h⟩
  sumN s log h := sumN64 h
  reset s log h := ⟨_, rfl, rfl⟩
  size _ _ _ := rfl
  blockSize _ _ _ := rfl

/-- **C39** After one Write of any data, `Sum32` is the Fletcher-32 checksum and `Sum` its four big-endian bytes. -/
theorem C39_fletcher32 (p inp : List U8) : run Fletcher.impl32 [.write p, .sumN, .sum inp] =
    .ok [.wrote p.length false, .num (fletcher 2 (words 2 p)), .bytes (inp ++ beBytes 4 (fletcher 2 (words 2 p)))] :=
  refines32.run _ ⟨.inl ⟨0, rfl⟩, trivial⟩

example : run Fletcher.impl32 [.write (ascii "abcde"), .sumN] = .ok [.wrote 5 false, .num 0xF04FC729] := by decide +kernel

/-- **C40** After one Write of any data, `Sum64` is the Fletcher-64 checksum and `Sum` its eight big-endian bytes. -/
theorem C40_fletcher64 (p inp : List U8) : run Fletcher.impl64 [.write p, .sumN, .sum inp] =
    .ok [.wrote p.length false, .num (fletcher 4 (words 4 p)), .bytes (inp ++ beBytes 8 (fletcher 4 (words 4 p)))] :=
  refines64.run _ ⟨.inl ⟨0, rfl⟩, trivial⟩

example : run Fletcher.impl64 [.write (ascii "abcde"), .sumN] = .ok [.wrote 5 false, .num 0xC8C6C527646362C6] := by
  decide +kernel

/-- **C41** (partial) Fletcher-32 and -64 satisfy the streaming contract for histories in which all but the last non-empty
Write since New/Reset fill whole words. Missing for the full claim: unaligned splits (false, see below). -/
theorem C41_fletcher_stream_partial (ops : List Op) :
    (writesOk (Aligned 2) [] ops → run Fletcher.impl32 ops = .ok (expect (fletcherAlgo 2) ops)) ∧
    (writesOk (Aligned 4) [] ops → run Fletcher.impl64 ops = .ok (expect (fletcherAlgo 4) ops)) :=
  ⟨refines32.run ops, refines64.run ops⟩

example : writesOk (Aligned 4) [] [.write [1#8, 2#8, 3#8, 4#8], .sum [], .write [5#8], .write [], .sumN, .reset, .write [1#8]] :=
  ⟨.inl ⟨0, rfl⟩, .inl ⟨1, rfl⟩, .inr rfl, .inl ⟨0, rfl⟩, trivial⟩

/-- **C41** (negation) An unaligned split changes the checksum. -/
theorem C41_fletcher_unaligned :
    (¬ ∀ ops : List Op, run Fletcher.impl32 ops = .ok (expect (fletcherAlgo 2) ops)) ∧
    (¬ ∀ ops : List Op, run Fletcher.impl64 ops = .ok (expect (fletcherAlgo 4) ops)) := by
  constructor
  · intro h
    exact absurd (h [.write [1#8], .write [2#8], .sumN]) (by decide +kernel)
  · intro h
    exact absurd (h [.write [1#8], .write [2#8], .sumN]) (by decide +kernel)

/-- **C41** (partial) What Fletcher-32 and -64 compute for arbitrary chunks: the checksum of the words of the separately
zero-padded writes; no sequence of writes panics. -/
theorem C41_fletcher_chunks_partial (ps : List (List U8)) :
    (∃ outs, run Fletcher.impl32 (ps.map .write ++ [.sumN]) = .ok (outs ++ [.num (fletcher 2 (ps.flatMap (words 2)))])) ∧
    (∃ outs, run Fletcher.impl64 (ps.map .write ++ [.sumN]) = .ok (outs ++ [.num (fletcher 4 (ps.flatMap (words 4)))])) := by
  constructor
  · have : ∀ (ps : List (List U8)) (d : Fletcher.Digest32) (ws : List Nat), Fletcher.R32 d ws →
        ∃ d' outs, runFrom Fletcher.impl32 d (ps.map .write ++ [.sumN]) =
          .ok (d', outs ++ [.num (fletcher 2 (ws ++ ps.flatMap (words 2)))]) := by
      intro ps
      induction ps with
      | nil =>
        intro d ws h
        refine ⟨d, [], ?_⟩
        simp [runFrom, step, sumN32 h]
      | cons p ps ih =>
        intro d ws h
        obtain ⟨d1, e1, h1⟩ := Fletcher.update32_ok d ws p h
        obtain ⟨d2, outs, e2⟩ := ih d1 _ h1
        refine ⟨d2, .wrote p.length false :: outs, ?_⟩
        have e3 : Fletcher.impl32.write d p = .ok (d1, p.length, false) := by
          show (Fletcher.update32 d p >>= _) = _; rw [e1]; rfl
        simp only [List.map_cons, List.cons_append, runFrom, step, e3, e2, Res.ok_bind, List.flatMap_cons,
          Res.pure_eq, List.append_assoc]
    obtain ⟨d', outs, e⟩ := this ps _ [] (rfl : Fletcher.R32 ⟨0#16, 0#16⟩ [])
    refine ⟨outs, ?_⟩
    show (Res.ok _ >>= _) = _
    simp only [Res.ok_bind, e, List.nil_append]; rfl
  · have : ∀ (ps : List (List U8)) (d : Fletcher.Digest64) (ws : List Nat), Fletcher.R64 d ws →
        ∃ d' outs, runFrom Fletcher.impl64 d (ps.map .write ++ [.sumN]) =
          .ok (d', outs ++ [.num (fletcher 4 (ws ++ ps.flatMap (words 4)))]) := by
      intro ps
      induction ps with
      | nil =>
        intro d ws h
        refine ⟨d, [], ?_⟩
        simp [runFrom, step, sumN64 h]
      | cons p ps ih =>
        intro d ws h
        obtain ⟨d1, e1, h1⟩ := Fletcher.update64_ok d ws p h
        obtain ⟨d2, outs, e2⟩ := ih d1 _ h1
        refine ⟨d2, .wrote p.length false :: outs, ?_⟩
        have e3 : Fletcher.impl64.write d p = .ok (d1, p.length, false) := by
          show (Fletcher.update64 d p >>= _) = _; rw [e1]; rfl
        simp only [List.map_cons, List.cons_append, runFrom, step, e3, e2, Res.ok_bind, List.flatMap_cons,
          Res.pure_eq, List.append_assoc]
    obtain ⟨d', outs, e⟩ := this ps _ [] (rfl : Fletcher.R64 ⟨0#32, 0#32⟩ [])
    refine ⟨outs, ?_⟩
    show (Res.ok _ >>= _) = _
    simp only [Res.ok_bind, e, List.nil_append]; rfl

example : [[1#8], [2#8, 3#8, 4#8], []].flatMap (words 2) = [1, 770, 4] := by decide

theorem fletcher_ne {k : Nat} {l r : List Nat} {x y : Nat} (h : x % (256 ^ k - 1) ≠ y % (256 ^ k - 1)) :
    fletcher k (l ++ x :: r) ≠ fletcher k (l ++ y :: r) := by
  intro e
  have hk : 0 < 256 ^ k := Nat.pow_pos (by omega)
  have e2 := congrArg (· % 256 ^ k) e
  simp only [fletcher, Nat.mul_add_mod_self_right] at e2
  rcases Nat.eq_zero_or_pos (256 ^ k - 1) with h0 | h0
  · have hk1 : k = 0 := by
      rcases Nat.eq_zero_or_pos k with h | h
      · exact h
      · have : 256 ^ 1 ≤ 256 ^ k := Nat.pow_le_pow_right (by omega) h
        omega
    subst hk1
    simp only [fletcher, Nat.pow_zero, Nat.sub_self, Nat.mod_zero, Nat.mul_one] at e
    rw [runningTotal_append, runningTotal_append, runningTotal_cons, runningTotal_cons] at e
    simp at e h
    apply h
    have : (r.length + 1) * x + x = (r.length + 1) * y + y := by omega
    have : (r.length + 2) * x = (r.length + 2) * y := by linarith
    exact Nat.eq_of_mul_eq_mul_left (by omega) this
  · rw [Nat.mod_eq_of_lt (Nat.lt_of_lt_of_le (Nat.mod_lt _ h0) (by omega)),
      Nat.mod_eq_of_lt (Nat.lt_of_lt_of_le (Nat.mod_lt _ h0) (by omega))] at e2
    simp only [List.sum_append, List.sum_cons] at e2
    apply h
    have e3 : (x + (l.sum + r.sum)) ≡ (y + (l.sum + r.sum)) [MOD (256 ^ k - 1)] := by
      unfold Nat.ModEq
      rw [show x + (l.sum + r.sum) = l.sum + (x + r.sum) by omega, show y + (l.sum + r.sum) = l.sum + (y + r.sum) by omega]
      exact e2
    exact Nat.ModEq.add_right_cancel' _ e3

/-- **C45** Data that differs in one word (not congruent modulo 2^k-1) has a different Fletcher checksum: Fletcher-32,
Fletcher-64, and Fletcher-16 up to 5803 bytes. -/
theorem C45_fletcher_detects (p q : List U8) (l r : List Nat) (x y : Nat) :
    (words 2 p = l ++ x :: r → words 2 q = l ++ y :: r → x % 65535 ≠ y % 65535 →
      run Fletcher.impl32 [.write p, .sumN] ≠ run Fletcher.impl32 [.write q, .sumN]) ∧
    (words 4 p = l ++ x :: r → words 4 q = l ++ y :: r → x % 4294967295 ≠ y % 4294967295 →
      run Fletcher.impl64 [.write p, .sumN] ≠ run Fletcher.impl64 [.write q, .sumN]) ∧
    (words 1 p = l ++ x :: r → words 1 q = l ++ y :: r → x % 255 ≠ y % 255 → p.length ≤ 5803 → q.length ≤ 5803 →
      run Fletcher.impl16 [.write p, .sumN] ≠ run Fletcher.impl16 [.write q, .sumN]) := by
  refine ⟨?_, ?_, ?_⟩
  · intro hp hq h
    rw [refines32.run [.write p, .sumN] ⟨.inl ⟨0, rfl⟩, trivial⟩, refines32.run [.write q, .sumN] ⟨.inl ⟨0, rfl⟩, trivial⟩]
    simp only [expect, expectFrom, fletcherAlgo, List.nil_append, hp, hq]
    simp [fletcher_ne (k := 2) (l := l) (r := r) h]
  · intro hp hq h
    rw [refines64.run [.write p, .sumN] ⟨.inl ⟨0, rfl⟩, trivial⟩, refines64.run [.write q, .sumN] ⟨.inl ⟨0, rfl⟩, trivial⟩]
    simp only [expect, expectFrom, fletcherAlgo, List.nil_append, hp, hq]
    simp [fletcher_ne (k := 4) (l := l) (r := r) h]
  · intro hp hq h h1 h2
    have ok : ∀ p : List U8, p.length ≤ 5803 → Ok16 [] p := fun p h => by
      unfold Ok16
      by_cases e : p.length = 5803
      · exact .inr ⟨e, rfl⟩
      · exact .inl (by omega)
    rw [refines16.run [.write p, .sumN] ⟨ok p h1, trivial⟩, refines16.run [.write q, .sumN] ⟨ok q h2, trivial⟩]
    simp only [expect, expectFrom, fletcherAlgo, List.nil_append, hp, hq]
    simp [fletcher_ne (k := 1) (l := l) (r := r) h]

example : words 2 [1#8, 2#8, 3#8, 4#8] = [513] ++ 1027 :: [] ∧ words 2 [1#8, 2#8, 3#8, 5#8] = [513] ++ 1283 :: [] ∧
    1027 % 65535 ≠ 1283 % 65535 := by decide

/-! ## Luhn -/

/-- **C43** `Checksum(i)` is a digit; appended to `i` it gives a number passing the Luhn check; no other digit does. -/
theorem C43_luhn_valid (i : U64) :
    (Luhn.Checksum i).toNat < 10 ∧
    ∀ c, c < 10 → (luhnValid (10 * i.toNat + c) ↔ c = (Luhn.Checksum i).toNat) := by
  rw [Luhn.Checksum_toNat]
  refine ⟨Nat.mod_lt _ (by omega), fun c hc => ?_⟩
  unfold luhnValid
  rw [Luhn.total_append i.toNat c hc]
  omega

example : Luhn.Checksum 7992739871#64 = 3#8 := by decide +kernel

/-- Decimal digit `k` differs and all others agree. -/
def OneDigitDiffers (i j : Nat) : Prop := ∃ k, decDigit i k ≠ decDigit j k ∧ ∀ m, m ≠ k → decDigit i m = decDigit j m

/-- Adjacent, different digits `k` and `k+1`, not 0 and 9, are swapped. -/
def AdjacentSwap (i j : Nat) : Prop := ∃ k, decDigit i k = decDigit j (k + 1) ∧ decDigit i (k + 1) = decDigit j k ∧
  decDigit i k ≠ decDigit j k ∧ ¬ (decDigit i k = 0 ∧ decDigit j k = 9) ∧ ¬ (decDigit i k = 9 ∧ decDigit j k = 0) ∧
  ∀ m, m ≠ k → m ≠ k + 1 → decDigit i m = decDigit j m

/-- **C44** A single-digit error or a transposition of adjacent digits other than 0 and 9 changes the check digit. -/
theorem C44_luhn_detects (i j : U64) (h : OneDigitDiffers i.toNat j.toNat ∨ AdjacentSwap i.toNat j.toNat) :
    Luhn.Checksum i ≠ Luhn.Checksum j := by
  intro e
  have e := congrArg BitVec.toNat e
  rw [Luhn.Checksum_toNat, Luhn.Checksum_toNat] at e
  have e' : luhnTotal true i.toNat % 10 = luhnTotal true j.toNat % 10 := by omega
  rcases h with ⟨k, h1, h2⟩ | ⟨k, h1, h2, h3, h4, h5, h6⟩
  · exact Luhn.single_ne k _ _ true h1 h2 e'
  · exact Luhn.swap_ne k _ _ true h1 h2 h3 h4 h5 h6 e'

example : OneDigitDiffers (123#64 : U64).toNat (173#64 : U64).toNat := by
  refine ⟨1, by decide, fun m hm => ?_⟩
  show decDigit 123 m = decDigit 173 m
  match m, hm with
  | 0, _ => rfl
  | m + 2, _ =>
    unfold decDigit
    rw [show 10 ^ (m + 2) = 100 * 10 ^ m by ring, ← Nat.div_div_eq_div_mul, ← Nat.div_div_eq_div_mul]

/-- **C44** Errors anywhere in the number with its check digit, that digit included, are detected: two numbers that each
end in the digit `Checksum` gives for the rest never differ in exactly one digit, nor by a transposition of adjacent digits
other than 0 and 9. -/
theorem C44_luhn_detects_with_digit (i j : U64)
    (h : OneDigitDiffers (10 * i.toNat + (Luhn.Checksum i).toNat) (10 * j.toNat + (Luhn.Checksum j).toNat) ∨
      AdjacentSwap (10 * i.toNat + (Luhn.Checksum i).toNat) (10 * j.toNat + (Luhn.Checksum j).toNat)) : False := by
  have v : ∀ i : U64, luhnTotal false (10 * i.toNat + (Luhn.Checksum i).toNat) % 10 = 0 := fun i =>
    ((C43_luhn_valid i).2 _ (C43_luhn_valid i).1).mpr rfl
  have e := (v i).trans (v j).symm
  rcases h with ⟨k, h1, h2⟩ | ⟨k, h1, h2, h3, h4, h5, h6⟩
  · exact Luhn.single_ne k _ _ false h1 h2 e
  · exact Luhn.swap_ne k _ _ false h1 h2 h3 h4 h5 h6 e

/-- Adjacent digits `k` and `k+1`, one 0 and the other 9, are swapped. -/
def Swap09 (i j : Nat) : Prop := ∃ k, decDigit i k = decDigit j (k + 1) ∧ decDigit i (k + 1) = decDigit j k ∧
  ((decDigit i k = 0 ∧ decDigit j k = 9) ∨ (decDigit i k = 9 ∧ decDigit j k = 0)) ∧
  ∀ m, m ≠ k → m ≠ k + 1 → decDigit i m = decDigit j m

/-- **C44** The exception is real: swapping an adjacent 0 and 9 never changes the check digit. -/
theorem C44_luhn_misses (i j : U64) (h : Swap09 i.toNat j.toNat) : Luhn.Checksum i = Luhn.Checksum j := by
  obtain ⟨k, h1, h2, h3, h4⟩ := h
  have := Luhn.swap09_eq k _ _ true h1 h2 h3 h4
  apply BitVec.eq_of_toNat_eq
  rw [Luhn.Checksum_toNat, Luhn.Checksum_toNat]
  omega

example : Swap09 (4090#64 : U64).toNat (4900#64 : U64).toNat := by
  refine ⟨1, by decide, by decide, by decide, fun m h1 h2 => ?_⟩
  show decDigit 4090 m = decDigit 4900 m
  match m, h1, h2 with
  | 0, _, _ => rfl
  | m + 3, _, _ =>
    unfold decDigit
    rw [show 10 ^ (m + 3) = 1000 * 10 ^ m by ring, ← Nat.div_div_eq_div_mul, ← Nat.div_div_eq_div_mul]

example : AdjacentSwap (12#64 : U64).toNat (21#64 : U64).toNat := by
  refine ⟨0, by decide, by decide, by decide, by decide, by decide, fun m h1 h2 => ?_⟩
  show decDigit 12 m = decDigit 21 m
  match m, h1, h2 with
  | m + 2, _, _ =>
    unfold decDigit
    rw [show 10 ^ (m + 2) = 100 * 10 ^ m by ring, ← Nat.div_div_eq_div_mul, ← Nat.div_div_eq_div_mul]

/-! ## Sizes -/

theorem sizeContract_of {σ : Type} {I : Impl σ} {n b : Nat} (hs : ∀ s, I.size s = n) (hb : ∀ s, I.blockSize s = b)
    (hsum : ∀ s inp, ∃ s' out, I.sum s inp = .ok (s', inp ++ out) ∧ out.length = n) :
    SizeContract I (fun _ _ => True) := by
  intro ops s₀ s outs inp _ _ _
  obtain ⟨s', out, h1, h2⟩ := hsum s inp
  exact ⟨⟨s', out, h1, h2.trans (hs s).symm⟩, (hs s).trans (hs s₀).symm, (hb s).trans (hb s₀).symm⟩

/-- **C52** For every checksum object, in every state that any history reaches, `Sum` appends `Size()` bytes to its
argument, and `Size` and `BlockSize` never change. -/
theorem C52_checksum : SizeContract Bcc.impl (fun _ _ => True) ∧ SizeContract Lrc.impl (fun _ _ => True) ∧
    SizeContract Fletcher.impl16 (fun _ _ => True) ∧ SizeContract Fletcher.impl32 (fun _ _ => True) ∧
    SizeContract Fletcher.impl64 (fun _ _ => True) := by
  refine ⟨sizeContract_of (n := 1) (b := 1) ?_ ?_ ?_, sizeContract_of (n := 1) (b := 1) ?_ ?_ ?_,
    sizeContract_of (n := 2) (b := 1) ?_ ?_ ?_, sizeContract_of (n := 4) (b := 2) ?_ ?_ ?_,
    sizeContract_of (n := 8) (b := 4) ?_ ?_ ?_⟩ <;> first | exact fun _ => rfl | exact fun s inp => ⟨s, _, rfl, rfl⟩

example : ∃ s outs, runFrom Fletcher.impl64 ⟨0#32, 0#32⟩ [.write [1#8, 2#8, 3#8], .sumN] = .ok (s, outs) :=
  ⟨⟨0x30201#32, 0x30201#32⟩, [.wrote 3 false, .num 0x0003020100030201], by decide +kernel⟩

end Checksum
