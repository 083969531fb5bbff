import Verif.Props.Checksum

/-!
# More on the `checksum` packages: exact limits of the implementations (C37, C38), check values that cancel (C67),
transposed words (C68), twin digits (C69)
-/
namespace Checksum
open ChecksumSpec HashSpec GoHash

/-! ## LRC -/

/-- `-s₀ + s₁ - …`, read from the last entry back: the last one counts negative, the one before positive, and so on. -/
def alternating : List Nat → Int
  | [] => 0
  | s :: rest => (-1) ^ (rest.length + 1) * s + alternating rest

theorem alternating_snoc (l : List Nat) (s : Nat) : alternating (l ++ [s]) = -(alternating l + s) := by
  induction l with
  | nil => simp [alternating]
  | cons a l ih =>
    rw [List.cons_append, alternating, alternating, ih, List.length_append, List.length_singleton, pow_succ]
    ring

/-- **C37** (partial) What LRC gives for any chunking: byte sums of the chunks, added with alternating signs, modulo 256.
Missing for the full claim: the signs should all be negative. -/
theorem C37_lrc_chunks_partial (ps : List (List U8)) : ∃ outs, ∃ n : Nat,
    run Lrc.impl (ps.map .write ++ [.sumN]) = .ok (outs ++ [.num n]) ∧ n < 256 ∧
      (n : Int) % 256 = alternating (ps.map byteSum) % 256 := by
  have key : ∀ (ps pre : List (List U8)) (d : U8), (d.toNat : Int) % 256 = alternating (pre.map byteSum) % 256 →
      ∃ d' outs, ∃ n : Nat, runFrom Lrc.impl d (ps.map .write ++ [.sumN]) = .ok (d', outs ++ [.num n]) ∧ n < 256 ∧
      (n : Int) % 256 = alternating ((pre ++ ps).map byteSum) % 256 := by
    intro ps
    induction ps with
    | nil =>
      intro pre d h
      exact ⟨d, [], d.toNat, rfl, d.isLt, by simpa using h⟩
    | cons p ps ih =>
      intro pre d h
      obtain ⟨d', outs, n, h1, h2, h3⟩ := ih (pre ++ [p]) (Lrc.update d p) (by
        rw [List.map_append, List.map_singleton, alternating_snoc, lrc_update, BitVec.toNat_neg, BitVec.toNat_add,
          BitVec.toNat_ofNat]
        omega)
      refine ⟨d', .wrote p.length false :: outs, n, ?_, h2, by simpa using h3⟩
      show runFrom Lrc.impl d (.write p :: (ps.map .write ++ [.sumN])) = .ok (d', (.wrote p.length false :: outs) ++ [.num n])
      simp only [runFrom, step, Lrc.impl] at h1 ⊢
      simp only [Res.ok_bind, h1, Res.pure_eq, List.cons_append]
  obtain ⟨d', outs, n, h1, h2, h3⟩ := key ps [] 0#8 rfl
  refine ⟨outs, n, ?_, h2, by simpa using h3⟩
  show (Res.ok 0#8 >>= fun s => _) = _
  simp only [Res.ok_bind, h1]
  rfl

example : alternating ([[1#8, 2#8], [10#8]].map byteSum) = 3 - 10 := by decide

theorem lrc_once (p : List U8) (o : Op) (h : o = .sumN ∨ o = .sum []) :
    run Lrc.impl [.write p, o] = .ok (expect lrc [.write p, o]) :=
  C37_lrc_stream_partial _ ⟨rfl, by rcases h with rfl | rfl <;> trivial⟩

/-- **C67** LRC and BCC of data followed by its own check value are zero. -/
theorem C67_residue (p : List U8) :
    (∃ c, run Bcc.impl [.write p, .sum []] = .ok [.wrote p.length false, .bytes [c]] ∧
      run Bcc.impl [.write (p ++ [c]), .sumN] = .ok [.wrote (p.length + 1) false, .num 0]) ∧
    (∃ c, run Lrc.impl [.write p, .sum []] = .ok [.wrote p.length false, .bytes [c]] ∧
      run Lrc.impl [.write (p ++ [c]), .sumN] = .ok [.wrote (p.length + 1) false, .num 0]) := by
  constructor
  · refine ⟨xorAll p, ?_, ?_⟩
    · rw [C34_bcc_stream]; rfl
    · rw [C34_bcc_stream]
      simp [expect, expectFrom, bcc, xorAll_append, xorAll]
  · refine ⟨-(BitVec.ofNat 8 (byteSum p)), ?_, ?_⟩
    · rw [lrc_once _ _ (.inr rfl)]
      simp only [expect, expectFrom, lrc, List.nil_append, lrc_ofNat]
    · rw [lrc_once _ _ (.inl rfl)]
      have : byteSum (p ++ [-(BitVec.ofNat 8 (byteSum p))]) = byteSum p + (-(BitVec.ofNat 8 (byteSum p))).toNat := by
        simp [byteSum]
      simp only [expect, expectFrom, lrc, List.nil_append, this, BitVec.toNat_neg, BitVec.toNat_ofNat, List.length_append,
        List.length_singleton, Res.ok.injEq, List.cons.injEq, Out.num.injEq, and_true, true_and]
      omega

example : run Lrc.impl [.write [3#8, 4#8], .sum []] = .ok [.wrote 2 false, .bytes [249#8]] := by decide

/-- **C67** Replacing one byte by a different one changes the LRC; permuting the bytes does not. -/
theorem C67_lrc_detects (l r : List U8) (x y : U8) (h : x ≠ y) :
    run Lrc.impl [.write (l ++ x :: r), .sumN] ≠ run Lrc.impl [.write (l ++ y :: r), .sumN] := by
  rw [lrc_once _ _ (.inl rfl), lrc_once _ _ (.inl rfl)]
  have e : ∀ z : U8, byteSum (l ++ z :: r) = byteSum l + z.toNat + byteSum r := by
    intro z; simp [byteSum, Nat.add_assoc]
  simp only [expect, expectFrom, lrc, List.nil_append, e, ne_eq, Res.ok.injEq, List.cons.injEq, Out.num.injEq, and_true]
  rintro ⟨_, h'⟩
  apply h
  have hx := x.isLt
  have hy := y.isLt
  apply BitVec.eq_of_toNat_eq
  omega

theorem C67_lrc_order (p q : List U8) (h : p.Perm q) :
    run Lrc.impl [.write p, .sumN] = run Lrc.impl [.write q, .sumN] := by
  rw [lrc_once _ _ (.inl rfl), lrc_once _ _ (.inl rfl)]
  have e : byteSum p = byteSum q := (h.map _).sum_nat
  simp [expect, expectFrom, lrc, e, h.length_eq]

example : (5#8 : U8) ≠ 6#8 ∧ [1#8, 2#8, 3#8].Perm [3#8, 1#8, 2#8] := by decide

/-! ## Fletcher-16 -/

/-- **C38** `Write` panics exactly for slices of more than 5803 bytes whose length is not a multiple of 5803. -/
theorem C38_fletcher16_panics_iff (d : Fletcher.Digest16) (p : List U8) :
    Fletcher.impl16.write d p = .panic ↔ 5803 < p.length ∧ p.length % 5803 ≠ 0 := by
  constructor
  · intro h
    by_contra hc
    have key : ∀ (n i : Nat) (c0 c1 : U32), p.length - i ≤ n → i ≤ p.length → Fletcher.batch16 p.length ∣ p.length - i →
        ∃ x, Fletcher.outer16 p i c0 c1 = .ok x := by
      intro n
      induction n with
      | zero => intro i c0 c1 hn _ _; exact ⟨_, Fletcher.outer16_done p i c0 c1 (by omega)⟩
      | succ n ih =>
        intro i c0 c1 hn hi hd
        by_cases hlt : i < p.length
        · rw [Fletcher.outer16, dif_pos hlt]
          have hb := Nat.le_of_dvd (by omega) hd
          have hpos := Fletcher.batch16_pos (show 0 < p.length by omega)
          rw [Fletcher.inner16_ok p _ _ _ _ (by omega)]
          simp only [Res.ok_bind]
          refine ih _ _ _ (by omega) (by omega) ?_
          have := Nat.dvd_sub hd (dvd_refl (Fletcher.batch16 p.length))
          rwa [Nat.sub_sub] at this
        · exact ⟨_, Fletcher.outer16_done p i c0 c1 (by omega)⟩
    obtain ⟨x, hx⟩ := key p.length 0 (d.a.setWidth 32) (d.b.setWidth 32) (by omega) (by omega) (by
      rw [Nat.sub_zero]
      unfold Fletcher.batch16 Fletcher.c1Overflow16
      split
      · exact Nat.dvd_of_mod_eq_zero (by omega)
      · exact dvd_refl _)
    have h : (Fletcher.update16 d p >>= fun d => pure (d, p.length, false)) = .panic := h
    rw [Fletcher.update16, hx] at h
    simp at h
  · rintro ⟨h1, h2⟩; exact C38_fletcher16_panics d p h1 h2

/-- The unreduced second sum that a Write of `p` reaches when `log` was written before. -/
def reach16 (log p : List U8) : Nat :=
  runningTotal (words 1 log) % 255 + p.length * ((words 1 log).sum % 255) + runningTotal (words 1 p)

/-- What one batch leaves: the second sum loses 1 for the overflow. -/
theorem update16_exact (d : Fletcher.Digest16) (p : List U8) (ha : d.a.toNat < 255) (hb : d.b.toNat < 255)
    (hp : p.length ≤ 5803) : ∃ d', Fletcher.update16 d p = .ok d' ∧ d'.a.toNat = (d.a.toNat + (words 1 p).sum) % 255 ∧
      d'.b.toNat = (d.b.toNat + p.length * d.a.toNat + runningTotal (words 1 p)) % 2 ^ 32 % 255 := by
  by_cases h0 : p = []
  · subst h0
    refine ⟨d, ?_, ?_, ?_⟩
    · rw [Fletcher.update16, Fletcher.outer16_done _ _ _ _ (by simp)]
      cases d; simp
    · simp [words_nil, Nat.mod_eq_of_lt ha]
    · simp [words_nil, runningTotal_nil]; omega
  · refine ⟨_, by rw [Fletcher.update16, Fletcher.outer16_small p _ _ h0 hp]; rfl, ?_, ?_⟩
    · obtain ⟨h1, _⟩ := foldBV_toNat (words 1 p) (d.a.setWidth 32 : U32) (d.b.setWidth 32)
      have hs := sum_le_of_le 255 (words 1 p) (by rw [Fletcher.words_one]; exact Fletcher.map_toNat_le p)
      rw [words_length] at hs
      have e1 : (d.a.setWidth 32 : U32).toNat = d.a.toNat := by simp; omega
      simp only [BitVec.toNat_setWidth, BitVec.toNat_umod, h1, e1]
      rw [show (255#32).toNat = 255 from rfl, Nat.mod_eq_of_lt (a := d.a.toNat + _) (by omega)]
      omega
    · obtain ⟨_, h1⟩ := foldBV_toNat (words 1 p) (d.a.setWidth 32 : U32) (d.b.setWidth 32)
      have e1 : (d.a.setWidth 32 : U32).toNat = d.a.toNat := by simp; omega
      have e2 : (d.b.setWidth 32 : U32).toNat = d.b.toNat := by simp; omega
      have e3 : (words 1 p).length = p.length := by rw [words_length]; simp
      simp only [BitVec.toNat_setWidth, BitVec.toNat_umod, h1, e1, e2, e3]
      rw [show (255#32).toNat = 255 from rfl]
      omega

theorem R16_vals {d : Fletcher.Digest16} {log : List U8} (h : Fletcher.R16 d (words 1 log)) :
    d.a.toNat = (words 1 log).sum % 255 ∧ d.b.toNat = runningTotal (words 1 log) % 255 := by
  simpa [Fletcher.R16, adv] using h

theorem refines16_exact : Refines Fletcher.impl16 (fletcherAlgo 1) (fun log p => p.length ≤ 5803 ∧ reach16 log p < 2 ^ 32)
    (fun d log => Fletcher.R16 d (words 1 log)) where
  new := refines16.new
  write s log p h hw := by
    obtain ⟨ha, hb⟩ := R16_vals h
    obtain ⟨hla, hlb⟩ := Fletcher.R16_lt h
    obtain ⟨d', e, h1, h2⟩ := update16_exact s p hla hlb hw.1
    refine ⟨d', by show (Fletcher.update16 s p >>= _) = _; rw [e]; rfl, ?_⟩
    rw [words_append (by omega) log.length log p (by omega), Fletcher.R16, adv_append, ← (show _ = _ from h), adv]
    have hr := hw.2
    unfold reach16 at hr
    rw [← ha, ← hb] at hr
    rw [h1, h2, Nat.mod_eq_of_lt hr, words_length]
    simp
  sum := refines16.sum
  sumN := refines16.sumN
  reset := refines16.reset
  size := refines16.size
  blockSize := refines16.blockSize

/-- **C38** (partial) Fletcher-16 follows its definition in every history of writes of at most 5803 bytes in which the
second sum stays below 2^32. Missing for the full claim: other writes (next theorems). -/
theorem C38_fletcher16_exact_partial (ops : List Op)
    (h : writesOk (fun log p => p.length ≤ 5803 ∧ reach16 log p < 2 ^ 32) [] ops) :
    run Fletcher.impl16 ops = .ok (expect (fletcherAlgo 1) ops) := refines16_exact.run ops h

example : writesOk (fun log p => p.length ≤ 5803 ∧ reach16 log p < 2 ^ 32) []
    [.write (List.replicate 100 255#8), .sumN, .write [1#8]] :=
  ⟨⟨by decide, by decide +kernel⟩, ⟨by decide, by decide +kernel⟩, trivial⟩

/-- **C38** (negation) and whenever a write of at most 5803 bytes takes the second sum to 2^32 or more, the checksum is wrong. -/
theorem C38_fletcher16_wrong (ops : List Op) (p : List U8)
    (h : writesOk (fun log p => p.length ≤ 5803 ∧ reach16 log p < 2 ^ 32) [] ops) (hp : p.length ≤ 5803)
    (hr : 2 ^ 32 ≤ reach16 (logFrom [] ops) p) :
    ∃ outs n, run Fletcher.impl16 (ops ++ [.write p, .sumN]) = .ok (outs ++ [.num n]) ∧
      n ≠ fletcher 1 (words 1 (logFrom [] ops ++ p)) := by
  obtain ⟨s, e, hR⟩ := refines16_exact.new
  obtain ⟨s', e', hR'⟩ := refines16_exact.runFrom ops s [] hR h
  obtain ⟨ha, hb⟩ := R16_vals hR'
  obtain ⟨hla, hlb⟩ := Fletcher.R16_lt hR'
  obtain ⟨d', e2, h1, h2⟩ := update16_exact s' p hla hlb hp
  have hw : Fletcher.impl16.write s' p = .ok (d', p.length, false) := by
    show (Fletcher.update16 s' p >>= _) = _; rw [e2]; rfl
  refine ⟨expectFrom (fletcherAlgo 1) [] ops ++ [.wrote p.length false], d'.b.toNat * 256 + d'.a.toNat, ?_, ?_⟩
  · rw [run, e]
    simp only [Res.ok_bind, runFrom_append, e', runFrom, step, hw, Res.pure_eq]
    show Res.ok _ = _
    simp only [List.append_assoc, List.cons_append, List.nil_append, Res.ok.injEq, List.append_cancel_left_eq, List.cons.injEq,
      Out.num.injEq, true_and, and_true]
    exact sum16_toNat d'
  · intro hc
    rw [words_append (by omega) (logFrom [] ops).length (logFrom [] ops) p (by omega), fletcher_eq_adv, show 256 ^ 1 - 1 = 255 from rfl, adv_append,
      show 256 ^ 1 = 256 from rfl, ← (show _ = _ from hR')] at hc
    simp only [adv] at hc
    rw [h1, h2, words_length, show (p.length + (1 - 1)) / 1 = p.length by simp] at hc
    unfold reach16 at hr
    rw [← ha, ← hb] at hr
    have hT : 2 * runningTotal (words 1 p) ≤ 5803 * 5804 * 255 := by
      have := runningTotal_le 255 (words 1 p) (by rw [Fletcher.words_one]; exact Fletcher.map_toNat_le p)
      rw [words_length, show (p.length + (1 - 1)) / 1 = p.length by simp] at this
      exact Nat.le_trans this (Nat.mul_le_mul_right _ (Nat.mul_le_mul hp (by omega)))
    have hM : p.length * s'.a.toNat ≤ 5803 * 254 := Nat.mul_le_mul hp (by omega)
    generalize p.length * s'.a.toNat = M at *
    generalize runningTotal (words 1 p) = T at *
    generalize (s'.a.toNat + (words 1 p).sum) % 255 = A at hc
    omega

theorem reach16_replicate (n : Nat) :
    2 * reach16 (logFrom [] [.write [254#8]]) (List.replicate n 255#8) = 508 + 508 * n + n * (n + 1) * 255 := by
  have e : words 1 (List.replicate n 255#8) = List.replicate n 255 := by
    rw [Fletcher.words_one, List.map_replicate]; rfl
  have e1 : (words 1 (logFrom [] [.write [254#8]])).sum % 255 = 254 := by decide
  have e2 : runningTotal (words 1 (logFrom [] [.write [254#8]])) % 255 = 254 := by decide
  have h := runningTotal_replicate n 255
  unfold reach16
  rw [e, e1, e2, List.length_replicate]
  omega

/-- The data of `C38_fletcher16_overflow`: 5803 bytes of 255 after one byte 254. -/
example (n : Nat) (hn : n = 5803) : 2 ^ 32 ≤ reach16 (logFrom [] [.write [254#8]]) (List.replicate n 255#8) := by
  have h := reach16_replicate n
  have e : n * (n + 1) = 5803 * 5804 := by rw [hn]
  rw [e] at h
  omega

theorem batches16 (n : Nat) (hn : n = 5803) (cs : List (List U8)) (h : ∀ c ∈ cs, c.length = n) (d : Fletcher.Digest16)
    (ha : d.a.toNat < 255) (hb : d.b.toNat < 255) :
    ∃ d' outs, Fletcher.impl16.write d cs.flatten = .ok (d', cs.flatten.length, false) ∧
      runFrom Fletcher.impl16 d (cs.map .write) = .ok (d', outs) := by
  have hlen : ∀ cs : List (List U8), (∀ c ∈ cs, c.length = n) → cs.flatten.length = n * cs.length := by
    intro cs h
    induction cs with
    | nil => rfl
    | cons c cs ih =>
      rw [List.flatten_cons, List.length_append, ih (fun c hc => h c (List.mem_cons_of_mem _ hc)), h c List.mem_cons_self,
        List.length_cons, Nat.mul_succ, Nat.add_comm]
  have key : ∀ (cs : List (List U8)) (pre : List U8) (d : Fletcher.Digest16), (∀ c ∈ cs, c.length = n) →
      d.a.toNat < 255 → d.b.toNat < 255 → Fletcher.batch16 (pre ++ cs.flatten).length = n →
      ∃ d' outs, runFrom Fletcher.impl16 d (cs.map .write) = .ok (d', outs) ∧
        Fletcher.outer16 (pre ++ cs.flatten) pre.length (d.a.setWidth 32) (d.b.setWidth 32) =
          .ok (d'.a.setWidth 32, d'.b.setWidth 32) := by
    intro cs
    induction cs with
    | nil =>
      intro pre d _ _ _ _
      exact ⟨d, [], rfl, Fletcher.outer16_done _ _ _ _ (by simp)⟩
    | cons c cs ih =>
      intro pre d hc hda hdb hbat
      have hcl := hc c List.mem_cons_self
      have hne : c ≠ [] := by rintro rfl; simp at hcl; omega
      obtain ⟨d1, e1, hd1a, hd1b⟩ := update16_exact d c hda hdb (by omega)
      have hla : d1.a.toNat < 255 := by rw [hd1a]; exact Nat.mod_lt _ (by omega)
      have hlb : d1.b.toNat < 255 := by rw [hd1b]; exact Nat.mod_lt _ (by omega)
      have hassoc : pre ++ (c :: cs).flatten = (pre ++ c) ++ cs.flatten := by simp
      rw [hassoc] at hbat ⊢
      obtain ⟨d', outs, r1, r2⟩ := ih (pre ++ c) d1 (fun c h => hc c (List.mem_cons_of_mem _ h)) hla hlb hbat
      refine ⟨d', .wrote c.length false :: outs, ?_, ?_⟩
      · have hw : Fletcher.impl16.write d c = .ok (d1, c.length, false) := by
          show (Fletcher.update16 d c >>= _) = _; rw [e1]; rfl
        simp only [List.map_cons, runFrom, step, hw, Res.ok_bind, r1, Res.pure_eq]
      · have e2 := e1
        rw [Fletcher.update16, Fletcher.outer16_small c _ _ hne (by omega)] at e2
        simp only [Res.ok_bind, Res.pure_eq, Res.ok.injEq] at e2
        have hdt : (((pre ++ c) ++ cs.flatten).drop pre.length).take n = c := by
          rw [List.append_assoc, List.drop_left' rfl, ← hcl, List.take_left' rfl]
        rw [Fletcher.outer16, dif_pos (by simp; omega), hbat,
          Fletcher.inner16_ok _ _ _ _ _ (by simp; omega), hdt, ← Fletcher.words_one]
        simp only [Res.ok_bind]
        have w : ∀ x : U32, x % 255#32 = ((x % 255#32).setWidth 8).setWidth 32 := by
          intro x
          apply BitVec.eq_of_toNat_eq
          simp only [BitVec.toNat_umod, BitVec.toNat_setWidth]
          rw [show (255#32).toNat = 255 from rfl]; omega
        rw [← e2] at r2
        simp only [← w] at r2
        rw [List.length_append, hcl] at r2
        exact r2
  rcases cs with _ | ⟨c, cs⟩
  · refine ⟨d, [], ?_, rfl⟩
    show (Fletcher.update16 d [] >>= _) = _
    rw [Fletcher.update16, Fletcher.outer16_done _ _ _ _ (by simp)]
    cases d; simp
  · obtain ⟨d', outs, r1, r2⟩ := key (c :: cs) [] d h ha hb (by
      rw [List.nil_append, hlen _ h]
      unfold Fletcher.batch16 Fletcher.c1Overflow16
      have : n * (c :: cs).length = n + n * cs.length := by rw [List.length_cons, Nat.mul_succ, Nat.add_comm]
      rw [this]
      split <;> [exact hn.symm; (rcases Nat.eq_zero_or_pos cs.length with e | e <;> [(rw [e]; omega); (have := Nat.le_mul_of_pos_right n e; omega)])])
    refine ⟨d', outs, ?_, r1⟩
    show (Fletcher.update16 d _ >>= _) = _
    rw [List.nil_append, List.length_nil] at r2
    rw [Fletcher.update16, r2]
    simp

/-- **C38** A write of several times 5803 bytes is the same as that many writes of 5803 bytes. -/
theorem C38_fletcher16_batches (cs : List (List U8)) (h : ∀ c ∈ cs, c.length = 5803) (d : Fletcher.Digest16)
    (ha : d.a.toNat < 255) (hb : d.b.toNat < 255) :
    ∃ d' outs, Fletcher.impl16.write d cs.flatten = .ok (d', cs.flatten.length, false) ∧
      runFrom Fletcher.impl16 d (cs.map .write) = .ok (d', outs) :=
  batches16 _ rfl cs h d ha hb

example : ∃ cs : List (List U8), cs.length = 2 ∧ ∀ c ∈ cs, c.length = 5803 := by
  have key : ∀ n, ∃ c : List U8, c.length = n := fun n => ⟨List.replicate n 0#8, List.length_replicate⟩
  obtain ⟨c, hc⟩ := key 5803
  exact ⟨[c, c], rfl, by intro x hx; simp at hx; rw [hx, hc]⟩

/-! ## Transposed words -/

theorem fletcher_swap (k : Nat) (l m r : List Nat) (x y : Nat) :
    fletcher k (l ++ x :: (m ++ y :: r)) = fletcher k (l ++ y :: (m ++ x :: r)) ↔
      (m.length + 1) * x ≡ (m.length + 1) * y [MOD 256 ^ k - 1] := by
  have hk : 0 < 256 ^ k := Nat.pow_pos (by omega)
  have hs : ∀ x y : Nat, (l ++ x :: (m ++ y :: r)).sum = l.sum + m.sum + r.sum + (x + y) := by
    intro x y; simp; ring
  have ht : ∀ x y : Nat, runningTotal (l ++ x :: (m ++ y :: r)) =
      (runningTotal l + (m.length + r.length + 2) * l.sum + runningTotal m + (r.length + 1) * m.sum + runningTotal r +
        (r.length + 1) * (x + y)) + (m.length + 1) * x := by
    intro x y
    rw [runningTotal_append, runningTotal_cons, runningTotal_append, runningTotal_cons]
    simp; ring
  unfold fletcher
  rw [hs, hs, ht, ht, Nat.add_comm y x, Nat.add_left_inj, Nat.mul_left_inj (by omega)]
  exact ⟨fun h => Nat.ModEq.add_left_cancel' _ h, fun h => Nat.ModEq.add_left _ h⟩

/-- **C68** Swapping two words at distance `n` leaves the Fletcher checksum unchanged exactly when `n·x ≡ n·y` modulo 2^k-1;
in particular swapping neighbours that are not congruent is always detected. -/
theorem C68_fletcher_swap (p q : List U8) (l m r : List Nat) (x y : Nat) :
    (words 2 p = l ++ x :: (m ++ y :: r) → words 2 q = l ++ y :: (m ++ x :: r) → p.length = q.length →
      (run Fletcher.impl32 [.write p, .sumN] = run Fletcher.impl32 [.write q, .sumN] ↔
        (m.length + 1) * x ≡ (m.length + 1) * y [MOD 65535])) ∧
    (words 4 p = l ++ x :: (m ++ y :: r) → words 4 q = l ++ y :: (m ++ x :: r) → p.length = q.length →
      (run Fletcher.impl64 [.write p, .sumN] = run Fletcher.impl64 [.write q, .sumN] ↔
        (m.length + 1) * x ≡ (m.length + 1) * y [MOD 4294967295])) ∧
    (words 1 p = l ++ x :: (m ++ y :: r) → words 1 q = l ++ y :: (m ++ x :: r) → p.length ≤ 5803 →
      (run Fletcher.impl16 [.write p, .sumN] = run Fletcher.impl16 [.write q, .sumN] ↔
        (m.length + 1) * x ≡ (m.length + 1) * y [MOD 255])) := by
  refine ⟨?_, ?_, ?_⟩
  · intro hp hq hl
    rw [refines32.run [.write p, .sumN] ⟨.inl ⟨0, rfl⟩, trivial⟩, refines32.run [.write q, .sumN] ⟨.inl ⟨0, rfl⟩, trivial⟩]
    simp only [expect, expectFrom, fletcherAlgo, List.nil_append, hp, hq]
    simpa [hl] using fletcher_swap 2 l m r x y
  · intro hp hq hl
    rw [refines64.run [.write p, .sumN] ⟨.inl ⟨0, rfl⟩, trivial⟩, refines64.run [.write q, .sumN] ⟨.inl ⟨0, rfl⟩, trivial⟩]
    simp only [expect, expectFrom, fletcherAlgo, List.nil_append, hp, hq]
    simpa [hl] using fletcher_swap 4 l m r x y
  · intro hp hq h1
    have hl : p.length = q.length := by
      have h1 := congrArg List.length hp
      have h2 := congrArg List.length hq
      rw [Fletcher.words_one] at h1 h2
      simp at h1 h2; omega
    have ok : ∀ p : List U8, p.length ≤ 5803 → Ok16 [] p := fun p h => by
      unfold Ok16
      by_cases e : p.length = 5803
      · exact .inr ⟨e, rfl⟩
      · exact .inl (by omega)
    rw [refines16.run [.write p, .sumN] ⟨ok p h1, trivial⟩, refines16.run [.write q, .sumN] ⟨ok q (by omega), trivial⟩]
    simp only [expect, expectFrom, fletcherAlgo, List.nil_append, hp, hq]
    simpa [hl] using fletcher_swap 1 l m r x y

example : words 2 [1#8, 2#8, 3#8, 4#8] = [] ++ 513 :: ([] ++ 1027 :: []) ∧
    words 2 [3#8, 4#8, 1#8, 2#8] = [] ++ 1027 :: ([] ++ 513 :: []) ∧
    ¬ (([] : List Nat).length + 1) * 513 ≡ (([] : List Nat).length + 1) * 1027 [MOD 65535] := by decide

/-! ## Luhn: twin digits -/

/-- Two adjacent equal digits `a a` become `b b`. -/
def TwinError (a b i j : Nat) : Prop := ∃ k, decDigit i k = a ∧ decDigit i (k + 1) = a ∧ decDigit j k = b ∧
  decDigit j (k + 1) = b ∧ ∀ m, m ≠ k → m ≠ k + 1 → decDigit i m = decDigit j m

theorem twin_total (a b : Nat) : ∀ (k i j : Nat) (dbl : Bool), decDigit i k = a → decDigit i (k + 1) = a →
    decDigit j k = b → decDigit j (k + 1) = b → (∀ m, m ≠ k → m ≠ k + 1 → decDigit i m = decDigit j m) →
    (luhnTotal dbl i % 10 = luhnTotal dbl j % 10 ↔
      (luhnDigit true a + luhnDigit false a) % 10 = (luhnDigit true b + luhnDigit false b) % 10)
  | 0, i, j, dbl, h1, h2, h3, h4, hs => by
    simp only [Luhn.decDigit_succ, Luhn.decDigit_zero] at h1 h2 h3 h4
    have e : i / 10 / 10 = j / 10 / 10 := Luhn.eq_of_digits _ _ (fun m => by
      rw [← Luhn.decDigit_succ, ← Luhn.decDigit_succ, ← Luhn.decDigit_succ, ← Luhn.decDigit_succ]; exact hs _ (by omega) (by omega))
    rw [Luhn.total_eq, Luhn.total_eq dbl j, Luhn.total_eq (!dbl) (i / 10), Luhn.total_eq (!dbl) (j / 10), e, h1, h2, h3, h4]
    cases dbl <;> simp only [Bool.not_true, Bool.not_false] <;> omega
  | k + 1, i, j, dbl, h1, h2, h3, h4, hs => by
    have e := hs 0 (by omega) (by omega)
    rw [Luhn.decDigit_zero, Luhn.decDigit_zero] at e
    simp only [Luhn.decDigit_succ i, Luhn.decDigit_succ j] at h1 h2 h3 h4
    have := twin_total a b k (i / 10) (j / 10) (!dbl) h1 h2 h3 h4 (fun m hm hm' => by
      rw [← Luhn.decDigit_succ, ← Luhn.decDigit_succ]; exact hs _ (by omega) (by omega))
    rw [← this, Luhn.total_eq, Luhn.total_eq dbl j, e]
    omega

/-- **C69** The Luhn digit detects every twin error except 22-55, 33-66 and 44-77, which it never detects. -/
theorem C69_luhn_twins (i j : U64) (a b : Nat) (ha : a < 10) (hb : b < 10) (hab : a ≠ b) (h : TwinError a b i.toNat j.toNat) :
    Luhn.Checksum i = Luhn.Checksum j ↔
      (a, b) ∈ [(2, 5), (5, 2), (3, 6), (6, 3), (4, 7), (7, 4)] := by
  obtain ⟨k, h1, h2, h3, h4, hs⟩ := h
  have key := twin_total a b k _ _ true h1 h2 h3 h4 hs
  have e : Luhn.Checksum i = Luhn.Checksum j ↔ luhnTotal true i.toNat % 10 = luhnTotal true j.toNat % 10 := by
    rw [← BitVec.toNat_inj, Luhn.Checksum_toNat, Luhn.Checksum_toNat]; omega
  rw [e, key]
  have fin : ∀ a b : Fin 10, a.1 ≠ b.1 →
      ((luhnDigit true a.1 + luhnDigit false a.1) % 10 = (luhnDigit true b.1 + luhnDigit false b.1) % 10 ↔
        (a.1, b.1) ∈ [(2, 5), (5, 2), (3, 6), (6, 3), (4, 7), (7, 4)]) := by decide
  exact fin ⟨a, ha⟩ ⟨b, hb⟩ hab

example : TwinError 1 4 (9118#64 : U64).toNat (9448#64 : U64).toNat := by
  refine ⟨1, by decide, by decide, by decide, by decide, fun m h1 h2 => ?_⟩
  show decDigit 9118 m = decDigit 9448 m
  match m, h1, h2 with
  | 0, _, _ => rfl
  | m + 3, _, _ =>
    unfold decDigit
    rw [show 10 ^ (m + 3) = 1000 * 10 ^ m by ring, ← Nat.div_div_eq_div_mul, ← Nat.div_div_eq_div_mul]

end Checksum
