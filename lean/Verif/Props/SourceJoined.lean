import Verif.Props.SourceCounts

/-!
# C130: check values of data put together, and of data with a part replaced

Of two texts `p` and `q` only the check values are known, each computed by some program, on whatever machine. Then the check value of `p ++ q`
is known: for BCC it is the exclusive or of the two, for LRC the sum modulo 256, for Fletcher a sum that also needs the number of words of `q`,
and for Luhn the sum modulo 10, when the lower number has an even number of digits. In the same way the value of a text of which a part is
replaced follows from the old value and the values of the old and the new part; what stands around the part does not matter, for Fletcher
except for the number of words after it.
-/
namespace Source
open GoLang hiding leNat
open HashSpec ChecksumSpec Checksum

/-! ## bcc -/

section bcc
variable {P Q R S : Prog} (hP : P.Has Bcc.path [Bcc.src] []) (hQ : Q.Has Bcc.path [Bcc.src] []) (hR : R.Has Bcc.path [Bcc.src] [])
  (hS : S.Has Bcc.path [Bcc.src] []) (hW : 32 ≤ P.W) (hV : 32 ≤ Q.W) (hU : 32 ≤ R.W) (hT : 32 ≤ S.W)

include hP hQ hR hW hV hU in
/-- **C130** BCC of a text in two parts, from the values of the parts, however each was written. -/
theorem C130_bcc (ps qs rs : List (List U8)) (hf : FitsWord P ps) (hg : FitsWord Q qs) (hh : FitsWord R rs)
    (h : rs.flatten = ps.flatten ++ qs.flatten) (a b : Nat) (ca : BccOf P ps a) (cb : BccOf Q qs b) (c : Nat) :
    BccOf R rs c ↔ c = a ^^^ b := by
  rw [C112_bcc_value hR hU rs hh, (C112_bcc_value hP hW ps hf a).mp ca, (C112_bcc_value hQ hV qs hg b).mp cb, h, xorAll_append, BitVec.toNat_xor]

include hP hQ hR hS hW hV hU hT in
/-- **C130** BCC of a text with a part replaced, from the old value and the values of the two parts. -/
theorem C130_bcc_replace (l r p q : List U8) (hf : FitsWord P [l ++ p ++ r]) (hg : FitsWord Q [p]) (hh : FitsWord R [q])
    (hi : FitsWord S [l ++ q ++ r]) (c a b : Nat) (cc : BccOf P [l ++ p ++ r] c) (ca : BccOf Q [p] a) (cb : BccOf R [q] b) (d : Nat) :
    BccOf S [l ++ q ++ r] d ↔ d = c ^^^ a ^^^ b := by
  rw [C112_bcc_value hS hT _ hi, (C112_bcc_value hP hW _ hf c).mp cc, (C112_bcc_value hQ hV _ hg a).mp ca, (C112_bcc_value hR hU _ hh b).mp cb,
    ← BitVec.toNat_xor, ← BitVec.toNat_xor]
  have : xorAll [l ++ q ++ r].flatten = xorAll [l ++ p ++ r].flatten ^^^ xorAll [p].flatten ^^^ xorAll [q].flatten := by
    simp only [List.flatten_cons, List.flatten_nil, List.append_nil, xorAll_append]
    apply BitVec.eq_of_getLsbD_eq
    intro i hi
    simp only [BitVec.getLsbD_xor]
    cases (xorAll l).getLsbD i <;> cases (xorAll p).getLsbD i <;> cases (xorAll q).getLsbD i <;> cases (xorAll r).getLsbD i <;> rfl
  rw [this]

end bcc

/-! ## lrc -/

theorem byteSum_two (p q : List U8) : byteSum (p ++ q) = byteSum p + byteSum q := by simp [byteSum]

section lrc
variable {P Q R S : Prog} (hP : P.Has Lrc.path [Lrc.src] []) (hQ : Q.Has Lrc.path [Lrc.src] []) (hR : R.Has Lrc.path [Lrc.src] [])
  (hS : S.Has Lrc.path [Lrc.src] []) (hW : 32 ≤ P.W) (hV : 32 ≤ Q.W) (hU : 32 ≤ R.W) (hT : 32 ≤ S.W)

include hP hQ hR hW hV hU in
/-- **C130** LRC of a text in two parts, from the values of the parts. -/
theorem C130_lrc (p q : List U8) (hf : FitsWord P [p]) (hg : FitsWord Q [q]) (hh : FitsWord R [p ++ q]) (a b : Nat) (ca : LrcOf P [p] a)
    (cb : LrcOf Q [q] b) (c : Nat) : LrcOf R [p ++ q] c ↔ c = (a + b) % 256 := by
  have h1 := (C112_lrc_value hP hW p hf a).mp ca
  have h2 := (C112_lrc_value hQ hV q hg b).mp cb
  rw [C112_lrc_value hR hU _ hh, byteSum_two]
  omega

include hP hQ hR hS hW hV hU hT in
/-- **C130** LRC of a text with a part replaced. -/
theorem C130_lrc_replace (l r p q : List U8) (hf : FitsWord P [l ++ p ++ r]) (hg : FitsWord Q [p]) (hh : FitsWord R [q])
    (hi : FitsWord S [l ++ q ++ r]) (c a b : Nat) (cc : LrcOf P [l ++ p ++ r] c) (ca : LrcOf Q [p] a) (cb : LrcOf R [q] b) (d : Nat) :
    LrcOf S [l ++ q ++ r] d ↔ d < 256 ∧ (d + a) % 256 = (c + b) % 256 := by
  have h0 := (C112_lrc_value hP hW _ hf c).mp cc
  have h1 := (C112_lrc_value hQ hV p hg a).mp ca
  have h2 := (C112_lrc_value hR hU q hh b).mp cb
  rw [C112_lrc_value hS hT _ hi]
  simp only [byteSum_two] at *
  omega

end lrc

/-! ## fletcher -/

/-- The halves of a Fletcher checksum. -/
theorem fletcher_halves {k : Nat} (hk : 0 < k) (ws : List Nat) :
    fletcher k ws % 256 ^ k = ws.sum % (256 ^ k - 1) ∧ fletcher k ws / 256 ^ k = runningTotal ws % (256 ^ k - 1) := by
  have h1 : 256 ≤ 256 ^ k := by simpa using Nat.pow_le_pow_right (n := 256) (by decide) hk
  generalize hB : 256 ^ k = B at *
  have hA : ws.sum % (B - 1) < B := Nat.lt_of_lt_of_le (Nat.mod_lt _ (by omega)) (by omega)
  rw [fletcher, hB, Nat.mul_comm, Nat.mul_add_mod, Nat.mod_eq_of_lt hA, Nat.mul_add_div (by omega), Nat.div_eq_of_lt hA]
  exact ⟨rfl, rfl⟩

/-- A number is a Fletcher checksum exactly if its halves are. -/
theorem eq_fletcher_iff {k : Nat} (hk : 0 < k) (ws : List Nat) (c : Nat) :
    c = fletcher k ws ↔ c % 256 ^ k = ws.sum % (256 ^ k - 1) ∧ c / 256 ^ k = runningTotal ws % (256 ^ k - 1) := by
  constructor
  · rintro rfl
    exact fletcher_halves hk ws
  · rintro ⟨h1, h2⟩
    rw [fletcher, ← h1, ← h2, Nat.mul_comm]
    exact (Nat.div_add_mod c _).symm

section fletcher
variable {P Q R S : Prog} (hP : P.Has Fletcher.path fletcherTexts []) (hQ : Q.Has Fletcher.path fletcherTexts [])
  (hR : R.Has Fletcher.path fletcherTexts []) (hS : S.Has Fletcher.path fletcherTexts []) (hW : 32 ≤ P.W) (hV : 32 ≤ Q.W) (hU : 32 ≤ R.W) (hT : 32 ≤ S.W)
  {k : Nat} (hk : k = 1 ∨ k = 2 ∨ k = 4)

include hP hQ hR hW hV hU hk in
/-- **C130** Fletcher checksum of a text in two parts, the first of whole words: the sums of the halves, where the low half of the first counts
once more for every word of the second. -/
theorem C130_fletcher (p q : List U8) (hd : k ∣ p.length) (hf : FitsWord P [p]) (hg : FitsWord Q [q]) (hh : FitsWord R [p ++ q])
    (ht : FletcherTakes k (p ++ q)) (a b : Nat) (ca : FletcherOf P k [p] a) (cb : FletcherOf Q k [q] b) (c : Nat) :
    FletcherOf R k [p ++ q] c ↔
      c % 256 ^ k = (a % 256 ^ k + b % 256 ^ k) % (256 ^ k - 1) ∧
      c / 256 ^ k = (a / 256 ^ k + b / 256 ^ k + (q.length + (k - 1)) / k * (a % 256 ^ k)) % (256 ^ k - 1) := by
  have k0 : 0 < k := by omega
  have tp : FletcherTakes k p := fun e => by have := ht e; simp at this; omega
  have tq : FletcherTakes k q := fun e => by have := ht e; simp at this; omega
  obtain ⟨m, hm⟩ := hd
  obtain ⟨a1, a2⟩ := (eq_fletcher_iff k0 _ _).mp ((C112_fletcher_value hP hW hk p hf tp a).mp ca)
  obtain ⟨b1, b2⟩ := (eq_fletcher_iff k0 _ _).mp ((C112_fletcher_value hQ hV hk q hg tq b).mp cb)
  rw [C112_fletcher_value hR hU hk _ hh ht, eq_fletcher_iff k0, words_append k0 m p q hm, List.sum_append, runningTotal_append, words_length,
    a1, a2, b1, b2]
  have e1 : (((words k p).sum % (256 ^ k - 1) + (words k q).sum % (256 ^ k - 1)) % (256 ^ k - 1)) = ((words k p).sum + (words k q).sum) % (256 ^ k - 1) :=
    (Nat.add_mod _ _ _).symm
  have e2 : (runningTotal (words k p) % (256 ^ k - 1) + runningTotal (words k q) % (256 ^ k - 1) +
      (q.length + (k - 1)) / k * ((words k p).sum % (256 ^ k - 1))) % (256 ^ k - 1) =
      (runningTotal (words k p) + (q.length + (k - 1)) / k * (words k p).sum + runningTotal (words k q)) % (256 ^ k - 1) := by
    have h : runningTotal (words k p) % (256 ^ k - 1) + runningTotal (words k q) % (256 ^ k - 1) +
        (q.length + (k - 1)) / k * ((words k p).sum % (256 ^ k - 1)) ≡
        runningTotal (words k p) + runningTotal (words k q) + (q.length + (k - 1)) / k * (words k p).sum [MOD 256 ^ k - 1] :=
      ((Nat.mod_modEq _ _).add (Nat.mod_modEq _ _)).add ((Nat.mod_modEq _ _).mul_left _)
    rw [h, Nat.add_right_comm]
  rw [e1, e2]

include hP hQ hR hS hW hV hU hT hk in
/-- **C130** Fletcher checksum of a text in which whole words are replaced by as many others: what has to hold for the halves. -/
theorem C130_fletcher_replace (l r p q : List U8) (hl : k ∣ l.length) (hp : k ∣ p.length) (hpq : p.length = q.length) (hf : FitsWord P [l ++ p ++ r])
    (hg : FitsWord Q [p]) (hh : FitsWord R [q]) (hi : FitsWord S [l ++ q ++ r]) (ht : FletcherTakes k (l ++ p ++ r)) (c a b : Nat)
    (cc : FletcherOf P k [l ++ p ++ r] c) (ca : FletcherOf Q k [p] a) (cb : FletcherOf R k [q] b) (d : Nat) :
    FletcherOf S k [l ++ q ++ r] d ↔
      d % 256 ^ k < 256 ^ k - 1 ∧ d / 256 ^ k < 256 ^ k - 1 ∧
      (d % 256 ^ k + a % 256 ^ k) % (256 ^ k - 1) = (c % 256 ^ k + b % 256 ^ k) % (256 ^ k - 1) ∧
      (d / 256 ^ k + a / 256 ^ k + (r.length + (k - 1)) / k * (a % 256 ^ k)) % (256 ^ k - 1) =
        (c / 256 ^ k + b / 256 ^ k + (r.length + (k - 1)) / k * (b % 256 ^ k)) % (256 ^ k - 1) := by
  have k0 : 0 < k := by omega
  have tp : FletcherTakes k p := fun e => by have := ht e; simp at this; omega
  have tq : FletcherTakes k q := fun e => by have := ht e; simp at this; omega
  have tS : FletcherTakes k (l ++ q ++ r) := fun e => by have := ht e; simp at this ⊢; omega
  obtain ⟨m, hm⟩ := hl
  obtain ⟨n, hn⟩ := hp
  have hB : 256 ≤ 256 ^ k := by simpa using Nat.pow_le_pow_right (n := 256) (by decide) k0
  have split (s : List U8) (hs : s.length = k * n) : words k (l ++ s ++ r) = words k l ++ (words k s ++ words k r) := by
    rw [List.append_assoc, words_append k0 m l _ hm, words_append k0 n s r hs]
  have len : (words k q).length = (words k p).length := by rw [words_length, words_length, hpq]
  obtain ⟨a1, a2⟩ := (eq_fletcher_iff k0 _ _).mp ((C112_fletcher_value hQ hV hk p hg tp a).mp ca)
  obtain ⟨b1, b2⟩ := (eq_fletcher_iff k0 _ _).mp ((C112_fletcher_value hR hU hk q hh tq b).mp cb)
  obtain ⟨c1, c2⟩ := (eq_fletcher_iff k0 _ _).mp ((C112_fletcher_value hP hW hk _ hf ht c).mp cc)
  rw [C112_fletcher_value hS hT hk _ hi tS, eq_fletcher_iff k0]
  rw [split q (by omega)]
  rw [split p hn] at c1 c2
  simp only [List.sum_append, runningTotal_append, List.length_append, len] at *
  rw [words_length (k := k) r] at *
  generalize (r.length + (k - 1)) / k = z at *
  generalize 256 ^ k = B at *
  generalize (words k p).length = y at *
  generalize (words k p).sum = sp at *
  generalize (words k q).sum = sq at *
  generalize (words k l).sum = sl at *
  generalize (words k r).sum = sr at *
  generalize runningTotal (words k p) = tp at *
  generalize runningTotal (words k q) = tq at *
  generalize runningTotal (words k l) = tl at *
  generalize runningTotal (words k r) = tr at *
  have ma : a % B ≡ sp [MOD B - 1] := by rw [a1]; exact Nat.mod_modEq _ _
  have mb : b % B ≡ sq [MOD B - 1] := by rw [b1]; exact Nat.mod_modEq _ _
  have mc : c % B ≡ sl + (sp + sr) [MOD B - 1] := by rw [c1]; exact Nat.mod_modEq _ _
  have na : a / B ≡ tp [MOD B - 1] := by rw [a2]; exact Nat.mod_modEq _ _
  have nb : b / B ≡ tq [MOD B - 1] := by rw [b2]; exact Nat.mod_modEq _ _
  have nc : c / B ≡ tl + (y + z) * sl + (tp + z * sp + tr) [MOD B - 1] := by rw [c2]; exact Nat.mod_modEq _ _
  have low : (d % B + a % B ≡ c % B + b % B [MOD B - 1]) ↔ d % B ≡ sl + (sq + sr) [MOD B - 1] := by
    have e1 : d % B + a % B ≡ d % B + sp [MOD B - 1] := ma.add_left _
    have e2 : c % B + b % B ≡ (sl + (sq + sr)) + sp [MOD B - 1] := by
      have := mc.add mb
      rwa [show sl + (sp + sr) + sq = sl + (sq + sr) + sp by omega] at this
    exact ⟨fun h => Nat.ModEq.add_right_cancel' sp ((e1.symm.trans h).trans e2), fun h => (e1.trans (h.add_right sp)).trans e2.symm⟩
  have high : (d / B + a / B + z * (a % B) ≡ c / B + b / B + z * (b % B) [MOD B - 1]) ↔
      d / B ≡ tl + (y + z) * sl + (tq + z * sq + tr) [MOD B - 1] := by
    have e1 : d / B + a / B + z * (a % B) ≡ d / B + (tp + z * sp) [MOD B - 1] := by
      have := (na.add_left (d / B)).add (ma.mul_left z)
      rwa [Nat.add_assoc (d / B) tp] at this
    have e2 : c / B + b / B + z * (b % B) ≡ tl + (y + z) * sl + (tq + z * sq + tr) + (tp + z * sp) [MOD B - 1] := by
      have := (nc.add nb).add (mb.mul_left z)
      rwa [show tl + (y + z) * sl + (tp + z * sp + tr) + tq + z * sq = tl + (y + z) * sl + (tq + z * sq + tr) + (tp + z * sp) by omega] at this
    exact ⟨fun h => Nat.ModEq.add_right_cancel' _ ((e1.symm.trans h).trans e2), fun h => (e1.trans (h.add_right _)).trans e2.symm⟩
  have pos : 0 < B - 1 := by omega
  have fin (x v : Nat) : x = v % (B - 1) ↔ x < B - 1 ∧ x ≡ v [MOD B - 1] :=
    ⟨fun h => by rw [h]; exact ⟨Nat.mod_lt _ pos, Nat.mod_modEq _ _⟩, fun ⟨h1, h2⟩ => by rw [← h2, Nat.mod_eq_of_lt h1]⟩
  rw [fin, fin, ← low, ← high]
  unfold Nat.ModEq
  tauto

end fletcher

/-! ## luhn -/

theorem luhnTotal_join (b : Bool) (j : Nat) : ∀ n i, j < 100 ^ n → luhnTotal b (i * 100 ^ n + j) = luhnTotal b i + luhnTotal b j := by
  intro n
  induction n generalizing j with
  | zero =>
    intro i h
    obtain rfl : j = 0 := by simpa using h
    rw [luhnTotal.eq_def b 0]
    simp
  | succ n ih =>
    intro i h
    have h' : j / 100 < 100 ^ n := by
      rw [Nat.pow_succ] at h
      exact Nat.div_lt_of_lt_mul (by omega)
    have step (x : Nat) : luhnTotal b x = luhnDigit b (x % 10) + (luhnDigit (!b) (x / 10 % 10) + luhnTotal b (x / 100)) := by
      rw [_root_.Luhn.total_eq, _root_.Luhn.total_eq _ (x / 10), Nat.div_div_eq_div_mul, Bool.not_not]
    have e1 : (i * 100 ^ (n + 1) + j) % 10 = j % 10 := by rw [Nat.pow_succ, ← Nat.mul_assoc]; omega
    have e2 : (i * 100 ^ (n + 1) + j) / 10 % 10 = j / 10 % 10 := by rw [Nat.pow_succ, ← Nat.mul_assoc]; omega
    have e3 : (i * 100 ^ (n + 1) + j) / 100 = i * 100 ^ n + j / 100 := by rw [Nat.pow_succ, ← Nat.mul_assoc]; omega
    rw [step, e1, e2, e3, ih _ i h', step j]
    omega

section luhn
variable {P Q R : Prog} (hP : P.Has Luhn.path [Luhn.src] []) (hQ : Q.Has Luhn.path [Luhn.src] []) (hR : R.Has Luhn.path [Luhn.src] [])
include hP hQ hR

/-- **C130** Luhn digit of a number followed by an even number of digits, from the digits of the two numbers. -/
theorem C130_luhn (n : Nat) (i j m : U64) (hj : j.toNat < 10 ^ (2 * n)) (hm : m.toNat = i.toNat * 10 ^ (2 * n) + j.toNat) (a b : U8)
    (ca : LuhnOf P i a) (cb : LuhnOf Q j b) (c : U8) : LuhnOf R m c ↔ c.toNat = (a.toNat + b.toNat) % 10 := by
  rw [luhnOf_iff hR, (luhnOf_iff hP i a).mp ca, (luhnOf_iff hQ j b).mp cb, ← BitVec.toNat_inj]
  rw [Nat.pow_mul] at hj hm
  simp only [_root_.Luhn.Checksum_toNat, hm]
  rw [luhnTotal_join true j.toNat n i.toNat hj]
  omega

end luhn

/-! ## Examples -/

/-- Parts checked on machines with ints of different widths, the whole on one of them. -/
example (a b c : Nat) (ha : BccOf checksums [[1#8], [2#8]] a) (hb : BccOf checksums32 [[7#8, 9#8]] b) :
    BccOf checksums [[1#8, 2#8, 7#8], [9#8]] c ↔ c = a ^^^ b :=
  C130_bcc checksums_has.1 checksums32_has.1 checksums_has.1 (by decide) (by decide) (by decide) _ _ _ (fits_small _ (by decide) _ (by simp))
    (fits_small _ (by decide) _ (by simp)) (fits_small _ (by decide) _ (by simp)) rfl a b ha hb c

/-- One byte in the middle replaced. -/
example (c a b d : Nat) (hc : BccOf checksums [[1#8, 2#8, 3#8]] c) (ha : BccOf checksums32 [[2#8]] a) (hb : BccOf checksums32 [[8#8, 9#8]] b) :
    BccOf checksums [[1#8, 8#8, 9#8, 3#8]] d ↔ d = c ^^^ a ^^^ b :=
  C130_bcc_replace checksums_has.1 checksums32_has.1 checksums32_has.1 checksums_has.1 (by decide) (by decide) (by decide) (by decide) [1] [3] [2] [8, 9]
    (fits_small _ (by decide) _ (by simp)) (fits_small _ (by decide) _ (by simp)) (fits_small _ (by decide) _ (by simp))
    (fits_small _ (by decide) _ (by simp)) c a b hc ha hb d

/-- LRC: the values 253 and 240 make 237, and with the second byte 2 (254) made 5 (251) it is 234. -/
example (c d : Nat) : (LrcOf checksums [[1#8, 2#8, 7#8, 9#8]] c ↔ c = 237) ∧ (LrcOf checksums32 [[1#8, 5#8, 7#8, 9#8]] d ↔ d = 234) := by
  have f := fits_small checksums (by decide)
  have g := fits_small checksums32 (by decide)
  obtain ⟨-, a1, -⟩ := checksums_has
  obtain ⟨-, b1, -⟩ := checksums32_has
  have whole (c : Nat) := C130_lrc a1 b1 a1 (by decide) (by decide) (by decide) [1, 2] [7, 9] (f _ (by simp)) (g _ (by simp)) (f _ (by simp)) 253 240
    ((C112_lrc_value a1 (by decide) _ (f _ (by simp)) _).mpr (by decide)) ((C112_lrc_value b1 (by decide) _ (g _ (by simp)) _).mpr (by decide)) c
  refine ⟨whole c, (C130_lrc_replace a1 a1 a1 b1 (by decide) (by decide) (by decide) (by decide) [1] [7, 9] [2] [5] (f _ (by simp)) (f _ (by simp))
    (f _ (by simp)) (g _ (by simp)) 237 254 251 ((whole 237).mpr rfl) ((C112_lrc_value a1 (by decide) _ (f _ (by simp)) _).mpr (by decide))
    ((C112_lrc_value a1 (by decide) _ (f _ (by simp)) _).mpr (by decide)) d).trans (by omega)⟩

/-- Fletcher-32 of "abcde" from those of "abcd" and "e". -/
example (c : Nat) : FletcherOf checksums 2 [[97#8, 98#8, 99#8, 100#8, 101#8]] c ↔ c = 0xF04FC729 := by
  have f := fits_small checksums (by decide)
  have g := fits_small checksums32 (by decide)
  obtain ⟨-, -, a1, -⟩ := checksums_has
  obtain ⟨-, -, b1, -⟩ := checksums32_has
  have h := C130_fletcher a1 b1 a1 (by decide) (by decide) (by decide) (.inr (.inl rfl)) [97, 98, 99, 100] [101] (by decide) (f _ (by simp)) (g _ (by simp))
    (f _ (by simp)) (by simp [FletcherTakes]) _ _ ((C112_fletcher_value a1 (by decide) (.inr (.inl rfl)) _ (f _ (by simp)) (by simp [FletcherTakes]) _).mpr rfl)
    ((C112_fletcher_value b1 (by decide) (.inr (.inl rfl)) _ (g _ (by simp)) (by simp [FletcherTakes]) _).mpr rfl) c
  have e1 : fletcher 2 (words 2 [97, 98, 99, 100]) = 0x2926C6C4 := by decide +kernel
  have e2 : fletcher 2 (words 2 [101]) = 0x00650065 := by decide +kernel
  rw [e1, e2] at h
  refine h.trans ?_
  norm_num
  omega

/-- Fletcher-16 of 1, 5, 3 from that of 1, 2, 3 (which is `0x0A06`). -/
example (d : Nat) : FletcherOf checksums32 1 [[1#8, 5#8, 3#8]] d ↔ d = 0x1009 := by
  have f := fits_small checksums (by decide)
  have g := fits_small checksums32 (by decide)
  obtain ⟨-, -, a1, -⟩ := checksums_has
  obtain ⟨-, -, b1, -⟩ := checksums32_has
  have v (p : List U8) (hp : p.length < 100) : FletcherOf checksums 1 [p] (fletcher 1 (words 1 p)) :=
    (C112_fletcher_value a1 (by decide) (.inl rfl) _ (f _ (by simp; omega)) (fun _ => by omega) _).mpr rfl
  have h := C130_fletcher_replace a1 a1 a1 b1 (by decide) (by decide) (by decide) (by decide) (.inl rfl) [1] [3] [2] [5] (by decide) (by decide) rfl
    (f _ (by simp)) (f _ (by simp)) (f _ (by simp)) (g _ (by simp)) (by simp [FletcherTakes]) _ _ _ (v _ (by simp)) (v _ (by simp)) (v _ (by simp)) d
  have e1 : fletcher 1 (words 1 ([1] ++ [2] ++ [3])) = 0x0A06 := by decide +kernel
  have e2 : fletcher 1 (words 1 [2]) = 0x0202 := by decide +kernel
  have e3 : fletcher 1 (words 1 [5]) = 0x0505 := by decide +kernel
  rw [e1, e2, e3] at h
  refine h.trans ?_
  norm_num
  omega

/-- 799273 and 9871 have the digits 2 and 1; the number written from both has 3. -/
example (c : U8) : LuhnOf checksums32 7992739871#64 c ↔ c = 3#8 := by
  rw [C130_luhn checksums_has.2.2.2 checksums32_has.2.2.2 checksums32_has.2.2.2 2 799273 9871 7992739871#64 (by decide) (by decide) _ _
    ((luhnOf_iff checksums_has.2.2.2 _ _).mpr rfl) ((luhnOf_iff checksums32_has.2.2.2 _ _).mpr rfl), ← BitVec.toNat_inj]
  have : ((_root_.Luhn.Checksum 799273).toNat + (_root_.Luhn.Checksum 9871).toNat) % 10 = 3 := by decide +kernel
  rw [this]; rfl

end Source
