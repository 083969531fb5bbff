import Verif.Props.SourceChecksum
import Verif.Props.FletcherErrors
import Verif.Props.ChecksumBursts

/-!
# C112: the errors that the text of the checksum packages notices

A sender and a receiver, on machines of their own (two programs `P` and `Q`, which may differ in everything but the text of the package,
even in the size of `int`), compute a check value of what was sent and of what arrived by running the text. Which errors make the two
values differ?
-/
namespace Source
open GoLang HashSpec ChecksumSpec Checksum

/-- Running the text: a new object is made in some memory, the chunks `ps` are written to it one after another, and the method for the sum
as a number then returns `n`. -/
def Checks (P : Prog) (path ty new sumN : Name) (ps : List (List U8)) (n : Nat) : Prop :=
  ∃ h a h' outs, Returns P path 0 new [] h [obj path ty a] h' ∧
    Plays P path ty sumN a h' (ps.map .write ++ [.sumN]) (.ok (outs ++ [.num n]))

/-- The slices can exist on the machine. -/
def FitsWord (P : Prog) (ps : List (List U8)) : Prop := ∀ p ∈ ps, (p.length : Int) < 2 ^ (P.W - 1)

theorem checks_iff {P : Prog} {path ty new sumN : Name} {σ : Type} {I : GoHash.Impl σ} {rep : σ → Val} {Inv : σ → Prop}
    (hI : Implements P path ty new sumN I rep Inv) (hs : sumN ≠ 0) {ps : List (List U8)} (hf : FitsWord P ps) (n : Nat) :
    Checks P path ty new sumN ps n ↔ ∃ outs, GoHash.run I (ps.map .write ++ [.sumN]) = .ok (outs ++ [.num n]) := by
  have hc : Callable P.W sumN (ps.map .write ++ [.sumN]) := by
    refine ⟨fun p hp => hf p ?_, fun _ => hs⟩
    simpa using hp
  constructor
  · rintro ⟨h, a, h', outs, hr, hp⟩
    obtain ⟨a₂, h₂, hr₂, hp₂⟩ := hI.plays h
    have := hr.unique hr₂
    simp only [List.cons.injEq, Val.ptr.injEq, and_true, true_and] at this
    obtain ⟨rfl, rfl⟩ := this
    exact ⟨outs, (hp₂ _ _ hc).mp hp⟩
  · rintro ⟨outs, hr⟩
    obtain ⟨a, h', hr', hp⟩ := hI.plays []
    exact ⟨[], a, h', outs, hr', (hp _ _ hc).mpr hr⟩

theorem last_num {o o' : List GoHash.Out} {n m : Nat} (h : o ++ [GoHash.Out.num n] = o' ++ [.num m]) : n = m := by
  have := List.append_inj_right' h rfl
  simpa using this

/-- The value that one write gives. -/
theorem checks_one {P : Prog} {path ty new sumN : Name} {σ : Type} {I : GoHash.Impl σ} {rep : σ → Val} {Inv : σ → Prop}
    (hI : Implements P path ty new sumN I rep Inv) (hs : sumN ≠ 0) {p : List U8} (hf : FitsWord P [p]) {k : Nat}
    (hp : GoHash.run I [.write p, .sumN] = .ok [.wrote p.length false, .num k]) (n : Nat) :
    Checks P path ty new sumN [p] n ↔ n = k := by
  rw [checks_iff hI hs hf]
  simp only [List.map_cons, List.map_nil, List.cons_append, List.nil_append, hp]
  constructor
  · rintro ⟨o, e⟩
    exact (last_num (o := [.wrote p.length false]) (by simpa using e)).symm
  · rintro rfl
    exact ⟨[.wrote p.length false], rfl⟩

/-- Two programs, two strings of the same length: the values are equal exactly if the outcomes of the model are. -/
theorem checks_two {P Q : Prog} {path ty new sumN : Name} {σ : Type} {I : GoHash.Impl σ} {rep : σ → Val} {Inv : σ → Prop}
    (hI : Implements P path ty new sumN I rep Inv) (hJ : Implements Q path ty new sumN I rep Inv) (hs : sumN ≠ 0) {p q : List U8}
    (hl : p.length = q.length) (hf : FitsWord P [p]) (hg : FitsWord Q [q]) {k k' : Nat}
    (hp : GoHash.run I [.write p, .sumN] = .ok [.wrote p.length false, .num k])
    (hq : GoHash.run I [.write q, .sumN] = .ok [.wrote q.length false, .num k']) {n m : Nat}
    (cp : Checks P path ty new sumN [p] n) (cq : Checks Q path ty new sumN [q] m) :
    n = m ↔ GoHash.run I [.write p, .sumN] = GoHash.run I [.write q, .sumN] := by
  rw [checks_one hI hs hf hp] at cp
  rw [checks_one hJ hs hg hq] at cq
  rw [hp, hq, cp, cq, hl]
  simp

/-! ## bcc -/

section bcc
variable {P Q : Prog} (hP : P.Has Bcc.path [Bcc.src] []) (hQ : Q.Has Bcc.path [Bcc.src] []) (hW : 32 ≤ P.W) (hV : 32 ≤ Q.W)

/-- `Sum8` of a new object of bcc.go after writing `ps`. -/
abbrev BccOf (P : Prog) := Checks P Bcc.path (n! "digest") (n! "New") (n! "Sum8")

include hP hW in
/-- **C112** Every text has one BCC, a byte, and it does not matter in which pieces the text is written. -/
theorem C112_bcc_value (ps : List (List U8)) (hf : FitsWord P ps) (n : Nat) : BccOf P ps n ↔ n = (xorAll ps.flatten).toNat := by
  rw [BccOf, checks_iff (C87_bcc P hP hW) (by decide) hf, C34_bcc_stream]
  have key : ∀ (ps : List (List U8)) (log : List U8), ∃ o, expectFrom bcc log (ps.map .write ++ [.sumN]) =
      o ++ [.num (xorAll (log ++ ps.flatten)).toNat] := by
    intro ps
    induction ps with
    | nil => intro log; exact ⟨[], by simp [expectFrom, bcc]⟩
    | cons p ps ih =>
      intro log
      obtain ⟨o, e⟩ := ih (log ++ p)
      exact ⟨.wrote p.length false :: o, by simp [expectFrom, e]⟩
  obtain ⟨o, e⟩ := key ps []
  rw [show expect bcc (ps.map .write ++ [.sumN]) = _ from e]
  constructor
  · rintro ⟨o', h⟩
    simp only [Res.ok.injEq] at h
    simpa using (last_num h).symm
  · rintro rfl
    exact ⟨o, by simp⟩

theorem bcc_num (p : List U8) : GoHash.run _root_.Bcc.impl [.write p, .sumN] = .ok [.wrote p.length false, .num (xorAll p).toNat] := by
  rw [C34_bcc_stream]; rfl

variable {p q : List U8} {n m : Nat} (hf : FitsWord P [p]) (hg : FitsWord Q [q]) (cp : BccOf P [p] n) (cq : BccOf Q [q] m)

include hP hQ hW hV hf hg cp cq

/-- **C112** One byte changed: noticed. -/
theorem C112_bcc_byte (l r : List U8) (x y : U8) (hxy : x ≠ y) (hp : p = l ++ x :: r) (hq : q = l ++ y :: r) : n ≠ m := by
  rw [ne_eq, checks_two (C87_bcc P hP hW) (C87_bcc Q hQ hV) (by decide) (by simp [hp, hq]) hf hg (bcc_num p) (bcc_num q) cp cq, hp, hq]
  exact C35_bcc_detects l r x y hxy

/-- **C112** Bytes in another order: not noticed. -/
theorem C112_bcc_order (h : p.Perm q) : n = m := by
  rw [checks_two (C87_bcc P hP hW) (C87_bcc Q hQ hV) (by decide) h.length_eq hf hg (bcc_num p) (bcc_num q) cp cq]
  exact C35_bcc_order p q h

/-- **C112** An odd number of bits changed: noticed. -/
theorem C112_bcc_odd (hl : p.length = q.length) (h : bitsDiff p q % 2 = 1) : n ≠ m := by
  rw [ne_eq, checks_two (C87_bcc P hP hW) (C87_bcc Q hQ hV) (by decide) hl hf hg (bcc_num p) (bcc_num q) cp cq]
  exact C111_bcc_odd p q hl h

/-- **C112** A burst of at most eight bits: noticed. -/
theorem C112_bcc_burst (l r : List U8) (x x' y y' : U8) (k : Nat) (hk : k ≤ 8) (hne : x ≠ y ∨ x' ≠ y')
    (h1 : x.toNat / 2 ^ (8 - k) = y.toNat / 2 ^ (8 - k)) (h2 : x'.toNat % 2 ^ (8 - k) = y'.toNat % 2 ^ (8 - k))
    (hp : p = l ++ x :: x' :: r) (hq : q = l ++ y :: y' :: r) : n ≠ m := by
  rw [ne_eq, checks_two (C87_bcc P hP hW) (C87_bcc Q hQ hV) (by decide) (by simp [hp, hq]) hf hg (bcc_num p) (bcc_num q) cp cq, hp, hq]
  exact C111_bcc_burst l r x x' y y' k hk hne h1 h2

/-- **C112** Two bits of different bytes: noticed exactly if they stand at different places. -/
theorem C112_bcc_two_bits (l mid r : List U8) (x y : U8) (a b : Nat) (ha : a < 8) (hb : b < 8)
    (hp : p = l ++ x :: (mid ++ y :: r)) (hq : q = l ++ toggle x a :: (mid ++ toggle y b :: r)) : n = m ↔ a = b := by
  rw [checks_two (C87_bcc P hP hW) (C87_bcc Q hQ hV) (by decide) (by simp [hp, hq]) hf hg (bcc_num p) (bcc_num q) cp cq, hp, hq]
  exact C111_bcc_two_bits l mid r x y a b ha hb

end bcc

/-- **C112** The receiver may run the BCC over the text with the check value after it, in any pieces: the result is 0. -/
theorem C112_bcc_residue {P Q : Prog} (hP : P.Has Bcc.path [Bcc.src] []) (hQ : Q.Has Bcc.path [Bcc.src] []) (hW : 32 ≤ P.W) (hV : 32 ≤ Q.W)
    (ps qs : List (List U8)) (hf : FitsWord P ps) (hg : FitsWord Q qs) (c : U8) (hq : qs.flatten = ps.flatten ++ [c]) (n : Nat) (cq : BccOf Q qs n) :
    n = 0 ↔ BccOf P ps c.toNat := by
  rw [C112_bcc_value hP hW ps hf, (C112_bcc_value hQ hV qs hg n).mp cq, hq, xorAll_append, BitVec.toNat_inj]
  simp only [xorAll, BitVec.xor_zero]
  constructor
  · intro h
    have h : xorAll ps.flatten ^^^ c = 0#8 := BitVec.eq_of_toNat_eq (by simpa using h)
    have := BitVec.xor_eq_zero_iff.mp h
    exact this.symm
  · rintro rfl
    simp

/-! ## lrc -/

section lrc
variable {P Q : Prog} (hP : P.Has Lrc.path [Lrc.src] []) (hQ : Q.Has Lrc.path [Lrc.src] []) (hW : 32 ≤ P.W) (hV : 32 ≤ Q.W)

/-- `Sum8` of a new object of lrc.go after writing `ps`. -/
abbrev LrcOf (P : Prog) := Checks P Lrc.path (n! "digest") (n! "New") (n! "Sum8")

theorem lrc_num (p : List U8) :
    GoHash.run _root_.Lrc.impl [.write p, .sumN] = .ok [.wrote p.length false, .num ((256 - byteSum p % 256) % 256)] := by
  rw [lrc_once _ _ (.inl rfl)]; rfl

include hP hW in
/-- **C112** The LRC of a text written at once: the byte that makes the sum of all bytes a multiple of 256. -/
theorem C112_lrc_value (p : List U8) (hf : FitsWord P [p]) (n : Nat) : LrcOf P [p] n ↔ n < 256 ∧ (byteSum p + n) % 256 = 0 := by
  rw [LrcOf, checks_one (C87_lrc P hP hW) (by decide) hf (lrc_num p)]
  omega

variable {p q : List U8} {n m : Nat} (hf : FitsWord P [p]) (hg : FitsWord Q [q]) (cp : LrcOf P [p] n) (cq : LrcOf Q [q] m)

include hP hQ hW hV hf hg cp cq

/-- **C112** One byte changed: noticed. -/
theorem C112_lrc_byte (l r : List U8) (x y : U8) (hxy : x ≠ y) (hp : p = l ++ x :: r) (hq : q = l ++ y :: r) : n ≠ m := by
  rw [ne_eq, checks_two (C87_lrc P hP hW) (C87_lrc Q hQ hV) (by decide) (by simp [hp, hq]) hf hg (lrc_num p) (lrc_num q) cp cq, hp, hq]
  exact C67_lrc_detects l r x y hxy

/-- **C112** Bytes in another order: not noticed. -/
theorem C112_lrc_order (h : p.Perm q) : n = m := by
  rw [checks_two (C87_lrc P hP hW) (C87_lrc Q hQ hV) (by decide) h.length_eq hf hg (lrc_num p) (lrc_num q) cp cq]
  exact C67_lrc_order p q h

/-- **C112** Two bits of different bytes: which pairs pass. -/
theorem C112_lrc_two_bits (l mid r : List U8) (x y : U8) (a b : Nat) (ha : a < 8) (hb : b < 8)
    (hp : p = l ++ x :: (mid ++ y :: r)) (hq : q = l ++ toggle x a :: (mid ++ toggle y b :: r)) :
    n = m ↔ a = b ∧ (a = 7 ∨ x.getLsbD a ≠ y.getLsbD a) := by
  rw [checks_two (C87_lrc P hP hW) (C87_lrc Q hQ hV) (by decide) (by simp [hp, hq]) hf hg (lrc_num p) (lrc_num q) cp cq, hp, hq]
  exact C111_lrc_two_bits l mid r x y a b ha hb

end lrc

/-! ## fletcher -/

/-- `Sum16`, `Sum32`, `Sum64` of a new object of the fletcher package after writing `ps`; `k` is the number of bytes in a word. -/
def FletcherOf (P : Prog) (k : Nat) (ps : List (List U8)) (n : Nat) : Prop :=
  match k with
  | 1 => Checks P Fletcher.path (n! "digest16") (n! "New16") (n! "Sum16") ps n
  | 2 => Checks P Fletcher.path (n! "digest32") (n! "New32") (n! "Sum32") ps n
  | 4 => Checks P Fletcher.path (n! "digest64") (n! "New64") (n! "Sum64") ps n
  | _ => False

/-- What fletcher16.go can take at once: it panics for most longer slices (C38). -/
def FletcherTakes (k : Nat) (p : List U8) : Prop := k = 1 → p.length ≤ 5803

section fletcher
variable {P Q : Prog} (hP : P.Has Fletcher.path fletcherTexts []) (hQ : Q.Has Fletcher.path fletcherTexts []) (hW : 32 ≤ P.W) (hV : 32 ≤ Q.W)
  {k : Nat} (hk : k = 1 ∨ k = 2 ∨ k = 4)

include hP hW hk in
/-- **C112** The value for a text written at once. -/
theorem C112_fletcher_value (p : List U8) (hf : FitsWord P [p]) (ht : FletcherTakes k p) (n : Nat) :
    FletcherOf P k [p] n ↔ n = fletcher k (words k p) := by
  rcases hk with rfl | rfl | rfl
  · refine checks_one (C87_fletcher16 P hP hW) (by decide) hf ?_ n
    refine C38_fletcher16_partial [.write p, .sumN] ⟨?_, trivial⟩
    have := ht rfl
    unfold Ok16
    by_cases e : p.length = 5803
    · exact .inr ⟨e, rfl⟩
    · exact .inl (by omega)
  · exact checks_one (C87_fletcher32 P hP hW) (by decide) hf ((C41_fletcher_stream_partial _).1 ⟨.inl ⟨0, rfl⟩, trivial⟩) n
  · exact checks_one (C87_fletcher64 P hP hW) (by decide) hf ((C41_fletcher_stream_partial _).2 ⟨.inl ⟨0, rfl⟩, trivial⟩) n

variable {p q : List U8} {n m : Nat} (hf : FitsWord P [p]) (hg : FitsWord Q [q]) (ht : FletcherTakes k p) (hu : FletcherTakes k q)
  (cp : FletcherOf P k [p] n) (cq : FletcherOf Q k [q] m)

include hP hQ hW hV hk hf hg ht hu cp cq

/-- **C112** Two words changed: which changes pass. -/
theorem C112_fletcher_two_words (l mid r : List Nat) (x y x' y' : Nat) (hp : words k p = l ++ x :: (mid ++ y :: r))
    (hq : words k q = l ++ x' :: (mid ++ y' :: r)) :
    n = m ↔ x + y ≡ x' + y' [MOD 256 ^ k - 1] ∧ (mid.length + 1) * x ≡ (mid.length + 1) * x' [MOD 256 ^ k - 1] := by
  rw [(C112_fletcher_value hP hW hk p hf ht n).mp cp, (C112_fletcher_value hQ hV hk q hg hu m).mp cq, hp, hq]
  exact fletcher_two k (by omega) l mid r x y x' y'

/-- **C112** Two neighbouring words changed: only all-zero for all-one words, or back, pass. -/
theorem C112_fletcher_neighbours (l r : List Nat) (x y x' y' : Nat) (hp : words k p = l ++ x :: y :: r)
    (hq : words k q = l ++ x' :: y' :: r) : n = m ↔ x ≡ x' [MOD 256 ^ k - 1] ∧ y ≡ y' [MOD 256 ^ k - 1] := by
  rw [C112_fletcher_two_words hP hQ hW hV hk hf hg ht hu cp cq l [] r x y x' y' hp hq]
  simp only [List.length_nil, Nat.zero_add, Nat.one_mul]
  exact ⟨fun h => ⟨h.2, h.2.add_left_cancel h.1⟩, fun h => ⟨h.1.add h.2, h.1⟩⟩

/-- **C112** Two words changing places pass exactly if their difference times their distance is a multiple of `256^k-1`. -/
theorem C112_fletcher_swap (l mid r : List Nat) (x y : Nat) (hp : words k p = l ++ x :: (mid ++ y :: r))
    (hq : words k q = l ++ y :: (mid ++ x :: r)) : n = m ↔ (mid.length + 1) * x ≡ (mid.length + 1) * y [MOD 256 ^ k - 1] := by
  rw [C112_fletcher_two_words hP hQ hW hV hk hf hg ht hu cp cq l mid r x y y x hp hq]
  exact ⟨fun h => h.2, fun h => ⟨by rw [Nat.add_comm], h⟩⟩

/-- **C112** Two bits of different words turned over pass exactly if they stand at the same place, were different, and `256^k-1` divides
the distance of the words. -/
theorem C112_fletcher_two_bits (l mid r : List Nat) (x y a b : Nat) (ha : a < 8 * k) (hb : b < 8 * k)
    (hp : words k p = l ++ x :: (mid ++ y :: r)) (hq : words k q = l ++ (x ^^^ 2 ^ a) :: (mid ++ (y ^^^ 2 ^ b) :: r)) :
    n = m ↔ a = b ∧ x.testBit a ≠ y.testBit a ∧ 256 ^ k - 1 ∣ mid.length + 1 := by
  rw [C112_fletcher_two_words hP hQ hW hV hk hf hg ht hu cp cq l mid r x y _ _ hp hq]
  rcases hk with rfl | rfl | rfl
  · exact two_flips 8 (by omega) _ x y a b ha hb
  · exact two_flips 16 (by omega) _ x y a b ha hb
  · exact two_flips 32 (by omega) _ x y a b ha hb

end fletcher

/-! ## luhn -/

section luhn
variable {P Q : Prog} (hP : P.Has Luhn.path [Luhn.src] []) (hQ : Q.Has Luhn.path [Luhn.src] [])

/-- `luhn.Checksum(i)` returns the digit `c`. -/
def LuhnOf (P : Prog) (i : U64) (c : U8) : Prop := ∃ h h', Returns P Luhn.path 0 (n! "Checksum") [.u64 i] h [.u8 c] h'

include hP in
theorem luhnOf_iff (i : U64) (c : U8) : LuhnOf P i c ↔ c = _root_.Luhn.Checksum i := by
  constructor
  · rintro ⟨h, h', hr⟩
    have := hr.unique (C87_luhn P hP h i)
    simpa using this.1
  · rintro rfl
    exact ⟨[], [], C87_luhn P hP [] i⟩

variable {i j : U64} {c d : U8} (ci : LuhnOf P i c) (cj : LuhnOf Q j d)
include hP hQ ci cj

/-- **C112** A digit changed, or two different neighbouring digits other than 0 and 9 exchanged: noticed. -/
theorem C112_luhn_digit (h : OneDigitDiffers i.toNat j.toNat ∨ AdjacentSwap i.toNat j.toNat) : c ≠ d := by
  rw [(luhnOf_iff hP i c).mp ci, (luhnOf_iff hQ j d).mp cj]
  exact C44_luhn_detects i j h

/-- **C112** Two digits changed: which changes pass. -/
theorem C112_luhn_two (k l : Nat) (hkl : k ≠ l) (h : SameBut k l i.toNat j.toNat) :
    c = d ↔ (luhnDigit (k % 2 == 0) (decDigit i.toNat k) + luhnDigit (l % 2 == 0) (decDigit i.toNat l)) % 10 =
      (luhnDigit (k % 2 == 0) (decDigit j.toNat k) + luhnDigit (l % 2 == 0) (decDigit j.toNat l)) % 10 := by
  rw [(luhnOf_iff hP i c).mp ci, (luhnOf_iff hQ j d).mp cj]
  exact C111_luhn_two i j k l hkl h

/-- **C112** Two digits changing places, at any distance: which pass. -/
theorem C112_luhn_transposition (k l : Nat) (hkl : k ≠ l) (h : SameBut k l i.toNat j.toNat)
    (h1 : decDigit i.toNat k = decDigit j.toNat l) (h2 : decDigit i.toNat l = decDigit j.toNat k) :
    c = d ↔ k % 2 = l % 2 ∨ decDigit i.toNat k = decDigit i.toNat l ∨
      (decDigit i.toNat k = 0 ∧ decDigit i.toNat l = 9) ∨ (decDigit i.toNat k = 9 ∧ decDigit i.toNat l = 0) := by
  rw [(luhnOf_iff hP i c).mp ci, (luhnOf_iff hQ j d).mp cj]
  exact C111_luhn_transposition i j k l hkl h h1 h2

/-- **C112** Twin digits `aa` for `bb`: which pass. -/
theorem C112_luhn_twins (a b : Nat) (ha : a < 10) (hb : b < 10) (hab : a ≠ b) (h : TwinError a b i.toNat j.toNat) :
    c = d ↔ (a, b) ∈ [(2, 5), (5, 2), (3, 6), (6, 3), (4, 7), (7, 4)] := by
  rw [(luhnOf_iff hP i c).mp ci, (luhnOf_iff hQ j d).mp cj]
  exact C69_luhn_twins i j a b ha hb hab h

/-- **C112** Phonetic errors, `a0` for `1a`: which pass. -/
theorem C112_luhn_phonetic (k a : Nat) (ha : 2 ≤ a) (ha' : a < 10) (h : SameBut k (k + 1) i.toNat j.toNat)
    (hi : decDigit i.toNat (k + 1) = a ∧ decDigit i.toNat k = 0) (hj : decDigit j.toNat (k + 1) = 1 ∧ decDigit j.toNat k = a) :
    c = d ↔ (k % 2 = 1 ∧ a = 2) ∨ (k % 2 = 0 ∧ a = 8) := by
  rw [(luhnOf_iff hP i c).mp ci, (luhnOf_iff hQ j d).mp cj]
  exact C111_luhn_phonetic i j k a ha ha' h hi hj

end luhn

/-! ## The hypotheses can be met -/

/-- The same packages on a machine with 32-bit integers, whose slices grow in another way. -/
def checksums32 : Prog := { checksums with W := 32, grow := fun n => 2 * n }

example : checksums32.Has Bcc.path [Bcc.src] [] ∧ checksums32.Has Lrc.path [Lrc.src] [] ∧ checksums32.Has Fletcher.path fletcherTexts [] ∧
    checksums32.Has Luhn.path [Luhn.src] [] :=
  ⟨⟨_, Bcc.text, by kernel_rfl⟩, ⟨_, Lrc.text, by kernel_rfl⟩, ⟨_, Fletcher.text, by kernel_rfl⟩, ⟨_, Luhn.text, by kernel_rfl⟩⟩

theorem fits_small (P : Prog) (h : 32 ≤ P.W) (ps : List (List U8)) (hs : ∀ p ∈ ps, p.length < 2 ^ 31) : FitsWord P ps := fun p hp => by
  have h1 := hs p hp
  have : (2 : Int) ^ 31 ≤ 2 ^ (P.W - 1) := by
    exact_mod_cast Nat.pow_le_pow_right (n := 2) (by decide) (by omega : 31 ≤ P.W - 1)
  omega

theorem checksums_has : checksums.Has Bcc.path [Bcc.src] [] ∧ checksums.Has Lrc.path [Lrc.src] [] ∧ checksums.Has Fletcher.path fletcherTexts [] ∧
    checksums.Has Luhn.path [Luhn.src] [] :=
  ⟨⟨_, Bcc.text, by kernel_rfl⟩, ⟨_, Lrc.text, by kernel_rfl⟩, ⟨_, Fletcher.text, by kernel_rfl⟩, ⟨_, Luhn.text, by kernel_rfl⟩⟩

theorem checksums32_has : checksums32.Has Bcc.path [Bcc.src] [] ∧ checksums32.Has Lrc.path [Lrc.src] [] ∧ checksums32.Has Fletcher.path fletcherTexts [] ∧
    checksums32.Has Luhn.path [Luhn.src] [] :=
  ⟨⟨_, Bcc.text, by kernel_rfl⟩, ⟨_, Lrc.text, by kernel_rfl⟩, ⟨_, Fletcher.text, by kernel_rfl⟩, ⟨_, Luhn.text, by kernel_rfl⟩⟩

/-- Every short text has its values on both machines. -/
theorem values_exist (p : List U8) (h : p.length < 2 ^ 31) : (∃ n, BccOf checksums [p] n) ∧ (∃ n, BccOf checksums32 [p] n) ∧ (∃ n, LrcOf checksums [p] n) ∧
    (∃ n, LrcOf checksums32 [p] n) ∧ ∀ k, k = 1 ∨ k = 2 ∨ k = 4 → FletcherTakes k p → (∃ n, FletcherOf checksums k [p] n) ∧ ∃ n, FletcherOf checksums32 k [p] n := by
  have f := fits_small checksums (by decide) [p] (by simpa using h)
  have g := fits_small checksums32 (by decide) [p] (by simpa using h)
  obtain ⟨a1, a2, a3, -⟩ := checksums_has
  obtain ⟨b1, b2, b3, -⟩ := checksums32_has
  refine ⟨⟨_, (C112_bcc_value a1 (by decide) _ f _).mpr rfl⟩, ⟨_, (C112_bcc_value b1 (by decide) _ g _).mpr rfl⟩,
    ⟨(256 - byteSum p % 256) % 256, (C112_lrc_value a2 (by decide) _ f _).mpr (by omega)⟩,
    ⟨(256 - byteSum p % 256) % 256, (C112_lrc_value b2 (by decide) _ g _).mpr (by omega)⟩, fun k hk ht => ⟨⟨_, (C112_fletcher_value a3 (by decide) hk p f ht _).mpr rfl⟩,
      ⟨_, (C112_fletcher_value b3 (by decide) hk p g ht _).mpr rfl⟩⟩⟩

/-- A text sent from one machine to the other with one byte wrong: the values are 3 and 2. -/
example : BccOf checksums [[1#8, 2#8]] 3 ∧ BccOf checksums32 [[1#8], [3#8]] 2 ∧ LrcOf checksums [[1#8, 2#8]] 253 ∧
    FletcherOf checksums32 2 [[97#8, 98#8, 99#8, 100#8, 101#8]] 0xF04FC729 ∧ LuhnOf checksums32 7992739871#64 3#8 := by
  have f := fits_small
  refine ⟨?_, ?_, ?_, ?_, ?_⟩
  · exact (C112_bcc_value ⟨_, Bcc.text, by kernel_rfl⟩ (by decide) _ (f _ (by decide) _ (by simp)) 3).mpr (by decide)
  · exact (C112_bcc_value ⟨_, Bcc.text, by kernel_rfl⟩ (by decide) _ (f _ (by decide) _ (by simp)) 2).mpr (by decide)
  · exact (C112_lrc_value ⟨_, Lrc.text, by kernel_rfl⟩ (by decide) _ (f _ (by decide) _ (by simp)) 253).mpr (by decide)
  · exact (C112_fletcher_value ⟨_, Fletcher.text, by kernel_rfl⟩ (by decide) (.inr (.inl rfl)) _ (f _ (by decide) _ (by simp)) (by simp [FletcherTakes]) _).mpr
      (by decide +kernel)
  · exact (luhnOf_iff ⟨_, Luhn.text, by kernel_rfl⟩ _ _).mpr (by decide +kernel)

/-- A burst of five bits across two bytes is noticed; so are three single bits, but not two bits at the same place of two bytes. -/
example (n m a b : Nat) (hn : BccOf checksums [[7#8, 0x53#8, 0x91#8, 8#8]] n) (hm : BccOf checksums32 [[7#8, 0x54#8, 0x11#8, 8#8]] m)
    (ha : BccOf checksums32 [[6#8, 0x53#8, 0x90#8, 12#8]] a) (hb : BccOf checksums32 [[7#8, 0x52#8, 0x90#8, 8#8]] b) : n ≠ m ∧ n ≠ a ∧ n = b := by
  have f := fits_small checksums (by decide)
  have g := fits_small checksums32 (by decide)
  obtain ⟨a1, -⟩ := checksums_has
  obtain ⟨b1, -⟩ := checksums32_has
  refine ⟨?_, ?_, ?_⟩
  · exact C112_bcc_burst a1 b1 (by decide) (by decide) (f _ (by simp)) (g _ (by simp)) hn hm [7] [8] _ _ _ _ 5 (by decide) (.inl (by decide)) (by decide) (by decide) rfl rfl
  · exact C112_bcc_odd a1 b1 (by decide) (by decide) (f _ (by simp)) (g _ (by simp)) hn ha rfl (by decide)
  · exact (C112_bcc_two_bits a1 b1 (by decide) (by decide) (f _ (by simp)) (g _ (by simp)) hn hb [7] [] [8] 0x53 0x91 0 0 (by decide) (by decide) rfl (by decide)).mpr rfl

/-- The receiver runs the BCC over three pieces, of which the last ends with the value sent. -/
example (n : Nat) (h : BccOf checksums32 [[1#8], [2#8, 4#8], [7#8]] n) : n = 0 ↔ BccOf checksums [[1#8, 2#8, 4#8]] 7 :=
  C112_bcc_residue checksums_has.1 checksums32_has.1 (by decide) (by decide) _ _ (fits_small _ (by decide) _ (by simp)) (fits_small _ (by decide) _ (by simp)) 7 rfl n h

/-- The same bit of two bytes turned over: the LRC notices it if the bits were equal, except the highest. -/
example (n m a b : Nat) (hn : LrcOf checksums [[1#8, 2#8]] n) (hm : LrcOf checksums32 [[0#8, 3#8]] m) (ha : LrcOf checksums32 [[5#8, 6#8]] a)
    (hb : LrcOf checksums32 [[0x81#8, 0x82#8]] b) : n = m ∧ n ≠ a ∧ n = b := by
  have f := fits_small checksums (by decide)
  have g := fits_small checksums32 (by decide)
  obtain ⟨-, a1, -⟩ := checksums_has
  obtain ⟨-, b1, -⟩ := checksums32_has
  refine ⟨?_, fun e => ?_, ?_⟩
  · exact (C112_lrc_two_bits a1 b1 (by decide) (by decide) (f _ (by simp)) (g _ (by simp)) hn hm [] [] [] 1 2 0 0 (by decide) (by decide) rfl (by decide)).mpr
      ⟨rfl, .inr (by decide)⟩
  · have := (C112_lrc_two_bits a1 b1 (by decide) (by decide) (f _ (by simp)) (g _ (by simp)) hn ha [] [] [] 1 2 2 2 (by decide) (by decide) rfl (by decide)).mp e
    revert this
    decide
  · exact (C112_lrc_two_bits a1 b1 (by decide) (by decide) (f _ (by simp)) (g _ (by simp)) hn hb [] [] [] 1 2 7 7 (by decide) (by decide) rfl (by decide)).mpr
      ⟨rfl, .inl rfl⟩

/-- Fletcher-16 with two bytes exchanged: noticed, except 0 for 255. -/
example (n m a b : Nat) (hn : FletcherOf checksums 1 [[1#8, 2#8, 3#8]] n) (hm : FletcherOf checksums32 1 [[3#8, 2#8, 1#8]] m)
    (ha : FletcherOf checksums 1 [[0#8, 2#8, 255#8]] a) (hb : FletcherOf checksums32 1 [[255#8, 2#8, 0#8]] b) : n ≠ m ∧ a = b := by
  have f := fits_small checksums (by decide)
  have g := fits_small checksums32 (by decide)
  obtain ⟨-, -, a1, -⟩ := checksums_has
  obtain ⟨-, -, b1, -⟩ := checksums32_has
  constructor
  · rw [ne_eq, C112_fletcher_swap a1 b1 (by decide) (by decide) (.inl rfl) (f _ (by simp)) (g _ (by simp)) (by simp [FletcherTakes]) (by simp [FletcherTakes]) hn hm
      [] [2] [] 1 3 (by decide) (by decide)]
    decide
  · rw [C112_fletcher_swap a1 b1 (by decide) (by decide) (.inl rfl) (f _ (by simp)) (g _ (by simp)) (by simp [FletcherTakes]) (by simp [FletcherTakes]) ha hb
      [] [2] [] 0 255 (by decide) (by decide)]
    decide

/-- Fletcher-32 with two neighbouring words changed. -/
example (n m : Nat) (hn : FletcherOf checksums 2 [[1#8, 0#8, 2#8, 0#8, 9#8, 9#8]] n) (hm : FletcherOf checksums32 2 [[2#8, 0#8, 1#8, 0#8, 9#8, 9#8]] m) : n ≠ m := by
  rw [ne_eq, C112_fletcher_neighbours checksums_has.2.2.1 checksums32_has.2.2.1 (by decide) (by decide) (.inr (.inl rfl)) (fits_small _ (by decide) _ (by simp))
    (fits_small _ (by decide) _ (by simp)) (by simp [FletcherTakes]) (by simp [FletcherTakes]) hn hm [] [0x909] 1 2 2 1 (by decide) (by decide)]
  decide

/-- Fletcher-64: the same bit of neighbouring words, set in one. -/
example (n m : Nat) (hn : FletcherOf checksums 4 [[1#8, 0#8, 0#8, 0#8, 2#8, 0#8, 0#8, 0#8]] n)
    (hm : FletcherOf checksums32 4 [[0#8, 0#8, 0#8, 0#8, 3#8, 0#8, 0#8, 0#8]] m) : n ≠ m := by
  rw [ne_eq, C112_fletcher_two_bits checksums_has.2.2.1 checksums32_has.2.2.1 (by decide) (by decide) (.inr (.inr rfl)) (fits_small _ (by decide) _ (by simp))
    (fits_small _ (by decide) _ (by simp)) (by simp [FletcherTakes]) (by simp [FletcherTakes]) hn hm [] [] [] 1 2 0 0 (by decide) (by decide) (by decide) (by decide)]
  decide

/-- Luhn: 22 for 55 passes, 11 for 22 does not; 19 for 91 does not, 09 for 90 passes. -/
example (a b c d e f : U8) (h1 : LuhnOf checksums 7221#64 a) (h2 : LuhnOf checksums32 7551#64 b) (h3 : LuhnOf checksums32 7111#64 c)
    (h4 : LuhnOf checksums 5193#64 d) (h5 : LuhnOf checksums32 5913#64 e) (h6 : LuhnOf checksums 5093#64 f) : a = b ∧ a ≠ c ∧ d ≠ e ∧ ∀ g, LuhnOf checksums32 5903#64 g → f = g := by
  have pt : ∀ (i j : U64), (∀ k, k < 20 → k ≠ 1 → k ≠ 2 → decDigit i.toNat k = decDigit j.toNat k) → SameBut 1 2 i.toNat j.toNat := by
    intro i j h k hk hk'
    by_cases hl : k < 20
    · exact h k hl hk hk'
    · have z : ∀ x : U64, decDigit x.toNat k = 0 := by
        intro x
        have : x.toNat < 10 ^ k := Nat.lt_of_lt_of_le (Nat.lt_trans x.isLt (by decide)) (Nat.pow_le_pow_right (by decide) (by omega : 20 ≤ k))
        rw [decDigit, Nat.div_eq_of_lt this]
      rw [z, z]
  obtain ⟨-, -, -, hA⟩ := checksums_has
  obtain ⟨-, -, -, hB⟩ := checksums32_has
  refine ⟨?_, ?_, ?_, fun g hg => ?_⟩
  · rw [C112_luhn_two hA hB h1 h2 1 2 (by decide) (pt _ _ (by decide))]
    decide
  · rw [ne_eq, C112_luhn_two hA hB h1 h3 1 2 (by decide) (pt _ _ (by decide))]
    decide
  · rw [ne_eq, C112_luhn_transposition hA hB h4 h5 1 2 (by decide) (pt _ _ (by decide)) (by decide) (by decide)]
    decide
  · rw [C112_luhn_transposition hA hB h6 hg 1 2 (by decide) (pt _ _ (by decide)) (by decide) (by decide)]
    decide

/-- One byte wrong, or two exchanged: BCC and LRC notice the one and not the other. -/
example (n m a c d e : Nat) (h1 : BccOf checksums [[1#8, 2#8, 4#8]] n) (h2 : BccOf checksums32 [[1#8, 3#8, 4#8]] m) (h3 : BccOf checksums32 [[4#8, 2#8, 1#8]] a)
    (h4 : LrcOf checksums [[1#8, 2#8, 4#8]] c) (h5 : LrcOf checksums32 [[1#8, 3#8, 4#8]] d) (h6 : LrcOf checksums32 [[4#8, 2#8, 1#8]] e) :
    n ≠ m ∧ n = a ∧ c ≠ d ∧ c = e := by
  have f := fits_small checksums (by decide)
  have g := fits_small checksums32 (by decide)
  obtain ⟨a1, a2, -⟩ := checksums_has
  obtain ⟨b1, b2, -⟩ := checksums32_has
  exact ⟨C112_bcc_byte a1 b1 (by decide) (by decide) (f _ (by simp)) (g _ (by simp)) h1 h2 [1] [4] 2 3 (by decide) rfl rfl,
    C112_bcc_order a1 b1 (by decide) (by decide) (f _ (by simp)) (g _ (by simp)) h1 h3 (by decide),
    C112_lrc_byte a2 b2 (by decide) (by decide) (f _ (by simp)) (g _ (by simp)) h4 h5 [1] [4] 2 3 (by decide) rfl rfl,
    C112_lrc_order a2 b2 (by decide) (by decide) (f _ (by simp)) (g _ (by simp)) h4 h6 (by decide)⟩

/-- Fletcher-16 with two bytes changed, one up and one down by 128, next but one to each other: noticed. -/
example (n m : Nat) (hn : FletcherOf checksums 1 [[128#8, 2#8, 3#8]] n) (hm : FletcherOf checksums32 1 [[0#8, 2#8, 131#8]] m) : n ≠ m := by
  rw [ne_eq, C112_fletcher_two_words checksums_has.2.2.1 checksums32_has.2.2.1 (by decide) (by decide) (.inl rfl) (fits_small _ (by decide) _ (by simp))
    (fits_small _ (by decide) _ (by simp)) (by simp [FletcherTakes]) (by simp [FletcherTakes]) hn hm [] [2] [] 128 3 0 131 (by decide) (by decide)]
  decide

/-- Luhn: a digit changed (123 and 173), neighbours exchanged (123 and 132), twins (7221 and 7551), and 5301 for 5131. -/
example (a b c d e f g : U8) (h1 : LuhnOf checksums 123#64 a) (h2 : LuhnOf checksums32 173#64 b) (h3 : LuhnOf checksums32 132#64 c)
    (h4 : LuhnOf checksums 7221#64 d) (h5 : LuhnOf checksums32 7551#64 e) (h6 : LuhnOf checksums 5301#64 f) (h7 : LuhnOf checksums32 5131#64 g) :
    a ≠ b ∧ a ≠ c ∧ d = e ∧ f ≠ g := by
  have z : ∀ (x : U64) (k : Nat), 20 ≤ k → decDigit x.toNat k = 0 := by
    intro x k hk
    have : x.toNat < 10 ^ k := Nat.lt_of_lt_of_le (Nat.lt_trans x.isLt (by decide)) (Nat.pow_le_pow_right (by decide) hk)
    rw [decDigit, Nat.div_eq_of_lt this]
  have pt : ∀ (i j : U64) (l : Nat), (∀ k, k < 20 → k ≠ l → k ≠ l + 1 → decDigit i.toNat k = decDigit j.toNat k) → SameBut l (l + 1) i.toNat j.toNat := by
    intro i j l h k hk hk'
    by_cases hl : k < 20
    · exact h k hl hk hk'
    · rw [z _ _ (by omega), z _ _ (by omega)]
  obtain ⟨-, -, -, hA⟩ := checksums_has
  obtain ⟨-, -, -, hB⟩ := checksums32_has
  refine ⟨?_, ?_, ?_, ?_⟩
  · refine C112_luhn_digit hA hB h1 h2 (.inl ⟨1, by decide, fun k hk => ?_⟩)
    by_cases hl : k < 20
    · exact (by decide : ∀ k, k < 20 → k ≠ 1 → decDigit (123#64).toNat k = decDigit (173#64).toNat k) k hl hk
    · rw [z _ _ (by omega), z _ _ (by omega)]
  · exact C112_luhn_digit hA hB h1 h3 (.inr ⟨0, by decide, by decide, by decide, by decide, by decide, pt _ _ 0 (by decide)⟩)
  · rw [C112_luhn_twins hA hB h4 h5 2 5 (by decide) (by decide) (by decide) ⟨1, by decide, by decide, by decide, by decide, pt _ _ 1 (by decide)⟩]
    decide
  · rw [ne_eq, C112_luhn_phonetic hA hB h6 h7 1 3 (by decide) (by decide) (pt _ _ 1 (by decide)) (by decide) (by decide)]
    decide

end Source
