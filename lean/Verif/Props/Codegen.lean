import Verif.Lemmas.Codegen

/-! # Properties of package `codegen` (C07-C09) -/
namespace Codegen
open CodegenSpec

/-- **C07** `BytesToString` never panics, returns the quoted `\xHH` form, and that text denotes exactly the input. -/
theorem C07_literal (inp : List U8) :
    BytesToString inp = .ok (quoted inp) ∧ evalString (quoted inp) = some inp :=
  ⟨BytesToString_eq inp, eval_quoted inp⟩

example : BytesToString [0x41#8, 0xff#8] = .ok (ascii "\"\\x41\\xFF\"") := by decide +kernel

/-- **C08** (partial) `BytesToStringSep` when the number of bytes is a positive multiple of the section size: the intended
text, which denotes the input. Missing for the full claim: other lengths, where the code panics (below). -/
theorem C08_sections_partial (inp : List U8) (bps : Nat) (h1 : 1 ≤ bps) (h2 : bps < 2 ^ 63) (hl : inp.length < 2 ^ 60)
    (h0 : inp ≠ []) (hm : bps ∣ inp.length) :
    BytesToStringSep inp bps = .ok (stringExpr bps inp) ∧ evalString (stringExpr bps inp) = some inp := by
  refine ⟨?_, eval_stringExpr bps h1 inp⟩
  rw [BytesToStringSep_eq inp bps h1 h2 hl, if_pos ⟨h0, Nat.mod_eq_zero_of_dvd hm⟩, stringSep_text bps h1]

example : BytesToStringSep [1#8, 2#8, 3#8, 4#8] 2 = .ok (ascii "\"\\x01\\x02\"+\"\\x03\\x04\"") := by decide +kernel

/-- **C08** (negation) `BytesToStringSep` panics for every other length. -/
theorem C08_panics (inp : List U8) (bps : Nat) (h1 : 1 ≤ bps) (h2 : bps < 2 ^ 63) (hl : inp.length < 2 ^ 60)
    (hm : inp = [] ∨ ¬ bps ∣ inp.length) : BytesToStringSep inp bps = .panic := by
  rw [BytesToStringSep_eq inp bps h1 h2 hl, if_neg]
  rintro ⟨h, h'⟩
  rcases hm with hm | hm
  · exact h hm
  · exact hm (Nat.dvd_of_mod_eq_zero h')

/-- **C08** (negation of the full claim) -/
theorem C08_false : ¬ ∀ (inp : List U8) (bps : Nat), 1 ≤ bps → bps < 2 ^ 63 → inp.length < 2 ^ 60 →
    BytesToStringSep inp bps = .ok (stringExpr bps inp) := by
  intro h
  have := h [1#8, 2#8, 3#8] 2 (by omega) (by omega) (by decide)
  rw [C08_panics _ _ (by omega) (by omega) (by decide) (by decide)] at this
  exact absurd this (by simp)

example : BytesToStringSep [1#8, 2#8, 3#8] 2 = .panic ∧ BytesToStringSep [] 1 = .panic := by decide +kernel

/-- **C08** A section size below one is rejected by a panic. -/
theorem C08_bad_size (inp : List U8) (bps : Int) (h : bps < 1) : BytesToStringSep inp bps = .panic := by
  rw [BytesToStringSep, if_pos h]

example : (-3 : Int) < 1 := by decide

/-- **C09** (partial) `BytesToHexSep` when the number of bytes is a positive multiple of the section size: the intended
text, which lists the input. Missing for the full claim: other lengths, where the code panics (below). -/
theorem C09_sections_partial (inp : List U8) (bps : Nat) (h1 : 1 ≤ bps) (h2 : bps < 2 ^ 63) (hl : inp.length < 2 ^ 60)
    (h0 : inp ≠ []) (hm : bps ∣ inp.length) :
    BytesToHexSep inp bps = .ok (compositeBody bps inp) ∧ evalBody (compositeBody bps inp) = some inp := by
  refine ⟨?_, eval_compositeBody bps h1 inp⟩
  rw [BytesToHexSep_eq inp bps h1 h2 hl, if_pos ⟨h0, Nat.mod_eq_zero_of_dvd hm⟩, hexSep_text bps h1]

example : BytesToHexSep [1#8, 2#8, 3#8, 4#8] 2 = .ok (ascii "{0x01, 0x02, \n0x03, 0x04}") := by decide +kernel

/-- **C09** (negation) `BytesToHexSep` panics for every other length. -/
theorem C09_panics (inp : List U8) (bps : Nat) (h1 : 1 ≤ bps) (h2 : bps < 2 ^ 63) (hl : inp.length < 2 ^ 60)
    (hm : inp = [] ∨ ¬ bps ∣ inp.length) : BytesToHexSep inp bps = .panic := by
  rw [BytesToHexSep_eq inp bps h1 h2 hl, if_neg]
  rintro ⟨h, h'⟩
  rcases hm with hm | hm
  · exact h hm
  · exact hm (Nat.dvd_of_mod_eq_zero h')

/-- **C09** (negation of the full claim) -/
theorem C09_false : ¬ ∀ (inp : List U8) (bps : Nat), 1 ≤ bps → bps < 2 ^ 63 → inp.length < 2 ^ 60 →
    BytesToHexSep inp bps = .ok (compositeBody bps inp) := by
  intro h
  have := h [1#8, 2#8, 3#8] 2 (by omega) (by omega) (by decide)
  rw [C09_panics _ _ (by omega) (by omega) (by decide) (by decide)] at this
  exact absurd this (by simp)

example : BytesToHexSep [1#8, 2#8, 3#8] 2 = .panic ∧ BytesToHexSep [] 1 = .panic := by decide +kernel

/-- **C09** A section size below one is rejected by a panic. -/
theorem C09_bad_size (inp : List U8) (bps : Int) (h : bps < 1) : BytesToHexSep inp bps = .panic := by
  rw [BytesToHexSep, if_pos h]

example : (0 : Int) < 1 := by decide

end Codegen
