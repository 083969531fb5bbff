import Verif.Code.Codegen
import Verif.Props.SourceHex
import Verif.Props.Codegen

/-!
# The source text of package `codegen`, run

C90: the text of BytesToString.go and BytesToHexSep.go, together with that of package `hex`, run by the interpreter of `Verif/Lang`, gives the
Go literals of C07 to C09, and panics in the same cases. What was in memory before the call is unchanged.
-/
namespace Source
open GoLang CodegenSpec

/-- What the claims need of the program: both packages, in either build of `hex`. -/
structure Codegen.In (P : Prog) (bd : _root_.Hex.Build) : Prop where
  codegen : P.Has Codegen.path Codegen.texts []
  hex : P.Has Hex.path (Hex.texts bd) []
  low : 32 ≤ P.W
  high : P.W ≤ 64

/-- **C90** `BytesToString` returns the quoted `\xHH` form, which denotes the input. -/
theorem C90_string (P : Prog) (bd : _root_.Hex.Build) (hP : Codegen.In P bd) (h : List Val) (v : Val) (b : List U8)
    (hb : HasBytes h v b) (hl : Fits P (b.length * 4 + 8)) :
    (∃ t, Returns P Codegen.path 0 (n! "BytesToString") [v] h [.str (quoted b)] (h ++ t)) ∧ evalString (quoted b) = some b := by
  obtain ⟨h1, h2⟩ := _root_.Codegen.C07_literal b
  have r := Codegen.run_BytesToString (hP.codegen.find Codegen.text) (hP.hex.find (Hex.text bd)) (Hex.FromBytes_eq b) h1 hb hP.low hl (Nat.lt_succ_self b.length)
  rw [List.append_assoc, List.append_assoc] at r
  exact ⟨⟨_, .one r⟩, h2⟩

/-- The section size in hexadecimal digits as the program computes it. -/
theorem Codegen.sections {P : Prog} {bps : Nat} (hlo : 32 ≤ P.W) (hhi : P.W ≤ 64) (h1 : 1 ≤ bps) (hf : Fits P bps) (hk : P.W = 64 ∨ Fits P (bps * 2)) :
    bps < 2 ^ 63 ∧ wrap P.W ((bps : Int) * 2) = _root_.Codegen.int64 ((bps : Int) * 2) ∧ _root_.Codegen.int64 ((bps : Int) * 2) ≠ 0 := by
  have hp : (2 : Int) ^ (P.W - 1) ≤ 2 ^ 63 := by
    have : (2 : Nat) ^ (P.W - 1) ≤ 2 ^ 63 := Nat.pow_le_pow_right (by omega) (by omega)
    exact_mod_cast this
  have hb : (bps : Int) < 2 ^ 63 := lt_of_lt_of_le hf hp
  refine ⟨by omega, ?_, ?_⟩
  · rcases hk with h | h
    · rw [h]; rfl
    · unfold Fits at h
      push_cast at h
      rw [wrap_eq (by omega) (by omega) (by omega), _root_.Codegen.int64, Int.bmod]
      omega
  · rw [_root_.Codegen.int64, Int.bmod]
    omega

section
variable (P : Prog) (bd : _root_.Hex.Build) (hP : Codegen.In P bd) (h : List Val) (v : Val) (b : List U8) (bps : Nat) (hb : HasBytes h v b)
  (h1 : 1 ≤ bps) (hf : Fits P bps) (hk : P.W = 64 ∨ Fits P (bps * 2)) (hl : Fits P (b.length * 16 + 16))
include hP hb h1 hf hk hl

omit hb h1 hf hk in
theorem Codegen.len_small : b.length < 2 ^ 60 := by
  have hp : (2 : Nat) ^ (P.W - 1) ≤ 2 ^ 63 := Nat.pow_le_pow_right (by omega) (by have := hP.high; omega)
  have : b.length * 16 + 16 < 2 ^ (P.W - 1) := by unfold Fits at hl; exact_mod_cast hl
  omega

/-- **C90** For a positive multiple of the section size, `BytesToStringSep` returns the quoted sections joined by `+`, and `BytesToHexSep` the
body of a composite literal with a line per section; both denote the input. -/
theorem C90_sections (h0 : b ≠ []) (hm : bps ∣ b.length) :
    (∃ t, Returns P Codegen.path 0 (n! "BytesToStringSep") [v, .int bps] h [.str (stringExpr bps b)] (h ++ t)) ∧ evalString (stringExpr bps b) = some b ∧
    (∃ t, Returns P Codegen.path 0 (n! "BytesToHexSep") [v, .int bps] h [.str (compositeBody bps b)] (h ++ t)) ∧ evalBody (compositeBody bps b) = some b := by
  obtain ⟨hs, hw, hz⟩ := Codegen.sections hP.low hP.high h1 hf hk
  have hlen := Codegen.len_small P bd hP b hl
  obtain ⟨s1, s2⟩ := _root_.Codegen.C08_sections_partial b bps h1 hs hlen h0 hm
  obtain ⟨c1, c2⟩ := _root_.Codegen.C09_sections_partial b bps h1 hs hlen h0 hm
  have r1 := Codegen.run_BytesToStringSep (hP.codegen.find Codegen.text) (hP.hex.find (Hex.text bd)) (by omega) hw rfl hz (Hex.FromBytes_eq b) hb hP.low hl
    (Nat.lt_succ_self b.length)
  have r2 := Codegen.run_BytesToHexSep (hP.codegen.find Codegen.text) (hP.hex.find (Hex.text bd)) (by omega) hw rfl hz (Hex.FromBytes_eq b) hb hP.low
    (by unfold Fits at hl; omega) (Nat.lt_succ_self b.length)
  simp only [s1, Codegen.Outcome] at r1
  simp only [c1, Codegen.Outcome] at r2
  rw [List.append_assoc, List.append_assoc] at r1 r2
  exact ⟨⟨_, .one r1⟩, s2, ⟨_, .one r2⟩, c2⟩

/-- **C90** For every other length both panic. -/
theorem C90_panics (hm : b = [] ∨ ¬ bps ∣ b.length) :
    (∃ t, Panics P Codegen.path 0 (n! "BytesToStringSep") [v, .int bps] h (h ++ t)) ∧
    ∃ t, Panics P Codegen.path 0 (n! "BytesToHexSep") [v, .int bps] h (h ++ t) := by
  obtain ⟨hs, hw, hz⟩ := Codegen.sections hP.low hP.high h1 hf hk
  have hlen := Codegen.len_small P bd hP b hl
  have r1 := Codegen.run_BytesToStringSep (hP.codegen.find Codegen.text) (hP.hex.find (Hex.text bd)) (by omega) hw rfl hz (Hex.FromBytes_eq b) hb hP.low hl
    (Nat.lt_succ_self b.length)
  have r2 := Codegen.run_BytesToHexSep (hP.codegen.find Codegen.text) (hP.hex.find (Hex.text bd)) (by omega) hw rfl hz (Hex.FromBytes_eq b) hb hP.low
    (by unfold Fits at hl; omega) (Nat.lt_succ_self b.length)
  rw [_root_.Codegen.C08_panics b bps h1 hs hlen hm] at r1
  rw [_root_.Codegen.C09_panics b bps h1 hs hlen hm] at r2
  obtain ⟨t1, r1⟩ := r1
  obtain ⟨t2, r2⟩ := r2
  exact ⟨⟨t1, .one r1⟩, t2, .one r2⟩
end

/-- **C90** A section size below one panics at once. -/
theorem C90_bad_size (P : Prog) (bd : _root_.Hex.Build) (hP : Codegen.In P bd) (h : List Val) (v : Val) (b : List U8) (bps : Int) (hb : HasBytes h v b)
    (h1 : bps < 1) :
    Panics P Codegen.path 0 (n! "BytesToStringSep") [v, .int bps] h h ∧ Panics P Codegen.path 0 (n! "BytesToHexSep") [v, .int bps] h h :=
  ⟨.one (Codegen.run_StringSep_bad (n := 0) (hP.codegen.find Codegen.text) h1 hb.plain), .one (Codegen.run_HexSep_bad (n := 0) (hP.codegen.find Codegen.text) h1 hb.plain)⟩

/-! ## Examples -/

/-- A program of both packages on a 64-bit machine. -/
def codegenProg (bd : _root_.Hex.Build) : Prog :=
  { W := 64, pkgs := [Codegen.pkg, Hex.pkg bd], other := fun _ _ => none, std := stdlib, native := fun _ _ _ => stuck, grow := fun n => n }

theorem codegenProg_in (bd : _root_.Hex.Build) : Codegen.In (codegenProg bd) bd :=
  ⟨⟨Codegen.pkg, Codegen.text, by cases bd <;> kernel_rfl⟩, ⟨Hex.pkg bd, Hex.text bd, by cases bd <;> kernel_rfl⟩, by simp [codegenProg], by simp [codegenProg]⟩

/-- Four bytes in memory. -/
theorem four_bytes : HasBytes [.arr [.u8 1, .u8 2, .u8 3, .u8 4]] (.slice 0 [] 0 4 4) [1, 2, 3, 4] :=
  IsBytes.has (.inr ⟨0, [], 0, 4, _, _, rfl, rfl, rfl, by decide, by decide, rfl⟩)

/-- The premises of the theorems hold of that program: sections of two bytes, and the panic for sections of three. -/
example (bd : _root_.Hex.Build) : ∃ t, Returns (codegenProg bd) Codegen.path 0 (n! "BytesToStringSep") [.slice 0 [] 0 4 4, .int 2] [.arr [.u8 1, .u8 2, .u8 3, .u8 4]]
    [.str (ascii "\"\\x01\\x02\"+\"\\x03\\x04\"")] ([.arr [.u8 1, .u8 2, .u8 3, .u8 4]] ++ t) := by
  have e : stringExpr 2 [1, 2, 3, 4] = ascii "\"\\x01\\x02\"+\"\\x03\\x04\"" := by decide +kernel
  rw [← e]
  exact (C90_sections _ bd (codegenProg_in bd) _ _ [1, 2, 3, 4] 2 four_bytes (by omega) (by simp [Fits, codegenProg]) (.inl rfl) (by simp [Fits, codegenProg])
    (by simp) ⟨2, rfl⟩).1

example (bd : _root_.Hex.Build) : ∃ t, Panics (codegenProg bd) Codegen.path 0 (n! "BytesToHexSep") [.slice 0 [] 0 4 4, .int 3] [.arr [.u8 1, .u8 2, .u8 3, .u8 4]]
    ([.arr [.u8 1, .u8 2, .u8 3, .u8 4]] ++ t) :=
  (C90_panics _ bd (codegenProg_in bd) _ _ [1, 2, 3, 4] 3 four_bytes (by omega) (by simp [Fits, codegenProg]) (.inl rfl) (by simp [Fits, codegenProg])
    (.inr (by decide))).2

example (bd : _root_.Hex.Build) : ∃ t, Returns (codegenProg bd) Codegen.path 0 (n! "BytesToString") [.slice 0 [] 0 4 4] [.arr [.u8 1, .u8 2, .u8 3, .u8 4]]
    [.str (quoted [1, 2, 3, 4])] ([.arr [.u8 1, .u8 2, .u8 3, .u8 4]] ++ t) :=
  (C90_string _ bd (codegenProg_in bd) _ _ [1, 2, 3, 4] four_bytes (by simp [Fits, codegenProg])).1

end Source
