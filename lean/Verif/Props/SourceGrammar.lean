import Verif.Lemmas.Grammar
import Verif.Lemmas.Words
import Verif.Code.WhirlpoolTables
import Verif.Source.Bcc
import Verif.Source.BytesAdd
import Verif.Source.BytesAddBE
import Verif.Source.BytesAddLE
import Verif.Source.BytesPad
import Verif.Source.BytesXor
import Verif.Source.BytesZero
import Verif.Source.CodegenHexSep
import Verif.Source.CodegenString
import Verif.Source.Endian
import Verif.Source.Fletcher16
import Verif.Source.Fletcher32
import Verif.Source.Fletcher64
import Verif.Source.Hex
import Verif.Source.Hex256b
import Verif.Source.HexTiny
import Verif.Source.Lrc
import Verif.Source.Luhn
import Verif.Source.MakeTables
import Verif.Source.NetCidr
import Verif.Source.NetIpTree
import Verif.Source.NetIpv4
import Verif.Source.NetMask
import Verif.Source.Ripe128
import Verif.Source.Ripe160
import Verif.Source.Ripe256
import Verif.Source.Ripe320
import Verif.Source.RipeShared
import Verif.Source.TestAbbr
import Verif.Source.TestHashCompare
import Verif.Source.TestStringMatch
import Verif.Source.Whirlpool

/-!
# Property C109: the syntax trees are those of the texts

The theorems about texts (C87 to C106, C108) run syntax trees, which a lexer and a parser found. Here both are compared with the grammar of Go,
which says what texts spell and what trees they have, but not how to find out.
-/
namespace Source
open GoLang

/-- The lexer finds the tokens that a text spells, whenever it spells any. -/
theorem C109_lex {src : List String} {ts : List Tok} : lex src = some ts ↔ TextOf src ts := ⟨lex_sound, lex_complete⟩

/-- A text spells at most one list of tokens. -/
theorem C109_tokens {src : List String} {ts us : List Tok} (h : TextOf src ts) (h' : TextOf src us) : ts = us :=
  Option.some.inj ((lex_complete h).symm.trans (lex_complete h'))

/-- What the parser finds for a text is a tree that the grammar gives to the tokens of the text. -/
theorem C109_parse {src : List String} {file : File} (h : parse src = some file) : ∃ ts, TextOf src ts ∧ GFile ts file := by
  unfold parse at h
  split at h
  · rename_i ts hl
    split at h
    · rename_i f hf
      cases h
      exact ⟨ts, lex_sound hl, (pFile_sound hf).2⟩
    · cases h
  · cases h

/-- The texts of the repository, each with the tree that is run in its place. -/
def texts : List (List String × File) :=
  [(Bcc.src, Bcc.file), (BytesAdd.src, BytesAdd.file), (BytesAddBE.src, BytesAddBE.file), (BytesAddLE.src, BytesAddLE.file),
   (BytesPad.src, BytesPad.file), (BytesXor.src, BytesXor.file), (BytesZero.src, BytesZero.file), (CodegenHexSep.src, CodegenHexSep.file),
   (CodegenString.src, CodegenString.file), (Endian.src, Endian.file), (Fletcher16.src, Fletcher16.file), (Fletcher32.src, Fletcher32.file),
   (Fletcher64.src, Fletcher64.file), (Hex.src, Hex.file), (Hex256b.src, Hex256b.file), (HexTiny.src, HexTiny.file), (Lrc.src, Lrc.file),
   (Luhn.src, Luhn.file), (MakeTables.src, MakeTables.file), (NetCidr.src, NetCidr.file), (NetIpTree.src, NetIpTree.file),
   (NetIpv4.src, NetIpv4.file), (NetMask.src, NetMask.file), (Ripe128.src, Ripe128.file), (Ripe160.src, Ripe160.file),
   (Ripe256.src, Ripe256.file), (Ripe320.src, Ripe320.file), (RipeShared.src, RipeShared.file), (TestAbbr.src, TestAbbr.file),
   (TestHashCompare.src, TestHashCompare.file), (TestStringMatch.src, TestStringMatch.file), (Whirlpool.src, Whirlpool.file),
   (WhirlpoolTables.src, WhirlpoolTables.file)]

theorem texts_parsed : ∀ p ∈ texts, parse p.1 = some p.2 := by
  simp only [texts, List.forall_mem_cons, List.not_mem_nil, false_imp_iff, implies_true, and_true]
  exact ⟨Bcc.parsed, BytesAdd.parsed, BytesAddBE.parsed, BytesAddLE.parsed, BytesPad.parsed, BytesXor.parsed, BytesZero.parsed,
    CodegenHexSep.parsed, CodegenString.parsed, Endian.parsed, Fletcher16.parsed, Fletcher32.parsed, Fletcher64.parsed, Hex.parsed,
    Hex256b.parsed, HexTiny.parsed, Lrc.parsed, Luhn.parsed, MakeTables.parsed, NetCidr.parsed, NetIpTree.parsed, NetIpv4.parsed,
    NetMask.parsed, Ripe128.parsed, Ripe160.parsed, Ripe256.parsed, Ripe320.parsed, RipeShared.parsed, TestAbbr.parsed,
    TestHashCompare.parsed, TestStringMatch.parsed, Whirlpool.parsed, WhirlpoolTables.parsed⟩

/-- The trees that are run for the files of the repository are trees that the grammar gives to their texts. -/
theorem C109_repository : ∀ p ∈ texts, ∃ ts, TextOf p.1 ts ∧ GFile ts p.2 := fun p hp => C109_parse (texts_parsed p hp)

/-- Tokens are as long as can be, comments are none, and lines that end a statement get a semicolon. -/
example : TextOf ["x<<=0x1F&^y // z", "return"]
    [.id (n! "x"), .op (n! "<<="), .int 31, .op (n! "&^"), .id (n! "y"), .op (n! ";"), .id (n! "return"), .op (n! ";")] :=
  C109_lex.1 (by kernel_rfl)

/-- Some lines spell nothing: here a number that runs into a letter, a wrong octal digit, a string without an end. -/
example : ¬ (∃ ts, TextOf ["x = 12ab"] ts) ∧ ¬ (∃ ts, TextOf ["x = 09"] ts) ∧ ¬ ∃ ts, TextOf ["x = \"abc"] ts := by
  have no : ∀ {s : List String}, lex s = none → ¬ ∃ ts, TextOf s ts := by
    rintro s h ⟨ts, ht⟩
    rw [C109_lex.2 ht] at h
    cases h
  exact ⟨no (by kernel_rfl), no (by kernel_rfl), no (by kernel_rfl)⟩

/-- A tree that C109 speaks of: products bind stronger than sums, and operators of one kind associate to the left. -/
example : ∃ ts, TextOf ["package p", "const c = 1 - 2*3 - 4"] ts ∧
    GFile ts ⟨n! "p", [], [.const (n! "c") (.bin .sub (.bin .sub (.int 1) (.bin .mul (.int 2) (.int 3))) (.int 4))]⟩ :=
  C109_parse (by kernel_rfl)

end Source
