import Verif.Lemmas.MakeTables
import Verif.Lemmas.WhirlpoolGen

/-! # The text written by `hash/whirlpool/make_tables.go` (C63, C64) -/
namespace MakeTables
open GoSource HexSpec

theorem parseDecls_nil (n : Nat) : parseDecls n [] = some [] := by cases n <;> rfl

theorem readDecls_of {text : List U8} {ts : List Tok} {ds : List Decl}
    (h : runLex (.gap false) text = some (ts, .gap false)) (hp : parseDecls ts.length ts = some ds) :
    readDecls text = some ds := by
  rw [readDecls, lex, h]
  exact hp

/-- **C63** For every identifier and every table, the text `genVar` writes is Go source declaring a `[...]uint64` variable of
that name with exactly those values. -/
theorem C63_var (name : List U8) (data : List U64) (h : IsIdent name) :
    readDecls (genVar [] name data) = some [.u64s name (data.map BitVec.toNat)] := by
  rw [genVar_eq, List.nil_append]
  refine readDecls_of (runLex_varDecl h data) ?_
  obtain ⟨n, hn⟩ : ∃ n, (varToks name data).length = n + 1 := ⟨_, rfl⟩
  have := parseDecls_var h data n []
  rw [List.append_nil, parseDecls_nil] at this
  rw [hn, this]
  rfl

example : IsIdent (ascii "rc") ∧ ¬ IsIdent (ascii "9x") := by
  refine ⟨⟨⟨_, _, rfl, by decide⟩, by decide, by decide⟩, ?_⟩
  rintro ⟨⟨c, t, e, hc⟩, -, -⟩
  have : c = 57#8 := (List.cons.inj e).1.symm
  subst this
  exact absurd hc (by decide)

example : genVar [] (ascii "a") [1#64, 0xff00000000000000#64] =
    ascii "var a =[...]uint64{\n//0\n0x0000000000000001,0xff00000000000000,}\n\n" := by decide +kernel

/-- **C63** The whole run: nothing panics, and the text handed to the formatter is a Go source file of package `whirlpool`
declaring `rounds`, and the tables `rc` and `ct` with exactly the values of the committed `whirlpool_tables.go`. -/
theorem C63_file : ∃ text, mainText = .ok text ∧ readFile text = some (ascii "whirlpool",
    [.int (ascii "rounds") 10, .u64s (ascii "rc") (Whirlpool.rc.map BitVec.toNat),
     .u64s (ascii "ct") (Whirlpool.ct.map BitVec.toNat)]) := by
  have hr : IsIdent (ascii "rc") := ⟨⟨_, _, rfl, by decide⟩, by decide, by decide⟩
  have hc : IsIdent (ascii "ct") := ⟨⟨_, _, rfl, by decide⟩, by decide, by decide⟩
  refine ⟨_, by
    rw [mainText, Whirlpool.buildCirculantTable_eq]
    simp only [Res.ok_bind]
    rw [Whirlpool.buildRoundConstants_eq]
    simp only [Res.ok_bind]
    rfl, ?_⟩
  generalize Whirlpool.rc = rc
  generalize Whirlpool.ct = ct
  rw [genVar_eq, genVar_eq, readFile, lex, runLex_trans (runLex_trans runLex_header (runLex_varDecl hr rc)) (runLex_varDecl hc ct)]
  simp only [List.cons_append, List.nil_append]
  rw [if_pos (by decide)]
  obtain ⟨n, hn⟩ : ∃ n, (Tok.word (ascii "const") :: .word (ascii "rounds") :: .op 61#8 :: .num 10 :: .op 59#8 ::
      (varToks (ascii "rc") rc ++ varToks (ascii "ct") ct)).length = n + 3 := ⟨_, rfl⟩
  rw [hn, parseDecls, if_neg (by decide), if_pos rfl]
  simp only [if_true]
  have h2 := parseDecls_var hc ct n []
  rw [List.append_nil, parseDecls_nil] at h2
  rw [parseDecls_var hr rc, h2]
  rfl

/-- **C64** (partial) For every identifier and every non-empty list, the text `genConst` writes is Go source declaring a string
constant of that name with the little-endian bytes of the values. Missing for the full claim: the empty list, below. -/
theorem C64_const_partial (name : List U8) (data : List U64) (h : IsIdent name) (hne : data ≠ []) :
    ∃ text, genConst [] name data = .ok text ∧
      readDecls text = some [.str name (data.flatMap fun v => BlockSpec.leBytes 8 v.toNat)] := by
  refine ⟨_, genConst_eq [] name data, ?_⟩
  rw [List.nil_append]
  refine readDecls_of (runLex_constDecl h data) ?_
  obtain ⟨v, data, rfl⟩ := List.exists_cons_of_ne_nil hne
  have e : (v :: data).isEmpty = false := rfl
  rw [e]
  simp only [Bool.false_eq_true, if_false]
  obtain ⟨n, hn⟩ : ∃ n, (constHead name ++ (constToks (v :: data) 0 ++ [Tok.op 59#8])).length = n + 1 := ⟨_, rfl⟩
  have := parseDecls_const h v data n []
  rw [List.append_nil, parseDecls_nil] at this
  rw [hn, this]
  rw [show lePut64 = (fun v => BlockSpec.leBytes 8 v.toNat) from funext lePut64_eq]
  rfl

example : genConst [] (ascii "a") [1#64, 0xAB#64, 2#64] = .ok (ascii ("const a =\"\"+\n//0\n" ++
    "\"\\x01\\x00\\x00\\x00\\x00\\x00\\x00\\x00\"+\"\\xAB\\x00\\x00\\x00\\x00\\x00\\x00\\x00\"+\n" ++
    "\"\\x02\\x00\\x00\\x00\\x00\\x00\\x00\\x00\"\n\n")) := by decide +kernel

/-- **C64** fails for the empty list, whatever the name: the text ends in a dangling `+` and is not Go source. -/
theorem C64_empty (name : List U8) (h : IsIdent name) :
    ∃ text, genConst [] name [] = .ok text ∧ readDecls text = none := by
  refine ⟨_, genConst_eq [] name [], ?_⟩
  have e := runLex_constDecl h []
  rw [List.nil_append, readDecls, lex, e]
  have h1 : ¬ ((61#8 : U8) ≠ 61#8 ∨ name ∈ keywords) := by
    rintro (h' | h')
    · exact h' rfl
    · exact h.2.2 h'
  show parseDecls 5 [.word (ascii "const"), .word name, .op 61#8, .str [], .op 43#8] = none
  rw [parseDecls, if_neg h1, if_pos rfl]
  · rfl
  all_goals simp

/-- **C64** (negation of the full claim) -/
theorem C64_false : ¬ ∀ (name : List U8) (data : List U64), IsIdent name → ∃ text, genConst [] name data = .ok text ∧
    readDecls text = some [.str name (data.flatMap fun v => BlockSpec.leBytes 8 v.toNat)] := by
  intro h
  have hr : IsIdent (ascii "rc") := ⟨⟨_, _, rfl, by decide⟩, by decide, by decide⟩
  obtain ⟨t, h1, h2⟩ := h (ascii "rc") [] hr
  obtain ⟨t', h3, h4⟩ := C64_empty (ascii "rc") hr
  rw [h1] at h3
  obtain rfl := Res.ok.inj h3
  rw [h2] at h4
  exact absurd h4 (by simp)

end MakeTables
