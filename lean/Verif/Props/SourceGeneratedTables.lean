import Verif.Code.WhirlpoolTables
import Verif.Lemmas.GeneratedTables
import Verif.Props.SourceGenerated
import Verif.Props.SourceMakeTables

/-!
# The text of the generator of Whirlpool's tables, read as Go

C118: what hash/whirlpool/make_tables.go writes, read by the lexer and the parser that read the repository. The file that its `main` makes has
the syntax tree of hash/whirlpool/whirlpool_tables.go, so package whirlpool with the one in the place of the other is the same package, with
all that is proved of it. What `genVar` and `genConst` write for other tables declares these tables, except where it is no Go at all.
-/
namespace Source
open GoLang

/-! ## Bytes of the texts -/

theorem Generated.lower_low : ∀ n : Fin 16, (_root_.MakeTables.lowerDigit n.val).toNat < 128 := by decide +kernel

theorem Generated.pad_low : ∀ k n, ∀ x ∈ (_root_.MakeTables.hexPad k n).map BitVec.toNat, x < 128
  | 0, _, x, hx => by simp [_root_.MakeTables.hexPad] at hx
  | k + 1, n, x, hx => by
    have h1 := Generated.pad_low k (n / 16) x
    have h2 := Generated.lower_low ⟨n % 16, Nat.mod_lt _ (by omega)⟩
    rw [_root_.MakeTables.hexPad, List.map_append, List.mem_append] at hx
    rcases hx with hx | hx
    · exact h1 hx
    · simp only [List.map_cons, List.map_nil, List.mem_singleton] at hx
      rw [hx]
      exact h2

theorem Generated.num_low (v : U64) : ∀ x ∈ numText v, x < 128 := by
  intro x hx
  simp only [numText, List.mem_cons] at hx
  rcases hx with rfl | rfl | hx
  · omega
  · omega
  · exact Generated.pad_low 16 v.toNat x hx

theorem Generated.index_low (i : Nat) : ∀ x ∈ indexLine i, x < 128 := by
  intro x hx
  simp only [indexLine, List.mem_cons] at hx
  rcases hx with rfl | rfl | hx
  · omega
  · omega
  · obtain ⟨y, hy, rfl⟩ := List.mem_map.mp hx
    have := (_root_.Hex.fmtNat_isDecimal i).2.1 y hy
    omega

theorem Generated.word_low (v : U64) : ∀ x ∈ wordText v, x < 128 := by
  intro x hx
  have := Generated.escapes_low (_root_.MakeTables.lePut64 v) x
  simp only [wordText, List.mem_append, List.mem_cons, List.not_mem_nil, or_false] at hx
  rcases hx with (rfl | hx) | rfl <;> first | omega | exact this hx

theorem Generated.table_low : ∀ (l : List U64) (i : Nat), ∀ x ∈ _root_.MakeTables.varText l i, x.toNat < 128
  | [], _, x, hx => by simp [_root_.MakeTables.varText] at hx
  | v :: l, i, x, hx => by
    rw [_root_.MakeTables.varText] at hx
    rcases List.mem_append.mp hx with hx | hx
    · refine Generated.low_of_map (item_map v i) ?_ x hx
      intro y hy
      have h1 := Generated.index_low i y
      have h2 := Generated.num_low v y
      rcases List.mem_append.mp hy with hy | hy
      · split at hy
        · split at hy <;> simp at hy
          omega
        · simp at hy
      · rcases List.mem_append.mp hy with hy | hy
        · split at hy
          · rcases List.mem_append.mp hy with hy | hy
            · exact h1 hy
            · simp at hy
              omega
          · simp at hy
        · rcases List.mem_append.mp hy with hy | hy
          · exact h2 hy
          · simp at hy
            omega
    · exact Generated.table_low l (i + 1) x hx

theorem Generated.words_low : ∀ (l : List U64) (i : Nat), ∀ x ∈ _root_.MakeTables.constText l i, x.toNat < 128
  | [], _, x, hx => by simp [_root_.MakeTables.constText] at hx
  | v :: l, i, x, hx => by
    rw [_root_.MakeTables.constText] at hx
    rcases List.mem_append.mp hx with hx | hx
    · refine Generated.low_of_map (citem_map v i) ?_ x hx
      intro y hy
      have h1 := Generated.index_low i y
      have h2 := Generated.word_low v y
      rcases List.mem_append.mp hy with hy | hy
      · split at hy
        · split at hy <;> simp at hy <;> omega
        · simp at hy
      · rcases List.mem_append.mp hy with hy | hy
        · split at hy
          · rcases List.mem_append.mp hy with hy | hy
            · exact h1 hy
            · simp at hy
              omega
          · simp at hy
        · exact h2 hy
    · exact Generated.words_low l (i + 1) x hx

theorem Generated.name_low {name : List U8} (h : GoSource.IsIdent name) : ∀ x ∈ name, x.toNat < 128 := by
  intro x hx
  have := List.all_eq_true.mp h.2.1 x hx
  simp only [GoSource.isAlnum, GoSource.isLetter, GoSource.isDigit, Bool.or_eq_true, Bool.and_eq_true, decide_eq_true_eq, beq_iff_eq] at this
  omega

theorem Generated.var_low {name : List U8} (h : GoSource.IsIdent name) (l : List U64) : ∀ x ∈ _root_.MakeTables.varDecl name l, x.toNat < 128 := by
  intro x hx
  simp only [_root_.MakeTables.varDecl, List.mem_append] at hx
  rcases hx with ((hx | hx | hx) | hx) | hx | hx
  · exact (by decide : ∀ x ∈ ascii "var ", x.toNat < 128) x hx
  · exact Generated.name_low h x hx
  · exact (by decide : ∀ x ∈ ascii " ", x.toNat < 128) x hx
  · exact (by decide : ∀ x ∈ ascii "=[...]uint64{\n", x.toNat < 128) x hx
  · exact Generated.table_low l 0 x hx
  · exact (by decide : ∀ x ∈ ascii "}\n\n", x.toNat < 128) x hx

theorem Generated.const_low {name : List U8} (h : GoSource.IsIdent name) (l : List U64) : ∀ x ∈ _root_.MakeTables.constDecl name l, x.toNat < 128 := by
  intro x hx
  simp only [_root_.MakeTables.constDecl, List.mem_append] at hx
  rcases hx with ((hx | hx | hx) | hx) | hx | hx
  · exact (by decide : ∀ x ∈ ascii "const ", x.toNat < 128) x hx
  · exact Generated.name_low h x hx
  · exact (by decide : ∀ x ∈ ascii " ", x.toNat < 128) x hx
  · exact (by decide : ∀ x ∈ ascii "=\"\"+\n", x.toNat < 128) x hx
  · exact Generated.words_low l 0 x hx
  · exact (by decide : ∀ x ∈ ascii "\n\n", x.toNat < 128) x hx

theorem Generated.package_low {t : List U8} (h : ∀ x ∈ t, x.toNat < 128) : ∃ src, LinesOf src (ascii "package p\n" ++ t) :=
  lines_exist _ fun x hx => by
    rcases List.mem_append.mp hx with hx | hx
    · exact (by decide : ∀ x ∈ ascii "package p\n", x.toNat < 128) x hx
    · exact h x hx

/-! ## The file of `main` -/

/-- The lines before the tables. -/
def Generated.mainHead : List (List Nat) := [bytesOf "// Copyright 2023 gnabgib", bytesOf "// This Source Code Form is subject to the terms of the Mozilla Public License v2.0", [],
  bytesOf "// Code generated by go run make_tables.go. DO NOT EDIT.", [], bytesOf "package whirlpool", [], bytesOf "const rounds=10", []]

def Generated.mainHeadToks : List Tok := [.id (n! "package"), .id (n! "whirlpool"), .op (n! ";"), .id (n! "const"), .id (n! "rounds"), .op (n! "="), .int 10, .op (n! ";")]

theorem Generated.mainHead_toks {rest : List (List Nat)} {vs : List Tok} (h : LinesTok rest vs) : LinesTok (Generated.mainHead ++ rest) (Generated.mainHeadToks ++ vs) := by
  have h1 : LineOf (bytesOf "// Copyright 2023 gnabgib") [] := .comment (by decide)
  have h2 : LineOf (bytesOf "// This Source Code Form is subject to the terms of the Mozilla Public License v2.0") [] := .comment (by decide)
  have h3 : LineOf (bytesOf "// Code generated by go run make_tables.go. DO NOT EDIT.") [] := .comment (by decide)
  have h4 : LineOf (bytesOf "package whirlpool") [.id (n! "package"), .id (n! "whirlpool")] := line_of rfl rfl
  have h5 : LineOf (bytesOf "const rounds=10") [.id (n! "const"), .id (n! "rounds"), .op (n! "="), .int 10] := line_of rfl rfl
  have l1 := LinesTok.cons h5 (.semi (ts := [.id (n! "const"), .id (n! "rounds"), .op (n! "=")]) trivial) (.cons .nil .nil h)
  have l2 := LinesTok.cons h4 (.semi (ts := [.id (n! "package")]) (name_ends (by decide))) (.cons .nil .nil l1)
  have l3 := LinesTok.cons h1 .nil (.cons h2 .nil (.cons .nil .nil (.cons h3 .nil (.cons .nil .nil l2))))
  exact l3

theorem Generated.rc_ident : GoSource.IsIdent (ascii "rc") ∧ GoSource.IsIdent (ascii "ct") :=
  ⟨⟨⟨_, _, rfl, by decide⟩, by decide, by decide⟩, ⟨_, _, rfl, by decide⟩, by decide, by decide⟩

theorem Generated.full_eq : MakeTables.fullText = MakeTables.head ++ ascii "const rounds=10\n\n" ++ _root_.MakeTables.varDecl (ascii "rc") _root_.Whirlpool.rc ++
    _root_.MakeTables.varDecl (ascii "ct") _root_.Whirlpool.ct := by
  have e : ascii "const rounds=" ++ _root_.Hex.fmtNat _root_.Whirlpool.rounds ++ ascii "\n\n" = ascii "const rounds=10\n\n" := by decide +kernel
  rw [MakeTables.fullText, _root_.MakeTables.genVar_eq, _root_.MakeTables.genVar_eq, e]

theorem Generated.full_low : ∀ x ∈ MakeTables.fullText, x.toNat < 128 := by
  intro x hx
  rw [Generated.full_eq] at hx
  simp only [List.mem_append] at hx
  rcases hx with ((hx | hx) | hx) | hx
  · exact (by decide +kernel : ∀ x ∈ MakeTables.head, x.toNat < 128) x hx
  · exact (by decide +kernel : ∀ x ∈ ascii "const rounds=10\n\n", x.toNat < 128) x hx
  · exact Generated.var_low Generated.rc_ident.1 _ x hx
  · exact Generated.var_low Generated.rc_ident.2 _ x hx

theorem Generated.join_lines : ∀ (l m : List (List Nat)), m ≠ [] → [10].intercalate (l ++ m) = (l.flatMap fun x => x ++ [10]) ++ [10].intercalate m
  | [], m, _ => rfl
  | x :: l, m, h => by
    rw [List.cons_append, intercalate_line _ (by simp [h]), Generated.join_lines l m h]
    simp

theorem Generated.mainHead_text : (Generated.mainHead.flatMap fun x => x ++ [10]) = (MakeTables.head ++ ascii "const rounds=10\n\n").map BitVec.toNat := by decide +kernel

theorem Generated.full_lines (rc ct : List U64) : [10].intercalate (Generated.mainHead ++ (varLines (ascii "rc") rc ++ (varLines (ascii "ct") ct ++ [[]]))) =
    (MakeTables.head ++ ascii "const rounds=10\n\n" ++ _root_.MakeTables.varDecl (ascii "rc") rc ++ _root_.MakeTables.varDecl (ascii "ct") ct).map BitVec.toNat := by
  have e1 := var_text (ascii "rc") rc
  have e2 := var_text (ascii "ct") ct
  rw [Generated.join_lines _ _ (by simp)] at e1
  rw [show [10].intercalate [([] : List Nat)] = [] from rfl, List.append_nil] at e1
  rw [Generated.join_lines _ _ (by simp), Generated.join_lines _ _ (by simp), e2, e1, Generated.mainHead_text]
  simp only [List.map_append, List.append_assoc]

theorem Generated.tables_nums : _root_.Whirlpool.rc.map BitVec.toNat = WhirlpoolTables.rcNums ∧ _root_.Whirlpool.ct.map BitVec.toNat = Whirlpool.ctNums := by
  refine ⟨by kernel_rfl, ?_⟩
  rw [← Whirlpool.ctNums_eq, List.map_map]
  refine (List.map_congr_left fun n hn => ?_).trans (List.map_id _)
  have := Whirlpool.ctNums_lt n hn
  simp only [Function.comp, BitVec.toNat_ofNat, id]
  exact Nat.mod_eq_of_lt this

theorem Generated.parse_main {src : List String} (h : LinesOf src MakeTables.fullText) : parse src = some WhirlpoolTables.file := by
  rw [Generated.full_eq] at h
  have hi := Generated.rc_ident
  obtain ⟨n1, n2⟩ := Generated.tables_nums
  have hl : _root_.Whirlpool.rc.length = 10 := by kernel_rfl
  generalize _root_.Whirlpool.rc = rc at *
  generalize _root_.Whirlpool.ct = ct at *
  have e := lines_eq h (by simp [Generated.mainHead]) (by
    intro x hx
    rcases List.mem_append.mp hx with hx | hx
    · exact (by decide +kernel : ∀ x ∈ Generated.mainHead, 10 ∉ x) x hx
    · rcases List.mem_append.mp hx with hx | hx
      · exact var_plain hi.1 rc x hx
      · rcases List.mem_append.mp hx with hx | hx
        · exact var_plain hi.2 ct x hx
        · rw [List.mem_singleton.mp hx]
          simp) (Generated.full_lines rc ct)
  have l1 := Generated.mainHead_toks (var_toks hi.1 rc (var_toks hi.2 ct (.cons .nil .nil .nil)))
  rw [← e] at l1
  have l2 := lex_complete (textOf_lines l1)
  rw [List.append_nil, List.append_nil] at l2
  refine parse_some l2 ?_
  obtain ⟨G, hG⟩ : ∃ G, (Generated.mainHeadToks ++ (varTokens (ascii "rc") rc ++ varTokens (ascii "ct") ct)).length + 1 = G + rc.length + ct.length + 12 := by
    refine ⟨(Generated.mainHeadToks ++ (varTokens (ascii "rc") rc ++ varTokens (ascii "ct") ct)).length + 1 - (rc.length + ct.length + 12), ?_⟩
    simp only [Generated.mainHeadToks, varTokens, List.length_append, length_commas, List.length_map, List.length_cons, List.length_nil]
    omega
  rw [hG]
  obtain ⟨k, hk⟩ : ∃ k, G + rc.length + ct.length + 12 = k + 4 := ⟨G + rc.length + ct.length + 8, rfl⟩
  have h1 := pDecls_table (isIdent_iff.mpr (by decide +kernel)) (name := ascii "ct") (l := ct) (g := G + rc.length) (k := k + 1) (rest := []) (ds := []) (r := []) rfl
  rw [List.append_nil] at h1
  have h2 := pDecls_table (isIdent_iff.mpr (by decide +kernel)) (name := ascii "rc") (l := rc) (g := G + ct.length) (k := k + 2) (rest := varTokens (ascii "ct") ct)
    (ds := [varTree (ascii "ct") ct]) (r := []) (by rw [show G + ct.length + rc.length + 12 = G + rc.length + ct.length + 12 by omega]; exact h1)
  rw [show G + ct.length + rc.length + 12 = G + rc.length + ct.length + 12 by omega] at h2
  have h3 : pDecls (G + rc.length + ct.length + 12) (k + 4) (.id (n! "const") :: .id (n! "rounds") :: .op (n! "=") :: .int 10 :: .op (n! ";") ::
      (varTokens (ascii "rc") rc ++ varTokens (ascii "ct") ct)) = some ([.const (n! "rounds") (.int 10), varTree (ascii "rc") rc, varTree (ascii "ct") ct], []) :=
    (WhirlpoolTables.pDecls_rounds (G + rc.length + ct.length + 2) (k + 3) _).trans (bind_some h2)
  rw [← hk] at h3
  have h4 := pFile_open (G + rc.length + ct.length + 11) (p := n! "whirlpool") (n := n! "rounds") (isIdent_iff.mpr (by decide +kernel)) (.inl rfl)
    (.op (n! "=") :: .int 10 :: .op (n! ";") :: (varTokens (ascii "rc") rc ++ varTokens (ascii "ct") ct))
  refine (h4.trans (bind_some h3)).trans ?_
  rw [Whirlpool.file_eq, WhirlpoolTables.tree, varTree, varTree, n1, n2]
  rfl

/-! ## The declarations, loaded -/

theorem Generated.load_table (name : List U8) (path : Name) (l : List U64) : loadPkg stdlib path [⟨n! "p", [], [varTree name l]⟩] [] =
    some ⟨path, [], [varTree name l], [(nameOf (name.map BitVec.toNat), .arr (l.map .u64))], []⟩ := by
  generalize hn : nameOf (name.map BitVec.toNat) = n
  rw [varTree, hn]
  have h0 (es : Elts) : loadPkg stdlib path [⟨n! "p", [], [.var n .none (.comp (.dots (.name (n! "uint64"))) es)]⟩] [] =
      (match initVal (initCtx stdlib ⟨path, [], [.var n .none (.comp (.dots (.name (n! "uint64"))) es)], [], []⟩) .none (.comp (.dots (.name (n! "uint64"))) es) ⟨[], []⟩ with
      | .ok v ⟨[], _⟩ => some [(n, v)]
      | _ => none).map fun g => ⟨path, [], [.var n .none (.comp (.dots (.name (n! "uint64"))) es)], g, []⟩ := by kernel_rfl
  have hu (es : Elts) (m : Nat) (s : St) (_ : m < 2 ^ 64) : coerce (initCtx stdlib ⟨path, [], [.var n .none (.comp (.dots (.name (n! "uint64"))) es)], [], []⟩)
      (.name (n! "uint64")) (.const m) s = .ok (.u64 (.ofNat 64 m)) s := by
    show Out.ok (Val.u64 (BitVec.ofInt 64 m)) s = _
    rw [BitVec.ofInt_natCast]
  have hc := coerceElems_u64 _ (hu (ofInts (l.map BitVec.toNat) .nil)) (l.map BitVec.toNat) (by
    intro m hm
    obtain ⟨v, -, rfl⟩ := List.mem_map.mp hm
    exact v.isLt)
  have e : (l.map BitVec.toNat).map (fun m => Val.u64 (.ofNat 64 m)) = l.map .u64 := by simp
  rw [e] at hc
  rw [h0]
  eval_go [initVal, isAbsent, ↓evalElts_ints, ↓hc]

theorem Generated.load_sum (name : List U8) (path : Name) (l : List U64) : loadPkg stdlib path [⟨n! "p", [], [constTree name l]⟩] [] =
    some ⟨path, [], [constTree name l], [(nameOf (name.map BitVec.toNat), .str (l.flatMap _root_.MakeTables.lePut64))], []⟩ := by
  generalize hn : nameOf (name.map BitVec.toNat) = n
  rw [constTree, hn]
  have h0 (e : Expr) : loadPkg stdlib path [⟨n! "p", [], [.const n e]⟩] [] =
      (match eval (initCtx stdlib ⟨path, [], [.const n e], [], []⟩) e ⟨[], []⟩ with
      | .ok v _ => some [(n, v)]
      | _ => none).map fun g => ⟨path, [], [.const n e], g, []⟩ := by kernel_rfl
  have e1 : l.map wordToks = (l.map _root_.MakeTables.lePut64).map fun s => s.map BitVec.toNat := by simp [wordToks]
  have h1 := fun e => Generated.eval_sum (initCtx stdlib ⟨path, [], [.const n e], [], []⟩) ⟨[], []⟩ (l.map _root_.MakeTables.lePut64) (.str []) [] rfl
  rw [h0, e1, h1, List.nil_append, ← List.flatMap_def]
  rfl

/-- A program of a package that loads. -/
theorem Generated.alone {path : Name} {texts : List (List String)} {boxed : List (Name × List Name)} {k : Pkg} (h : loadText path texts boxed = some k) (hk : k.path = path) :
    ∃ Q : Prog, Q.Has path texts boxed :=
  ⟨{ W := 64, pkgs := [k], other := fun _ _ => none, std := stdlib, native := fun _ _ _ => stuck, grow := fun n => n }, k, h, by simp [findPkg, hk]⟩

theorem Generated.foldl_ge : ∀ (l : List Nat) (a : Nat), a ≤ l.foldl (fun n b => n * 256 + b) a
  | [], _ => Nat.le_refl _
  | b :: l, a => Nat.le_trans (by omega) (Generated.foldl_ge l (a * 256 + b))

theorem Generated.name_pos {name : List U8} (h : GoSource.IsIdent name) : nameOf (name.map BitVec.toNat) ≠ 0 := by
  obtain ⟨⟨c, t, rfl, hc⟩, -⟩ := h
  have h1 := Generated.foldl_ge (t.map BitVec.toNat) (0 * 256 + c.toNat)
  have h2 : 0 < c.toNat := by
    simp only [GoSource.isLetter, Bool.or_eq_true, Bool.and_eq_true, decide_eq_true_eq, beq_iff_eq] at hc
    omega
  have h3 : nameOf ((c :: t).map BitVec.toNat) = (t.map BitVec.toNat).foldl (fun n b => n * 256 + b) (0 * 256 + c.toNat) := rfl
  rw [h3]
  simp only [Name]
  omega

/-! ## The claims -/

/-- The text `t` declares the package variable or constant `name`, and nothing else: after the clause `package p` it is the text of a file, and
every such file is a package by itself, which gives that name that value. -/
def Declares (t name : List U8) (v : Val) : Prop :=
  (∃ src, LinesOf src (ascii "package p\n" ++ t)) ∧
  ∀ src, LinesOf src (ascii "package p\n" ++ t) → ∀ path, ∃ k, loadText path [src] [] = some k ∧ k.genv = [(nameOf (name.map BitVec.toNat), v)]

/-- The text `t` is not what may follow the package clause of a file. -/
def NotGo (t : List U8) : Prop :=
  (∃ src, LinesOf src (ascii "package p\n" ++ t)) ∧ ∀ src, LinesOf src (ascii "package p\n" ++ t) → parse src = none

section
variable {P : Prog} {mem : List Val} (hP : GenHosts P mem)
include hP

/-- **C118** There is one text `T` that is a file of Go, and every file with that text has the syntax tree of whirlpool_tables.go. `main`, run
from the start, writes to whirlpool_tables.go what `format.Source` makes of `T`; and if that has kept the meaning of the text, then
package whirlpool of that file and whirlpool.go is the package of the two files of the repository. -/
theorem C118_main : ∃ T, (∃ src, LinesOf src T) ∧ (∀ src, LinesOf src T → parse src = some WhirlpoolTables.file ∧ parse src = parse WhirlpoolTables.src) ∧
    ∀ (fmtr : List (BitVec 8) → Except (List (BitVec 8)) (List (BitVec 8))) (rest l : List Val) (j : Nat), GenTools P fmtr none (mem.length + j) → rest[j]? = some (.arr l) →
      ∀ t, fmtr T = .ok t → ∃ h', Returns P MakeTables.path 0 (n! "main") [] (mem ++ rest) [] h' ∧
        h'[mem.length + j]? = some (.arr (l ++ [.str (ascii "whirlpool_tables.go"), .str t])) ∧
        ∀ src', LinesOf src' t → (∀ src, LinesOf src T → parse src' = parse src) →
          loadText Whirlpool.path [Whirlpool.src, src'] Whirlpool.boxed = loadText Whirlpool.path Whirlpool.texts Whirlpool.boxed ∧
          ∀ Q : Prog, Q.Has Whirlpool.path [Whirlpool.src, src'] Whirlpool.boxed ↔ Q.Has Whirlpool.path Whirlpool.texts Whirlpool.boxed := by
  refine ⟨MakeTables.fullText, lines_exist _ Generated.full_low, fun src hs => ⟨Generated.parse_main hs, (Generated.parse_main hs).trans WhirlpoolTables.parsed.symm⟩, ?_⟩
  intro fmtr rest l j hG hl t ht
  obtain ⟨hf, hm⟩ := hP.text.find MakeTables.text
  subst hm
  have hfs : (MakeTables.mem ++ rest)[MakeTables.mem.length + j]? = some (.arr l) := by
    rw [List.getElem?_append_right (by omega), Nat.add_sub_cancel_left, hl]
  have hfs' := (List.getElem?_eq_some_iff.mp hfs).1
  have r := MakeTables.run_main hG.tools hG.fmt hf hP.word hP.std hP.bits hG.bytes hG.format hG.os hG.log (h := MakeTables.mem ++ rest) rfl rfl rfl (List.length_replicate ..) (List.length_replicate ..)
    (show 3 ≤ MakeTables.mem.length + j by show 3 ≤ 3 + j; omega) hfs (n := 301) (by decide)
  rw [ht] at r
  refine ⟨_, .one r, ?_, ?_⟩
  · rw [List.getElem?_append_left (by simp only [List.length_set, MakeTables.withRc, MakeTables.withCt]; exact hfs')]
    exact List.getElem?_set_self (by simp only [List.length_set, MakeTables.withRc, MakeTables.withCt]; exact hfs')
  · intro src' _ hk
    obtain ⟨src, hs⟩ := lines_exist _ Generated.full_low
    have e : parse src' = parse WhirlpoolTables.src := (hk src hs).trans ((Generated.parse_main hs).trans WhirlpoolTables.parsed.symm)
    have e2 : loadText Whirlpool.path [Whirlpool.src, src'] Whirlpool.boxed = loadText Whirlpool.path Whirlpool.texts Whirlpool.boxed := by
      simp only [loadText, Whirlpool.texts, parseAll, e]
    refine ⟨e2, fun Q => ?_⟩
    simp only [Prog.Has, e2]

/-- **C118** For every name and every table, what `genVar` appends to its buffer declares the variable of that name with those numbers; unless
the name is a keyword, then the text is no Go. -/
theorem C118_var {name : List U8} (hn : GoSource.IsIdent name) (_hu : name ≠ ascii "uint64" ∧ name ≠ ascii "_") (data : List U64) :
    ∃ t, (nameOf (name.map BitVec.toNat) ∉ goKeywords → Declares t name (.arr (data.map .u64))) ∧ (nameOf (name.map BitVec.toNat) ∈ goKeywords → NotGo t) ∧
    ∀ (fmtr : List (BitVec 8) → Except (List (BitVec 8)) (List (BitVec 8))) (wr : Option (List (BitVec 8))) (fs : Nat) (h : List Val) (b a : Nat) (w : List U8), GenTools P fmtr wr fs →
      h[b]? = some (.str w) → h[a]? = some (.arr (data.map .u64)) →
      Returns P MakeTables.path 0 (n! "genVar") [.native b, .str name, .slice a [] 0 data.length data.length] h [] (h.set b (.str (w ++ t))) := by
  have hex := Generated.package_low (Generated.var_low hn data)
  refine ⟨_root_.MakeTables.varDecl name data, ?_, ?_, ?_⟩
  · intro hi
    refine ⟨hex, fun src hs path => ⟨⟨path, [], [varTree name data], [(nameOf (name.map BitVec.toNat), .arr (data.map .u64))], []⟩, ?_, rfl⟩⟩
    simp only [loadText, parseAll, (parse_table hn hs).1 ⟨Generated.name_pos hn, hi⟩, Option.map_some, Option.bind_some]
    exact Generated.load_table name path data
  · exact fun hi => ⟨hex, fun src hs => (parse_table hn hs).2 fun h => h.2 hi⟩
  · intro fmtr wr fs h b a w hG hb ha
    obtain ⟨hlt, e⟩ := List.getElem?_eq_some_iff.mp hb
    have hab : a ≠ b := by
      rintro rfl
      rw [hb] at ha
      cases ha
    have r := MakeTables.run_genVar hG.tools hG.fmt (hP.text.find MakeTables.text).1 hab hlt ha w name (n := 0)
    rw [show h.set b (.str w) = h by rw [← e, List.set_getElem_self], _root_.MakeTables.genVar_eq] at r
    exact .one r

/-- **C118** What `genConst` appends declares the constant with the bytes of the numbers, least significant first; unless the name is a keyword
or the table is empty, then the text is no Go. -/
theorem C118_const {name : List U8} (hn : GoSource.IsIdent name) (_hu : name ≠ ascii "_") (data : List U64) :
    ∃ t, (nameOf (name.map BitVec.toNat) ∉ goKeywords → data ≠ [] → Declares t name (.str (data.flatMap fun v => BlockSpec.leBytes 8 v.toNat))) ∧
    (nameOf (name.map BitVec.toNat) ∈ goKeywords ∨ data = [] → NotGo t) ∧
    ∀ (fmtr : List (BitVec 8) → Except (List (BitVec 8)) (List (BitVec 8))) (wr : Option (List (BitVec 8))) (fs : Nat) (bd : _root_.Hex.Build) (h : List Val) (b a : Nat) (w : List U8),
      GenTools P fmtr wr fs → P.Has Hex.path (Hex.texts bd) [] → P.std (n! "encoding/binary") = stdlib (n! "encoding/binary") →
      elemN (n! "encoding/binary") (P.pkgs.map Pkg.path) = false → h[b]? = some (.str w) → h[a]? = some (.arr (data.map .u64)) →
      ∃ more, Returns P MakeTables.path 0 (n! "genConst") [.native b, .str name, .slice a [] 0 data.length data.length] h [] (h.set b (.str (w ++ t)) ++ more) := by
  have hex := Generated.package_low (Generated.const_low hn data)
  refine ⟨_root_.MakeTables.constDecl name data, ?_, ?_, ?_⟩
  · intro hi hd
    refine ⟨hex, fun src hs path => ⟨⟨path, [], [constTree name data], [(nameOf (name.map BitVec.toNat), .str (data.flatMap fun v => BlockSpec.leBytes 8 v.toNat))], []⟩, ?_, rfl⟩⟩
    simp only [loadText, parseAll, (parse_sum hn hs).1 ⟨Generated.name_pos hn, hi⟩ hd, Option.map_some, Option.bind_some]
    rw [Generated.load_sum name path data]
    rw [show _root_.MakeTables.lePut64 = fun v => BlockSpec.leBytes 8 v.toNat from funext _root_.MakeTables.lePut64_eq]
  · exact fun hi => ⟨hex, fun src hs => (parse_sum hn hs).2 (hi.symm.imp id fun h i => i.2 h)⟩
  · intro fmtr wr fs bd h b a w hG hX hS hE hb ha
    have hab : a ≠ b := by
      rintro rfl
      rw [hb] at ha
      cases ha
    obtain ⟨j, r⟩ := MakeTables.run_genConst hG.tools hG.fmt (hP.text.find MakeTables.text).1 (hX.find (Hex.text bd)) hS hE hP.word hab hb ha (_root_.MakeTables.genConst_eq w name data)
      (n := 22) (by decide)
    exact ⟨j, .one r⟩

end

/-- **C118** No text declares two values for one name, and none that declares something is no Go. -/
theorem C118_one (t name : List U8) (v w : Val) : (Declares t name v → Declares t name w → v = w) ∧ (Declares t name v → ¬ NotGo t) := by
  constructor
  · rintro ⟨⟨src, hs⟩, h1⟩ ⟨-, h2⟩
    obtain ⟨k, hk, e1⟩ := h1 src hs 0
    obtain ⟨k', hk', e2⟩ := h2 src hs 0
    rw [hk] at hk'
    cases hk'
    rw [e1] at e2
    simpa using e2
  · rintro ⟨⟨src, hs⟩, h1⟩ ⟨-, h2⟩
    obtain ⟨k, hk, -⟩ := h1 src hs 0
    simp [loadText, parseAll, h2 src hs] at hk

/-! ## Examples -/

/-- The file that `genVar` makes of two numbers, as it is written. -/
example : LinesOf ["package p", "var ab =[...]uint64{", "//0", "0x0000000001020304,0x00000000000000ff,}", "", ""]
    (ascii "package p\n" ++ _root_.MakeTables.varDecl (ascii "ab") [0x01020304, 255]) := ⟨by simp, by decide +kernel, by decide +kernel⟩

/-- The text of the code, run for these numbers; the text it makes, read. -/
example : ∃ t, Returns (genProg .ok none 3) MakeTables.path 0 (n! "genVar") [.native 1, .str (ascii "ab"), .slice 0 [] 0 2 2] [.arr [.u64 0x01020304, .u64 255], .str (ascii "x")] []
      [.arr [.u64 0x01020304, .u64 255], .str (ascii "x" ++ t)] ∧ Declares t (ascii "ab") (.arr [.u64 0x01020304, .u64 255]) := by
  obtain ⟨t, h1, -, h2⟩ := C118_var (genProg_hosts .ok none 3).1 (name := ascii "ab") ⟨⟨_, _, rfl, by decide⟩, by decide, by decide⟩ (by decide) [0x01020304#64, 255#64]
  exact ⟨t, h2 .ok none 3 [.arr [.u64 0x01020304, .u64 255], .str (ascii "x")] 1 0 (ascii "x") (genProg_hosts .ok none 3).2 rfl rfl, h1 (by decide +kernel)⟩

/-- With a keyword as the name. -/
example : ∃ t, Returns (genProg .ok none 3) MakeTables.path 0 (n! "genVar") [.native 1, .str (ascii "func"), .slice 0 [] 0 1 1] [.arr [.u64 7], .str []] []
      [.arr [.u64 7], .str t] ∧ NotGo t := by
  obtain ⟨t, -, h1, h2⟩ := C118_var (genProg_hosts .ok none 3).1 (name := ascii "func") ⟨⟨_, _, rfl, by decide⟩, by decide, by decide⟩ (by decide) [7#64]
  exact ⟨t, h2 .ok none 3 [.arr [.u64 7], .str []] 1 0 [] (genProg_hosts .ok none 3).2 rfl rfl, h1 (by decide +kernel)⟩

/-- `genConst`, run for a table and for none. -/
example : ∃ t more, Returns (genProg .ok none 3) MakeTables.path 0 (n! "genConst") [.native 1, .str (ascii "ab"), .slice 0 [] 0 1 1] [.arr [.u64 0x01020304], .str []] []
      ([.arr [.u64 0x01020304], .str t] ++ more) ∧ Declares t (ascii "ab") (.str [4, 3, 2, 1, 0, 0, 0, 0]) := by
  obtain ⟨t, h1, -, h2⟩ := C118_const (genProg_hosts .ok none 3).1 (name := ascii "ab") ⟨⟨_, _, rfl, by decide⟩, by decide, by decide⟩ (by decide) [0x01020304#64]
  obtain ⟨more, h3⟩ := h2 .ok none 3 .table [.arr [.u64 0x01020304], .str []] 1 0 [] (genProg_hosts .ok none 3).2 ⟨_, Hex.text _, by kernel_rfl⟩
    (by funext n m args s; rfl) (by kernel_rfl) rfl rfl
  exact ⟨t, more, h3, h1 (by decide +kernel) (by simp)⟩

example : ∃ t more, Returns (genProg .ok none 3) MakeTables.path 0 (n! "genConst") [.native 1, .str (ascii "ab"), .slice 0 [] 0 0 0] [.arr [], .str []] []
      ([.arr [], .str t] ++ more) ∧ NotGo t := by
  obtain ⟨t, -, h1, h2⟩ := C118_const (genProg_hosts .ok none 3).1 (name := ascii "ab") ⟨⟨_, _, rfl, by decide⟩, by decide, by decide⟩ (by decide) []
  obtain ⟨more, h3⟩ := h2 .ok none 3 .table [.arr [], .str []] 1 0 [] (genProg_hosts .ok none 3).2 ⟨_, Hex.text _, by kernel_rfl⟩
    (by funext n m args s; rfl) (by kernel_rfl) rfl rfl
  exact ⟨t, more, h3, h1 (.inr rfl)⟩

/-- The generator with a formatter that changes nothing: package whirlpool of what it writes is the package of the repository. -/
example : ∃ t h' src', Returns (genProg .ok none 3) MakeTables.path 0 (n! "main") [] (MakeTables.mem ++ [.arr []]) [] h' ∧
    h'[3]? = some (.arr [.str (ascii "whirlpool_tables.go"), .str t]) ∧ LinesOf src' t ∧
    loadText Whirlpool.path [Whirlpool.src, src'] Whirlpool.boxed = some Whirlpool.pkg := by
  obtain ⟨T, ⟨src, hs⟩, hp, hm⟩ := C118_main (genProg_hosts .ok none 3).1
  obtain ⟨h', hr, hf, hk⟩ := hm .ok [.arr []] [] 0 (genProg_hosts .ok none 3).2 rfl T rfl
  exact ⟨T, h', src, hr, hf, hs, (hk src hs fun src' hs' => (hp src hs).1.trans (hp src' hs').1.symm).1.trans Whirlpool.text⟩

end Source
