import Verif.Lang.HashCode
import Verif.Model.WhirlpoolTables
import Verif.Source.Whirlpool
import Verif.Source.WhirlpoolTables

/-!
# The tables of package `whirlpool`

The text of `whirlpool_tables.go` is parsed and its variables are given their values.
-/
namespace Source.WhirlpoolTables
open GoLang

/-- The elements of `rc`. -/
def rcNums : List Nat := [0x1823c6e887b8014f, 0x36a6d2f5796f9152, 0x60bc9b8ea30c7b35, 0x1de0d7c22e4bfe57,
  0x157737e59ff04ada, 0x58c9290ab1a06b85, 0xbd5d10f4cb3e0567, 0xe427418ba77d95d8, 0xfbee7c66dd17479e, 0xca2dbf07ad5a8333]

/-- The syntax tree, with the elements of `ct`. -/
def tree (es : Elts) : File := ⟨n! "whirlpool", [], [.const (n! "rounds") (.int 10),
  .var (n! "rc") .none (.comp (.dots (.name (n! "uint64"))) (ofInts rcNums .nil)),
  .var (n! "ct") .none (.comp (.dots (.name (n! "uint64"))) es)]⟩

/-- The elements of `ct`, without the last. -/
def nums : List Nat := nums1 ++ (nums2 ++ (nums3 ++ (nums4 ++ (nums5 ++ (nums6 ++ (nums7 ++ nums8))))))

/-- The syntax tree. -/
def file : File := tree (ofInts nums (.cons 0 (.int 0x86228644a411c286) .nil))

/-- The tokens before the elements of `ct`. -/
def toks0 : List Tok := [.id (n! "package"), .id (n! "whirlpool"), .op (n! ";"), .id (n! "const"), .id (n! "rounds"), .op (n! "="), .int 10, .op (n! ";"),
  .id (n! "var"), .id (n! "rc"), .op (n! "="), .op (n! "["), .op (n! "..."), .op (n! "]"), .id (n! "uint64"), .op (n! "{")] ++
  commas (rcNums.take 9) ++ [.int 0xca2dbf07ad5a8333, .op (n! "}"), .op (n! ";"),
  .id (n! "var"), .id (n! "ct"), .op (n! "="), .op (n! "["), .op (n! "..."), .op (n! "]"), .id (n! "uint64"), .op (n! "{")]

theorem lex0 : lex src0 = some toks0 := by kernel_rfl

theorem lexes : lex src = some (toks0 ++ (commas nums ++ [.int 0x86228644a411c286, .op (n! "}"), .op (n! ";")])) := by
  have h := lex_append lex0 (lex_append lex1 (lex_append lex2 (lex_append lex3 (lex_append lex4 (lex_append lex5 (lex_append lex6 (lex_append lex7 lex8)))))))
  simp only [nums, commas_append, List.append_assoc] at h ⊢
  exact h

theorem bind_eq {α β : Type} (x : P α) (f : α → P β) (l : List Tok) : (x >>= f) l = match x l with | some (a, l) => f a l | none => none := rfl
theorem pure_eq {α : Type} (a : α) (l : List Tok) : (pure a : P α) l = some (a, l) := rfl

/-- The declaration of `ct`, up to its elements. -/
theorem pVar_ct (f : Nat) (l : List Tok) :
    pVar (f + 10) (.id (n! "ct") :: .op (n! "=") :: .op (n! "[") :: .op (n! "...") :: .op (n! "]") :: .id (n! "uint64") :: .op (n! "{") :: l) =
    (((pElts (f + 7) >>= fun es => pSuffix (f + 7) false (.comp (.dots (.name (n! "uint64"))) es)) >>= fun e => pBin (f + 9) 1 false e) >>=
      fun e => (return .var (n! "ct") .none e : P Decl)) l := by kernel_rfl

/-- A declaration of a variable. -/
theorem pDecls_var (g k : Nat) (n : Name) (l : List Tok) : pDecls g (k + 1) (.id (n! "var") :: .id n :: l) =
    ((pVar g >>= fun a => (return [a] : P (List Decl))) >>= fun cs => expect (n! ";") >>= fun _ => pDecls g k >>= fun ds => return cs ++ ds)
      (.id n :: l) := by kernel_rfl

theorem expect_semi (l : List Tok) : expect (n! ";") (.op (n! ";") :: l) = some ((), l) := by kernel_rfl

theorem pDecls_rounds (g k : Nat) (l : List Tok) :
    pDecls (g + 10) (k + 1) (.id (n! "const") :: .id (n! "rounds") :: .op (n! "=") :: .int 10 :: .op (n! ";") :: l) =
    (pDecls (g + 10) k >>= fun ds => (return [.const (n! "rounds") (.int 10)] ++ ds : P (List Decl))) l := by kernel_rfl

theorem pVar_rc (g : Nat) (l : List Tok) :
    pVar (g + 30) (.id (n! "rc") :: .op (n! "=") :: .op (n! "[") :: .op (n! "...") :: .op (n! "]") :: .id (n! "uint64") :: .op (n! "{") ::
      (commas (rcNums.take 9) ++ .int 0xca2dbf07ad5a8333 :: .op (n! "}") :: .op (n! ";") :: l)) =
    some (.var (n! "rc") .none (.comp (.dots (.name (n! "uint64"))) (ofInts rcNums .nil)), .op (n! ";") :: l) := by kernel_rfl

theorem pFile_pkg (g : Nat) (l : List Tok) :
    pFile (g + 2) (.id (n! "package") :: .id (n! "whirlpool") :: .op (n! ";") :: .id (n! "const") :: l) =
    (pDecls (g + 2) (g + 2) >>= fun ds => (return ⟨n! "whirlpool", [], ds⟩ : P File)) (.id (n! "const") :: l) := by kernel_rfl

/-- The parser, given the elements of `ct`. -/
theorem pFile_tree (f : Nat) (l : List Tok) (es : Elts) (h : pElts (f + 37) l = some (es, [.op (n! ";")])) :
    pFile (f + 40) (toks0 ++ l) = some (tree es, []) := by
  have h1 := pVar_ct (f + 30) l
  have h2 : pSuffix (f + 37) false (.comp (.dots (.name (n! "uint64"))) es) [.op (n! ";")] = some (.comp (.dots (.name (n! "uint64"))) es, [.op (n! ";")]) := by kernel_rfl
  have h3 : pBin (f + 39) 1 false (.comp (.dots (.name (n! "uint64"))) es) [.op (n! ";")] = some (.comp (.dots (.name (n! "uint64"))) es, [.op (n! ";")]) := by kernel_rfl
  have h4 : pDecls (f + 40) (f + 37) [] = some ([], []) := by kernel_rfl
  have h5 := pVar_rc (f + 10)
  have h6 := pFile_pkg (f + 38)
  have h7 := pDecls_rounds (f + 30) (f + 39)
  have h8 := pDecls_var (f + 40) (f + 37)
  have h9 := pDecls_var (f + 40) (f + 38)
  simp only [bind_eq, pure_eq, Nat.add_assoc, Nat.reduceAdd] at h1 h2 h3 h4 h5 h6 h7 h8 h9
  simp only [h, h2, h3] at h1
  simp only [toks0, List.append_assoc, List.cons_append, List.nil_append, h6, h7, h9, h5, expect_semi, h8, h1, h4]
  rfl

theorem parse_of {s : List String} {ts : List Tok} {t : File} (h : lex s = some ts) (h' : pFile (ts.length + 1) ts = some (t, [])) : parse s = some t := by
  simp only [parse, h, h']

theorem length_nums : nums.length = 2047 := by kernel_rfl

theorem pElts_last (f n : Nat) (l : List Tok) : pElts (f + 9) (.int n :: .op (n! "}") :: l) = some (.cons 0 (.int n) .nil, l) := by kernel_rfl

/-- The parser finds the tree in the text. -/
theorem parsed : parse src = some file := by
  obtain ⟨x, hx⟩ : ∃ x : Nat, x = 0x86228644a411c286 := ⟨_, rfl⟩
  have hlex := lexes
  have hf : file = tree (ofInts nums (.cons 0 (.int x) .nil)) := by rw [hx, file]
  rw [← hx] at hlex
  rw [hf]
  have hn := length_nums
  generalize nums = ns at *
  have hl : (toks0 ++ (commas ns ++ [Tok.int x, .op (n! "}"), .op (n! ";")])).length + 1 = 4103 + 40 := by
    simp only [List.length_append, length_commas, hn, List.length_cons, List.length_nil]
    rfl
  have h : pElts (4103 + 37) (commas ns ++ [Tok.int x, .op (n! "}"), .op (n! ";")]) = some (ofInts ns (.cons 0 (.int x) .nil), [.op (n! ";")]) := by
    rw [show 4103 + 37 = 2084 + 5 + 4 + ns.length by omega, pElts_ints, show 2084 + 5 + 4 = 2084 + 9 from rfl, pElts_last]
    rfl
  have ht := pFile_tree 4103 _ _ h
  rw [← hl] at ht
  exact parse_of hlex ht

end Source.WhirlpoolTables

namespace Source.Whirlpool
open GoLang

abbrev path : Name := n! "github.com/gnabgib/gnablib-go/hash/whirlpool"
abbrev ty : Name := n! "ctx"

/-- The files of the package. -/
def texts : List (List String) := [Whirlpool.src, WhirlpoolTables.src]

def files : List File := [Whirlpool.file, WhirlpoolTables.file]

/-- `Sum` takes the address of its variable `h`. -/
def boxed : List (Name × List Name) := [(n! "Sum", [n! "h"])]

/-- The constants and variables before `ct`. -/
def genv0 : List (Name × Val) := [
  (n! "blockSizeBytes", .const 64), (n! "blockSizeU64", .const 8), (n! "digestSizeBytes", .const 64), (n! "digestSizeU64", .const 8),
  (n! "lengthBytes", .const 32), (n! "rounds", .const 10), (n! "rc", .arr (_root_.Whirlpool.rc.map .u64))]

/-- The declarations, given the elements of `ct`. -/
def declsOf (es : Elts) : List Decl := [Whirlpool.file, WhirlpoolTables.tree es].flatMap File.decls

/-- The package. -/
def pkg : Pkg := ⟨path, importTable Whirlpool.file.imports, files.flatMap File.decls, genv0 ++ [(n! "ct", .arr (_root_.Whirlpool.ct.map .u64))], boxed⟩

theorem load_ct (es : Elts) : loadPkg stdlib path [Whirlpool.file, WhirlpoolTables.tree es] boxed =
    (match initVal (initCtx stdlib ⟨path, importTable Whirlpool.file.imports, declsOf es, genv0, boxed⟩) .none
        (.comp (.dots (.name (n! "uint64"))) es) ⟨[], []⟩ with
      | .ok v ⟨[], _⟩ => initVars stdlib ⟨path, importTable Whirlpool.file.imports, declsOf es, genv0 ++ [(n! "ct", v)], boxed⟩ []
      | _ => none).map fun g => ⟨path, importTable Whirlpool.file.imports, declsOf es, g, boxed⟩ := by kernel_rfl

/-- All elements of `ct`. -/
def ctNums : List Nat := WhirlpoolTables.nums ++ [0x86228644a411c286]

theorem ctNums_lt : ∀ n ∈ ctNums, n < 2 ^ 64 := by
  have h : ctNums.all (fun n => Nat.blt n (2 ^ 64)) = true := by kernel_rfl
  intro n hn
  have := List.all_eq_true.mp h n hn
  simpa only [Nat.blt_eq] using this

theorem ctNums_eq : ctNums.map (BitVec.ofNat 64) = _root_.Whirlpool.ct := by kernel_rfl

theorem ofInts_append (a b : List Nat) (r : Elts) : ofInts (a ++ b) r = ofInts a (ofInts b r) := by
  induction a with
  | nil => rfl
  | cons n a ih => simp only [List.cons_append, ofInts, ih]

theorem file_eq : WhirlpoolTables.file = WhirlpoolTables.tree (ofInts ctNums .nil) := by
  rw [ctNums, ofInts_append]
  rfl

theorem loaded : loadPkg stdlib path files boxed = some pkg := by
  have hlt := ctNums_lt
  have hct := ctNums_eq
  rw [files, file_eq, load_ct, pkg, files, file_eq]
  generalize ctNums = ns at *
  have hu (es : Elts) (n : Nat) (s : St) (_ : n < 2 ^ 64) : coerce (initCtx stdlib ⟨path, importTable Whirlpool.file.imports, declsOf es, genv0, boxed⟩)
    (.name (n! "uint64")) (.const n) s = .ok (.u64 (.ofNat 64 n)) s := by
    show Out.ok (Val.u64 (BitVec.ofInt 64 n)) s = _
    rw [BitVec.ofInt_natCast]
  rw [← hct]
  have hc := coerceElems_u64 _ (hu (ofInts ns .nil)) ns hlt
  rw [List.map_map]
  eval_go [initVal, isAbsent, ↓evalElts_ints, ↓hc]
  rfl

theorem text : loadText path texts boxed = some pkg := by
  rw [← loaded]
  simp only [loadText, texts, files, parseAll, Whirlpool.parsed, WhirlpoolTables.parsed, Option.bind_some, Option.map_some]

end Source.Whirlpool
