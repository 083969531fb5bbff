import Verif.Code.Bytes
import Verif.Lang.HashCode
import Verif.Source.Ripe128
import Verif.Source.Ripe160
import Verif.Source.Ripe256
import Verif.Source.Ripe320
import Verif.Source.RipeShared
import Verif.Lemmas.Ripemd

/-!
# The code of package `ripemd`: constants, functions and the words of a block
-/
namespace Source.Ripemd
open GoLang BlockHash

abbrev path : Name := n! "github.com/gnabgib/gnablib-go/hash/ripemd"
abbrev ty : Name := n! "ripeCtx"

/-- The files of the package. -/
def texts : List (List String) := [Ripe128.src, Ripe160.src, Ripe256.src, Ripe320.src, RipeShared.src]

def files : List File := [Ripe128.file, Ripe160.file, Ripe256.file, Ripe320.file, RipeShared.file]

/-- `Sum` takes the address of its variable `t`. -/
def boxed : List (Name × List Name) := [(n! "Sum", [n! "t"])]

/-- The variable `f`. -/
def fvals : List Val := [.func path (n! "f0"), .func path (n! "f1"), .func path (n! "f2"), .func path (n! "f3"), .func path (n! "f4")]

/-- The constants and variables. -/
def genv : List (Name × Val) := [
  (n! "roundCount128", .const 4), (n! "hashSize128u32", .const 4), (n! "roundCount160", .const 5), (n! "hashSize160u32", .const 5),
  (n! "hashSize256u32", .const 8), (n! "hashSize320u32", .const 10), (n! "r", .str _root_.Ripemd.r), (n! "rr", .str _root_.Ripemd.rr),
  (n! "s", .str _root_.Ripemd.s), (n! "ss", .str _root_.Ripemd.ss), (n! "k", .str _root_.Ripemd.k), (n! "kk", .str _root_.Ripemd.kk),
  (n! "kk128", .str _root_.Ripemd.kk128), (n! "iv", .str _root_.Ripemd.iv), (n! "iv2", .str _root_.Ripemd.iv2), (n! "u32Size", .const 4),
  (n! "blockSizeBytes", .const 64), (n! "blockSizeU32", .const 16), (n! "sizeSpace", .const 56), (n! "f", .arr fvals)]

/-- The package. -/
def pkg : Pkg := ⟨path, files.flatMap fun f => importTable f.imports, files.flatMap File.decls, genv, boxed⟩

theorem loaded : loadPkg stdlib path files boxed = some pkg := by kernel_rfl

theorem text : loadText path texts boxed = some pkg := by
  rw [← loaded]
  simp only [loadText, texts, files, parseAll, Ripe128.parsed, Ripe160.parsed, Ripe256.parsed, Ripe320.parsed, RipeShared.parsed,
    Option.bind_some, Option.map_some]

theorem find_f0 : findFunc 0 (n! "f0") pkg.decls = some RipeShared.f0 := by kernel_rfl
theorem find_f1 : findFunc 0 (n! "f1") pkg.decls = some RipeShared.f1 := by kernel_rfl
theorem find_f2 : findFunc 0 (n! "f2") pkg.decls = some RipeShared.f2 := by kernel_rfl
theorem find_f3 : findFunc 0 (n! "f3") pkg.decls = some RipeShared.f3 := by kernel_rfl
theorem find_f4 : findFunc 0 (n! "f4") pkg.decls = some RipeShared.f4 := by kernel_rfl
theorem find_hash128 : findFunc 0 (n! "hash128") pkg.decls = some Ripe128.hash128 := by kernel_rfl
theorem find_hash160 : findFunc 0 (n! "hash160") pkg.decls = some Ripe160.hash160 := by kernel_rfl
theorem find_hash256 : findFunc 0 (n! "hash256") pkg.decls = some Ripe256.hash256 := by kernel_rfl
theorem find_hash320 : findFunc 0 (n! "hash320") pkg.decls = some Ripe320.hash320 := by kernel_rfl
theorem find_New128 : findFunc 0 (n! "New128") pkg.decls = some Ripe128.New128 := by kernel_rfl
theorem find_New160 : findFunc 0 (n! "New160") pkg.decls = some Ripe160.New160 := by kernel_rfl
theorem find_New256 : findFunc 0 (n! "New256") pkg.decls = some Ripe256.New256 := by kernel_rfl
theorem find_New320 : findFunc 0 (n! "New320") pkg.decls = some Ripe320.New320 := by kernel_rfl
theorem find_getX : findFunc ty (n! "getX") pkg.decls = some RipeShared.ripeCtx_getX := by kernel_rfl
theorem find_Reset : findFunc ty (n! "Reset") pkg.decls = some RipeShared.ripeCtx_Reset := by kernel_rfl
theorem find_Write : findFunc ty (n! "Write") pkg.decls = some RipeShared.ripeCtx_Write := by kernel_rfl
theorem find_Sum : findFunc ty (n! "Sum") pkg.decls = some RipeShared.ripeCtx_Sum := by kernel_rfl
theorem find_BlockSize : findFunc ty (n! "BlockSize") pkg.decls = some RipeShared.ripeCtx_BlockSize := by kernel_rfl
theorem find_Size : findFunc ty (n! "Size") pkg.decls = some RipeShared.ripeCtx_Size := by kernel_rfl

/-- The object in a state; `hash` and `stateLen` are those of the variant. -/
abbrev rep (hash : Name) (stateLen : Nat) (c : Ctx U32) : Val := .struct path ty [(n! "hash", .func path hash), (n! "state", .arr (c.state.map .u32)),
  (n! "stateLen", .int stateLen), (n! "len", .u64 c.len), (n! "block", .arr (c.block.map .u8)), (n! "bPos", .int c.bPos)]

/-! ## The standard library -/

theorem std_be32 (v : Val) : stdlib (n! "encoding/binary") (n! "BigEndian") (n! "Uint32") [v] = (do return .u32 (.ofNat 32 (← readUint true 4 v))) := by kernel_rfl
theorem std_le32 (v : Val) : stdlib (n! "encoding/binary") (n! "LittleEndian") (n! "Uint32") [v] = (do return .u32 (.ofNat 32 (← readUint false 4 v))) := by kernel_rfl
theorem std_put32 (v : Val) (x : BitVec 32) : stdlib (n! "encoding/binary") (n! "LittleEndian") (n! "PutUint32") [v, .u32 x] = putUint false 4 v x.toNat := by kernel_rfl
theorem std_rotate (x : BitVec 32) (k : Int) : stdlib (n! "math/bits") 0 (n! "RotateLeft32") [.u32 x, .int k] = pure (.u32 (x.rotateLeft (k % 32).toNat)) := by kernel_rfl
theorem std_rotate' (x : BitVec 32) (k : Int) : stdlib (n! "math/bits") 0 (n! "RotateLeft32") [.u32 x, .const k] = pure (.u32 (x.rotateLeft (k % 32).toNat)) := by kernel_rfl

/-- The number in the first four bytes. -/
def beNat (b : List (BitVec 8)) : Nat := leNat (b.take 4).reverse
def leNat4 (b : List (BitVec 8)) : Nat := leNat (b.take 4)

theorem be_eq {b : List (BitVec 8)} (h : 4 ≤ b.length) : _root_.Ripemd.beUint32 b = .ok (.ofNat 32 (beNat b)) := by
  match b, h with
  | a :: b :: c :: d :: l, _ =>
    show Res.ok _ = _
    congr 1
    apply BitVec.eq_of_toNat_eq
    rw [_root_.Bytes.or4, BitVec.toNat_ofNat]
    have ha := a.isLt
    have hb := b.isLt
    have hc := c.isLt
    have hd := d.isLt
    simp only [beNat, List.take, List.reverse_cons, List.reverse_nil, List.nil_append, List.cons_append, leNat]
    omega

theorem le_eq {b : List (BitVec 8)} (h : 4 ≤ b.length) : _root_.Ripemd.leUint32 b = .ok (.ofNat 32 (leNat4 b)) := by
  match b, h with
  | a :: b :: c :: d :: l, _ =>
    show Res.ok _ = _
    congr 1
    apply BitVec.eq_of_toNat_eq
    rw [_root_.Bytes.or4, BitVec.toNat_ofNat]
    have ha := a.isLt
    have hb := b.isLt
    have hc := c.isLt
    have hd := d.isLt
    simp only [leNat4, List.take, leNat]
    omega

/-- Reading a number from a slice. -/
theorem read_be {h : List Val} {a : Nat} {p : List Sel} {off len cap : Nat} {o : Val} {l : List (BitVec 8)} (ho : h[a]? = some o) (hp : getPath o p = some (.arr (l.map .u8)))
    (h4 : 4 ≤ len) (hl : off + len ≤ l.length) (e : List (Name × Val)) :
    readUint true 4 (.slice a p off len cap) ⟨h, e⟩ = .ok (beNat (l.drop off)) ⟨h, e⟩ := by
  have : off + 4 ≤ l.length := by omega
  simp [readUint, firstElems, go, ho, hp, h4, this, ← List.map_drop, ← List.map_take, valBytes_map, beNat]

theorem read_le {h : List Val} {a : Nat} {p : List Sel} {off len cap : Nat} {o : Val} {l : List (BitVec 8)} (ho : h[a]? = some o) (hp : getPath o p = some (.arr (l.map .u8)))
    (h4 : 4 ≤ len) (hl : off + len ≤ l.length) (e : List (Name × Val)) :
    readUint false 4 (.slice a p off len cap) ⟨h, e⟩ = .ok (leNat4 (l.drop off)) ⟨h, e⟩ := by
  have : off + 4 ≤ l.length := by omega
  simp [readUint, firstElems, go, ho, hp, h4, this, ← List.map_drop, ← List.map_take, valBytes_map, leNat4]

theorem slice_from {a : Nat} {p : List Sel} {off len cap k : Nat} (h : k ≤ len) (hc : len ≤ cap) :
    slicing (.slice a p off len cap) (some (.int k)) none = pure (.slice a p (off + k) (len - k) (cap - k)) := by
  funext s
  have h1 : k < cap + 1 := by omega
  eval_go [h1, h]

theorem slice_from' {a : Nat} {p : List Sel} {off len cap k : Nat} (h : k ≤ len) (hc : len ≤ cap) (s : St) :
    slicing (.slice a p off len cap) (some (.int k)) none s = .ok (.slice a p (off + k) (len - k) (cap - k)) s := by
  rw [slice_from h hc]
  rfl

/-! ## Functions -/

/-- The names of the functions in `f`. -/
def fname (i : Nat) : Name := [n! "f0", n! "f1", n! "f2", n! "f3", n! "f4"].getD i 0

theorem f_elem {i : Nat} (hi : i < 5) (s : St) : elemAt (.arr fvals) (.int i) s = .ok (.func path (fname i)) s := by
  match i, hi with
  | 0, _ => rfl
  | 1, _ => rfl
  | 2, _ => rfl
  | 3, _ => rfl
  | 4, _ => rfl

section
variable {P : Prog} (hP : findPkg path P.pkgs = some pkg)
include hP

theorem run_f {i : Nat} (hi : i < 5) {g : U32 → U32 → U32 → U32} (hg : goIdx _root_.Ripemd.f i = .ok g) (x y z : BitVec 32) (h : List Val) (n : Nat) :
    run P (n + 1) path 0 (fname i) [.u32 x, .u32 y, .u32 z] h = .ok [.u32 (g x y z)] ⟨h, []⟩ := by
  match i, hi with
  | 0, _ => cases hg; show run P (n + 1) path 0 (n! "f0") _ _ = _; rw [run_func hP find_f0]; eval_go; rfl
  | 1, _ => cases hg; show run P (n + 1) path 0 (n! "f1") _ _ = _; rw [run_func hP find_f1]; eval_go; rfl
  | 2, _ => cases hg; show run P (n + 1) path 0 (n! "f2") _ _ = _; rw [run_func hP find_f2]; eval_go; rfl
  | 3, _ => cases hg; show run P (n + 1) path 0 (n! "f3") _ _ = _; rw [run_func hP find_f3]; eval_go; rfl
  | 4, _ => cases hg; show run P (n + 1) path 0 (n! "f4") _ _ = _; rw [run_func hP find_f4]; eval_go; rfl

/-! ## The words of a block -/

omit hP

theorem leNat_eq (b : List (BitVec 8)) : leNat b = BytesSpec.leVal b := by
  induction b with
  | nil => rfl
  | cons x b ih => rw [leNat, BytesSpec.leVal, ih]

/-- The words. -/
def words (block : List U8) : List U32 := (List.range 16).map (RipemdSpec.word block)

theorem words_length (block : List U8) : (words block).length = 16 := by simp [words]

/-- The first `i` words. -/
def wordsTo (block : List U8) (i : Nat) : List U32 := (List.range 16).map fun j => if j < i then RipemdSpec.word block j else 0

theorem wordsTo_set (block : List U8) {i : Nat} (hi : i < 16) :
    ((wordsTo block i).map Val.u32).set i (.u32 (.ofNat 32 (leNat4 (block.drop (i * 4))))) = (wordsTo block (i + 1)).map .u32 := by
  rw [← List.map_set]
  congr 1
  apply List.ext_getElem
  · simp [wordsTo]
  · intro j h1 h2
    simp only [wordsTo, List.length_map, List.length_range] at h2
    simp only [List.getElem_set, wordsTo, List.getElem_map, List.getElem_range]
    by_cases hj : i = j
    · subst hj
      simp [RipemdSpec.word, leNat4, leNat_eq, Nat.mul_comm]
    · have : (j < i ↔ j < i + 1) := by omega
      simp [hj, this]

theorem wordsTo_all (block : List U8) : wordsTo block 16 = words block := by
  apply List.map_congr_left
  intro j hj
  simp at hj
  simp [hj]

include hP

theorem run_getX (hS : P.std = stdlib) (hB : elemN (n! "encoding/binary") (P.pkgs.map Pkg.path) = false) (hW : 32 ≤ P.W) {h : List Val} {a : Nat} {hash : Name}
    {stateLen : Nat} {c : Ctx U32} (ha : h[a]? = some (rep hash stateLen c)) (hb : c.block.length = 64) {n : Nat} (hn : 16 < n) :
    run P (n + 1) path ty (n! "getX") [obj path ty a] h = .ok [.slice h.length [] 0 16 16] ⟨h ++ [.arr ((words c.block).map .u32)], []⟩ := by
  have hW0 : 0 < P.W := by omega
  have h31 : (2 : Int) ^ 31 ≤ 2 ^ (P.W - 1) := by
    exact_mod_cast Nat.pow_le_pow_right (n := 2) (by decide) (by omega : 31 ≤ P.W - 1)
  have h16 : ¬ (16 : Int) < 0 := by decide
  rw [run_func hP find_getX]
  eval_go [h16]
  rw [loop_count (fun i => ⟨h ++ [.arr ((wordsTo c.block i).map .u32)], [(n! "i", .int i), (n! "ret", .slice h.length [] 0 16 16), (n! "c", obj path ty a)]⟩) 16 ?_ ?_ hn]
  · eval_go [wordsTo_all]
  · rfl
  · intro i hi
    have hi' : (i : Int) < 16 := by omega
    have hw4 : wrap P.W ((i : Int) * 4) = (i * 4 : Nat) := by
      rw [← wrap_nat (W := P.W) (i := i * 4) (by omega) hW0]
      rfl
    have ha' (y : Val) : (h ++ [y])[a]? = some (rep hash stateLen c) := by rw [List.getElem?_append_left (lt_of_get ha), ha]
    have hlen : (c.block.map Val.u8).length = 64 := by simp [hb]
    have hl2 : ((wordsTo c.block i).map Val.u32).length = 16 := by simp [wordsTo]
    have hget : ∃ w, ((wordsTo c.block i).map Val.u32)[i]? = some (.u32 w) := by simp [wordsTo, hi]
    obtain ⟨w, hget⟩ := hget
    have hsl := slice_from' (a := a) (p := [.fld (n! "block")]) (off := 0) (len := 64) (cap := 64) (k := i * 4) (by omega) (Nat.le_refl _)
    have hrd := read_le (h := h ++ [.arr ((wordsTo c.block i).map .u32)]) (a := a) (p := [.fld (n! "block")]) (off := 0 + i * 4) (len := 64 - i * 4) (cap := 64 - i * 4)
      (ha' _) (l := c.block) (by eval_go) (by omega) (by omega)
    rw [Nat.zero_add] at hrd hsl
    refine ⟨by eval_go [hi'], ⟨h ++ [.arr ((wordsTo c.block (i + 1)).map .u32)], [(n! "i", .int i), (n! "ret", .slice h.length [] 0 16 16), (n! "c", obj path ty a)]⟩, ?_, ?_⟩
    · eval_go [hi', hw4, ha', hlen, ↓hsl, hS, hB, std_le32, ↓hrd, get_last, hl2, hget, set_last, wordsTo_set c.block hi, Nat.zero_add]
    · eval_go [wrap_succ hi (show ((16 : Nat) : Int) < _ by omega) hW0]
  · have : ¬ (16 : Int) < 16 := by decide
    eval_go [this]

end

end Source.Ripemd
