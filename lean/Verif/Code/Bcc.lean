import Verif.Lang.HashCode
import Verif.Source.Bcc
import Verif.Model.Checksum

/-!
# The code of package `bcc`
-/
namespace Source.Bcc
open GoLang

abbrev path : Name := n! "github.com/gnabgib/gnablib-go/checksum/bcc"

/-- The package. -/
def pkg : Pkg := ⟨path, importTable file.imports, file.decls, [], []⟩

theorem loaded : loadPkg stdlib path [file] [] = some pkg := by kernel_rfl

theorem text : loadText path [src] [] = some pkg := by
  simp only [loadText, parseAll, parsed, Option.bind_some, Option.map_some, loaded]

theorem find_New : findFunc 0 (n! "New") pkg.decls = some New := by kernel_rfl
theorem find_Reset : findFunc (n! "digest") (n! "Reset") pkg.decls = some digest_Reset := by kernel_rfl
theorem find_update : findFunc (n! "digest") (n! "update") pkg.decls = some digest_update := by kernel_rfl
theorem find_Write : findFunc (n! "digest") (n! "Write") pkg.decls = some digest_Write := by kernel_rfl
theorem find_Sum : findFunc (n! "digest") (n! "Sum") pkg.decls = some digest_Sum := by kernel_rfl
theorem find_Sum8 : findFunc (n! "digest") (n! "Sum8") pkg.decls = some digest_Sum8 := by kernel_rfl
theorem find_Size : findFunc (n! "digest") (n! "Size") pkg.decls = some digest_Size := by kernel_rfl
theorem find_BlockSize : findFunc (n! "digest") (n! "BlockSize") pkg.decls = some digest_BlockSize := by kernel_rfl

section
variable {P : Prog} (hP : findPkg path P.pkgs = some pkg) {h : List Val} {a : Nat} {x : BitVec 8}
include hP

theorem run_Reset (ha : h[a]? = some (.u8 x)) (n : Nat) :
    run P (n + 1) path (n! "digest") (n! "Reset") [obj path (n! "digest") a] h = .ok [] ⟨h.set a (.u8 0), []⟩ := by
  rw [run_func hP find_Reset]
  eval_go [ha]
  rfl

theorem run_New (n : Nat) : run P (n + 2) path 0 (n! "New") [] h = .ok [obj path (n! "digest") h.length] ⟨h ++ [.u8 0], []⟩ := by
  rw [run_func hP find_New]
  eval_go [run_Reset hP (h := h ++ [.u8 0]) (a := h.length) (x := 0) (by simp) n]
  simp

theorem run_update (hW : 0 < P.W) {v : Val} {b : List (BitVec 8)} (ha : h[a]? = some (.u8 x)) (hb : HasBytes h v b)
    (hl : (b.length : Int) < 2 ^ (P.W - 1)) {n : Nat} (hn : b.length < n) :
    run P (n + 1) path (n! "digest") (n! "update") [obj path (n! "digest") a, v] h = .ok [] ⟨h.set a (.u8 (Bcc.update x b)), []⟩ := by
  have hv := hb.plain
  have hlen := hb.len
  rw [run_func hP find_update]
  eval_go [ha, hv]
  rw [loop_count (fun i => ⟨h, [(n! "i", .int i), (n! "dig", .u8 ((b.take i).foldl (· ^^^ ·) x)), (n! "p", v),
    (n! "d", obj path (n! "digest") a)]⟩) b.length _ _ hn]
  · eval_go [ha, List.take_length]
    rfl
  · simp
  · intro i hi
    refine ⟨by eval_go [hv, hlen]; simp [hi], ?_, ?_, ?_⟩
    rotate_left
    · eval_go [hv, hb.at hi]
      rfl
    · eval_go [wrap_succ hi hl hW]
      rw [← List.take_append_getElem hi, List.foldl_append]
      rfl
  · eval_go [hv, hlen]
    simp

theorem run_Write (hW : 0 < P.W) {v : Val} {b : List (BitVec 8)} (ha : h[a]? = some (.u8 x)) (hb : HasBytes h v b)
    (hl : (b.length : Int) < 2 ^ (P.W - 1)) {n : Nat} (hn : b.length < n) :
    run P (n + 2) path (n! "digest") (n! "Write") [obj path (n! "digest") a, v] h =
      .ok [.int b.length, .nil] ⟨h.set a (.u8 (Bcc.update x b)), []⟩ := by
  have hv := hb.plain
  have hlen := hb.len
  rw [run_func hP find_Write]
  eval_go [hv, hlen, run_update hP hW ha hb hl hn]

theorem run_Sum {v v' : Val} {h' : List Val} (ha : h[a]? = some (.u8 x)) (hv : Plain v) (hv' : Plain v')
    (hap : ∀ e, appendTo P.grow v [.u8 x] ⟨h, e⟩ = .ok v' ⟨h', e⟩) (n : Nat) :
    run P (n + 1) path (n! "digest") (n! "Sum") [obj path (n! "digest") a, v] h = .ok [v'] ⟨h', []⟩ := by
  rw [run_func hP find_Sum]
  eval_go [hv, ha, hap, hv']

theorem run_Sum8 (ha : h[a]? = some (.u8 x)) (n : Nat) :
    run P (n + 1) path (n! "digest") (n! "Sum8") [obj path (n! "digest") a] h = .ok [.u8 x] ⟨h, []⟩ := by
  rw [run_func hP find_Sum8]
  eval_go [ha]

theorem run_Size (n : Nat) :
    run P (n + 1) path (n! "digest") (n! "Size") [obj path (n! "digest") a] h = .ok [.int (wrap P.W 1)] ⟨h, []⟩ := by
  rw [run_func hP find_Size]
  eval_go

theorem run_BlockSize (n : Nat) :
    run P (n + 1) path (n! "digest") (n! "BlockSize") [obj path (n! "digest") a] h = .ok [.int (wrap P.W 1)] ⟨h, []⟩ := by
  rw [run_func hP find_BlockSize]
  eval_go

end
end Source.Bcc
