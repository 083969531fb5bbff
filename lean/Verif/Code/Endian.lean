import Verif.Lang.Rules
import Verif.Lang.Claims
import Verif.Source.Endian

/-!
# `init` of package endian, run
-/
namespace Source.Endian
open GoLang

abbrev path : Name := n! "github.com/gnabgib/gnablib-go/endian"

/-- The variables, all of which are assigned to. -/
abbrev vars : List Name := [n! "Platform", n! "SourceCode", n! "Network"]

/-- `b` has its address taken. -/
abbrev boxed : List (Name × List Name) := [(n! "init", [n! "b"])]

def pkg : Pkg := ⟨path, [(n! "binary", n! "encoding/binary"), (n! "unsafe", n! "unsafe")], Endian.file.decls, [(n! "Platform", .box 0), (n! "SourceCode", .box 1), (n! "Network", .box 2)], boxed⟩

theorem loaded : loadMem stdlib path [Endian.file] boxed vars = some (pkg, [.nil, .nil, .nil]) := by kernel_rfl

theorem text : loadTextMem path [Endian.src] boxed vars = some (pkg, [.nil, .nil, .nil]) := by
  rw [← loaded]
  simp only [loadTextMem, parseAll, Endian.parsed, Option.bind_some, Option.map_some]

theorem find_init : findFunc 0 (n! "init") pkg.decls = some Endian.init := by kernel_rfl

/-- A byte order of package encoding/binary. -/
abbrev order (little : Bool) : Val := .std (n! "encoding/binary") (bif little then n! "LittleEndian" else n! "BigEndian")

section
variable {P : Prog} {st : BitVec 16 → BitVec 8 × BitVec 8}
  (hU : ∀ (k t : Name) (a i : Nat) (p : List Sel) (s : St), P.std (n! "unsafe") 0 (n! "Pointer") [.ptr k t a (p ++ [.idx i])] s = .ok (.raw st a p i) s)
  (hE : elemN (n! "encoding/binary") (P.pkgs.map Pkg.path) = false) (hV : elemN (n! "unsafe") (P.pkgs.map Pkg.path) = false)
  (hP : findPkg path P.pkgs = some pkg)
include hU hE hV hP

theorem run_init {x y z : Val} {h : List Val} {n : Nat} :
    run P (n + 1) path 0 (n! "init") [] (x :: y :: z :: h) =
      if (st 0xABCD#16).1 = 0xCD#8 then .ok [] ⟨order true :: order false :: order false :: h ++ [.arr [.u8 (st 0xABCD#16).1, .u8 (st 0xABCD#16).2]], []⟩
      else if (st 0xABCD#16).1 = 0xAB#8 then .ok [] ⟨order false :: order false :: order false :: h ++ [.arr [.u8 (st 0xABCD#16).1, .u8 (st 0xABCD#16).2]], []⟩
      else .panic (x :: order false :: order false :: h ++ [.arr [.u8 (st 0xABCD#16).1, .u8 (st 0xABCD#16).2]]) := by
  rw [run_func hP find_init]
  have hu (s : St) : P.std (n! "unsafe") 0 (n! "Pointer") [.ptr 0 0 (h.length + 1 + 1 + 1) [.idx 0]] s = .ok (.raw st (h.length + 1 + 1 + 1) [] 0) s := hU 0 0 _ 0 [] s
  have hl (o : Val) (n : Name) : like o (.std (n! "encoding/binary") n) = .std (n! "encoding/binary") n := by cases o <;> rfl
  have hs (u v : Val) : splice [Val.u8 0, .u8 0] 0 [u, v] = [u, v] := rfl
  by_cases c1 : (st 43981#16).1 = 0xCD#8
  · rw [if_pos c1]
    eval_go [c1, show (0 : Int) ≤ 0 ∧ (0 : Int) < 2 by decide, show (0 : Int) < 2 by decide, hE, hV, hu, hl, hs, List.getElem?_cons_succ, List.getElem?_cons_zero, List.set_cons_succ, List.set_cons_zero, get_last, set_last, List.length_cons, List.length_append, List.cons_append]
    rfl
  · rw [if_neg c1]
    by_cases c2 : (st 43981#16).1 = 0xAB#8
    · rw [if_pos c2]
      eval_go [c1, c2, show (0 : Int) ≤ 0 ∧ (0 : Int) < 2 by decide, show (0 : Int) < 2 by decide, hE, hV, hu, hl, hs, List.getElem?_cons_succ, List.getElem?_cons_zero, List.set_cons_succ, List.set_cons_zero, get_last, set_last, List.length_cons, List.length_append, List.cons_append]
      rfl
    · rw [if_neg c2]
      eval_go [c1, c2, show (0 : Int) ≤ 0 ∧ (0 : Int) < 2 by decide, show (0 : Int) < 2 by decide, hE, hV, hu, hl, hs, List.getElem?_cons_succ, List.getElem?_cons_zero, List.set_cons_succ, List.set_cons_zero, get_last, set_last, List.length_cons, List.length_append, List.cons_append]
      rfl

end

end Source.Endian
