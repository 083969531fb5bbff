import Verif.Code.BytesAll
import Verif.Code.BytesAllBE

/-!
# The code of package `bytes`: the sums of 64 to 512 bits, and those that ask for the platform
-/
namespace Source.Bytes
open GoLang

set_option linter.unusedSimpArgs false

/-- The path of the package with `Platform`. -/
abbrev endianPath : Name := n! "github.com/gnabgib/gnablib-go/endian"

/-- The byte order of the platform: what `endian.Platform` is. -/
def order (little : Bool) : Val := .std (n! "encoding/binary") (bif little then n! "LittleEndian" else n! "BigEndian")

section
variable {P : Prog} (hP : findPkg path P.pkgs = some pkg) {L : Layout} {h : List Val} {m : Mem}
variable (hS : P.std = stdlib) (hE : elemN (n! "errors") (P.pkgs.map Pkg.path) = false) (hB : elemN (n! "encoding/binary") (P.pkgs.map Pkg.path) = false)
include hP

theorem const_addAnyLE (hW : 32 ≤ P.W) {vd va vs : Val} (hd : Plain vd) (ha : Plain va) (hs : Plain vs) {k : Nat} (hk : k < 2 ^ 31) (n : Nat) (h : List Val) :
    run P (n + 1) path 0 (n! "addAnyLE") [vd, va, vs, .const k] h = run P (n + 1) path 0 (n! "addAnyLE") [vd, va, vs, .int k] h := by
  rw [run_func hP find_addAnyLE, run_func hP find_addAnyLE]
  refine callBody_congr ?_
  have := pow31 hW
  have hw := wrap_nat (W := P.W) (i := k) (by omega) (by omega)
  eval_go [hd, ha, hs, hw]

theorem const_addAnyBE (hW : 32 ≤ P.W) {vd va vs : Val} (hd : Plain vd) (ha : Plain va) (hs : Plain vs) {k : Nat} (hk : k < 2 ^ 31) (n : Nat) (h : List Val) :
    run P (n + 1) path 0 (n! "addAnyBE") [vd, va, vs, .const k] h = run P (n + 1) path 0 (n! "addAnyBE") [vd, va, vs, .int k] h := by
  rw [run_func hP find_addAnyBE, run_func hP find_addAnyBE]
  refine callBody_congr ?_
  have := pow31 hW
  have hw := wrap_nat (W := P.W) (i := k) (by omega) (by omega)
  eval_go [hd, ha, hs, hw]

set_option linter.unusedSectionVars false


omit hP in
theorem find_Add64LE : findFunc 0 (n! "Add64LE") pkg.decls = some BytesAddLE.Add64LE := by kernel_rfl

include hS hE hB in
theorem run_Add64LE (hW : 32 ≤ P.W) (hV : View L h m) {vs va vb : Val} {s a b : Slice} (hs : SliceAt L vs s) (ha : SliceAt L va a) (hb : SliceAt L vb b)
    {n : Nat} (hn : s.len + 18 < n) :
    Ends L h sumVals (_root_.Bytes.Add64LE m s a b) (run P (n + 1) path 0 (n! "Add64LE") [vs, va, vb] h) := by
  have hvs := hs.plain
  have hva := ha.plain
  have hvb := hb.plain
  have hp31 := pow31 hW
  rw [run_func hP find_Add64LE]
  have r := run_addAnyLE hP hS hE hB hW hV hs ha hb 8 (by omega) (n := n - 1) (by omega)
  rw [← const_addAnyLE hP hW hvs hva hvb (by decide), show n - 1 + 1 = n by omega] at r
  simp only [Nat.cast_ofNat] at r
  rw [_root_.Bytes.Add64LE]
  cases hp : _root_.Bytes.addAnyLE m s a b 8 with
  | panic =>
    rw [hp] at r
    obtain ⟨h', r, hF⟩ := r
    eval_go [hvs, hva, hvb, elem_repo hP, r]
    exact ⟨h', rfl, hF⟩
  | ok y =>
    obtain ⟨m', c, e⟩ := y
    rw [hp] at r
    obtain ⟨h', r, hV', hF⟩ := r
    cases e
    all_goals
      simp only [sumVals, errVal_true, errVal, cond_false] at r
      eval_go [hvs, hva, hvb, elem_repo hP, r]
      exact ⟨h', rfl, hV', hF⟩

omit hP in
theorem find_Add64BE : findFunc 0 (n! "Add64BE") pkg.decls = some BytesAddBE.Add64BE := by kernel_rfl

include hS hE hB in
theorem run_Add64BE (hW : 32 ≤ P.W) (hV : View L h m) {vs va vb : Val} {s a b : Slice} (hs : SliceAt L vs s) (ha : SliceAt L va a) (hb : SliceAt L vb b) (hbl : (b.len : Int) < 2 ^ (P.W - 1))
    {n : Nat} (hn : s.len + 18 < n) :
    Ends L h sumVals (_root_.Bytes.Add64BE m s a b) (run P (n + 1) path 0 (n! "Add64BE") [vs, va, vb] h) := by
  have hvs := hs.plain
  have hva := ha.plain
  have hvb := hb.plain
  have hp31 := pow31 hW
  rw [run_func hP find_Add64BE]
  have r := run_addAnyBE hP hS hE hB hW hV hs ha hb hbl 8 (by omega) (n := n - 1) (by omega)
  rw [← const_addAnyBE hP hW hvs hva hvb (by decide), show n - 1 + 1 = n by omega] at r
  simp only [Nat.cast_ofNat] at r
  rw [_root_.Bytes.Add64BE]
  cases hp : _root_.Bytes.addAnyBE m s a b 8 with
  | panic =>
    rw [hp] at r
    obtain ⟨h', r, hF⟩ := r
    eval_go [hvs, hva, hvb, elem_repo hP, r]
    exact ⟨h', rfl, hF⟩
  | ok y =>
    obtain ⟨m', c, e⟩ := y
    rw [hp] at r
    obtain ⟨h', r, hV', hF⟩ := r
    cases e
    all_goals
      simp only [sumVals, errVal_true, errVal, cond_false] at r
      eval_go [hvs, hva, hvb, elem_repo hP, r]
      exact ⟨h', rfl, hV', hF⟩

omit hP in
theorem find_Add128LE : findFunc 0 (n! "Add128LE") pkg.decls = some BytesAddLE.Add128LE := by kernel_rfl

include hS hE hB in
theorem run_Add128LE (hW : 32 ≤ P.W) (hV : View L h m) {vs va vb : Val} {s a b : Slice} (hs : SliceAt L vs s) (ha : SliceAt L va a) (hb : SliceAt L vb b)
    {n : Nat} (hn : s.len + 26 < n) :
    Ends L h sumVals (_root_.Bytes.Add128LE m s a b) (run P (n + 1) path 0 (n! "Add128LE") [vs, va, vb] h) := by
  have hvs := hs.plain
  have hva := ha.plain
  have hvb := hb.plain
  have hp31 := pow31 hW
  rw [run_func hP find_Add128LE]
  have r := run_addAnyLE hP hS hE hB hW hV hs ha hb 16 (by omega) (n := n - 1) (by omega)
  rw [← const_addAnyLE hP hW hvs hva hvb (by decide), show n - 1 + 1 = n by omega] at r
  simp only [Nat.cast_ofNat] at r
  rw [_root_.Bytes.Add128LE]
  cases hp : _root_.Bytes.addAnyLE m s a b 16 with
  | panic =>
    rw [hp] at r
    obtain ⟨h', r, hF⟩ := r
    eval_go [hvs, hva, hvb, elem_repo hP, r]
    exact ⟨h', rfl, hF⟩
  | ok y =>
    obtain ⟨m', c, e⟩ := y
    rw [hp] at r
    obtain ⟨h', r, hV', hF⟩ := r
    cases e
    all_goals
      simp only [sumVals, errVal_true, errVal, cond_false] at r
      eval_go [hvs, hva, hvb, elem_repo hP, r]
      exact ⟨h', rfl, hV', hF⟩

omit hP in
theorem find_Add128BE : findFunc 0 (n! "Add128BE") pkg.decls = some BytesAddBE.Add128BE := by kernel_rfl

include hS hE hB in
theorem run_Add128BE (hW : 32 ≤ P.W) (hV : View L h m) {vs va vb : Val} {s a b : Slice} (hs : SliceAt L vs s) (ha : SliceAt L va a) (hb : SliceAt L vb b) (hbl : (b.len : Int) < 2 ^ (P.W - 1))
    {n : Nat} (hn : s.len + 26 < n) :
    Ends L h sumVals (_root_.Bytes.Add128BE m s a b) (run P (n + 1) path 0 (n! "Add128BE") [vs, va, vb] h) := by
  have hvs := hs.plain
  have hva := ha.plain
  have hvb := hb.plain
  have hp31 := pow31 hW
  rw [run_func hP find_Add128BE]
  have r := run_addAnyBE hP hS hE hB hW hV hs ha hb hbl 16 (by omega) (n := n - 1) (by omega)
  rw [← const_addAnyBE hP hW hvs hva hvb (by decide), show n - 1 + 1 = n by omega] at r
  simp only [Nat.cast_ofNat] at r
  rw [_root_.Bytes.Add128BE]
  cases hp : _root_.Bytes.addAnyBE m s a b 16 with
  | panic =>
    rw [hp] at r
    obtain ⟨h', r, hF⟩ := r
    eval_go [hvs, hva, hvb, elem_repo hP, r]
    exact ⟨h', rfl, hF⟩
  | ok y =>
    obtain ⟨m', c, e⟩ := y
    rw [hp] at r
    obtain ⟨h', r, hV', hF⟩ := r
    cases e
    all_goals
      simp only [sumVals, errVal_true, errVal, cond_false] at r
      eval_go [hvs, hva, hvb, elem_repo hP, r]
      exact ⟨h', rfl, hV', hF⟩

omit hP in
theorem find_Add256LE : findFunc 0 (n! "Add256LE") pkg.decls = some BytesAddLE.Add256LE := by kernel_rfl

include hS hE hB in
theorem run_Add256LE (hW : 32 ≤ P.W) (hV : View L h m) {vs va vb : Val} {s a b : Slice} (hs : SliceAt L vs s) (ha : SliceAt L va a) (hb : SliceAt L vb b)
    {n : Nat} (hn : s.len + 42 < n) :
    Ends L h sumVals (_root_.Bytes.Add256LE m s a b) (run P (n + 1) path 0 (n! "Add256LE") [vs, va, vb] h) := by
  have hvs := hs.plain
  have hva := ha.plain
  have hvb := hb.plain
  have hp31 := pow31 hW
  rw [run_func hP find_Add256LE]
  have r := run_addAnyLE hP hS hE hB hW hV hs ha hb 32 (by omega) (n := n - 1) (by omega)
  rw [← const_addAnyLE hP hW hvs hva hvb (by decide), show n - 1 + 1 = n by omega] at r
  simp only [Nat.cast_ofNat] at r
  rw [_root_.Bytes.Add256LE]
  cases hp : _root_.Bytes.addAnyLE m s a b 32 with
  | panic =>
    rw [hp] at r
    obtain ⟨h', r, hF⟩ := r
    eval_go [hvs, hva, hvb, elem_repo hP, r]
    exact ⟨h', rfl, hF⟩
  | ok y =>
    obtain ⟨m', c, e⟩ := y
    rw [hp] at r
    obtain ⟨h', r, hV', hF⟩ := r
    cases e
    all_goals
      simp only [sumVals, errVal_true, errVal, cond_false] at r
      eval_go [hvs, hva, hvb, elem_repo hP, r]
      exact ⟨h', rfl, hV', hF⟩

omit hP in
theorem find_Add256BE : findFunc 0 (n! "Add256BE") pkg.decls = some BytesAddBE.Add256BE := by kernel_rfl

include hS hE hB in
theorem run_Add256BE (hW : 32 ≤ P.W) (hV : View L h m) {vs va vb : Val} {s a b : Slice} (hs : SliceAt L vs s) (ha : SliceAt L va a) (hb : SliceAt L vb b) (hbl : (b.len : Int) < 2 ^ (P.W - 1))
    {n : Nat} (hn : s.len + 42 < n) :
    Ends L h sumVals (_root_.Bytes.Add256BE m s a b) (run P (n + 1) path 0 (n! "Add256BE") [vs, va, vb] h) := by
  have hvs := hs.plain
  have hva := ha.plain
  have hvb := hb.plain
  have hp31 := pow31 hW
  rw [run_func hP find_Add256BE]
  have r := run_addAnyBE hP hS hE hB hW hV hs ha hb hbl 32 (by omega) (n := n - 1) (by omega)
  rw [← const_addAnyBE hP hW hvs hva hvb (by decide), show n - 1 + 1 = n by omega] at r
  simp only [Nat.cast_ofNat] at r
  rw [_root_.Bytes.Add256BE]
  cases hp : _root_.Bytes.addAnyBE m s a b 32 with
  | panic =>
    rw [hp] at r
    obtain ⟨h', r, hF⟩ := r
    eval_go [hvs, hva, hvb, elem_repo hP, r]
    exact ⟨h', rfl, hF⟩
  | ok y =>
    obtain ⟨m', c, e⟩ := y
    rw [hp] at r
    obtain ⟨h', r, hV', hF⟩ := r
    cases e
    all_goals
      simp only [sumVals, errVal_true, errVal, cond_false] at r
      eval_go [hvs, hva, hvb, elem_repo hP, r]
      exact ⟨h', rfl, hV', hF⟩

omit hP in
theorem find_Add512LE : findFunc 0 (n! "Add512LE") pkg.decls = some BytesAddLE.Add512LE := by kernel_rfl

include hS hE hB in
theorem run_Add512LE (hW : 32 ≤ P.W) (hV : View L h m) {vs va vb : Val} {s a b : Slice} (hs : SliceAt L vs s) (ha : SliceAt L va a) (hb : SliceAt L vb b)
    {n : Nat} (hn : s.len + 74 < n) :
    Ends L h sumVals (_root_.Bytes.Add512LE m s a b) (run P (n + 1) path 0 (n! "Add512LE") [vs, va, vb] h) := by
  have hvs := hs.plain
  have hva := ha.plain
  have hvb := hb.plain
  have hp31 := pow31 hW
  rw [run_func hP find_Add512LE]
  have r := run_addAnyLE hP hS hE hB hW hV hs ha hb 64 (by omega) (n := n - 1) (by omega)
  rw [← const_addAnyLE hP hW hvs hva hvb (by decide), show n - 1 + 1 = n by omega] at r
  simp only [Nat.cast_ofNat] at r
  rw [_root_.Bytes.Add512LE]
  cases hp : _root_.Bytes.addAnyLE m s a b 64 with
  | panic =>
    rw [hp] at r
    obtain ⟨h', r, hF⟩ := r
    eval_go [hvs, hva, hvb, elem_repo hP, r]
    exact ⟨h', rfl, hF⟩
  | ok y =>
    obtain ⟨m', c, e⟩ := y
    rw [hp] at r
    obtain ⟨h', r, hV', hF⟩ := r
    cases e
    all_goals
      simp only [sumVals, errVal_true, errVal, cond_false] at r
      eval_go [hvs, hva, hvb, elem_repo hP, r]
      exact ⟨h', rfl, hV', hF⟩

omit hP in
theorem find_Add512BE : findFunc 0 (n! "Add512BE") pkg.decls = some BytesAddBE.Add512BE := by kernel_rfl

include hS hE hB in
theorem run_Add512BE (hW : 32 ≤ P.W) (hV : View L h m) {vs va vb : Val} {s a b : Slice} (hs : SliceAt L vs s) (ha : SliceAt L va a) (hb : SliceAt L vb b) (hbl : (b.len : Int) < 2 ^ (P.W - 1))
    {n : Nat} (hn : s.len + 74 < n) :
    Ends L h sumVals (_root_.Bytes.Add512BE m s a b) (run P (n + 1) path 0 (n! "Add512BE") [vs, va, vb] h) := by
  have hvs := hs.plain
  have hva := ha.plain
  have hvb := hb.plain
  have hp31 := pow31 hW
  rw [run_func hP find_Add512BE]
  have r := run_addAnyBE hP hS hE hB hW hV hs ha hb hbl 64 (by omega) (n := n - 1) (by omega)
  rw [← const_addAnyBE hP hW hvs hva hvb (by decide), show n - 1 + 1 = n by omega] at r
  simp only [Nat.cast_ofNat] at r
  rw [_root_.Bytes.Add512BE]
  cases hp : _root_.Bytes.addAnyBE m s a b 64 with
  | panic =>
    rw [hp] at r
    obtain ⟨h', r, hF⟩ := r
    eval_go [hvs, hva, hvb, elem_repo hP, r]
    exact ⟨h', rfl, hF⟩
  | ok y =>
    obtain ⟨m', c, e⟩ := y
    rw [hp] at r
    obtain ⟨h', r, hV', hF⟩ := r
    cases e
    all_goals
      simp only [sumVals, errVal_true, errVal, cond_false] at r
      eval_go [hvs, hva, hvb, elem_repo hP, r]
      exact ⟨h', rfl, hV', hF⟩

omit hP in
theorem find_Add64 : findFunc 0 (n! "Add64") pkg.decls = some BytesAdd.Add64 := by kernel_rfl

include hS hE hB in
theorem run_Add64 (hW : 32 ≤ P.W) (hD : elemN endianPath (P.pkgs.map Pkg.path) = true) {little : Bool} (hO : P.other endianPath (n! "Platform") = some (order little))
    (hV : View L h m) {vs va vb : Val} {s a b : Slice} (hs : SliceAt L vs s) (ha : SliceAt L va a) (hb : SliceAt L vb b) (hbl : (b.len : Int) < 2 ^ (P.W - 1))
    {n : Nat} (hn : s.len + 19 < n) :
    Ends L h sumVals (_root_.Bytes.Add64 little m s a b) (run P (n + 1) path 0 (n! "Add64") [vs, va, vb] h) := by
  have hvs := hs.plain
  have hva := ha.plain
  have hvb := hb.plain
  rw [run_func hP find_Add64]
  cases little with
  | true =>
    have r := run_Add64LE hP hS hE hB hW hV hs ha hb (n := n - 1) (by omega)
    rw [show n - 1 + 1 = n by omega] at r
    simp only [_root_.Bytes.Add64, Bool.false_eq_true, if_true, if_false]
    simp only [order, cond_true, cond_false] at hO
    cases hp : _root_.Bytes.Add64LE m s a b with
    | panic =>
      rw [hp] at r
      obtain ⟨h', r, hF⟩ := r
      eval_go [hvs, hva, hvb, elem_repo hP, hD, hO, hB, r]
      exact ⟨h', rfl, hF⟩
    | ok y =>
      obtain ⟨m', c, e⟩ := y
      rw [hp] at r
      obtain ⟨h', r, hV', hF⟩ := r
      cases e
      all_goals
        simp only [sumVals, errVal_true, errVal, cond_false] at r
        eval_go [hvs, hva, hvb, elem_repo hP, hD, hO, hB, r]
        exact ⟨h', rfl, hV', hF⟩
  | false =>
    have r := run_Add64BE hP hS hE hB hW hV hs ha hb hbl (n := n - 1) (by omega)
    rw [show n - 1 + 1 = n by omega] at r
    simp only [_root_.Bytes.Add64, Bool.false_eq_true, if_true, if_false]
    simp only [order, cond_true, cond_false] at hO
    cases hp : _root_.Bytes.Add64BE m s a b with
    | panic =>
      rw [hp] at r
      obtain ⟨h', r, hF⟩ := r
      eval_go [hvs, hva, hvb, elem_repo hP, hD, hO, hB, r]
      exact ⟨h', rfl, hF⟩
    | ok y =>
      obtain ⟨m', c, e⟩ := y
      rw [hp] at r
      obtain ⟨h', r, hV', hF⟩ := r
      cases e
      all_goals
        simp only [sumVals, errVal_true, errVal, cond_false] at r
        eval_go [hvs, hva, hvb, elem_repo hP, hD, hO, hB, r]
        exact ⟨h', rfl, hV', hF⟩

omit hP in
theorem find_Add128 : findFunc 0 (n! "Add128") pkg.decls = some BytesAdd.Add128 := by kernel_rfl

include hS hE hB in
theorem run_Add128 (hW : 32 ≤ P.W) (hD : elemN endianPath (P.pkgs.map Pkg.path) = true) {little : Bool} (hO : P.other endianPath (n! "Platform") = some (order little))
    (hV : View L h m) {vs va vb : Val} {s a b : Slice} (hs : SliceAt L vs s) (ha : SliceAt L va a) (hb : SliceAt L vb b) (hbl : (b.len : Int) < 2 ^ (P.W - 1))
    {n : Nat} (hn : s.len + 27 < n) :
    Ends L h sumVals (_root_.Bytes.Add128 little m s a b) (run P (n + 1) path 0 (n! "Add128") [vs, va, vb] h) := by
  have hvs := hs.plain
  have hva := ha.plain
  have hvb := hb.plain
  rw [run_func hP find_Add128]
  cases little with
  | true =>
    have r := run_Add128LE hP hS hE hB hW hV hs ha hb (n := n - 1) (by omega)
    rw [show n - 1 + 1 = n by omega] at r
    simp only [_root_.Bytes.Add128, Bool.false_eq_true, if_true, if_false]
    simp only [order, cond_true, cond_false] at hO
    cases hp : _root_.Bytes.Add128LE m s a b with
    | panic =>
      rw [hp] at r
      obtain ⟨h', r, hF⟩ := r
      eval_go [hvs, hva, hvb, elem_repo hP, hD, hO, hB, r]
      exact ⟨h', rfl, hF⟩
    | ok y =>
      obtain ⟨m', c, e⟩ := y
      rw [hp] at r
      obtain ⟨h', r, hV', hF⟩ := r
      cases e
      all_goals
        simp only [sumVals, errVal_true, errVal, cond_false] at r
        eval_go [hvs, hva, hvb, elem_repo hP, hD, hO, hB, r]
        exact ⟨h', rfl, hV', hF⟩
  | false =>
    have r := run_Add128BE hP hS hE hB hW hV hs ha hb hbl (n := n - 1) (by omega)
    rw [show n - 1 + 1 = n by omega] at r
    simp only [_root_.Bytes.Add128, Bool.false_eq_true, if_true, if_false]
    simp only [order, cond_true, cond_false] at hO
    cases hp : _root_.Bytes.Add128BE m s a b with
    | panic =>
      rw [hp] at r
      obtain ⟨h', r, hF⟩ := r
      eval_go [hvs, hva, hvb, elem_repo hP, hD, hO, hB, r]
      exact ⟨h', rfl, hF⟩
    | ok y =>
      obtain ⟨m', c, e⟩ := y
      rw [hp] at r
      obtain ⟨h', r, hV', hF⟩ := r
      cases e
      all_goals
        simp only [sumVals, errVal_true, errVal, cond_false] at r
        eval_go [hvs, hva, hvb, elem_repo hP, hD, hO, hB, r]
        exact ⟨h', rfl, hV', hF⟩

omit hP in
theorem find_Add256 : findFunc 0 (n! "Add256") pkg.decls = some BytesAdd.Add256 := by kernel_rfl

include hS hE hB in
theorem run_Add256 (hW : 32 ≤ P.W) (hD : elemN endianPath (P.pkgs.map Pkg.path) = true) {little : Bool} (hO : P.other endianPath (n! "Platform") = some (order little))
    (hV : View L h m) {vs va vb : Val} {s a b : Slice} (hs : SliceAt L vs s) (ha : SliceAt L va a) (hb : SliceAt L vb b) (hbl : (b.len : Int) < 2 ^ (P.W - 1))
    {n : Nat} (hn : s.len + 43 < n) :
    Ends L h sumVals (_root_.Bytes.Add256 little m s a b) (run P (n + 1) path 0 (n! "Add256") [vs, va, vb] h) := by
  have hvs := hs.plain
  have hva := ha.plain
  have hvb := hb.plain
  rw [run_func hP find_Add256]
  cases little with
  | true =>
    have r := run_Add256LE hP hS hE hB hW hV hs ha hb (n := n - 1) (by omega)
    rw [show n - 1 + 1 = n by omega] at r
    simp only [_root_.Bytes.Add256, Bool.false_eq_true, if_true, if_false]
    simp only [order, cond_true, cond_false] at hO
    cases hp : _root_.Bytes.Add256LE m s a b with
    | panic =>
      rw [hp] at r
      obtain ⟨h', r, hF⟩ := r
      eval_go [hvs, hva, hvb, elem_repo hP, hD, hO, hB, r]
      exact ⟨h', rfl, hF⟩
    | ok y =>
      obtain ⟨m', c, e⟩ := y
      rw [hp] at r
      obtain ⟨h', r, hV', hF⟩ := r
      cases e
      all_goals
        simp only [sumVals, errVal_true, errVal, cond_false] at r
        eval_go [hvs, hva, hvb, elem_repo hP, hD, hO, hB, r]
        exact ⟨h', rfl, hV', hF⟩
  | false =>
    have r := run_Add256BE hP hS hE hB hW hV hs ha hb hbl (n := n - 1) (by omega)
    rw [show n - 1 + 1 = n by omega] at r
    simp only [_root_.Bytes.Add256, Bool.false_eq_true, if_true, if_false]
    simp only [order, cond_true, cond_false] at hO
    cases hp : _root_.Bytes.Add256BE m s a b with
    | panic =>
      rw [hp] at r
      obtain ⟨h', r, hF⟩ := r
      eval_go [hvs, hva, hvb, elem_repo hP, hD, hO, hB, r]
      exact ⟨h', rfl, hF⟩
    | ok y =>
      obtain ⟨m', c, e⟩ := y
      rw [hp] at r
      obtain ⟨h', r, hV', hF⟩ := r
      cases e
      all_goals
        simp only [sumVals, errVal_true, errVal, cond_false] at r
        eval_go [hvs, hva, hvb, elem_repo hP, hD, hO, hB, r]
        exact ⟨h', rfl, hV', hF⟩

omit hP in
theorem find_Add512 : findFunc 0 (n! "Add512") pkg.decls = some BytesAdd.Add512 := by kernel_rfl

include hS hE hB in
theorem run_Add512 (hW : 32 ≤ P.W) (hD : elemN endianPath (P.pkgs.map Pkg.path) = true) {little : Bool} (hO : P.other endianPath (n! "Platform") = some (order little))
    (hV : View L h m) {vs va vb : Val} {s a b : Slice} (hs : SliceAt L vs s) (ha : SliceAt L va a) (hb : SliceAt L vb b) (hbl : (b.len : Int) < 2 ^ (P.W - 1))
    {n : Nat} (hn : s.len + 75 < n) :
    Ends L h sumVals (_root_.Bytes.Add512 little m s a b) (run P (n + 1) path 0 (n! "Add512") [vs, va, vb] h) := by
  have hvs := hs.plain
  have hva := ha.plain
  have hvb := hb.plain
  rw [run_func hP find_Add512]
  cases little with
  | true =>
    have r := run_Add512LE hP hS hE hB hW hV hs ha hb (n := n - 1) (by omega)
    rw [show n - 1 + 1 = n by omega] at r
    simp only [_root_.Bytes.Add512, Bool.false_eq_true, if_true, if_false]
    simp only [order, cond_true, cond_false] at hO
    cases hp : _root_.Bytes.Add512LE m s a b with
    | panic =>
      rw [hp] at r
      obtain ⟨h', r, hF⟩ := r
      eval_go [hvs, hva, hvb, elem_repo hP, hD, hO, hB, r]
      exact ⟨h', rfl, hF⟩
    | ok y =>
      obtain ⟨m', c, e⟩ := y
      rw [hp] at r
      obtain ⟨h', r, hV', hF⟩ := r
      cases e
      all_goals
        simp only [sumVals, errVal_true, errVal, cond_false] at r
        eval_go [hvs, hva, hvb, elem_repo hP, hD, hO, hB, r]
        exact ⟨h', rfl, hV', hF⟩
  | false =>
    have r := run_Add512BE hP hS hE hB hW hV hs ha hb hbl (n := n - 1) (by omega)
    rw [show n - 1 + 1 = n by omega] at r
    simp only [_root_.Bytes.Add512, Bool.false_eq_true, if_true, if_false]
    simp only [order, cond_true, cond_false] at hO
    cases hp : _root_.Bytes.Add512BE m s a b with
    | panic =>
      rw [hp] at r
      obtain ⟨h', r, hF⟩ := r
      eval_go [hvs, hva, hvb, elem_repo hP, hD, hO, hB, r]
      exact ⟨h', rfl, hF⟩
    | ok y =>
      obtain ⟨m', c, e⟩ := y
      rw [hp] at r
      obtain ⟨h', r, hV', hF⟩ := r
      cases e
      all_goals
        simp only [sumVals, errVal_true, errVal, cond_false] at r
        eval_go [hvs, hva, hvb, elem_repo hP, hD, hO, hB, r]
        exact ⟨h', rfl, hV', hF⟩

omit hP in
theorem find_Add16 : findFunc 0 (n! "Add16") pkg.decls = some BytesAdd.Add16 := by kernel_rfl

include hS hE hB in
theorem run_Add16 (hW : 32 ≤ P.W) (hD : elemN endianPath (P.pkgs.map Pkg.path) = true) {little : Bool} (hO : P.other endianPath (n! "Platform") = some (order little))
    (hV : View L h m) {vs va vb : Val} {s a b : Slice} (hs : SliceAt L vs s) (ha : SliceAt L va a) (hb : SliceAt L vb b)
    {n : Nat} (hn : s.len + 9 < n) :
    Ends L h sumVals (_root_.Bytes.Add16 little m s a b) (run P (n + 1) path 0 (n! "Add16") [vs, va, vb] h) := by
  have hvs := hs.plain
  have hva := ha.plain
  have hvb := hb.plain
  have hp31 := pow31 hW
  rw [run_func hP find_Add16]
  cases little with
  | true =>
    have r := run_padLE hP hS hE hV hs ha 2 (n := n - 1) (by omega)
    rw [← const_padLE hP hW hvs hva (by decide), show n - 1 + 1 = n by omega] at r
    simp only [_root_.Bytes.Add16, Bool.false_eq_true, if_true, if_false]
    simp only [order, cond_true, cond_false] at hO
    cases hp : _root_.Bytes.padLE m s a 2 with
    | panic =>
      rw [hp] at r
      obtain ⟨h', r, hF⟩ := r
      simp only [Nat.cast_ofNat] at r
      eval_go [hvs, hva, hvb, elem_repo hP, hD, hO, hB, r]
      exact ⟨h', rfl, hF⟩
    | ok y =>
      obtain ⟨m', e⟩ := y
      rw [hp] at r
      obtain ⟨h', r, hV', hF⟩ := r
      simp only [Nat.cast_ofNat] at r
      have r₂ := run_addEq16LE hP hS hB hW hV' hs (reads hV' hb) 0#8 (n := n - 1) (by omega)
      rw [← const_addEq16LE hP hvs hvb (by omega), show n - 1 + 1 = n by omega] at r₂
      simp only [Res.ok_bind]
      cases hq : _root_.Bytes.addEq16LE m' s b 0#8 with
      | panic =>
        rw [hq] at r₂
        obtain ⟨h₂, r₂, hF₂⟩ := r₂
        cases e
        all_goals
          simp only [errVal_true, errVal, cond_false] at r
          eval_go [hvs, hva, hvb, elem_repo hP, hD, hO, hB, r, r₂]
          exact ⟨h₂, rfl, hF.trans hF₂⟩
      | ok y =>
        obtain ⟨m₂, c⟩ := y
        rw [hq] at r₂
        obtain ⟨h₂, r₂, hV₂, hF₂⟩ := r₂
        cases e
        all_goals
          simp only [errVal_true, errVal, cond_false] at r
          eval_go [hvs, hva, hvb, elem_repo hP, hD, hO, hB, r, r₂]
          exact ⟨h₂, rfl, hV₂, hF.trans hF₂⟩
  | false =>
    have r := run_padBE hP hS hE hW hV hs ha 2 (by omega) (n := n - 1) (by omega)
    rw [← const_padBE hP hW hvs hva (by decide), show n - 1 + 1 = n by omega] at r
    simp only [_root_.Bytes.Add16, Bool.false_eq_true, if_true, if_false]
    simp only [order, cond_true, cond_false] at hO
    cases hp : _root_.Bytes.padBE m s a 2 with
    | panic =>
      rw [hp] at r
      obtain ⟨h', r, hF⟩ := r
      simp only [Nat.cast_ofNat] at r
      eval_go [hvs, hva, hvb, elem_repo hP, hD, hO, hB, r]
      exact ⟨h', rfl, hF⟩
    | ok y =>
      obtain ⟨m', e⟩ := y
      rw [hp] at r
      obtain ⟨h', r, hV', hF⟩ := r
      simp only [Nat.cast_ofNat] at r
      have r₂ := run_addEq16BE hP hS hB hW hV' hs (reads hV' hb) 0#8 (n := n - 1) (by omega)
      rw [← const_addEq16BE hP hvs hvb (by omega), show n - 1 + 1 = n by omega] at r₂
      simp only [Res.ok_bind]
      cases hq : _root_.Bytes.addEq16BE m' s b 0#8 with
      | panic =>
        rw [hq] at r₂
        obtain ⟨h₂, r₂, hF₂⟩ := r₂
        cases e
        all_goals
          simp only [errVal_true, errVal, cond_false] at r
          eval_go [hvs, hva, hvb, elem_repo hP, hD, hO, hB, r, r₂]
          exact ⟨h₂, rfl, hF.trans hF₂⟩
      | ok y =>
        obtain ⟨m₂, c⟩ := y
        rw [hq] at r₂
        obtain ⟨h₂, r₂, hV₂, hF₂⟩ := r₂
        cases e
        all_goals
          simp only [errVal_true, errVal, cond_false] at r
          eval_go [hvs, hva, hvb, elem_repo hP, hD, hO, hB, r, r₂]
          exact ⟨h₂, rfl, hV₂, hF.trans hF₂⟩

omit hP in
theorem find_Add32 : findFunc 0 (n! "Add32") pkg.decls = some BytesAdd.Add32 := by kernel_rfl

include hS hE hB in
theorem run_Add32 (hW : 32 ≤ P.W) (hD : elemN endianPath (P.pkgs.map Pkg.path) = true) {little : Bool} (hO : P.other endianPath (n! "Platform") = some (order little))
    (hV : View L h m) {vs va vb : Val} {s a b : Slice} (hs : SliceAt L vs s) (ha : SliceAt L va a) (hb : SliceAt L vb b)
    {n : Nat} (hn : s.len + 9 < n) :
    Ends L h sumVals (_root_.Bytes.Add32 little m s a b) (run P (n + 1) path 0 (n! "Add32") [vs, va, vb] h) := by
  have hvs := hs.plain
  have hva := ha.plain
  have hvb := hb.plain
  have hp31 := pow31 hW
  rw [run_func hP find_Add32]
  cases little with
  | true =>
    have r := run_padLE hP hS hE hV hs ha 4 (n := n - 1) (by omega)
    rw [← const_padLE hP hW hvs hva (by decide), show n - 1 + 1 = n by omega] at r
    simp only [_root_.Bytes.Add32, Bool.false_eq_true, if_true, if_false]
    simp only [order, cond_true, cond_false] at hO
    cases hp : _root_.Bytes.padLE m s a 4 with
    | panic =>
      rw [hp] at r
      obtain ⟨h', r, hF⟩ := r
      simp only [Nat.cast_ofNat] at r
      eval_go [hvs, hva, hvb, elem_repo hP, hD, hO, hB, r]
      exact ⟨h', rfl, hF⟩
    | ok y =>
      obtain ⟨m', e⟩ := y
      rw [hp] at r
      obtain ⟨h', r, hV', hF⟩ := r
      simp only [Nat.cast_ofNat] at r
      have r₂ := run_addEq32LE hP hS hB hW hV' hs (reads hV' hb) 0#8 (n := n - 1) (by omega)
      rw [← const_addEq32LE hP hvs hvb (by omega), show n - 1 + 1 = n by omega] at r₂
      simp only [Res.ok_bind]
      cases hq : _root_.Bytes.addEq32LE m' s b 0#8 with
      | panic =>
        rw [hq] at r₂
        obtain ⟨h₂, r₂, hF₂⟩ := r₂
        cases e
        all_goals
          simp only [errVal_true, errVal, cond_false] at r
          eval_go [hvs, hva, hvb, elem_repo hP, hD, hO, hB, r, r₂]
          exact ⟨h₂, rfl, hF.trans hF₂⟩
      | ok y =>
        obtain ⟨m₂, c⟩ := y
        rw [hq] at r₂
        obtain ⟨h₂, r₂, hV₂, hF₂⟩ := r₂
        cases e
        all_goals
          simp only [errVal_true, errVal, cond_false] at r
          eval_go [hvs, hva, hvb, elem_repo hP, hD, hO, hB, r, r₂]
          exact ⟨h₂, rfl, hV₂, hF.trans hF₂⟩
  | false =>
    have r := run_padBE hP hS hE hW hV hs ha 4 (by omega) (n := n - 1) (by omega)
    rw [← const_padBE hP hW hvs hva (by decide), show n - 1 + 1 = n by omega] at r
    simp only [_root_.Bytes.Add32, Bool.false_eq_true, if_true, if_false]
    simp only [order, cond_true, cond_false] at hO
    cases hp : _root_.Bytes.padBE m s a 4 with
    | panic =>
      rw [hp] at r
      obtain ⟨h', r, hF⟩ := r
      simp only [Nat.cast_ofNat] at r
      eval_go [hvs, hva, hvb, elem_repo hP, hD, hO, hB, r]
      exact ⟨h', rfl, hF⟩
    | ok y =>
      obtain ⟨m', e⟩ := y
      rw [hp] at r
      obtain ⟨h', r, hV', hF⟩ := r
      simp only [Nat.cast_ofNat] at r
      have r₂ := run_addEq32BE hP hS hB hW hV' hs (reads hV' hb) 0#8 (n := n - 1) (by omega)
      rw [← const_addEq32BE hP hvs hvb (by omega), show n - 1 + 1 = n by omega] at r₂
      simp only [Res.ok_bind]
      cases hq : _root_.Bytes.addEq32BE m' s b 0#8 with
      | panic =>
        rw [hq] at r₂
        obtain ⟨h₂, r₂, hF₂⟩ := r₂
        cases e
        all_goals
          simp only [errVal_true, errVal, cond_false] at r
          eval_go [hvs, hva, hvb, elem_repo hP, hD, hO, hB, r, r₂]
          exact ⟨h₂, rfl, hF.trans hF₂⟩
      | ok y =>
        obtain ⟨m₂, c⟩ := y
        rw [hq] at r₂
        obtain ⟨h₂, r₂, hV₂, hF₂⟩ := r₂
        cases e
        all_goals
          simp only [errVal_true, errVal, cond_false] at r
          eval_go [hvs, hva, hvb, elem_repo hP, hD, hO, hB, r, r₂]
          exact ⟨h₂, rfl, hV₂, hF.trans hF₂⟩

end
end Source.Bytes
