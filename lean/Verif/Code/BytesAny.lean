import Verif.Code.BytesAdd

/-!
# The code of package `bytes`: addition of any length
-/
namespace Source.Bytes
open GoLang

set_option linter.unusedSimpArgs false

/-! ## New objects -/

theorem partAt_push {h : List Val} {a : Nat} {p : List Sel} {y : Val} (x : Val) (hy : partAt h a p = some y) : partAt (h ++ [x]) a p = some y := by
  obtain ⟨o, ho, hg⟩ := partAt_some hy
  have ha : a < h.length := (List.getElem?_eq_some_iff.mp ho).1
  rw [partAt, List.getElem?_append_left ha, ← partAt, hy]

theorem view_push {L : Layout} {h : List Val} {m : Mem} (hV : View L h m) (x : Val) : View L (h ++ [x]) m :=
  fun a p hk => partAt_push x (hV a p hk)

theorem frame_push (L : Layout) (h : List Val) (x : Val) : Frame L h (h ++ [x]) := ⟨by simp, fun _ _ _ hx _ => partAt_push x hx⟩

theorem reads_empty (h : List Val) (m : Mem) (a : Nat) : Reads h m (.slice a [] 0 0 0) ⟨0, 0⟩ :=
  ⟨trivial, rfl, fun h => absurd h (Nat.not_lt_zero _), fun h => absurd h (Nat.not_lt_zero _)⟩

theorem padLE_ok {m m' : Mem} {d s : Slice} {k : Nat} (h : _root_.Bytes.padLE m d s k = .ok (m', false)) : k ≤ d.len := by
  by_cases c : d.len < k
  · rw [_root_.Bytes.padLE, if_pos c] at h; simp at h
  · omega

theorem padBE_ok {m m' : Mem} {d s : Slice} {k : Nat} (h : _root_.Bytes.padBE m d s k = .ok (m', false)) : k ≤ d.len := by
  by_cases c : d.len < k
  · rw [_root_.Bytes.padBE, if_pos c] at h; simp at h
  · omega

section
variable {P : Prog} (hP : findPkg path P.pkgs = some pkg) {L : Layout} {h : List Val} {m : Mem}
variable (hS : P.std = stdlib) (hE : elemN (n! "errors") (P.pkgs.map Pkg.path) = false) (hB : elemN (n! "encoding/binary") (P.pkgs.map Pkg.path) = false)
include hP hS hE hB

/-- The errors of the outcome of an addition. -/
abbrev sumVals (r : BitVec 8 × Bool) : List Val := [.u8 r.1, errVal r.2]

omit hE in
theorem step32LE (hW : 32 ≤ P.W) (hV : View L h m) {vs vb : Val} {s b : Slice} (hs : SliceAt L vs s) (hl : 4 ≤ s.len) (hb : Reads h m vb b) (c : BitVec 8) {n : Nat} (hn : 9 ≤ n) :
    ∃ h' m' c', run P n path 0 (n! "addEq32LE") [vs, vb, .u8 c] h = .ok [.u8 c'] ⟨h', []⟩ ∧ _root_.Bytes.addEq32LE m s b c = .ok (m', c') ∧ View L h' m' ∧ Frame L h h' := by
  obtain ⟨m', c', e, -⟩ := _root_.Bytes.addEq32LE_eq m s b c hl
  have r := run_addEq32LE hP hS hB hW hV hs hb c (n := n - 1) (by omega)
  rw [e, show n - 1 + 1 = n by omega] at r
  obtain ⟨h', r, hV', hF⟩ := r
  exact ⟨h', m', c', r, e, hV', hF⟩

omit hE in
theorem step32BE (hW : 32 ≤ P.W) (hV : View L h m) {vs vb : Val} {s b : Slice} (hs : SliceAt L vs s) (hl : 4 ≤ s.len) (hb : Reads h m vb b) (c : BitVec 8) {n : Nat} (hn : 9 ≤ n) :
    ∃ h' m' c', run P n path 0 (n! "addEq32BE") [vs, vb, .u8 c] h = .ok [.u8 c'] ⟨h', []⟩ ∧ _root_.Bytes.addEq32BE m s b c = .ok (m', c') ∧ View L h' m' ∧ Frame L h h' := by
  obtain ⟨m', c', e, -⟩ := _root_.Bytes.addEq32BE_eq m s b c hl
  have r := run_addEq32BE hP hS hB hW hV hs hb c (n := n - 1) (by omega)
  rw [e, show n - 1 + 1 = n by omega] at r
  obtain ⟨h', r, hV', hF⟩ := r
  exact ⟨h', m', c', r, e, hV', hF⟩

omit hE in
theorem step16LE (hW : 32 ≤ P.W) (hV : View L h m) {vs vb : Val} {s b : Slice} (hs : SliceAt L vs s) (hl : 2 ≤ s.len) (hb : Reads h m vb b) (c : BitVec 8) {n : Nat} (hn : 9 ≤ n) :
    ∃ h' m' c', run P n path 0 (n! "addEq16LE") [vs, vb, .u8 c] h = .ok [.u8 c'] ⟨h', []⟩ ∧ _root_.Bytes.addEq16LE m s b c = .ok (m', c') ∧ View L h' m' ∧ Frame L h h' := by
  obtain ⟨m', c', e, -⟩ := _root_.Bytes.addEq16LE_eq m s b c hl
  have r := run_addEq16LE hP hS hB hW hV hs hb c (n := n - 1) (by omega)
  rw [e, show n - 1 + 1 = n by omega] at r
  obtain ⟨h', r, hV', hF⟩ := r
  exact ⟨h', m', c', r, e, hV', hF⟩

omit hE in
theorem step16BE (hW : 32 ≤ P.W) (hV : View L h m) {vs vb : Val} {s b : Slice} (hs : SliceAt L vs s) (hl : 2 ≤ s.len) (hb : Reads h m vb b) (c : BitVec 8) {n : Nat} (hn : 9 ≤ n) :
    ∃ h' m' c', run P n path 0 (n! "addEq16BE") [vs, vb, .u8 c] h = .ok [.u8 c'] ⟨h', []⟩ ∧ _root_.Bytes.addEq16BE m s b c = .ok (m', c') ∧ View L h' m' ∧ Frame L h h' := by
  obtain ⟨m', c', e, -⟩ := _root_.Bytes.addEq16BE_eq m s b c hl
  have r := run_addEq16BE hP hS hB hW hV hs hb c (n := n - 1) (by omega)
  rw [e, show n - 1 + 1 = n by omega] at r
  obtain ⟨h', r, hV', hF⟩ := r
  exact ⟨h', m', c', r, e, hV', hF⟩

omit hS hE hB in
theorem step8 (hV : View L h m) {vs vb : Val} {s b : Slice} (hs : SliceAt L vs s) (hl : 1 ≤ s.len) (hb : Reads h m vb b) (c : BitVec 8) {n : Nat} (hn : 1 ≤ n) :
    ∃ h' m' c', run P n path 0 (n! "addEq8") [vs, vb, .u8 c] h = .ok [.u8 c'] ⟨h', []⟩ ∧ _root_.Bytes.addEq8 m s b c = .ok (m', c') ∧ View L h' m' ∧ Frame L h h' := by
  obtain ⟨m', c', e, -⟩ := _root_.Bytes.addEq8_eq m s b c hl
  have r := run_addEq8 hP hV hs hb c (n := n - 1)
  rw [e, show n - 1 + 1 = n by omega] at r
  obtain ⟨h', r, hV', hF⟩ := r
  exact ⟨h', m', c', r, e, hV', hF⟩

/-! ## Constants as arguments -/

omit hP hS hE hB in
theorem callBody_congr {c : Ctx} {ps rs : Params} {body : Stmts} {args args' h : List Val} (e : bindParams c ps args ⟨h, []⟩ = bindParams c ps args' ⟨h, []⟩) :
    callBody c ps rs body args h = callBody c ps rs body args' h := by
  simp only [callBody, bind_apply, e]

omit hP hS hE hB in
theorem pow31 (hW : 32 ≤ P.W) : (2 : Int) ^ 31 ≤ 2 ^ (P.W - 1) := by
  have := Nat.pow_le_pow_right (n := 2) (by decide) (show 31 ≤ P.W - 1 by omega)
  exact_mod_cast this


omit hS hE hB in
theorem const_padLE (hW : 32 ≤ P.W) {vd vs : Val} (hd : Plain vd) (hs : Plain vs) {k : Nat} (hk : k < 2 ^ 31) (n : Nat) (h : List Val) :
    run P (n + 1) path 0 (n! "padLE") [vd, vs, .const k] h = run P (n + 1) path 0 (n! "padLE") [vd, vs, .int k] h := by
  rw [run_func hP find_padLE, run_func hP find_padLE]
  refine callBody_congr ?_
  have := pow31 hW
  have hw := wrap_nat (W := P.W) (i := k) (by omega) (by omega)
  eval_go [hd, hs, hw]

omit hS hE hB in
theorem const_padBE (hW : 32 ≤ P.W) {vd vs : Val} (hd : Plain vd) (hs : Plain vs) {k : Nat} (hk : k < 2 ^ 31) (n : Nat) (h : List Val) :
    run P (n + 1) path 0 (n! "padBE") [vd, vs, .const k] h = run P (n + 1) path 0 (n! "padBE") [vd, vs, .int k] h := by
  rw [run_func hP find_padBE, run_func hP find_padBE]
  refine callBody_congr ?_
  have := pow31 hW
  have hw := wrap_nat (W := P.W) (i := k) (by omega) (by omega)
  eval_go [hd, hs, hw]

omit hS hE hB in
theorem const_addEq16LE {vd vs : Val} (hd : Plain vd) (hs : Plain vs) {n : Nat} (hn : 0 < n) (h : List Val) :
    run P n path 0 (n! "addEq16LE") [vd, vs, .const 0] h = run P n path 0 (n! "addEq16LE") [vd, vs, .u8 0#8] h := by
  rw [show n = n - 1 + 1 by omega, run_func hP find_addEq16LE, run_func hP find_addEq16LE]
  refine callBody_congr ?_
  eval_go [hd, hs]

omit hS hE hB in
theorem const_addEq32LE {vd vs : Val} (hd : Plain vd) (hs : Plain vs) {n : Nat} (hn : 0 < n) (h : List Val) :
    run P n path 0 (n! "addEq32LE") [vd, vs, .const 0] h = run P n path 0 (n! "addEq32LE") [vd, vs, .u8 0#8] h := by
  rw [show n = n - 1 + 1 by omega, run_func hP find_addEq32LE, run_func hP find_addEq32LE]
  refine callBody_congr ?_
  eval_go [hd, hs]

omit hS hE hB in
theorem const_addEq16BE {vd vs : Val} (hd : Plain vd) (hs : Plain vs) {n : Nat} (hn : 0 < n) (h : List Val) :
    run P n path 0 (n! "addEq16BE") [vd, vs, .const 0] h = run P n path 0 (n! "addEq16BE") [vd, vs, .u8 0#8] h := by
  rw [show n = n - 1 + 1 by omega, run_func hP find_addEq16BE, run_func hP find_addEq16BE]
  refine callBody_congr ?_
  eval_go [hd, hs]

omit hS hE hB in
theorem const_addEq32BE {vd vs : Val} (hd : Plain vd) (hs : Plain vs) {n : Nat} (hn : 0 < n) (h : List Val) :
    run P n path 0 (n! "addEq32BE") [vd, vs, .const 0] h = run P n path 0 (n! "addEq32BE") [vd, vs, .u8 0#8] h := by
  rw [show n = n - 1 + 1 by omega, run_func hP find_addEq32BE, run_func hP find_addEq32BE]
  refine callBody_congr ?_
  eval_go [hd, hs]

omit hP hS hE hB in
theorem find_Add32LE : findFunc 0 (n! "Add32LE") pkg.decls = some BytesAddLE.Add32LE := by kernel_rfl

theorem run_Add32LE (hW : 32 ≤ P.W) (hV : View L h m) {vs va vb : Val} {s a b : Slice} (hs : SliceAt L vs s) (ha : SliceAt L va a) (hb : SliceAt L vb b)
    {n : Nat} (hn : s.len + 9 < n) :
    Ends L h sumVals (_root_.Bytes.Add32LE m s a b) (run P (n + 1) path 0 (n! "Add32LE") [vs, va, vb] h) := by
  have hvs := hs.plain
  have hva := ha.plain
  have hvb := hb.plain
  rw [run_func hP find_Add32LE]
  have r := run_padLE hP hS hE hV hs ha 4 (n := n - 1) (by omega)
  rw [← const_padLE hP hW hvs hva (by decide), show n - 1 + 1 = n by omega] at r
  rw [_root_.Bytes.Add32LE]
  cases hp : _root_.Bytes.padLE m s a 4 with
  | panic =>
    rw [hp] at r
    obtain ⟨h', r, hF⟩ := r
    simp only [Nat.cast_ofNat] at r
    eval_go [hvs, hva, hvb, elem_repo hP, r]
    exact ⟨h', rfl, hF⟩
  | ok y =>
    obtain ⟨m', e⟩ := y
    rw [hp] at r
    obtain ⟨h', r, hV', hF⟩ := r
    simp only [Nat.cast_ofNat] at r
    cases e with
    | true =>
      rw [errVal_true] at r
      eval_go [hvs, hva, hvb, elem_repo hP, r]
      exact ⟨h', rfl, hV', hF⟩
    | false =>
      obtain ⟨h₂, m₂, c₂, r₂, e₂, hV₂, hF₂⟩ := step32LE hP hS hB hW hV' hs (padLE_ok hp) (reads hV' hb) 0#8 (n := n) (by omega)
      simp only [errVal, cond_false] at r
      rw [← const_addEq32LE hP hvs hvb (by omega)] at r₂
      eval_go [hvs, hva, hvb, elem_repo hP, r, r₂]
      simp only [Res.ok_bind, Bool.false_eq_true, if_false, e₂]
      exact ⟨h₂, rfl, hV₂, hF.trans hF₂⟩

omit hP hS hE hB in
theorem find_Add32BE : findFunc 0 (n! "Add32BE") pkg.decls = some BytesAddBE.Add32BE := by kernel_rfl

theorem run_Add32BE (hW : 32 ≤ P.W) (hV : View L h m) {vs va vb : Val} {s a b : Slice} (hs : SliceAt L vs s) (ha : SliceAt L va a) (hb : SliceAt L vb b)
    {n : Nat} (hn : s.len + 9 < n) :
    Ends L h sumVals (_root_.Bytes.Add32BE m s a b) (run P (n + 1) path 0 (n! "Add32BE") [vs, va, vb] h) := by
  have hvs := hs.plain
  have hva := ha.plain
  have hvb := hb.plain
  rw [run_func hP find_Add32BE]
  have r := run_padBE hP hS hE hW hV hs ha 4 (by have := pow31 hW; omega) (n := n - 1) (by omega)
  rw [← const_padBE hP hW hvs hva (by decide), show n - 1 + 1 = n by omega] at r
  rw [_root_.Bytes.Add32BE]
  cases hp : _root_.Bytes.padBE m s a 4 with
  | panic =>
    rw [hp] at r
    obtain ⟨h', r, hF⟩ := r
    simp only [Nat.cast_ofNat] at r
    eval_go [hvs, hva, hvb, elem_repo hP, r]
    exact ⟨h', rfl, hF⟩
  | ok y =>
    obtain ⟨m', e⟩ := y
    rw [hp] at r
    obtain ⟨h', r, hV', hF⟩ := r
    simp only [Nat.cast_ofNat] at r
    cases e with
    | true =>
      rw [errVal_true] at r
      eval_go [hvs, hva, hvb, elem_repo hP, r]
      exact ⟨h', rfl, hV', hF⟩
    | false =>
      obtain ⟨h₂, m₂, c₂, r₂, e₂, hV₂, hF₂⟩ := step32BE hP hS hB hW hV' hs (padBE_ok hp) (reads hV' hb) 0#8 (n := n) (by omega)
      simp only [errVal, cond_false] at r
      rw [← const_addEq32BE hP hvs hvb (by omega)] at r₂
      eval_go [hvs, hva, hvb, elem_repo hP, r, r₂]
      simp only [Res.ok_bind, Bool.false_eq_true, if_false, e₂]
      exact ⟨h₂, rfl, hV₂, hF.trans hF₂⟩

omit hP hS hE hB in
theorem find_Add16LE : findFunc 0 (n! "Add16LE") pkg.decls = some BytesAddLE.Add16LE := by kernel_rfl

theorem run_Add16LE (hW : 32 ≤ P.W) (hV : View L h m) {vs va vb : Val} {s a b : Slice} (hs : SliceAt L vs s) (ha : SliceAt L va a) (hb : SliceAt L vb b)
    {n : Nat} (hn : s.len + 9 < n) :
    Ends L h sumVals (_root_.Bytes.Add16LE m s a b) (run P (n + 1) path 0 (n! "Add16LE") [vs, va, vb] h) := by
  have hvs := hs.plain
  have hva := ha.plain
  have hvb := hb.plain
  rw [run_func hP find_Add16LE]
  have r := run_padLE hP hS hE hV hs ha 2 (n := n - 1) (by omega)
  rw [← const_padLE hP hW hvs hva (by decide), show n - 1 + 1 = n by omega] at r
  rw [_root_.Bytes.Add16LE]
  cases hp : _root_.Bytes.padLE m s a 2 with
  | panic =>
    rw [hp] at r
    obtain ⟨h', r, hF⟩ := r
    simp only [Nat.cast_ofNat] at r
    eval_go [hvs, hva, hvb, elem_repo hP, r]
    exact ⟨h', rfl, hF⟩
  | ok y =>
    obtain ⟨m', e⟩ := y
    rw [hp] at r
    obtain ⟨h', r, hV', hF⟩ := r
    simp only [Nat.cast_ofNat] at r
    cases e with
    | true =>
      rw [errVal_true] at r
      eval_go [hvs, hva, hvb, elem_repo hP, r]
      exact ⟨h', rfl, hV', hF⟩
    | false =>
      obtain ⟨h₂, m₂, c₂, r₂, e₂, hV₂, hF₂⟩ := step16LE hP hS hB hW hV' hs (padLE_ok hp) (reads hV' hb) 0#8 (n := n) (by omega)
      simp only [errVal, cond_false] at r
      rw [← const_addEq16LE hP hvs hvb (by omega)] at r₂
      eval_go [hvs, hva, hvb, elem_repo hP, r, r₂]
      simp only [Res.ok_bind, Bool.false_eq_true, if_false, e₂]
      exact ⟨h₂, rfl, hV₂, hF.trans hF₂⟩

omit hP hS hE hB in
theorem find_Add16BE : findFunc 0 (n! "Add16BE") pkg.decls = some BytesAddBE.Add16BE := by kernel_rfl

theorem run_Add16BE (hW : 32 ≤ P.W) (hV : View L h m) {vs va vb : Val} {s a b : Slice} (hs : SliceAt L vs s) (ha : SliceAt L va a) (hb : SliceAt L vb b)
    {n : Nat} (hn : s.len + 9 < n) :
    Ends L h sumVals (_root_.Bytes.Add16BE m s a b) (run P (n + 1) path 0 (n! "Add16BE") [vs, va, vb] h) := by
  have hvs := hs.plain
  have hva := ha.plain
  have hvb := hb.plain
  rw [run_func hP find_Add16BE]
  have r := run_padBE hP hS hE hW hV hs ha 2 (by have := pow31 hW; omega) (n := n - 1) (by omega)
  rw [← const_padBE hP hW hvs hva (by decide), show n - 1 + 1 = n by omega] at r
  rw [_root_.Bytes.Add16BE]
  cases hp : _root_.Bytes.padBE m s a 2 with
  | panic =>
    rw [hp] at r
    obtain ⟨h', r, hF⟩ := r
    simp only [Nat.cast_ofNat] at r
    eval_go [hvs, hva, hvb, elem_repo hP, r]
    exact ⟨h', rfl, hF⟩
  | ok y =>
    obtain ⟨m', e⟩ := y
    rw [hp] at r
    obtain ⟨h', r, hV', hF⟩ := r
    simp only [Nat.cast_ofNat] at r
    cases e with
    | true =>
      rw [errVal_true] at r
      eval_go [hvs, hva, hvb, elem_repo hP, r]
      exact ⟨h', rfl, hV', hF⟩
    | false =>
      obtain ⟨h₂, m₂, c₂, r₂, e₂, hV₂, hF₂⟩ := step16BE hP hS hB hW hV' hs (padBE_ok hp) (reads hV' hb) 0#8 (n := n) (by omega)
      simp only [errVal, cond_false] at r
      rw [← const_addEq16BE hP hvs hvb (by omega)] at r₂
      eval_go [hvs, hva, hvb, elem_repo hP, r, r₂]
      simp only [Res.ok_bind, Bool.false_eq_true, if_false, e₂]
      exact ⟨h₂, rfl, hV₂, hF.trans hF₂⟩

end
end Source.Bytes
