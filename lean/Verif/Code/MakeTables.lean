import Verif.Code.Whirlpool
import Verif.Lemmas.WhirlpoolGen
import Verif.Source.MakeTables

/-!
# The code of `hash/whirlpool/make_tables.go`: the tables
-/
namespace Source.MakeTables
open GoLang
open Source.Whirlpool (steps loop_steps model_steps forE exec_for at64 at64_val at64_ok setE map_set64 ct_length)

abbrev path : Name := n! "main"

/-- The variables that are assigned to. -/
def vars : List Name := [n! "rc", n! "ct"]

/-- The text in `header`. -/
def head : List (BitVec 8) := ascii "// Copyright 2023 gnabgib\n// This Source Code Form is subject to the terms of the Mozilla Public License v2.0\n\n// Code generated by go run make_tables.go. DO NOT EDIT.\n\npackage whirlpool\n\n"

/-- The package. -/
def pkg : Pkg := ⟨path, importTable MakeTables.file.imports, MakeTables.file.decls, [(n! "rounds", .const 10), (n! "gfPoly", .const 285),
  (n! "sBox", .str _root_.Whirlpool.sBox), (n! "header", .slice 0 [] 0 head.length head.length), (n! "rc", .box 1), (n! "ct", .box 2)], []⟩

/-- Memory when the program starts. -/
def mem : List Val := [.arr (head.map .u8), .arr ((List.replicate 10 0#64).map .u64), .arr ((List.replicate 2048 0#64).map .u64)]

theorem loaded : loadMem stdlib path [MakeTables.file] [] vars = some (pkg, mem) := by kernel_rfl

theorem text : loadTextMem path [MakeTables.src] [] vars = some (pkg, mem) := by
  rw [← loaded]
  simp only [loadTextMem, parseAll, MakeTables.parsed, Option.bind_some, Option.map_some]

/-! ## Integers -/

theorem orI {W : Nat} (hW : 32 ≤ W) {a b : Nat} (ha : a < 2 ^ 31) (hb : b < 2 ^ 31) : (BitVec.ofInt W (a : Int) ||| BitVec.ofInt W (b : Int)).toInt = ((a ||| b : Nat) : Int) := by
  have h32 : 2 ^ 32 ≤ 2 ^ W := Nat.pow_le_pow_right (by decide) hW
  have hlt : a ||| b < 2 ^ 31 := Nat.or_lt_two_pow ha hb
  have hN : (BitVec.ofInt W (a : Int) ||| BitVec.ofInt W (b : Int)).toNat = a ||| b := by
    rw [BitVec.toNat_or, BitVec.ofInt_natCast, BitVec.ofInt_natCast, BitVec.toNat_ofNat, BitVec.toNat_ofNat, Nat.mod_eq_of_lt (by omega), Nat.mod_eq_of_lt (by omega)]
  rw [BitVec.toInt_eq_toNat_of_lt, hN]
  rw [hN]
  omega

theorem wrapN {W : Nat} (hW : 32 ≤ W) {a : Nat} (ha : a < 2 ^ 31) : wrap W (a : Int) = a := by
  have : 2 ^ 31 ≤ 2 ^ (W - 1) := Nat.pow_le_pow_right (by decide) (by omega)
  refine wrap_nat ?_ (by omega)
  exact_mod_cast (by omega : a < 2 ^ (W - 1))

/-- An index `(t << 8) | x`. -/
theorem or8 {x t : Nat} (hx : x < 256) : t * 2 ^ 8 ||| x = 256 * t + x := by
  have := _root_.Whirlpool.or_shift' x t 8 hx
  rw [Nat.shiftLeft_eq] at this
  omega

/-! ## The circulant table -/

theorem find_circ : findFunc 0 (n! "buildCirculantTable") pkg.decls = some MakeTables.buildCirculantTable := by kernel_rfl
theorem find_rcs : findFunc 0 (n! "buildRoundConstants") pkg.decls = some MakeTables.buildRoundConstants := by kernel_rfl

/-- The loop that rotates. -/
def rotBody : Stmts := .cons (setE (.id (n! "ct")) (.bin .or (.bin .shl (.id (n! "t")) (.int 8)) (.id (n! "x")))
  (.call (.sel (.id (n! "bits")) (n! "RotateLeft64")) (.cons (.idx (.id (n! "ct")) (.bin .or (.bin .shl (.bin .sub (.id (n! "t")) (.int 1)) (.int 8)) (.id (n! "x"))))
    (.cons (.un .neg (.int 8)) .nil)) false)) .nil

def rotFor : Stmt := .for (.define [n! "t"] (.cons (.int 1) .nil)) (.bin .lt (.id (n! "t")) (.int 8)) (.opAssign .add (.id (n! "t")) (.int 1)) rotBody

/-- The step of that loop: the number of turns, the table. -/
def rotStep (x i : Nat) (c : List U64) : List U64 := c.set (256 * (i + 1) + x) (_root_.Whirlpool.rotl64m8 (at64 c (256 * i + x)))

/-- Memory with this table. -/
def withCt (h : List Val) (c : List U64) : List Val := h.set 2 (.arr (c.map .u64))

theorem get_ct {h : List Val} (hh : 2 < h.length) (c : List U64) : (withCt h c)[2]? = some (.arr (c.map .u64)) := by
  simp [withCt, hh]

theorem set_ct (h : List Val) (c d : List U64) : (withCt h c).set 2 (.arr (d.map .u64)) = withCt h d := by
  simp [withCt]

theorem std_rot (v : U64) : stdlib (n! "math/bits") 0 (n! "RotateLeft64") [.u64 v, .const (-8)] = pure (.u64 (_root_.Whirlpool.rotl64m8 v)) := by
  have h : v.rotateLeft 56 = _root_.Whirlpool.rotl64m8 v := by
    rw [BitVec.rotateLeft_def]
    rfl
  have h' : stdlib (n! "math/bits") 0 (n! "RotateLeft64") [.u64 v, .const (-8)] = pure (.u64 (v.rotateLeft 56)) := by kernel_rfl
  rw [h', h]

section
variable {P : Prog} (hW : 32 ≤ P.W) (hstd : P.std (n! "math/bits") = stdlib (n! "math/bits")) (hM : elemN (n! "math/bits") (P.pkgs.map Pkg.path) = false) {n : Nat} (hn : 300 < n) {h : List Val} (hh : 2 < h.length)
include hW hM hstd hn hh

theorem rot_loop {c : List U64} (hc : c.length = 2048) {x : Nat} (hx : x < 256) (env : List (Name × Val)) (hxE : find (n! "x") env = some (.int x)) (hct : find (n! "ct") env = none)
    (hb : find (n! "bits") env = none) :
    exec (P.ctx n pkg (n! "buildCirculantTable") .nil (run P n)) rotFor ⟨withCt h c, env⟩ = .ok .next ⟨withCt h (steps (rotStep x) 7 c), env⟩ ∧ (steps (rotStep x) 7 c).length = 2048 := by
  have hl := loop_steps (cond := evalBool (P.ctx n pkg (n! "buildCirculantTable") .nil (run P n)) (.bin .lt (.id (n! "t")) (.int 8)))
    (body := scope (execs (P.ctx n pkg (n! "buildCirculantTable") .nil (run P n)) rotBody))
    (post := do let _ ← exec (P.ctx n pkg (n! "buildCirculantTable") .nil (run P n)) (.opAssign .add (.id (n! "t")) (.int 1)); pure ())
    (rotStep x) (fun _ (c : List U64) => c.length = 2048) (fun i c => ⟨withCt h c, (n! "t", .int ((i + 1 : Nat) : Int)) :: env⟩) 7 (by
      intro i c hi hc
      refine ⟨by simpa [rotStep] using hc, ?_, ⟨withCt h (rotStep x i c), (n! "t", .int ((i + 1 : Nat) : Int)) :: env⟩, ?_, ?_⟩
      · have : ((i + 1 : Nat) : Int) < 8 := by omega
        eval_go [this]
      · simp only [rotBody, setE]
        have h1 : wrap P.W (((i + 1 : Nat) : Int) - 1) = i := by
          rw [show (((i + 1 : Nat) : Int) - 1) = (i : Nat) by omega]
          exact wrapN hW (by omega)
        have h2 : wrap P.W (((i + 1 : Nat) : Int) * 2 ^ 8) = ((i + 1) * 2 ^ 8 : Nat) := by
          rw [show (((i + 1 : Nat) : Int) * 2 ^ 8) = ((i + 1) * 2 ^ 8 : Nat) by omega]
          exact wrapN hW (by omega)
        have h3 : wrap P.W ((i : Int) * 2 ^ 8) = (i * 2 ^ 8 : Nat) := by
          rw [show ((i : Int) * 2 ^ 8) = (i * 2 ^ 8 : Nat) by omega]
          exact wrapN hW (by omega)
        have h4 := orI hW (a := (i + 1) * 2 ^ 8) (b := x) (by omega) (by omega)
        have h5 := orI hW (a := i * 2 ^ 8) (b := x) (by omega) (by omega)
        rw [or8 hx] at h4 h5
        eval_go [hxE, hct, hb, hstd, get_ct hh, h1, h2, h3, h4, h5, List.length_map, hc, hM, std_rot, show ((256 * (i + 1) + x : Nat) : Int) < 2048 by omega, show ((256 * i + x : Nat) : Int) < 2048 by omega, show 256 * (i + 1) + x < 2048 by omega, show 256 * i + x < 2048 by omega, at64_val (l := c) (i := 256 * (i + 1) + x) (by omega), at64_val (l := c) (i := 256 * i + x) (by omega), map_set64, set_ct, rotStep]
      · eval_go
        rw [show wrap P.W (((i + 1 : Nat) : Int) + 1) = ((i + 1 + 1 : Nat) : Int) from by
          rw [show (((i + 1 : Nat) : Int) + 1) = ((i + 1 + 1 : Nat) : Int) by omega]
          exact wrapN hW (by omega)]) (by intro s; eval_go; rfl) hc (n := n) (by omega) rfl
  refine ⟨?_, hl.2⟩
  have hi : exec (P.ctx n pkg (n! "buildCirculantTable") .nil (run P n)) (.define [n! "t"] (.cons (.int 1) .nil)) ⟨withCt h c, env⟩ =
      .ok .next ⟨withCt h c, (n! "t", .int ((0 + 1 : Nat) : Int)) :: env⟩ := by
    eval_go
  have h5 : ((n! "t", Val.int ((7 + 1 : Nat) : Int)) :: env).drop (((n! "t", Val.int ((7 + 1 : Nat) : Int)) :: env).length - env.length) = env := by
    simp
  rw [rotFor, exec]
  simp only [scope, bind_apply, hi, Out.bind, show (P.ctx n pkg (n! "buildCirculantTable") .nil (run P n)).fuel = n from rfl, hl.1, h5]

/-- Two statements that double in the field. -/
def dbl (nm e : Name) (rest : Stmts) : Stmts := .cons (.define [nm] (.cons (.bin .shl (.id e) (.int 1)) .nil)) (.cons
  (.ifs .skip (.bin .ge (.id nm) (.int 256)) (.cons (.opAssign .xor (.id nm) (.id (n! "gfPoly"))) .nil) .nil) rest)

omit hW hM hstd hn hh in
theorem exec_dbl {C : Ctx} (hC : C.pkg = pkg) (hB : C.boxed = []) {nm e : Name} (hnm : Nat.beq nm (n! "_") = false) (hp : Nat.beq (n! "gfPoly") nm = false) {h : List Val} {env : List (Name × Val)} {v : U64}
    (he : find e env = some (.u64 v)) (hg : find (n! "gfPoly") env = none) (rest : Stmts) :
    execs C (dbl nm e rest) ⟨h, env⟩ = execs C rest ⟨h, (nm, .u64 (_root_.Whirlpool.gfDouble v)) :: env⟩ := by
  have hgg : find (n! "gfPoly") pkg.genv = some (.const 285) := by kernel_rfl
  simp only [dbl]
  by_cases hv : v <<< 1 < 256#64
  · have hd : _root_.Whirlpool.gfDouble v = v <<< 1 := if_neg (show ¬ v <<< 1 ≥ 256#64 by simpa [BitVec.not_le] using hv)
    eval_go [hC, hB, hnm, he, hg, hp, hgg, hv, Nat.beq_refl, hd]
  · have hd : _root_.Whirlpool.gfDouble v = v <<< 1 ^^^ 285#64 := if_pos (show v <<< 1 ≥ 256#64 by simpa [BitVec.not_lt] using hv)
    eval_go [hC, hB, hnm, he, hg, hp, hgg, hv, Nat.beq_refl, hd]

/-- The body of the loop of `buildCirculantTable`. -/
def circBody : Stmts := .cons (.define [n! "v1"] (.cons (.call (.id (n! "uint64")) (.cons (.idx (.id (n! "sBox")) (.id (n! "x"))) .nil) false) .nil)) (
  dbl (n! "v2") (n! "v1") (dbl (n! "v4") (n! "v2") (.cons
  (.define [n! "v5"] (.cons (.bin .xor (.id (n! "v4")) (.id (n! "v1"))) .nil)) (
  dbl (n! "v8") (n! "v4") (.cons
  (.define [n! "v9"] (.cons (.bin .xor (.id (n! "v8")) (.id (n! "v1"))) .nil)) (.cons
  (setE (.id (n! "ct")) (.id (n! "x")) (.bin .or (.bin .or (.bin .or (.bin .or (.bin .or (.bin .or (.bin .or (.bin .shl (.id (n! "v1")) (.int 56)) (.bin .shl (.id (n! "v1")) (.int 48)))
    (.bin .shl (.id (n! "v4")) (.int 40))) (.bin .shl (.id (n! "v1")) (.int 32))) (.bin .shl (.id (n! "v8")) (.int 24))) (.bin .shl (.id (n! "v5")) (.int 16)))
    (.bin .shl (.id (n! "v2")) (.int 8))) (.id (n! "v9")))) (.cons rotFor .nil)))))))

omit hW hM hstd hn hh in
theorem circ_eq : MakeTables.buildCirculantTable = .func 0 false 0 (n! "buildCirculantTable") .nil .nil (.cons (forE (n! "x") (.int 256) circBody) .nil) := by kernel_rfl

/-- The step of that loop. -/
def circStep (x : Nat) (c : List U64) : List U64 := steps (rotStep x) 7 (c.set x (_root_.Whirlpool.entry x))

theorem circ_body {c : List U64} (hc : c.length = 2048) {x : Nat} (hx : x < 256) :
    (circStep x c).length = 2048 ∧ ∃ e, execs (P.ctx n pkg (n! "buildCirculantTable") .nil (run P n)) circBody ⟨withCt h c, [(n! "x", .int x)]⟩ =
      .ok .next ⟨withCt h (circStep x c), e ++ [(n! "x", .int x)]⟩ := by
  have hs : (_root_.Whirlpool.sBox)[x]? = some ((_root_.Whirlpool.sBox).getD x 0) := by
    have := _root_.Whirlpool.sBox_length
    simp [this, hx]
  have hsl := _root_.Whirlpool.sBox_length
  obtain ⟨v1, hv1⟩ : ∃ v1 : U64, v1 = ((_root_.Whirlpool.sBox).getD x 0).setWidth 64 := ⟨_, rfl⟩
  have hx' : (x : Int) < 256 := by omega
  have h1 : exec (P.ctx n pkg (n! "buildCirculantTable") .nil (run P n)) (.define [n! "v1"] (.cons (.call (.id (n! "uint64")) (.cons (.idx (.id (n! "sBox")) (.id (n! "x"))) .nil) false) .nil))
      ⟨withCt h c, [(n! "x", .int x)]⟩ = .ok .next ⟨withCt h c, [(n! "v1", .u64 v1), (n! "x", .int x)]⟩ := by
    rw [hv1]
    eval_go [hsl, hx, hx', hs]
  have he : _root_.Whirlpool.entry x = (let v2 := _root_.Whirlpool.gfDouble v1; let v4 := _root_.Whirlpool.gfDouble v2; let v5 := v4 ^^^ v1; let v8 := _root_.Whirlpool.gfDouble v4; let v9 := v8 ^^^ v1
      v1 <<< 56 ||| v1 <<< 48 ||| v4 <<< 40 ||| v1 <<< 32 ||| v8 <<< 24 ||| v5 <<< 16 ||| v2 <<< 8 ||| v9) := by
    unfold _root_.Whirlpool.entry _root_.Whirlpool.genEntry
    rw [goIdx_lt (by rw [hsl]; exact hx), hv1]
    simp only [Res.ok_bind, List.getD_eq_getElem?_getD, List.getElem?_eq_getElem (show x < _root_.Whirlpool.sBox.length by omega), Option.getD_some]
    rfl
  dsimp only at he
  simp only [circBody, execs, bind_apply, h1, Out.bind, andNext]
  rw [exec_dbl (v := v1) rfl rfl rfl rfl rfl rfl, exec_dbl (v := _root_.Whirlpool.gfDouble v1) rfl rfl rfl rfl rfl rfl]
  generalize hv2 : _root_.Whirlpool.gfDouble v1 = v2 at *
  generalize hv4 : _root_.Whirlpool.gfDouble v2 = v4 at *
  have h5 : exec (P.ctx n pkg (n! "buildCirculantTable") .nil (run P n)) (.define [n! "v5"] (.cons (.bin .xor (.id (n! "v4")) (.id (n! "v1"))) .nil))
      ⟨withCt h c, [(n! "v4", .u64 v4), (n! "v2", .u64 v2), (n! "v1", .u64 v1), (n! "x", .int x)]⟩ =
      .ok .next ⟨withCt h c, [(n! "v5", .u64 (v4 ^^^ v1)), (n! "v4", .u64 v4), (n! "v2", .u64 v2), (n! "v1", .u64 v1), (n! "x", .int x)]⟩ := by
    eval_go
  simp only [execs, bind_apply, h5, Out.bind, andNext]
  rw [exec_dbl (v := v4) rfl rfl rfl rfl rfl rfl]
  generalize hv8 : _root_.Whirlpool.gfDouble v4 = v8 at *
  obtain ⟨env, hE⟩ : ∃ env : List (Name × Val), env = [(n! "v9", .u64 (v8 ^^^ v1)), (n! "v8", .u64 v8), (n! "v5", .u64 (v4 ^^^ v1)), (n! "v4", .u64 v4), (n! "v2", .u64 v2), (n! "v1", .u64 v1), (n! "x", .int x)] := ⟨_, rfl⟩
  have hr := rot_loop hW hstd hM hn hh (c := c.set x (_root_.Whirlpool.entry x)) (by simpa using hc) hx env (by rw [hE]; rfl) (by rw [hE]; rfl) (by rw [hE]; rfl)
  refine ⟨hr.2, env.take 6, ?_⟩
  rw [show env.take 6 ++ [(n! "x", .int x)] = env by rw [hE]; rfl, circStep]
  rw [hE] at hr ⊢
  simp only [setE]
  eval_go [hc, hx, hx', get_ct hh, List.length_map, show (x : Int) < 2048 by omega, show x < 2048 by omega, at64_val (l := c) (i := x) (by omega), map_set64, set_ct, ← he, ↓hr.1]

omit hW hM hstd hn hh in
theorem circ_steps {c : List U64} (hc : c.length = 2048) : steps circStep 256 c = _root_.Whirlpool.ct := by
  have h1 (x : Nat) (hx : x < 256) (c : List U64) (hc : c.length = 2048) : _root_.Whirlpool.genRotLoop x 7 1 c = .ok (steps (rotStep x) 7 c) ∧ (steps (rotStep x) 7 c).length = 2048 := by
    refine ⟨?_, ?_⟩
    · refine model_steps (fun m i => _root_.Whirlpool.genRotLoop x m (i + 1)) id (rotStep x) (fun c => c.length = 2048) 7 (fun _ _ => rfl) ?_ ?_ hc
      · intro i s _ hs
        simpa [rotStep] using hs
      · intro m i s hi hs
        rw [_root_.Whirlpool.genRotLoop, _root_.Whirlpool.or_shift' _ _ 8 hx, _root_.Whirlpool.or_shift' _ _ 8 hx, at64_ok (by omega), Res.ok_bind, goSet_lt (by omega), Res.ok_bind, rotStep]
        rw [show x + 2 ^ 8 * (i + 1) = 256 * (i + 1) + x by omega, show x + 2 ^ 8 * (i + 1 - 1) = 256 * i + x by omega]
    · have (k : Nat) : (steps (rotStep x) k c).length = 2048 := by
        induction k with
        | zero => exact hc
        | succ k ih => simpa [steps, rotStep] using ih
      exact this 7
  have h2 := model_steps _root_.Whirlpool.genCtLoop id circStep (fun c => c.length = 2048) 256 (fun _ _ => rfl)
    (by intro i s hi hs; exact (h1 i hi _ (by simpa using hs)).2)
    (by
      intro m i s hi hs
      rw [_root_.Whirlpool.genCtLoop, _root_.Whirlpool.genEntry_eq i hi, Res.ok_bind, goSet_lt (by omega), Res.ok_bind, (h1 i hi _ (by simpa using hs)).1, Res.ok_bind, circStep]) hc
  rw [_root_.Whirlpool.genCtLoop_any hc] at h2
  rw [id_eq] at h2
  exact (Res.ok.inj h2).symm

/-- `buildCirculantTable` makes the table, whatever it held before. -/
theorem run_circ (hP : findPkg path P.pkgs = some pkg) {c : List U64} (hc : c.length = 2048) :
    run P (n + 1) path 0 (n! "buildCirculantTable") [] (withCt h c) = .ok [] ⟨withCt h _root_.Whirlpool.ct, []⟩ := by
  rw [run_func hP (find_circ.trans (congrArg some circ_eq))]
  have hl := exec_for (C := P.ctx n pkg (n! "buildCirculantTable") .nil (run P n)) (nm := n! "x") (lim := .int 256) (N := 256) (body := circBody) (σ := List U64) hW rfl (by decide) (by decide) circStep (fun c => c.length = 2048) (withCt h) (fun _ => []) 0 (fun _ => rfl)
    (by intro i s; eval_go) (by intro i s hi hs; exact circ_body hW hstd hM hn hh hs hi) hc (show 256 < n by omega)
  rw [circ_steps hc] at hl
  eval_go [↓hl.1]

/-! ## The round constants -/

/-- Memory with these constants. -/
def withRc (h : List Val) (a : List U64) : List Val := h.set 1 (.arr (a.map .u64))

/-- A masked element of the table. -/
def rcTerm (i m : Nat) : Expr := .bin .and (.idx (.id (n! "ct")) (.bin .or (.bin .shl (.int i) (.int 8)) (.bin .add (.id (n! "r8")) (.int i)))) (.int m)

def rcBody : Stmts := .cons (.define [n! "r8"] (.cons (.bin .shl (.id (n! "r")) (.int 3)) .nil)) (.cons
  (setE (.id (n! "rc")) (.id (n! "r")) (.bin .xor (.bin .xor (.bin .xor (.bin .xor (.bin .xor (.bin .xor (.bin .xor
    (.bin .and (.idx (.id (n! "ct")) (.id (n! "r8"))) (.int 0xff00000000000000)) (rcTerm 1 0x00ff000000000000)) (rcTerm 2 0x0000ff0000000000)) (rcTerm 3 0x000000ff00000000))
    (rcTerm 4 0x00000000ff000000)) (rcTerm 5 0x0000000000ff0000)) (rcTerm 6 0x000000000000ff00)) (rcTerm 7 0x00000000000000ff))) .nil)

omit hW hM hstd hn hh in
theorem rcs_eq : MakeTables.buildRoundConstants = .func 0 false 0 (n! "buildRoundConstants") .nil .nil (.cons (forE (n! "r") (.id (n! "rounds")) rcBody) .nil) := by kernel_rfl

omit hW hM hstd hn in
theorem get_rc (a : List U64) : (withRc h a)[1]? = some (.arr (a.map .u64)) := by
  simp [withRc, show 1 < h.length by omega]

omit hW hM hstd hn hh in
theorem set_rc (h : List Val) (c d : List U64) : (withRc h c).set 1 (.arr (d.map .u64)) = withRc h d := by
  simp [withRc]

omit hM hstd hn hh in
theorem eval_rcTerm {n : Nat} {h : List Val} {c : List U64} (hct : h[2]? = some (.arr (c.map .u64))) (hc : c.length = 2048) {r : Nat} (hr : r < 10) {i m : Nat} (hi : i < 8) (env : List (Name × Val))
    (hE : find (n! "ct") env = none) (h8 : find (n! "r8") env = some (.int (r * 8 : Nat))) :
    eval (P.ctx n pkg (n! "buildRoundConstants") .nil (run P n)) (rcTerm i m) ⟨h, env⟩ = .ok (.u64 (at64 c (256 * i + (r * 8 + i)) &&& BitVec.ofNat 64 m)) ⟨h, env⟩ := by
  have h1 : wrap P.W (((r * 8 : Nat) : Int) + i) = ((r * 8 + i : Nat) : Int) := by
    rw [show (((r * 8 : Nat) : Int) + i) = ((r * 8 + i : Nat) : Int) by omega]
    exact wrapN hW (by omega)
  have h4 := orI hW (a := i * 2 ^ 8) (b := r * 8 + i) (by omega) (by omega)
  rw [or8 (by omega), show ((i * 2 ^ 8 : Nat) : Int) = (i : Int) * 2 ^ 8 by omega] at h4
  simp only [rcTerm]
  eval_go [hE, h8, hct, h1, h4, List.length_map, hc, show 256 * i + (r * 8 + i) < 2048 by omega, show ((256 * i + (r * 8 + i) : Nat) : Int) < 2048 by omega,
    at64_val (l := c) (i := 256 * i + (r * 8 + i)) (by omega), show BitVec.ofInt 64 (m : Int) = BitVec.ofNat 64 m from BitVec.ofInt_natCast ..]

/-- An element of `rc`. -/
def rcVal (c : List U64) (r : Nat) : U64 := (at64 c (r * 8) &&& 0xff00000000000000#64) ^^^ (at64 c (256 * 1 + (r * 8 + 1)) &&& 0x00ff000000000000#64) ^^^
  (at64 c (256 * 2 + (r * 8 + 2)) &&& 0x0000ff0000000000#64) ^^^ (at64 c (256 * 3 + (r * 8 + 3)) &&& 0x000000ff00000000#64) ^^^
  (at64 c (256 * 4 + (r * 8 + 4)) &&& 0x00000000ff000000#64) ^^^ (at64 c (256 * 5 + (r * 8 + 5)) &&& 0x0000000000ff0000#64) ^^^
  (at64 c (256 * 6 + (r * 8 + 6)) &&& 0x000000000000ff00#64) ^^^ (at64 c (256 * 7 + (r * 8 + 7)) &&& 0x00000000000000ff#64)

omit hW hM hstd hn hh in
theorem rcVal_ok {c : List U64} (hc : c.length = 2048) {r : Nat} (hr : r < 10) : _root_.Whirlpool.genRc c r = .ok (rcVal c r) := by
  have e (i : Nat) (hi : i < 8) : (i <<< 8) ||| (r <<< 3 + i) = 256 * i + (r * 8 + i) := by
    rw [_root_.Whirlpool.or_shift' _ _ 8 (by rw [Nat.shiftLeft_eq]; omega), Nat.shiftLeft_eq]
    omega
  have e0 : r <<< 3 = r * 8 := Nat.shiftLeft_eq ..
  have g (i : Nat) (hi : i < 8) : goIdx c ((i <<< 8) ||| (r <<< 3 + i)) = .ok (at64 c (256 * i + (r * 8 + i))) := by
    rw [e i hi]
    exact at64_ok (by omega)
  have g0 : goIdx c (r <<< 3) = .ok (at64 c (r * 8)) := by
    rw [e0]
    exact at64_ok (by omega)
  rw [_root_.Whirlpool.genRc]
  rw [g0, Res.ok_bind, g 1 (by decide), Res.ok_bind, g 2 (by decide), Res.ok_bind, g 3 (by decide), Res.ok_bind, g 4 (by decide), Res.ok_bind, g 5 (by decide), Res.ok_bind,
    g 6 (by decide), Res.ok_bind, g 7 (by decide), Res.ok_bind]
  rfl

/-- The step of the loop of `buildRoundConstants`. -/
def rcStep (c : List U64) (r : Nat) (a : List U64) : List U64 := a.set r (rcVal c r)

omit hW hM hstd hn hh in
theorem rc_steps {a : List U64} (ha : a.length = 10) : steps (rcStep _root_.Whirlpool.ct) 10 a = _root_.Whirlpool.rc := by
  have h2 := model_steps (_root_.Whirlpool.genRcLoop _root_.Whirlpool.ct) id (rcStep _root_.Whirlpool.ct) (fun c => c.length = 10) 10 (fun _ _ => rfl)
    (by intro i s hi hs; simpa [rcStep] using hs)
    (by
      intro m i s hi hs
      rw [_root_.Whirlpool.genRcLoop, rcVal_ok ct_length hi, Res.ok_bind, goSet_lt (by omega), Res.ok_bind, rcStep]) ha
  rw [_root_.Whirlpool.genRcLoop_any ha] at h2
  rw [id_eq] at h2
  exact (Res.ok.inj h2).symm

omit hM hstd hn in
theorem rc_body {c a : List U64} (hct : h[2]? = some (.arr (c.map .u64))) (hc : c.length = 2048) (ha : a.length = 10) {r : Nat} (hr : r < 10) :
    (rcStep c r a).length = 10 ∧ ∃ e, execs (P.ctx n pkg (n! "buildRoundConstants") .nil (run P n)) rcBody ⟨withRc h a, [(n! "r", .int r)]⟩ =
      .ok .next ⟨withRc h (rcStep c r a), e ++ [(n! "r", .int r)]⟩ := by
  refine ⟨by simpa [rcStep] using ha, [(n! "r8", .int (r * 8 : Nat))], ?_⟩
  have h1 : wrap P.W ((r : Int) * 2 ^ 3) = ((r * 8 : Nat) : Int) := by
    rw [show ((r : Int) * 2 ^ 3) = ((r * 8 : Nat) : Int) by omega]
    exact wrapN hW (by omega)
  have hg : (withRc h a)[2]? = some (.arr (c.map .u64)) := by simpa [withRc] using hct
  have ht (i m : Nat) (hi : i < 8) := eval_rcTerm (P := P) hW (n := n) hg hc hr (m := m) hi [(n! "r8", .int (r * 8 : Nat)), (n! "r", .int r)] rfl rfl
  simp only [rcBody, setE]
  eval_go [h1, ↓ht 1 _ (by decide), ↓ht 2 _ (by decide), ↓ht 3 _ (by decide), ↓ht 4 _ (by decide), ↓ht 5 _ (by decide), ↓ht 6 _ (by decide), ↓ht 7 _ (by decide), hg, get_rc hh,
    List.length_map, hc, ha, hr, show (r : Int) < 10 by omega, show r * 8 < 2048 by omega, show ((r * 8 : Nat) : Int) < 2048 by omega, at64_val (l := c) (i := r * 8) (by omega), at64_val (l := a) (i := r) (by omega), map_set64, set_rc, rcStep, rcVal]

omit hM hstd in
/-- `buildRoundConstants` makes the round constants from the table, whatever they were before. -/
theorem run_rcs (hP : findPkg path P.pkgs = some pkg) (hct : h[2]? = some (.arr (_root_.Whirlpool.ct.map .u64))) {a : List U64} (ha : a.length = 10) :
    run P (n + 1) path 0 (n! "buildRoundConstants") [] (withRc h a) = .ok [] ⟨withRc h _root_.Whirlpool.rc, []⟩ := by
  rw [run_func hP (find_rcs.trans (congrArg some rcs_eq))]
  have hl := exec_for (C := P.ctx n pkg (n! "buildRoundConstants") .nil (run P n)) (nm := n! "r") (lim := .id (n! "rounds")) (N := 10) (body := rcBody) (σ := List U64) hW rfl (by decide) (by decide) (rcStep _root_.Whirlpool.ct) (fun c => c.length = 10) (withRc h) (fun _ => []) 0 (fun _ => rfl)
    (by intro i s; eval_go) (by intro i s hi hs; exact rc_body hW hh hct ct_length hs hi) ha (show 10 < n by omega)
  rw [rc_steps ha] at hl
  eval_go [↓hl.1]

end

end Source.MakeTables
