import Verif.Code.Ripemd4
import Verif.Lang.Segments

/-!
# The code of package `ripemd`: `hash160` and `hash320`
-/
namespace Source.Ripemd
open GoLang BlockHash
open _root_.Ripemd (Regs4 Regs5)

/-- A step of `hash160` and `hash320`. -/
def st5 (x : List U32) (round : Nat) (tk tkk : U32) (j : Nat) (g : Regs5) : Regs5 :=
  ⟨g.e, g.e + (g.a + RipemdSpec.f round g.b g.c g.d + wordAt x (tab _root_.Ripemd.r j) + tk).rotateLeft (tab _root_.Ripemd.s j).toNat, g.b, g.c.rotateLeft 10, g.d,
   g.ee, g.ee + (g.aa + RipemdSpec.f (4 - round) g.bb g.cc g.dd + wordAt x (tab _root_.Ripemd.rr j) + tkk).rotateLeft (tab _root_.Ripemd.ss j).toNat, g.bb,
   g.cc.rotateLeft 10, g.dd⟩

theorem st5_eq {x : List U32} (hx : x.length = 16) {round : Nat} (hr : round < 5) (tk tkk : U32) {j : Nat} (hj : j < 80) (g : Regs5) :
    _root_.Ripemd.step5 x round tk tkk j g = .ok (st5 x round tk tkk j g) := by
  obtain ⟨h1, h2, h3, h4⟩ := tables ⟨j, hj⟩
  unfold _root_.Ripemd.step5 _root_.Ripemd.xAt
  rw [_root_.Ripemd.f_at (i := round) (by omega), _root_.Ripemd.f_at (i := 4 - round) (by omega), tab_ok _root_.Ripemd.r hj, tab_ok _root_.Ripemd.rr hj,
    tab_ok _root_.Ripemd.s hj, tab_ok _root_.Ripemd.ss hj]
  simp only [Res.ok_bind, Res.pure_eq, word_ok hx h1, word_ok hx h2, _root_.Ripemd.rotateLeft32_eq _ h3, _root_.Ripemd.rotateLeft32_eq _ h4,
    _root_.Ripemd.rotateLeft32_eq _ (show 10 < 32 by decide)]
  rfl

/-- Steps one after another. -/
def iter5 (x : List U32) (round : Nat) (tk tkk : U32) (j : Nat) (g : Regs5) : Nat → Regs5
  | 0 => g
  | i + 1 => st5 x round tk tkk (j + i) (iter5 x round tk tkk j g i)

theorem iter5_front (x : List U32) (round : Nat) (tk tkk : U32) (j : Nat) (g : Regs5) (i : Nat) :
    iter5 x round tk tkk j g (i + 1) = iter5 x round tk tkk (j + 1) (st5 x round tk tkk j g) i := by
  induction i with
  | zero => rfl
  | succ i ih => rw [iter5, ih, iter5, Nat.add_assoc, Nat.add_comm 1 i]

theorem loop5_iter {x : List U32} (hx : x.length = 16) {round : Nat} (hr : round < 5) (tk tkk : U32) (n j : Nat) (hj : j + n ≤ 80) (g : Regs5) :
    _root_.Ripemd.loop5 x round tk tkk n j g = .ok (iter5 x round tk tkk j g n) := by
  induction n generalizing j g with
  | zero => rfl
  | succ n ih =>
    rw [_root_.Ripemd.loop5, st5_eq hx hr tk tkk (by omega), Res.ok_bind, ih (j + 1) (by omega), iter5_front]

theorem round5_ok {x : List U32} (hx : x.length = 16) {round : Nat} (hr : round < 5) (g : Regs5) :
    _root_.Ripemd.round5 x round g = .ok (iter5 x round (constOf _root_.Ripemd.k round) (constOf _root_.Ripemd.kk round) (round * 16) g 16) := by
  have hk1 : round * 4 + 4 ≤ _root_.Ripemd.k.length := by rw [show _root_.Ripemd.k.length = 20 from rfl]; omega
  have hk2 : round * 4 + 4 ≤ _root_.Ripemd.kk.length := by rw [show _root_.Ripemd.kk.length = 20 from rfl]; omega
  rw [_root_.Ripemd.round5, const_ok hk1, const_ok hk2, Res.ok_bind, Res.ok_bind, loop5_iter hx hr _ _ _ _ (by omega)]

/-- The variables of `hash160` in the outer loop. -/
def env160 (round : Nat) (ax a : Nat) (g : Regs5) : List (Name × Val) := [(n! "round", .int round), (n! "x", .slice ax [] 0 16 16), (n! "ee", .u32 g.ee), (n! "dd", .u32 g.dd), (n! "cc", .u32 g.cc), (n! "bb", .u32 g.bb),
  (n! "aa", .u32 g.aa), (n! "e", .u32 g.e), (n! "d", .u32 g.d), (n! "c", .u32 g.c), (n! "b", .u32 g.b), (n! "a", .u32 g.a), (n! "ctx", obj path ty a)]

/-- The body of the loops of `hash320`. -/
def body320 : Stmts := .cons
    (.assign (.cons (.id (n! "t")) .nil) (.cons (.bin .add (.id (n! "e")) (.call (.sel (.id (n! "bits")) (n! "RotateLeft32")) (.cons (.bin .add (.bin .add (.bin .add (.id (n! "a")) (.call (.idx (.id (n! "f")) (.id (n! "round"))) (.cons (.id (n! "b")) (.cons (.id (n! "c")) (.cons (.id (n! "d")) .nil))) false)) (.idx (.id (n! "x")) (.idx (.id (n! "r")) (.id (n! "j"))))) (.id (n! "tk"))) (.cons (.call (.id (n! "int")) (.cons (.idx (.id (n! "s")) (.id (n! "j"))) .nil) false) .nil)) false)) .nil)) (.cons
    (.assign (.cons (.id (n! "a")) (.cons (.id (n! "e")) (.cons (.id (n! "d")) (.cons (.id (n! "c")) (.cons (.id (n! "b")) .nil))))) (.cons (.id (n! "e")) (.cons (.id (n! "d")) (.cons (.call (.sel (.id (n! "bits")) (n! "RotateLeft32")) (.cons (.id (n! "c")) (.cons (.int 10) .nil)) false) (.cons (.id (n! "b")) (.cons (.id (n! "t")) .nil)))))) (.cons
    (.assign (.cons (.id (n! "t")) .nil) (.cons (.bin .add (.id (n! "ee")) (.call (.sel (.id (n! "bits")) (n! "RotateLeft32")) (.cons (.bin .add (.bin .add (.bin .add (.id (n! "aa")) (.call (.idx (.id (n! "f")) (.bin .sub (.int 4) (.id (n! "round")))) (.cons (.id (n! "bb")) (.cons (.id (n! "cc")) (.cons (.id (n! "dd")) .nil))) false)) (.idx (.id (n! "x")) (.idx (.id (n! "rr")) (.id (n! "j"))))) (.id (n! "tkk"))) (.cons (.call (.id (n! "int")) (.cons (.idx (.id (n! "ss")) (.id (n! "j"))) .nil) false) .nil)) false)) .nil)) (.cons
    (.assign (.cons (.id (n! "aa")) (.cons (.id (n! "ee")) (.cons (.id (n! "dd")) (.cons (.id (n! "cc")) (.cons (.id (n! "bb")) .nil))))) (.cons (.id (n! "ee")) (.cons (.id (n! "dd")) (.cons (.call (.sel (.id (n! "bits")) (n! "RotateLeft32")) (.cons (.id (n! "cc")) (.cons (.int 10) .nil)) false) (.cons (.id (n! "bb")) (.cons (.id (n! "t")) .nil)))))) .nil)))

/-- The variables of `hash320` in its loops. -/
def env320 (t tkk tk : U32) (rv j : Int) (ax a : Nat) (g : Regs5) : List (Name × Val) := [(n! "t", .u32 t), (n! "tkk", .u32 tkk), (n! "tk", .u32 tk),
  (n! "round", .int rv), (n! "j", .int j), (n! "x", .slice ax [] 0 16 16), (n! "ee", .u32 g.ee), (n! "dd", .u32 g.dd), (n! "cc", .u32 g.cc), (n! "bb", .u32 g.bb),
  (n! "aa", .u32 g.aa), (n! "e", .u32 g.e), (n! "d", .u32 g.d), (n! "c", .u32 g.c), (n! "b", .u32 g.b), (n! "a", .u32 g.a), (n! "ctx", obj path ty a)]

/-- A round of `hash320` after the first. -/
def seg320 (r lim : Nat) : Stmts :=
  .cons (.assign (.cons (.id (n! "round")) .nil) (.cons (.int r) .nil)) (.cons
  (.assign (.cons (.id (n! "tk")) .nil) (.cons (.call (.sel (.sel (.id (n! "binary")) (n! "BigEndian")) (n! "Uint32")) (.cons (.call (.ty (.slice (.name (n! "byte")))) (.cons (.slc (.id (n! "k")) (.bin .mul (.id (n! "round")) (.int 4)) (.bin .add (.bin .mul (.id (n! "round")) (.int 4)) (.int 4))) .nil) false) .nil) false) .nil)) (.cons
  (.assign (.cons (.id (n! "tkk")) .nil) (.cons (.call (.sel (.sel (.id (n! "binary")) (n! "BigEndian")) (n! "Uint32")) (.cons (.call (.ty (.slice (.name (n! "byte")))) (.cons (.slc (.id (n! "kk")) (.bin .mul (.id (n! "round")) (.int 4)) (.bin .add (.bin .mul (.id (n! "round")) (.int 4)) (.int 4))) .nil) false) .nil) false) .nil)) (.cons
  (.for .skip (.bin .lt (.id (n! "j")) (.int lim)) (.opAssign .add (.id (n! "j")) (.int 1)) body320) .nil)))

theorem hash320_ok {s0 s1 s2 s3 s4 s5 s6 s7 s8 s9 : U32} {len : U64} {block : List U8} {bPos : Nat} (hb : block.length = 64) {g0 g1 g2 g3 g4 : Regs5}
    (r0 : _root_.Ripemd.round5 (words block) 0 ⟨s0, s1, s2, s3, s4, s5, s6, s7, s8, s9⟩ = .ok g0)
    (r1 : _root_.Ripemd.round5 (words block) 1 { g0 with b := g0.bb, bb := g0.b } = .ok g1)
    (r2 : _root_.Ripemd.round5 (words block) 2 { g1 with d := g1.dd, dd := g1.d } = .ok g2)
    (r3 : _root_.Ripemd.round5 (words block) 3 { g2 with a := g2.aa, aa := g2.a } = .ok g3)
    (r4 : _root_.Ripemd.round5 (words block) 4 { g3 with c := g3.cc, cc := g3.c } = .ok g4) :
    _root_.Ripemd.hash320 ⟨[s0, s1, s2, s3, s4, s5, s6, s7, s8, s9], len, block, bPos⟩ =
      .ok ⟨[s0 + g4.a, s1 + g4.b, s2 + g4.c, s3 + g4.d, s4 + g4.ee, s5 + g4.aa, s6 + g4.bb, s7 + g4.cc, s8 + g4.dd, s9 + g4.e], len, block, 0⟩ := by
  unfold _root_.Ripemd.hash320
  rw [_root_.Ripemd.getX_eq _ hb]
  simp only [goIdx, List.getElem?_cons_zero, List.getElem?_cons_succ, Res.ok_bind]
  unfold words at r0 r1 r2 r3 r4
  rw [r0, Res.ok_bind, r1, Res.ok_bind, r2, Res.ok_bind, r3, Res.ok_bind, r4, Res.ok_bind]
  rfl

/-- The body of `hash320`. -/
def B320 : Stmts := bodyOf Ripe320.hash320

theorem find_split320 : findFunc 0 (n! "hash320") pkg.decls = some (.func 0 false 0 (n! "hash320") (.cons (n! "ctx") (.ptr (.name (n! "ripeCtx"))) .nil) .nil (appS (takeS 17 B320) (dropS 17 B320))) := by kernel_rfl

theorem drop320_1 : dropS 17 B320 = .cons (.assign (.cons (.id (n! "b")) (.cons (.id (n! "bb")) .nil)) (.cons (.id (n! "bb")) (.cons (.id (n! "b")) .nil))) (appS (seg320 1 32) (dropS 22 B320)) := by kernel_rfl
theorem drop320_2 : dropS 22 B320 = .cons (.assign (.cons (.id (n! "d")) (.cons (.id (n! "dd")) .nil)) (.cons (.id (n! "dd")) (.cons (.id (n! "d")) .nil))) (appS (seg320 2 48) (dropS 27 B320)) := by kernel_rfl
theorem drop320_3 : dropS 27 B320 = .cons (.assign (.cons (.id (n! "a")) (.cons (.id (n! "aa")) .nil)) (.cons (.id (n! "aa")) (.cons (.id (n! "a")) .nil))) (appS (seg320 3 64) (dropS 32 B320)) := by kernel_rfl
theorem drop320_4 : dropS 32 B320 = .cons (.assign (.cons (.id (n! "c")) (.cons (.id (n! "cc")) .nil)) (.cons (.id (n! "cc")) (.cons (.id (n! "c")) .nil))) (appS (seg320 4 80) (dropS 37 B320)) := by kernel_rfl
theorem drop320_5 : dropS 37 B320 = .cons (.assign (.cons (.id (n! "e")) (.cons (.id (n! "ee")) .nil)) (.cons (.id (n! "ee")) (.cons (.id (n! "e")) .nil))) (dropS 38 B320) := by kernel_rfl

theorem tail320 {H : List Val} {a ax : Nat} {hash : Name} {stateLen : Nat} {s0 s1 s2 s3 s4 s5 s6 s7 s8 s9 : U32} {len : U64} {block : List U8} {bPos : Nat}
    (hH : H[a]? = some (rep hash stateLen ⟨[s0, s1, s2, s3, s4, s5, s6, s7, s8, s9], len, block, bPos⟩)) (t tkk tk : U32) (rv j : Int) (g : Regs5) (C : GoLang.Ctx) :
    execs C (dropS 38 B320) ⟨H, env320 t tkk tk rv j ax a g⟩ = .ok .next ⟨H.set a (rep hash stateLen
      ⟨[s0 + g.a, s1 + g.b, s2 + g.c, s3 + g.d, s4 + g.e, s5 + g.aa, s6 + g.bb, s7 + g.cc, s8 + g.dd, s9 + g.ee], len, block, 0⟩), env320 t tkk tk rv j ax a g⟩ := by
  have hl := lt_of_get hH
  obtain ⟨H', hH'⟩ : ∃ H', H = H'.set a (rep hash stateLen ⟨[s0, s1, s2, s3, s4, s5, s6, s7, s8, s9], len, block, bPos⟩) :=
    ⟨H, by obtain ⟨_, h2⟩ := List.getElem?_eq_some_iff.1 hH; rw [← h2, List.set_getElem_self]⟩
  subst hH'
  rw [List.length_set] at hl
  rw [List.set_set]
  have e0 := exec_add (H := H') (hash := hash) (sl := stateLen) (env := env320 t tkk tk rv j ax a g)
    (c := ⟨[s0, s1, s2, s3, s4, s5, s6, s7, s8, s9], len, block, bPos⟩) hl rfl (i := 0) (nm := n! "a") (by decide) rfl rfl C
  have e1 := exec_add (H := H') (hash := hash) (sl := stateLen) (env := env320 t tkk tk rv j ax a g)
    (c := ⟨[s0 + g.a, s1, s2, s3, s4, s5, s6, s7, s8, s9], len, block, bPos⟩) hl rfl (i := 1) (nm := n! "b") (by decide) rfl rfl C
  have e2 := exec_add (H := H') (hash := hash) (sl := stateLen) (env := env320 t tkk tk rv j ax a g)
    (c := ⟨[s0 + g.a, s1 + g.b, s2, s3, s4, s5, s6, s7, s8, s9], len, block, bPos⟩) hl rfl (i := 2) (nm := n! "c") (by decide) rfl rfl C
  have e3 := exec_add (H := H') (hash := hash) (sl := stateLen) (env := env320 t tkk tk rv j ax a g)
    (c := ⟨[s0 + g.a, s1 + g.b, s2 + g.c, s3, s4, s5, s6, s7, s8, s9], len, block, bPos⟩) hl rfl (i := 3) (nm := n! "d") (by decide) rfl rfl C
  have e4 := exec_add (H := H') (hash := hash) (sl := stateLen) (env := env320 t tkk tk rv j ax a g)
    (c := ⟨[s0 + g.a, s1 + g.b, s2 + g.c, s3 + g.d, s4, s5, s6, s7, s8, s9], len, block, bPos⟩) hl rfl (i := 4) (nm := n! "e") (by decide) rfl rfl C
  have e5 := exec_add (H := H') (hash := hash) (sl := stateLen) (env := env320 t tkk tk rv j ax a g)
    (c := ⟨[s0 + g.a, s1 + g.b, s2 + g.c, s3 + g.d, s4 + g.e, s5, s6, s7, s8, s9], len, block, bPos⟩) hl rfl (i := 5) (nm := n! "aa") (by decide) rfl rfl C
  have e6 := exec_add (H := H') (hash := hash) (sl := stateLen) (env := env320 t tkk tk rv j ax a g)
    (c := ⟨[s0 + g.a, s1 + g.b, s2 + g.c, s3 + g.d, s4 + g.e, s5 + g.aa, s6, s7, s8, s9], len, block, bPos⟩) hl rfl (i := 6) (nm := n! "bb") (by decide) rfl rfl C
  have e7 := exec_add (H := H') (hash := hash) (sl := stateLen) (env := env320 t tkk tk rv j ax a g)
    (c := ⟨[s0 + g.a, s1 + g.b, s2 + g.c, s3 + g.d, s4 + g.e, s5 + g.aa, s6 + g.bb, s7, s8, s9], len, block, bPos⟩) hl rfl (i := 7) (nm := n! "cc") (by decide) rfl rfl C
  have e8 := exec_add (H := H') (hash := hash) (sl := stateLen) (env := env320 t tkk tk rv j ax a g)
    (c := ⟨[s0 + g.a, s1 + g.b, s2 + g.c, s3 + g.d, s4 + g.e, s5 + g.aa, s6 + g.bb, s7 + g.cc, s8, s9], len, block, bPos⟩) hl rfl (i := 8) (nm := n! "dd") (by decide) rfl rfl C
  have e9 := exec_add (H := H') (hash := hash) (sl := stateLen) (env := env320 t tkk tk rv j ax a g)
    (c := ⟨[s0 + g.a, s1 + g.b, s2 + g.c, s3 + g.d, s4 + g.e, s5 + g.aa, s6 + g.bb, s7 + g.cc, s8 + g.dd, s9], len, block, bPos⟩) hl rfl (i := 9) (nm := n! "ee") (by decide) rfl rfl C
  simp only [List.set_cons_succ, List.set_cons_zero, List.getD_cons_succ, List.getD_cons_zero] at e0 e1 e2 e3 e4 e5 e6 e7 e8 e9
  simp only [dropS, B320, bodyOf, Ripe320.hash320]
  eval_go [↓e0, ↓e1, ↓e2, ↓e3, ↓e4, ↓e5, ↓e6, ↓e7, ↓e8, ↓e9]
  eval_go [env320, List.getElem?_set_self, List.set_set, List.length_set, hl]
  rfl

section
variable {P : Prog} (hP : findPkg path P.pkgs = some pkg) (hS : P.std = stdlib) (hB : elemN (n! "encoding/binary") (P.pkgs.map Pkg.path) = false)
  (hM : elemN (n! "math/bits") (P.pkgs.map Pkg.path) = false) (hW : 32 ≤ P.W)

include hP hS hB hM hW

theorem run_hash160 {h : List Val} {a : Nat} {hash : Name} {stateLen : Nat} {c : Ctx U32} (ha : h[a]? = some (rep hash stateLen c))
    (hst : c.state.length = 10) (hb : c.block.length = 64) {n : Nat} (hn : 18 < n) :
    ∃ t c', _root_.Ripemd.hash160 c = .ok c' ∧ c'.state.length = 10 ∧ c'.block.length = 64 ∧ c'.len = c.len ∧ c'.bPos = 0 ∧
      run P (n + 1) path 0 (n! "hash160") [obj path ty a] h = .ok [] ⟨h.set a (rep hash stateLen c') ++ t, []⟩ := by
  obtain ⟨m, rfl⟩ : ∃ m, n = m + 1 := ⟨n - 1, by omega⟩
  obtain ⟨st, len, block, bPos⟩ := c
  obtain ⟨s0, s1, s2, s3, s4, s5, s6, s7, s8, s9, rfl⟩ : ∃ s0 s1 s2 s3 s4 s5 s6 s7 s8 s9, st = [s0, s1, s2, s3, s4, s5, s6, s7, s8, s9] := by
    match st, hst with
    | [s0, s1, s2, s3, s4, s5, s6, s7, s8, s9], _ => exact ⟨_, _, _, _, _, _, _, _, _, _, rfl⟩
  have hW0 : 0 < P.W := by omega
  have h31 : (2 : Int) ^ 31 ≤ 2 ^ (P.W - 1) := by exact_mod_cast Nat.pow_le_pow_right (by decide) (by omega)
  have hg := run_getX hP hS hB hW ha hb (n := m) (by omega)
  simp only at hb hg
  rw [run_func hP find_hash160]
  eval_go [ha, ↓hg, Int.reduceLE, Int.reduceLT, List.getElem?_cons_succ, List.getElem?_cons_zero]
  generalize hlp : loop _ _ _ _ _ = o
  clear hg
  obtain ⟨t, g, hg, rfl⟩ : ∃ t g, _root_.Ripemd.rounds5 (words block) 5 0 ⟨s0, s1, s2, s3, s4, s0, s1, s2, s3, s4⟩ = .ok g ∧
      o = .ok .next ⟨h ++ [.arr ((words block).map .u32)] ++ t, env160 5 h.length a g⟩ := by
    refine loop_post (α := Nat × Regs5 × List Val)
      (fun o => ∃ t g, _root_.Ripemd.rounds5 (words block) 5 0 ⟨s0, s1, s2, s3, s4, s0, s1, s2, s3, s4⟩ = .ok g ∧
        o = .ok .next ⟨h ++ [.arr ((words block).map .u32)] ++ t, env160 5 h.length a g⟩)
      (fun x => x.1 ≤ 5 ∧ _root_.Ripemd.rounds5 (words block) 5 0 ⟨s0, s1, s2, s3, s4, s0, s1, s2, s3, s4⟩ = _root_.Ripemd.rounds5 (words block) (5 - x.1) x.1 x.2.1)
      (fun x => ⟨h ++ [.arr ((words block).map .u32)] ++ x.2.2, env160 x.1 h.length a x.2.1⟩) (fun x => 5 - x.1) ?_
      (0, ⟨s0, s1, s2, s3, s4, s0, s1, s2, s3, s4⟩, []) ⟨by omega, rfl⟩ (by simp only; omega) ?_ hlp
    · clear hlp
      rintro ⟨round, g, t⟩ k ⟨hr, e⟩ hk ih
      simp only at hr e hk ih ⊢
      by_cases hr5 : round < 5
      · have hrI : (round : Int) < 5 := by omega
        have hax : ∀ t', (h ++ [.arr ((words block).map .u32)] ++ t ++ t')[h.length]? = some (.arr ((words block).map .u32)) := by
          intro t'
          simp
        have hk1 : round * 4 + 4 ≤ _root_.Ripemd.k.length := by rw [show _root_.Ripemd.k.length = 20 from rfl]; omega
        have hk2 : round * 4 + 4 ≤ _root_.Ripemd.kk.length := by rw [show _root_.Ripemd.kk.length = 20 from rfl]; omega
        have hw1 : wrap P.W ((round : Int) * 4) = (round * 4 : Nat) := by
          rw [← wrap_nat (W := P.W) (i := round * 4) (by omega) hW0]; rfl
        have hw2 : wrap P.W (((round * 4 : Nat) : Int) + 4) = (round * 4 + 4 : Nat) := by
          rw [← wrap_nat (W := P.W) (i := round * 4 + 4) (by omega) hW0]; rfl
        have hw3 : wrap P.W ((round : Int) + 1) = (round + 1 : Nat) := by
          rw [← wrap_nat (W := P.W) (i := round + 1) (by omega) hW0]; rfl
        have hw4 : wrap P.W (((round + 1 : Nat) : Int) * 16) = ((round + 1) * 16 : Nat) := by
          rw [← wrap_nat (W := P.W) (i := (round + 1) * 16) (by omega) hW0]; rfl
        have hw5 : wrap P.W ((round : Int) * 16) = (round * 16 : Nat) := by
          rw [← wrap_nat (W := P.W) (i := round * 16) (by omega) hW0]; rfl
        rw [loop]
        simp only [env160]
        eval_go [hrI, hw1, hw2, hw3, hw4, hw5, ↓slice_const hk1, ↓slice_const hk2, constBytes_length hk1, constBytes_length hk2, hS, hB, std_be32, ↓read_const hk1, ↓read_const hk2]
        have hax := hax ([.arr ((constBytes _root_.Ripemd.k round).map .u8)] ++ [.arr ((constBytes _root_.Ripemd.kk round).map .u8)])
        rw [← List.append_assoc] at hax
        generalize hlp2 : loop _ _ _ _ _ = o2
        generalize hH : h ++ [.arr ((words block).map .u32)] ++ t ++ [.arr ((constBytes _root_.Ripemd.k round).map .u8)] ++
          [.arr ((constBytes _root_.Ripemd.kk round).map .u8)] = H at hax hlp2
        have hlp3 : o2 = .ok .next ⟨H, (n! "j", .int (round * 16 + 16 : Nat)) :: (n! "tkk", .u32 (constOf _root_.Ripemd.kk round)) ::
            (n! "tk", .u32 (constOf _root_.Ripemd.k round)) :: (n! "n", .int ((round + 1) * 16 : Nat)) ::
            env160 round h.length a (iter5 (words block) round (constOf _root_.Ripemd.k round) (constOf _root_.Ripemd.kk round) (round * 16) g 16)⟩ := by
          rw [← hlp2]
          refine loop_count (fun i => ⟨H, (n! "j", .int (round * 16 + i : Nat)) :: (n! "tkk", .u32 (constOf _root_.Ripemd.kk round)) ::
            (n! "tk", .u32 (constOf _root_.Ripemd.k round)) :: (n! "n", .int ((round + 1) * 16 : Nat)) ::
            env160 round h.length a (iter5 (words block) round (constOf _root_.Ripemd.k round) (constOf _root_.Ripemd.kk round) (round * 16) g i)⟩) 16 ?_ ?_ (by omega) rfl
          · intro i hi
            generalize constOf _root_.Ripemd.kk round = tkk
            generalize constOf _root_.Ripemd.k round = tk
            rw [iter5]
            generalize iter5 (words block) round tk tkk (round * 16) g i = g'
            have hi1 : ((round * 16 + i : Nat) : Int) < ((round + 1) * 16 : Nat) := by omega
            generalize hj : round * 16 + i = j at hi1 ⊢
            have hj80 : j < 80 := by omega
            obtain ⟨t1, t2, t3, t4⟩ := tables ⟨j, hj80⟩
            simp only at t1 t2 t3 t4
            have e1 := tab_str _root_.Ripemd.r hj80
            have e2 := tab_str _root_.Ripemd.rr hj80
            have e3 := tab_str _root_.Ripemd.s hj80
            have e4 := tab_str _root_.Ripemd.ss hj80
            have e5 := word_elem (words_length block) t1 hax
            have e6 := word_elem (words_length block) t2 hax
            have e7 := f_elem (i := round) (by omega)
            have e8 := f_elem (i := 4 - round) (by omega)
            have e9 : wrap P.W (4 - (round : Int)) = (4 - round : Nat) := by
              rw [← wrap_nat (W := P.W) (i := 4 - round) (by omega) hW0]
              congr 1
              omega
            have q3 : ((tab _root_.Ripemd.s j).toNat : Int) % 32 = (tab _root_.Ripemd.s j).toNat := by omega
            have q4 : ((tab _root_.Ripemd.ss j).toNat : Int) % 32 = (tab _root_.Ripemd.ss j).toNat := by omega
            have w3 : wrap P.W ((tab _root_.Ripemd.s j).toNat : Int) = (tab _root_.Ripemd.s j).toNat := wrap_nat (by omega) hW0
            have w4 : wrap P.W ((tab _root_.Ripemd.ss j).toNat : Int) = (tab _root_.Ripemd.ss j).toNat := wrap_nat (by omega) hW0
            have w5 : wrap P.W ((j : Int) + 1) = (j + 1 : Nat) := by
              rw [← wrap_nat (W := P.W) (i := j + 1) (by omega) hW0]; rfl
            have f1 := run_f hP (i := round) (by omega) (_root_.Ripemd.f_at (by omega)) 
            have f2 := run_f hP (i := 4 - round) (by omega) (_root_.Ripemd.f_at (by omega)) 
            have hR := elem_repo hP
            have q10 : ((10 : Int) % 32).toNat = 10 := rfl
            constructor
            · eval_go [env160, hi1]
            · refine ⟨⟨H, (n! "j", .int j) :: (n! "tkk", .u32 tkk) :: (n! "tk", .u32 tk) :: (n! "n", .int ((round + 1) * 16 : Nat)) ::
                env160 round h.length a (st5 (words block) round tk tkk j g')⟩, ?_, ?_⟩
              · eval_go [env160, ↓e1, ↓e2, ↓e3, ↓e4, ↓e5, ↓e6, ↓e7, ↓e8, e9, q3, q4, w3, w4, ↓f1, ↓f2, hR, hS, hM, std_rotate, std_rotate', q10, st5, Int.toNat_natCast]
              · have : round * 16 + (i + 1) = j + 1 := by omega
                eval_go [env160, w5, this]
          · have : ¬ (((round * 16 + 16 : Nat) : Int) < ((round + 1) * 16 : Nat)) := by omega
            eval_go [env160, this]
        subst hlp3
        have hend := ih (round + 1, iter5 (words block) round (constOf _root_.Ripemd.k round) (constOf _root_.Ripemd.kk round) (round * 16) g 16,
          t ++ [.arr ((constBytes _root_.Ripemd.k round).map .u8)] ++ [.arr ((constBytes _root_.Ripemd.kk round).map .u8)]) ⟨by simp only; omega, ?_⟩ (by simp only; omega)
        · simp only [env160, ← List.append_assoc, hH] at hend
          eval_go [env160, hw3]
          exact hend
        · rw [e]
          obtain ⟨q, hq⟩ : ∃ q, 5 - round = q + 1 := ⟨4 - round, by omega⟩
          have hq' : 5 - (round + 1) = q := by omega
          rw [hq, hq', _root_.Ripemd.rounds5, round5_ok (words_length block) hr5, Res.ok_bind]
      · have hr : round = 5 := by omega
        subst hr
        rw [loop]
        refine ⟨t, g, e, ?_⟩
        eval_go [env160, Int.reduceLT]
    · eval_go [env160, List.append_nil]
  clear hlp
  have hal := lt_of_get ha
  have hH : (h ++ [.arr ((words block).map .u32)] ++ t)[a]? = some (rep hash stateLen ⟨[s0, s1, s2, s3, s4, s5, s6, s7, s8, s9], len, block, bPos⟩) := by
    rw [List.append_assoc, List.getElem?_append_left hal, ha]
  have hl : a < (h ++ [Val.arr ((words block).map .u32)] ++ t).length := lt_of_get hH
  refine ⟨[.arr ((words block).map .u32)] ++ t,
    ⟨[s1 + g.c + g.dd, s2 + g.d + g.ee, s3 + g.e + g.aa, s4 + g.a + g.bb, s0 + g.b + g.cc, s5, s6, s7, s8, s9], len, block, 0⟩, ?_, rfl, hb, rfl, rfl, ?_⟩
  · unfold _root_.Ripemd.hash160
    rw [_root_.Ripemd.getX_eq _ hb]
    simp only [goIdx, List.getElem?_cons_zero, List.getElem?_cons_succ, Res.ok_bind]
    have hg' := hg
    unfold words at hg'
    rw [hg']
    rfl
  rw [← List.set_append_left _ _ hal, ← List.append_assoc]
  generalize h ++ [Val.arr ((words block).map .u32)] ++ t = H at *
  eval_go [env160, hH, Int.reduceLE, Int.reduceLT, List.getElem?_cons_succ, List.getElem?_cons_zero, List.getElem?_set_self, List.set_cons_succ, List.set_cons_zero, List.set_set, List.length_set, hl]
  rfl

/-- A loop of `hash320`. -/
theorem loop320 {H : List Val} {ax a : Nat} {block : List U8} (hax : H[ax]? = some (.arr ((words block).map .u32))) {round : Nat} (hr : round < 5)
    {rv j0 j1 : Int} {lim : Nat} (hrv : rv = round) (hlim : lim = (round + 1) * 16) (hj1 : j1 = ((round + 1) * 16 : Nat)) (hj0 : j0 = (round * 16 : Nat)) (t tkk tk : U32) (g : Regs5) {m : Nat} (hm : 16 < m) :
    ∃ t', loop (evalBool (P.ctx (m + 1) pkg (n! "hash320") .nil (run P (m + 1))) (.bin .lt (.id (n! "j")) (.int lim)))
      (scope (execs (P.ctx (m + 1) pkg (n! "hash320") .nil (run P (m + 1))) body320))
      (do let _ ← exec (P.ctx (m + 1) pkg (n! "hash320") .nil (run P (m + 1))) (.opAssign .add (.id (n! "j")) (.int 1)); pure ()) (m + 1)
      ⟨H, env320 t tkk tk rv j0 ax a g⟩ = .ok .next ⟨H, env320 t' tkk tk rv j1 ax a (iter5 (words block) round tk tkk (round * 16) g 16)⟩ := by
  have hW0 : 0 < P.W := by omega
  have h31 : (2 : Int) ^ 31 ≤ 2 ^ (P.W - 1) := by exact_mod_cast Nat.pow_le_pow_right (by decide) (by omega)
  subst hrv hlim hj0 hj1
  have key := loop_count (cond := evalBool (P.ctx (m + 1) pkg (n! "hash320") .nil (run P (m + 1))) (.bin .lt (.id (n! "j")) (.int ((round + 1) * 16))))
    (body := scope (execs (P.ctx (m + 1) pkg (n! "hash320") .nil (run P (m + 1))) body320))
    (post := do let _ ← exec (P.ctx (m + 1) pkg (n! "hash320") .nil (run P (m + 1))) (.opAssign .add (.id (n! "j")) (.int 1)); pure ())
    (fun i => ⟨H, env320 (match i with | 0 => t | i + 1 => (st5 (words block) round tk tkk (round * 16 + i) (iter5 (words block) round tk tkk (round * 16) g i)).bb)
      tkk tk round (round * 16 + i : Nat) ax a (iter5 (words block) round tk tkk (round * 16) g i)⟩) 16 ?_ ?_ (n := m + 1) (by omega) rfl
  · exact ⟨_, key.trans (by rw [show round * 16 + 16 = (round + 1) * 16 by omega])⟩
  · intro i hi
    simp only
    rw [iter5]
    generalize iter5 (words block) round tk tkk (round * 16) g i = g'
    generalize (match i with | 0 => t | i + 1 => (st5 (words block) round tk tkk (round * 16 + i) (iter5 (words block) round tk tkk (round * 16) g i)).bb) = t0
    have hi1 : ((round * 16 + i : Nat) : Int) < ((round + 1) * 16 : Nat) := by omega
    generalize hj : round * 16 + i = j at hi1 ⊢
    have hj80 : j < 80 := by omega
    obtain ⟨t1, t2, t3, t4⟩ := tables ⟨j, hj80⟩
    simp only at t1 t2 t3 t4
    have e1 := tab_str _root_.Ripemd.r hj80
    have e2 := tab_str _root_.Ripemd.rr hj80
    have e3 := tab_str _root_.Ripemd.s hj80
    have e4 := tab_str _root_.Ripemd.ss hj80
    have e5 := word_elem (words_length block) t1 hax
    have e6 := word_elem (words_length block) t2 hax
    have e7 := f_elem (i := round) (by omega)
    have e8 := f_elem (i := 4 - round) (by omega)
    have e9 : wrap P.W (4 - (round : Int)) = (4 - round : Nat) := by
      rw [← wrap_nat (W := P.W) (i := 4 - round) (by omega) hW0]
      congr 1
      omega
    have q3 : ((tab _root_.Ripemd.s j).toNat : Int) % 32 = (tab _root_.Ripemd.s j).toNat := by omega
    have q4 : ((tab _root_.Ripemd.ss j).toNat : Int) % 32 = (tab _root_.Ripemd.ss j).toNat := by omega
    have w3 : wrap P.W ((tab _root_.Ripemd.s j).toNat : Int) = (tab _root_.Ripemd.s j).toNat := wrap_nat (by omega) hW0
    have w4 : wrap P.W ((tab _root_.Ripemd.ss j).toNat : Int) = (tab _root_.Ripemd.ss j).toNat := wrap_nat (by omega) hW0
    have w5 : wrap P.W ((j : Int) + 1) = (j + 1 : Nat) := by
      rw [← wrap_nat (W := P.W) (i := j + 1) (by omega) hW0]; rfl
    have f1 := run_f hP (i := round) (by omega) (_root_.Ripemd.f_at (by omega))
    have f2 := run_f hP (i := 4 - round) (by omega) (_root_.Ripemd.f_at (by omega))
    have hR := elem_repo hP
    have q10 : ((10 : Int) % 32).toNat = 10 := rfl
    constructor
    · eval_go [env320, hi1]
    · refine ⟨⟨H, env320 (st5 (words block) round tk tkk j g').bb tkk tk round j ax a (st5 (words block) round tk tkk j g')⟩, ?_, ?_⟩
      · eval_go [env320, body320, ↓e1, ↓e2, ↓e3, ↓e4, ↓e5, ↓e6, ↓e7, ↓e8, e9, q3, q4, w3, w4, ↓f1, ↓f2, hR, hS, hM, std_rotate, std_rotate', q10, st5, Int.toNat_natCast]
      · have : round * 16 + (i + 1) = j + 1 := by omega
        eval_go [env320, w5, this]
  · have : ¬ (((round * 16 + 16 : Nat) : Int) < ((round + 1) * 16 : Nat)) := by omega
    eval_go [env320, this]

theorem run_seg320 {H : List Val} {ax a : Nat} {block : List U8} (hax : H[ax]? = some (.arr ((words block).map .u32))) {round : Nat} (hr : round < 5)
    {rv rv' j0 j1 : Int} {lim : Nat} (hrv : rv' = round) (hlim : lim = (round + 1) * 16) (hj1 : j1 = ((round + 1) * 16 : Nat)) (hj0 : j0 = (round * 16 : Nat)) (t tkk tk : U32)
    (g : Regs5) {m : Nat} (hm : 16 < m) :
    ∃ t', execs (P.ctx (m + 1) pkg (n! "hash320") .nil (run P (m + 1))) (seg320 round lim) ⟨H, env320 t tkk tk rv j0 ax a g⟩ =
      .ok .next ⟨H ++ [.arr ((constBytes _root_.Ripemd.k round).map .u8)] ++ [.arr ((constBytes _root_.Ripemd.kk round).map .u8)],
        env320 t' (constOf _root_.Ripemd.kk round) (constOf _root_.Ripemd.k round) rv' j1 ax a
          (iter5 (words block) round (constOf _root_.Ripemd.k round) (constOf _root_.Ripemd.kk round) (round * 16) g 16)⟩ := by
  have hW0 : 0 < P.W := by omega
  have h31 : (2 : Int) ^ 31 ≤ 2 ^ (P.W - 1) := by exact_mod_cast Nat.pow_le_pow_right (by decide) (by omega)
  have hk1 : round * 4 + 4 ≤ _root_.Ripemd.k.length := by rw [show _root_.Ripemd.k.length = 20 from rfl]; omega
  have hk2 : round * 4 + 4 ≤ _root_.Ripemd.kk.length := by rw [show _root_.Ripemd.kk.length = 20 from rfl]; omega
  have hw0 : wrap P.W (round : Int) = round := wrap_nat (by omega) hW0
  have hw1 : wrap P.W ((round : Int) * 4) = (round * 4 : Nat) := by
    rw [← wrap_nat (W := P.W) (i := round * 4) (by omega) hW0]; rfl
  have hw2 : wrap P.W (((round * 4 : Nat) : Int) + 4) = (round * 4 + 4 : Nat) := by
    rw [← wrap_nat (W := P.W) (i := round * 4 + 4) (by omega) hW0]; rfl
  obtain ⟨t', hl⟩ := loop320 hP hS hB hM hW (H := H ++ [.arr ((constBytes _root_.Ripemd.k round).map .u8)] ++ [.arr ((constBytes _root_.Ripemd.kk round).map .u8)])
    (ax := ax) (block := block) (by rw [List.append_assoc, List.getElem?_append_left (lt_of_get hax), hax]) hr hrv hlim hj1 hj0 t
    (constOf _root_.Ripemd.kk round) (constOf _root_.Ripemd.k round) (a := a) g hm
  refine ⟨t', ?_⟩
  subst hrv
  unfold seg320
  eval_go [env320, hw0, hw1, hw2, ↓slice_const hk1, ↓slice_const hk2, constBytes_length hk1, constBytes_length hk2, hS, hB, std_be32, ↓read_const hk1, ↓read_const hk2]
  generalize hlp : loop _ _ _ _ _ = o
  have ho := hlp.symm.trans hl
  subst ho
  eval_go [env320]

theorem round320_1 {H : List Val} {ax a : Nat} {block : List U8} (hax : H[ax]? = some (.arr ((words block).map .u32))) (t tkk tk : U32) (g : Regs5) {m : Nat} (hm : 16 < m) :
    ∃ t' T g', _root_.Ripemd.round5 (words block) 1 { g with b := g.bb, bb := g.b } = .ok g' ∧
      execs (P.ctx (m + 1) pkg (n! "hash320") .nil (run P (m + 1))) (dropS 17 B320) ⟨H, env320 t tkk tk 0 16 ax a g⟩ =
        execs (P.ctx (m + 1) pkg (n! "hash320") .nil (run P (m + 1))) (dropS 22 B320)
          ⟨H ++ T, env320 t' (constOf _root_.Ripemd.kk 1) (constOf _root_.Ripemd.k 1) 1 32 ax a g'⟩ := by
  obtain ⟨t', q⟩ := run_seg320 hP hS hB hM hW hax (round := 1) (rv := 0) (rv' := 1) (j0 := 16) (j1 := 32) (lim := 32) (by decide) rfl rfl rfl rfl t
    tkk tk (a := a) { g with b := g.bb, bb := g.b } hm
  refine ⟨t', [.arr ((constBytes _root_.Ripemd.k 1).map .u8)] ++ [.arr ((constBytes _root_.Ripemd.kk 1).map .u8)], _, round5_ok (words_length block) (by decide) _, ?_⟩
  rw [drop320_1, ← List.append_assoc]
  generalize dropS 22 B320 = rest
  simp only [env320] at q ⊢
  eval_go [↓execs_app, ↓q]

theorem round320_2 {H : List Val} {ax a : Nat} {block : List U8} (hax : H[ax]? = some (.arr ((words block).map .u32))) (t tkk tk : U32) (g : Regs5) {m : Nat} (hm : 16 < m) :
    ∃ t' T g', _root_.Ripemd.round5 (words block) 2 { g with d := g.dd, dd := g.d } = .ok g' ∧
      execs (P.ctx (m + 1) pkg (n! "hash320") .nil (run P (m + 1))) (dropS 22 B320) ⟨H, env320 t tkk tk 1 32 ax a g⟩ =
        execs (P.ctx (m + 1) pkg (n! "hash320") .nil (run P (m + 1))) (dropS 27 B320)
          ⟨H ++ T, env320 t' (constOf _root_.Ripemd.kk 2) (constOf _root_.Ripemd.k 2) 2 48 ax a g'⟩ := by
  obtain ⟨t', q⟩ := run_seg320 hP hS hB hM hW hax (round := 2) (rv := 1) (rv' := 2) (j0 := 32) (j1 := 48) (lim := 48) (by decide) rfl rfl rfl rfl t
    tkk tk (a := a) { g with d := g.dd, dd := g.d } hm
  refine ⟨t', [.arr ((constBytes _root_.Ripemd.k 2).map .u8)] ++ [.arr ((constBytes _root_.Ripemd.kk 2).map .u8)], _, round5_ok (words_length block) (by decide) _, ?_⟩
  rw [drop320_2, ← List.append_assoc]
  generalize dropS 27 B320 = rest
  simp only [env320] at q ⊢
  eval_go [↓execs_app, ↓q]

theorem round320_3 {H : List Val} {ax a : Nat} {block : List U8} (hax : H[ax]? = some (.arr ((words block).map .u32))) (t tkk tk : U32) (g : Regs5) {m : Nat} (hm : 16 < m) :
    ∃ t' T g', _root_.Ripemd.round5 (words block) 3 { g with a := g.aa, aa := g.a } = .ok g' ∧
      execs (P.ctx (m + 1) pkg (n! "hash320") .nil (run P (m + 1))) (dropS 27 B320) ⟨H, env320 t tkk tk 2 48 ax a g⟩ =
        execs (P.ctx (m + 1) pkg (n! "hash320") .nil (run P (m + 1))) (dropS 32 B320)
          ⟨H ++ T, env320 t' (constOf _root_.Ripemd.kk 3) (constOf _root_.Ripemd.k 3) 3 64 ax a g'⟩ := by
  obtain ⟨t', q⟩ := run_seg320 hP hS hB hM hW hax (round := 3) (rv := 2) (rv' := 3) (j0 := 48) (j1 := 64) (lim := 64) (by decide) rfl rfl rfl rfl t
    tkk tk (a := a) { g with a := g.aa, aa := g.a } hm
  refine ⟨t', [.arr ((constBytes _root_.Ripemd.k 3).map .u8)] ++ [.arr ((constBytes _root_.Ripemd.kk 3).map .u8)], _, round5_ok (words_length block) (by decide) _, ?_⟩
  rw [drop320_3, ← List.append_assoc]
  generalize dropS 32 B320 = rest
  simp only [env320] at q ⊢
  eval_go [↓execs_app, ↓q]

theorem round320_4 {H : List Val} {ax a : Nat} {block : List U8} (hax : H[ax]? = some (.arr ((words block).map .u32))) (t tkk tk : U32) (g : Regs5) {m : Nat} (hm : 16 < m) :
    ∃ t' T g', _root_.Ripemd.round5 (words block) 4 { g with c := g.cc, cc := g.c } = .ok g' ∧
      execs (P.ctx (m + 1) pkg (n! "hash320") .nil (run P (m + 1))) (dropS 32 B320) ⟨H, env320 t tkk tk 3 64 ax a g⟩ =
        execs (P.ctx (m + 1) pkg (n! "hash320") .nil (run P (m + 1))) (dropS 37 B320)
          ⟨H ++ T, env320 t' (constOf _root_.Ripemd.kk 4) (constOf _root_.Ripemd.k 4) 4 80 ax a g'⟩ := by
  obtain ⟨t', q⟩ := run_seg320 hP hS hB hM hW hax (round := 4) (rv := 3) (rv' := 4) (j0 := 64) (j1 := 80) (lim := 80) (by decide) rfl rfl rfl rfl t
    tkk tk (a := a) { g with c := g.cc, cc := g.c } hm
  refine ⟨t', [.arr ((constBytes _root_.Ripemd.k 4).map .u8)] ++ [.arr ((constBytes _root_.Ripemd.kk 4).map .u8)], _, round5_ok (words_length block) (by decide) _, ?_⟩
  rw [drop320_4, ← List.append_assoc]
  generalize dropS 37 B320 = rest
  simp only [env320] at q ⊢
  eval_go [↓execs_app, ↓q]

theorem start320 {h : List Val} {a : Nat} {hash : Name} {stateLen : Nat} {s0 s1 s2 s3 s4 s5 s6 s7 s8 s9 : U32} {len : U64} {block : List U8} {bPos : Nat}
    (ha : h[a]? = some (rep hash stateLen ⟨[s0, s1, s2, s3, s4, s5, s6, s7, s8, s9], len, block, bPos⟩)) (hb : block.length = 64) {m : Nat} (hm : 17 < m) :
    ∃ t' T g', _root_.Ripemd.round5 (words block) 0 ⟨s0, s1, s2, s3, s4, s5, s6, s7, s8, s9⟩ = .ok g' ∧
      run P (m + 2) path 0 (n! "hash320") [obj path ty a] h = leave ((execs (P.ctx (m + 1) pkg (n! "hash320") .nil (run P (m + 1))) (dropS 17 B320)
          ⟨h ++ [.arr ((words block).map .u32)] ++ T, env320 t' (constOf _root_.Ripemd.kk 0) (constOf _root_.Ripemd.k 0) 0 16 h.length a g'⟩).bind (result .nil)) := by
  have hW0 : 0 < P.W := by omega
  have h31 : (2 : Int) ^ 31 ≤ 2 ^ (P.W - 1) := by exact_mod_cast Nat.pow_le_pow_right (by decide) (by omega)
  have hg := run_getX hP hS hB hW ha hb (n := m) (by omega)
  simp only at hg
  have w0 : wrap P.W (0 : Int) = 0 := wrap_eq (by omega) (by omega) hW0
  have w4 : wrap P.W (4 : Int) = 4 := wrap_eq (by omega) (by omega) hW0
  have hk0 : 0 * 4 + 4 ≤ _root_.Ripemd.k.length := by decide
  have hkk0 : 0 * 4 + 4 ≤ _root_.Ripemd.kk.length := by decide
  have k0 : ∀ s, slicing (.str _root_.Ripemd.k) (some (.int 0)) (some (.int 4)) s = _ := slice_const hk0
  have kk0 : ∀ s, slicing (.str _root_.Ripemd.kk) (some (.int 0)) (some (.int 4)) s = _ := slice_const hkk0
  have hax : ∀ t', (h ++ [.arr ((words block).map .u32)] ++ t')[h.length]? = some (.arr ((words block).map .u32)) := by
    intro t'
    simp
  obtain ⟨t0, hl⟩ := loop320 hP hS hB hM hW (hax ([.arr ((constBytes _root_.Ripemd.k 0).map .u8)] ++ [.arr ((constBytes _root_.Ripemd.kk 0).map .u8)]))
    (round := 0) (rv := 0) (j0 := 0) (j1 := 16) (lim := 16) (by decide) rfl rfl rfl rfl 0
    (constOf _root_.Ripemd.kk 0) (constOf _root_.Ripemd.k 0) (a := a) ⟨s0, s1, s2, s3, s4, s5, s6, s7, s8, s9⟩ (m := m) (by omega)
  refine ⟨t0, [.arr ((constBytes _root_.Ripemd.k 0).map .u8)] ++ [.arr ((constBytes _root_.Ripemd.kk 0).map .u8)], _, round5_ok (words_length block) (by decide) _, ?_⟩
  rw [← List.append_assoc (h ++ _)] at hl ⊢
  have hf := find_split320
  generalize dropS 17 B320 = rest at hf ⊢
  rw [run_func hP hf]
  eval_go [↓execs_app]
  simp only [takeS, B320, bodyOf, Ripe320.hash320]
  eval_go [ha, ↓hg, Int.reduceLE, Int.reduceLT, List.getElem?_cons_succ, List.getElem?_cons_zero, w0, w4, Int.zero_mul, Int.zero_add, ↓k0, ↓kk0, hS, hB, std_be32,
    constBytes_length hk0, constBytes_length hkk0, ↓read_const hk0, ↓read_const hkk0]
  generalize hlp : loop _ _ _ _ _ = o
  have ho := hlp.symm.trans hl
  subst ho
  eval_go [env320]

theorem run_hash320 {h : List Val} {a : Nat} {hash : Name} {stateLen : Nat} {c : Ctx U32} (ha : h[a]? = some (rep hash stateLen c))
    (hst : c.state.length = 10) (hb : c.block.length = 64) {n : Nat} (hn : 18 < n) :
    ∃ t c', _root_.Ripemd.hash320 c = .ok c' ∧ c'.state.length = 10 ∧ c'.block.length = 64 ∧ c'.len = c.len ∧ c'.bPos = 0 ∧
      run P (n + 1) path 0 (n! "hash320") [obj path ty a] h = .ok [] ⟨h.set a (rep hash stateLen c') ++ t, []⟩ := by
  obtain ⟨m, rfl⟩ : ∃ m, n = m + 1 := ⟨n - 1, by omega⟩
  obtain ⟨st, len, block, bPos⟩ := c
  obtain ⟨s0, s1, s2, s3, s4, s5, s6, s7, s8, s9, rfl⟩ : ∃ s0 s1 s2 s3 s4 s5 s6 s7 s8 s9, st = [s0, s1, s2, s3, s4, s5, s6, s7, s8, s9] := by
    match st, hst with
    | [s0, s1, s2, s3, s4, s5, s6, s7, s8, s9], _ => exact ⟨_, _, _, _, _, _, _, _, _, _, rfl⟩
  have hal := lt_of_get ha
  simp only at hb
  have hax : ∀ t', (h ++ [.arr ((words block).map .u32)] ++ t')[h.length]? = some (.arr ((words block).map .u32)) := by
    intro t'
    simp
  obtain ⟨t0, T0, g0, r0, q0⟩ := start320 hP hS hB hM hW ha hb (m := m) (by omega)
  obtain ⟨t1, T1, g1, r1, q1⟩ := round320_1 hP hS hB hM hW (hax (T0)) t0 (constOf _root_.Ripemd.kk 0) (constOf _root_.Ripemd.k 0) (a := a) g0 (m := m) (by omega)
  rw [List.append_assoc (h ++ _)] at q1
  obtain ⟨t2, T2, g2, r2, q2⟩ := round320_2 hP hS hB hM hW (hax (T0 ++ T1)) t1 (constOf _root_.Ripemd.kk 1) (constOf _root_.Ripemd.k 1) (a := a) g1 (m := m) (by omega)
  rw [List.append_assoc (h ++ _)] at q2
  obtain ⟨t3, T3, g3, r3, q3⟩ := round320_3 hP hS hB hM hW (hax (T0 ++ T1 ++ T2)) t2 (constOf _root_.Ripemd.kk 2) (constOf _root_.Ripemd.k 2) (a := a) g2 (m := m) (by omega)
  rw [List.append_assoc (h ++ _)] at q3
  obtain ⟨t4, T4, g4, r4, q4⟩ := round320_4 hP hS hB hM hW (hax (T0 ++ T1 ++ T2 ++ T3)) t3 (constOf _root_.Ripemd.kk 3) (constOf _root_.Ripemd.k 3) (a := a) g3 (m := m) (by omega)
  rw [List.append_assoc (h ++ _)] at q4
  generalize T0 ++ T1 ++ T2 ++ T3 ++ T4 = T at q4
  have hH : (h ++ [.arr ((words block).map .u32)] ++ T)[a]? = some (rep hash stateLen ⟨[s0, s1, s2, s3, s4, s5, s6, s7, s8, s9], len, block, bPos⟩) := by
    rw [List.append_assoc, List.getElem?_append_left hal, ha]
  have q5 := tail320 (ax := h.length) hH t4 (constOf _root_.Ripemd.kk 4) (constOf _root_.Ripemd.k 4) 4 80 { g4 with e := g4.ee, ee := g4.e } (P.ctx (m + 1) pkg (n! "hash320") .nil (run P (m + 1)))
  refine ⟨[.arr ((words block).map .u32)] ++ T, _, hash320_ok hb r0 r1 r2 r3 r4, rfl, hb, rfl, rfl, ?_⟩
  rw [q0, q1, q2, q3, q4, drop320_5, ← List.set_append_left _ _ hal, ← List.append_assoc]
  generalize dropS 38 B320 = rest at q5
  simp only [env320] at q5 ⊢
  eval_go [↓q5]

end
end Source.Ripemd
