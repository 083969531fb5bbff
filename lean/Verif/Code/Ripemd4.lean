import Verif.Code.Ripemd

/-!
# The code of package `ripemd`: `hash128` and `hash256`
-/
namespace Source.Ripemd
open GoLang BlockHash
open _root_.Ripemd (Regs4 Regs5)

/-! ## Steps as functions -/

/-- The element of a table. -/
def tab (t : List U8) (j : Nat) : U8 := t.getD j 0
/-- The word that an element of a table tells. -/
def wordAt (x : List U32) (i : U8) : U32 := x.getD i.toNat 0

theorem tab_ok (t : List U8) {j : Nat} (hj : j < t.length) : goIdx t j = .ok (tab t j) := by
  simp [goIdx, tab, hj]

theorem tab_str (t : List U8) {j : Nat} (hj : j < t.length) (s : St) : elemAt (.str t) (.int j) s = .ok (.u8 (tab t j)) s := by
  eval_go [hj]
  simp [tab, hj, lift, pure_apply]

theorem word_ok {x : List U32} (hx : x.length = 16) {i : U8} (hi : i.toNat < 16) : goIdx x i.toNat = .ok (wordAt x i) := by
  have : i.toNat < x.length := by omega
  simp [goIdx, wordAt, this]

theorem word_elem {x : List U32} (hx : x.length = 16) {i : U8} (hi : i.toNat < 16) {h : List Val} {a : Nat} (ha : h[a]? = some (.arr (x.map .u32)))
    (e : List (Name × Val)) : elemAt (.slice a [] 0 16 16) (.u8 i) ⟨h, e⟩ = .ok (.u32 (wordAt x i)) ⟨h, e⟩ := by
  have h1 : i.toNat < x.length := by omega
  have h2 : (i.toNat : Int) < 16 := by omega
  have h3 : (x.map Val.u32)[i.toNat]? = some (.u32 (wordAt x i)) := by simp [wordAt, h1]
  eval_go [h2, ha, h3, Nat.zero_add, hi]

theorem tables : ∀ j : Fin 80, (tab _root_.Ripemd.r j).toNat < 16 ∧ (tab _root_.Ripemd.rr j).toNat < 16 ∧ (tab _root_.Ripemd.s j).toNat < 32 ∧
    (tab _root_.Ripemd.ss j).toNat < 32 := by decide +kernel

/-- A step of `hash128` and `hash256`. -/
def st4 (x : List U32) (round : Nat) (tk tkk : U32) (j : Nat) (g : Regs4) : Regs4 :=
  ⟨g.d, (g.a + RipemdSpec.f round g.b g.c g.d + wordAt x (tab _root_.Ripemd.r j) + tk).rotateLeft (tab _root_.Ripemd.s j).toNat, g.b, g.c,
   g.dd, (g.aa + RipemdSpec.f (3 - round) g.bb g.cc g.dd + wordAt x (tab _root_.Ripemd.rr j) + tkk).rotateLeft (tab _root_.Ripemd.ss j).toNat, g.bb, g.cc⟩

theorem st4_eq {x : List U32} (hx : x.length = 16) {round : Nat} (hr : round < 4) (tk tkk : U32) {j : Nat} (hj : j < 80) (g : Regs4) :
    _root_.Ripemd.step4 x round tk tkk j g = .ok (st4 x round tk tkk j g) := by
  obtain ⟨h1, h2, h3, h4⟩ := tables ⟨j, hj⟩
  unfold _root_.Ripemd.step4 _root_.Ripemd.xAt
  rw [_root_.Ripemd.f_at (i := round) (by omega), _root_.Ripemd.f_at (i := 3 - round) (by omega), tab_ok _root_.Ripemd.r hj, tab_ok _root_.Ripemd.rr hj,
    tab_ok _root_.Ripemd.s hj, tab_ok _root_.Ripemd.ss hj]
  simp only [Res.ok_bind, Res.pure_eq, word_ok hx h1, word_ok hx h2, _root_.Ripemd.rotateLeft32_eq _ h3, _root_.Ripemd.rotateLeft32_eq _ h4]
  rfl

/-- Steps one after another. -/
def iter4 (x : List U32) (round : Nat) (tk tkk : U32) (j : Nat) (g : Regs4) : Nat → Regs4
  | 0 => g
  | i + 1 => st4 x round tk tkk (j + i) (iter4 x round tk tkk j g i)

theorem iter4_front (x : List U32) (round : Nat) (tk tkk : U32) (j : Nat) (g : Regs4) (i : Nat) :
    iter4 x round tk tkk j g (i + 1) = iter4 x round tk tkk (j + 1) (st4 x round tk tkk j g) i := by
  induction i with
  | zero => rfl
  | succ i ih => rw [iter4, ih, iter4, Nat.add_assoc, Nat.add_comm 1 i]

theorem loop4_iter {x : List U32} (hx : x.length = 16) {round : Nat} (hr : round < 4) (tk tkk : U32) (n j : Nat) (hj : j + n ≤ 80) (g : Regs4) :
    _root_.Ripemd.loop4 x round tk tkk n j g = .ok (iter4 x round tk tkk j g n) := by
  induction n generalizing j g with
  | zero => rfl
  | succ n ih =>
    rw [_root_.Ripemd.loop4, st4_eq hx hr tk tkk (by omega), Res.ok_bind, ih (j + 1) (by omega), iter4_front]

/-- A constant of a round. -/
def constOf (t : List U8) (round : Nat) : U32 := .ofNat 32 (beNat ((t.drop (round * 4)).take 4))

theorem const_ok {t : List U8} {round : Nat} (h : round * 4 + 4 ≤ t.length) : _root_.Ripemd.constAt t round = .ok (constOf t round) := by
  unfold _root_.Ripemd.constAt goSlice
  rw [if_pos ⟨by omega, h⟩, Res.ok_bind, List.drop_take, Nat.add_sub_cancel_left, be_eq (by simp; omega)]
  rfl

theorem round4_ok {x : List U32} (hx : x.length = 16) {round : Nat} (hr : round < 4) (g : Regs4) :
    _root_.Ripemd.round4 x round g = .ok (iter4 x round (constOf _root_.Ripemd.k round) (constOf _root_.Ripemd.kk128 round) (round * 16) g 16) := by
  have hk1 : round * 4 + 4 ≤ _root_.Ripemd.k.length := by rw [show _root_.Ripemd.k.length = 20 from rfl]; omega
  have hk2 : round * 4 + 4 ≤ _root_.Ripemd.kk128.length := by rw [show _root_.Ripemd.kk128.length = 16 from rfl]; omega
  rw [_root_.Ripemd.round4, const_ok hk1, const_ok hk2, Res.ok_bind, Res.ok_bind, loop4_iter hx hr _ _ _ _ (by omega)]

theorem slice_str {b : List U8} {i k : Nat} (h : i ≤ k) (hk : k ≤ b.length) (s : St) :
    slicing (.str b) (some (.int i)) (some (.int k)) s = .ok (.str ((b.drop i).take (k - i))) s := by
  have h1 : i < b.length + 1 := by omega
  have h2 : k < b.length + 1 := by omega
  eval_go [h1, h2, h]

/-- The bytes of a constant. -/
def constBytes (t : List U8) (round : Nat) : List U8 := (t.drop (round * 4)).take 4

theorem slice_const {t : List U8} {round : Nat} (h : round * 4 + 4 ≤ t.length) (s : St) :
    slicing (.str t) (some (.int (round * 4 : Nat))) (some (.int (round * 4 + 4 : Nat))) s = .ok (.str (constBytes t round)) s := by
  rw [slice_str (by omega) h, Nat.add_sub_cancel_left]
  rfl

theorem constBytes_length {t : List U8} {round : Nat} (h : round * 4 + 4 ≤ t.length) : (constBytes t round).length = 4 := by
  simp [constBytes]
  omega

theorem read_const {t : List U8} {round : Nat} (h : round * 4 + 4 ≤ t.length) (H : List Val) (e : List (Name × Val)) :
    readUint true 4 (.slice H.length [] 0 4 4) ⟨H ++ [.arr ((constBytes t round).map .u8)], e⟩ =
      .ok (beNat (constBytes t round)) ⟨H ++ [.arr ((constBytes t round).map .u8)], e⟩ := by
  have := read_be (h := H ++ [.arr ((constBytes t round).map .u8)]) (a := H.length) (p := []) (off := 0) (len := 4) (cap := 4) (get_last _ _)
    (l := constBytes t round) rfl (by omega) (by rw [constBytes_length h]) e
  rwa [List.drop_zero] at this

/-- The variables of `hash128` in the outer loop. -/
def env128 (round : Nat) (ax a : Nat) (g : Regs4) : List (Name × Val) := [(n! "round", .int round), (n! "x", .slice ax [] 0 16 16), (n! "dd", .u32 g.dd), (n! "cc", .u32 g.cc),
  (n! "bb", .u32 g.bb), (n! "aa", .u32 g.aa), (n! "d", .u32 g.d), (n! "c", .u32 g.c), (n! "b", .u32 g.b), (n! "a", .u32 g.a), (n! "ctx", obj path ty a)]

/-- The body of the loops of `hash256`. -/
def body256 : Stmts := .cons
    (.assign (.cons (.id (n! "t")) .nil) (.cons (.call (.sel (.id (n! "bits")) (n! "RotateLeft32")) (.cons (.bin .add (.bin .add (.bin .add (.id (n! "a")) (.call (.idx (.id (n! "f")) (.id (n! "round"))) (.cons (.id (n! "b")) (.cons (.id (n! "c")) (.cons (.id (n! "d")) .nil))) false)) (.idx (.id (n! "x")) (.idx (.id (n! "r")) (.id (n! "j"))))) (.id (n! "tk"))) (.cons (.call (.id (n! "int")) (.cons (.idx (.id (n! "s")) (.id (n! "j"))) .nil) false) .nil)) false) .nil)) (.cons
    (.assign (.cons (.id (n! "a")) (.cons (.id (n! "d")) (.cons (.id (n! "c")) (.cons (.id (n! "b")) .nil)))) (.cons (.id (n! "d")) (.cons (.id (n! "c")) (.cons (.id (n! "b")) (.cons (.id (n! "t")) .nil))))) (.cons
    (.assign (.cons (.id (n! "t")) .nil) (.cons (.call (.sel (.id (n! "bits")) (n! "RotateLeft32")) (.cons (.bin .add (.bin .add (.bin .add (.id (n! "aa")) (.call (.idx (.id (n! "f")) (.bin .sub (.int 3) (.id (n! "round")))) (.cons (.id (n! "bb")) (.cons (.id (n! "cc")) (.cons (.id (n! "dd")) .nil))) false)) (.idx (.id (n! "x")) (.idx (.id (n! "rr")) (.id (n! "j"))))) (.id (n! "tkk"))) (.cons (.call (.id (n! "int")) (.cons (.idx (.id (n! "ss")) (.id (n! "j"))) .nil) false) .nil)) false) .nil)) (.cons
    (.assign (.cons (.id (n! "aa")) (.cons (.id (n! "dd")) (.cons (.id (n! "cc")) (.cons (.id (n! "bb")) .nil)))) (.cons (.id (n! "dd")) (.cons (.id (n! "cc")) (.cons (.id (n! "bb")) (.cons (.id (n! "t")) .nil))))) .nil)))

/-- The variables of `hash256` in its loops. -/
def env256 (t tkk tk : U32) (rv j : Int) (ax a : Nat) (g : Regs4) : List (Name × Val) := [(n! "t", .u32 t), (n! "tkk", .u32 tkk), (n! "tk", .u32 tk),
  (n! "round", .int rv), (n! "j", .int j), (n! "x", .slice ax [] 0 16 16), (n! "dd", .u32 g.dd), (n! "cc", .u32 g.cc),
  (n! "bb", .u32 g.bb), (n! "aa", .u32 g.aa), (n! "d", .u32 g.d), (n! "c", .u32 g.c), (n! "b", .u32 g.b), (n! "a", .u32 g.a), (n! "ctx", obj path ty a)]

/-- `ctx.state[i] += nm`. -/
theorem exec_add {H : List Val} {a : Nat} {env : List (Name × Val)} {hash : Name} {sl : Nat} {c : Ctx U32} (hl : a < H.length) (hst : c.state.length = 10)
    {i : Nat} (hi : i < 10) {nm : Name} {v : U32} (hc : find (n! "ctx") env = some (obj path ty a)) (hv : find nm env = some (.u32 v)) (C : GoLang.Ctx) :
    exec C (.opAssign .add (.idx (.sel (.id (n! "ctx")) (n! "state")) (.int i)) (.id nm)) ⟨H.set a (rep hash sl c), env⟩ =
      .ok .next ⟨H.set a (rep hash sl { c with state := c.state.set i (c.state.getD i 0 + v) }), env⟩ := by
  obtain ⟨st, len, block, bPos⟩ := c
  have h1 : (i : Int) < 10 := by omega
  have h2 : i < st.length := by simp only at hst; omega
  have h3 : (st.map Val.u32)[i]? = some (.u32 (st.getD i 0)) := by simp [h2]
  simp only at hst
  eval_go [hc, hv, List.getElem?_set_self, hl, List.set_set, List.length_set, h1, h3, hst, List.length_map, hi, h2, ← List.map_set]

section
variable {P : Prog} (hP : findPkg path P.pkgs = some pkg) (hS : P.std = stdlib) (hB : elemN (n! "encoding/binary") (P.pkgs.map Pkg.path) = false)
  (hM : elemN (n! "math/bits") (P.pkgs.map Pkg.path) = false) (hW : 32 ≤ P.W)

include hP hS hB hM hW

theorem run_hash128 {h : List Val} {a : Nat} {hash : Name} {stateLen : Nat} {c : Ctx U32} (ha : h[a]? = some (rep hash stateLen c))
    (hst : c.state.length = 10) (hb : c.block.length = 64) {n : Nat} (hn : 18 < n) :
    ∃ t c', _root_.Ripemd.hash128 c = .ok c' ∧ c'.state.length = 10 ∧ c'.block.length = 64 ∧ c'.len = c.len ∧ c'.bPos = 0 ∧
      run P (n + 1) path 0 (n! "hash128") [obj path ty a] h = .ok [] ⟨h.set a (rep hash stateLen c') ++ t, []⟩ := by
  obtain ⟨m, rfl⟩ : ∃ m, n = m + 1 := ⟨n - 1, by omega⟩
  obtain ⟨st, len, block, bPos⟩ := c
  obtain ⟨s0, s1, s2, s3, s4, s5, s6, s7, s8, s9, rfl⟩ : ∃ s0 s1 s2 s3 s4 s5 s6 s7 s8 s9, st = [s0, s1, s2, s3, s4, s5, s6, s7, s8, s9] := by
    match st, hst with
    | [s0, s1, s2, s3, s4, s5, s6, s7, s8, s9], _ => exact ⟨_, _, _, _, _, _, _, _, _, _, rfl⟩
  have hW0 : 0 < P.W := by omega
  have h31 : (2 : Int) ^ 31 ≤ 2 ^ (P.W - 1) := by exact_mod_cast Nat.pow_le_pow_right (by decide) (by omega)
  have hg := run_getX hP hS hB hW ha hb (n := m) (by omega)
  simp only at hb hg
  rw [run_func hP find_hash128]
  eval_go [ha, ↓hg, Int.reduceLE, Int.reduceLT, List.getElem?_cons_succ, List.getElem?_cons_zero]
  generalize hlp : loop _ _ _ _ _ = o
  clear hg
  obtain ⟨t, g, hg, rfl⟩ : ∃ t g, _root_.Ripemd.rounds4 (words block) 4 0 ⟨s0, s1, s2, s3, s0, s1, s2, s3⟩ = .ok g ∧
      o = .ok .next ⟨h ++ [.arr ((words block).map .u32)] ++ t, env128 4 h.length a g⟩ := by
    refine loop_post (α := Nat × Regs4 × List Val)
      (fun o => ∃ t g, _root_.Ripemd.rounds4 (words block) 4 0 ⟨s0, s1, s2, s3, s0, s1, s2, s3⟩ = .ok g ∧
        o = .ok .next ⟨h ++ [.arr ((words block).map .u32)] ++ t, env128 4 h.length a g⟩)
      (fun x => x.1 ≤ 4 ∧ _root_.Ripemd.rounds4 (words block) 4 0 ⟨s0, s1, s2, s3, s0, s1, s2, s3⟩ = _root_.Ripemd.rounds4 (words block) (4 - x.1) x.1 x.2.1)
      (fun x => ⟨h ++ [.arr ((words block).map .u32)] ++ x.2.2, env128 x.1 h.length a x.2.1⟩) (fun x => 4 - x.1) ?_
      (0, ⟨s0, s1, s2, s3, s0, s1, s2, s3⟩, []) ⟨by omega, rfl⟩ (by simp only; omega) ?_ hlp
    · clear hlp
      rintro ⟨round, g, t⟩ k ⟨hr, e⟩ hk ih
      simp only at hr e hk ih ⊢
      by_cases hr4 : round < 4
      · have hrI : (round : Int) < 4 := by omega
        have hax : ∀ t', (h ++ [.arr ((words block).map .u32)] ++ t ++ t')[h.length]? = some (.arr ((words block).map .u32)) := by
          intro t'
          simp
        have hk1 : round * 4 + 4 ≤ _root_.Ripemd.k.length := by rw [show _root_.Ripemd.k.length = 20 from rfl]; omega
        have hk2 : round * 4 + 4 ≤ _root_.Ripemd.kk128.length := by rw [show _root_.Ripemd.kk128.length = 16 from rfl]; omega
        have hw1 : wrap P.W ((round : Int) * 4) = (round * 4 : Nat) := by
          rw [← wrap_nat (W := P.W) (i := round * 4) (by omega) hW0]; rfl
        have hw2 : wrap P.W (((round * 4 : Nat) : Int) + 4) = (round * 4 + 4 : Nat) := by
          rw [← wrap_nat (W := P.W) (i := round * 4 + 4) (by omega) hW0]; rfl
        have hw3 : wrap P.W ((round : Int) + 1) = (round + 1 : Nat) := by
          rw [← wrap_nat (W := P.W) (i := round + 1) (by omega) hW0]; rfl
        have hw4 : wrap P.W (((round + 1 : Nat) : Int) * 16) = ((round + 1) * 16 : Nat) := by
          rw [← wrap_nat (W := P.W) (i := (round + 1) * 16) (by omega) hW0]; rfl
        have hw5 : wrap P.W ((round : Int) * 16) = (round * 16 : Nat) := by
          rw [← wrap_nat (W := P.W) (i := round * 16) (by omega) hW0]; rfl
        rw [loop]
        simp only [env128]
        eval_go [hrI, hw1, hw2, hw3, hw4, hw5, ↓slice_const hk1, ↓slice_const hk2, constBytes_length hk1, constBytes_length hk2, hS, hB, std_be32, ↓read_const hk1, ↓read_const hk2]
        have hax := hax ([.arr ((constBytes _root_.Ripemd.k round).map .u8)] ++ [.arr ((constBytes _root_.Ripemd.kk128 round).map .u8)])
        rw [← List.append_assoc] at hax
        generalize hlp2 : loop _ _ _ _ _ = o2
        generalize hH : h ++ [.arr ((words block).map .u32)] ++ t ++ [.arr ((constBytes _root_.Ripemd.k round).map .u8)] ++
          [.arr ((constBytes _root_.Ripemd.kk128 round).map .u8)] = H at hax hlp2
        have hlp3 : o2 = .ok .next ⟨H, (n! "j", .int (round * 16 + 16 : Nat)) :: (n! "n", .int ((round + 1) * 16 : Nat)) :: (n! "tkk", .u32 (constOf _root_.Ripemd.kk128 round)) ::
            (n! "tk", .u32 (constOf _root_.Ripemd.k round)) ::
            env128 round h.length a (iter4 (words block) round (constOf _root_.Ripemd.k round) (constOf _root_.Ripemd.kk128 round) (round * 16) g 16)⟩ := by
          rw [← hlp2]
          refine loop_count (fun i => ⟨H, (n! "j", .int (round * 16 + i : Nat)) :: (n! "n", .int ((round + 1) * 16 : Nat)) :: (n! "tkk", .u32 (constOf _root_.Ripemd.kk128 round)) ::
            (n! "tk", .u32 (constOf _root_.Ripemd.k round)) ::
            env128 round h.length a (iter4 (words block) round (constOf _root_.Ripemd.k round) (constOf _root_.Ripemd.kk128 round) (round * 16) g i)⟩) 16 ?_ ?_ (by omega) rfl
          · intro i hi
            generalize constOf _root_.Ripemd.kk128 round = tkk
            generalize constOf _root_.Ripemd.k round = tk
            rw [iter4]
            generalize iter4 (words block) round tk tkk (round * 16) g i = g'
            have hi1 : ((round * 16 + i : Nat) : Int) < ((round + 1) * 16 : Nat) := by omega
            generalize hj : round * 16 + i = j at hi1 ⊢
            have hj80 : j < 80 := by omega
            obtain ⟨t1, t2, t3, t4⟩ := tables ⟨j, hj80⟩
            simp only at t1 t2 t3 t4
            have e1 := tab_str _root_.Ripemd.r hj80
            have e2 := tab_str _root_.Ripemd.rr hj80
            have e3 := tab_str _root_.Ripemd.s hj80
            have e4 := tab_str _root_.Ripemd.ss hj80
            have e5 := word_elem (words_length block) t1 hax
            have e6 := word_elem (words_length block) t2 hax
            have e7 := f_elem (i := round) (by omega)
            have e8 := f_elem (i := 3 - round) (by omega)
            have e9 : wrap P.W (3 - (round : Int)) = (3 - round : Nat) := by
              rw [← wrap_nat (W := P.W) (i := 3 - round) (by omega) hW0]
              congr 1
              omega
            have q3 : ((tab _root_.Ripemd.s j).toNat : Int) % 32 = (tab _root_.Ripemd.s j).toNat := by omega
            have q4 : ((tab _root_.Ripemd.ss j).toNat : Int) % 32 = (tab _root_.Ripemd.ss j).toNat := by omega
            have w3 : wrap P.W ((tab _root_.Ripemd.s j).toNat : Int) = (tab _root_.Ripemd.s j).toNat := wrap_nat (by omega) hW0
            have w4 : wrap P.W ((tab _root_.Ripemd.ss j).toNat : Int) = (tab _root_.Ripemd.ss j).toNat := wrap_nat (by omega) hW0
            have w5 : wrap P.W ((j : Int) + 1) = (j + 1 : Nat) := by
              rw [← wrap_nat (W := P.W) (i := j + 1) (by omega) hW0]; rfl
            have f1 := run_f hP (i := round) (by omega) (_root_.Ripemd.f_at (by omega)) 
            have f2 := run_f hP (i := 3 - round) (by omega) (_root_.Ripemd.f_at (by omega)) 
            have hR := elem_repo hP
            constructor
            · eval_go [env128, hi1]
            · refine ⟨⟨H, (n! "j", .int j) :: (n! "n", .int ((round + 1) * 16 : Nat)) :: (n! "tkk", .u32 tkk) :: (n! "tk", .u32 tk) ::
                env128 round h.length a (st4 (words block) round tk tkk j g')⟩, ?_, ?_⟩
              · eval_go [env128, ↓e1, ↓e2, ↓e3, ↓e4, ↓e5, ↓e6, ↓e7, ↓e8, e9, q3, q4, w3, w4, ↓f1, ↓f2, hR, hS, hM, std_rotate, st4, Int.toNat_natCast]
              · have : round * 16 + (i + 1) = j + 1 := by omega
                eval_go [env128, w5, this]
          · have : ¬ (((round * 16 + 16 : Nat) : Int) < ((round + 1) * 16 : Nat)) := by omega
            eval_go [env128, this]
        subst hlp3
        have hend := ih (round + 1, iter4 (words block) round (constOf _root_.Ripemd.k round) (constOf _root_.Ripemd.kk128 round) (round * 16) g 16,
          t ++ [.arr ((constBytes _root_.Ripemd.k round).map .u8)] ++ [.arr ((constBytes _root_.Ripemd.kk128 round).map .u8)]) ⟨by simp only; omega, ?_⟩ (by simp only; omega)
        · simp only [env128, ← List.append_assoc, hH] at hend
          eval_go [env128, hw3]
          exact hend
        · rw [e]
          obtain ⟨q, hq⟩ : ∃ q, 4 - round = q + 1 := ⟨3 - round, by omega⟩
          have hq' : 4 - (round + 1) = q := by omega
          rw [hq, hq', _root_.Ripemd.rounds4, round4_ok (words_length block) hr4, Res.ok_bind]
      · have hr : round = 4 := by omega
        subst hr
        rw [loop]
        refine ⟨t, g, e, ?_⟩
        eval_go [env128, Int.reduceLT]
    · eval_go [env128, List.append_nil]
  clear hlp
  have hal := lt_of_get ha
  have hH : (h ++ [.arr ((words block).map .u32)] ++ t)[a]? = some (rep hash stateLen ⟨[s0, s1, s2, s3, s4, s5, s6, s7, s8, s9], len, block, bPos⟩) := by
    rw [List.append_assoc, List.getElem?_append_left hal, ha]
  have hl : a < (h ++ [Val.arr ((words block).map .u32)] ++ t).length := lt_of_get hH
  refine ⟨[.arr ((words block).map .u32)] ++ t,
    ⟨[s1 + g.c + g.dd, s2 + g.d + g.aa, s3 + g.a + g.bb, s0 + g.b + g.cc, s4, s5, s6, s7, s8, s9], len, block, 0⟩, ?_, rfl, hb, rfl, rfl, ?_⟩
  · unfold _root_.Ripemd.hash128
    rw [_root_.Ripemd.getX_eq _ hb]
    simp only [goIdx, List.getElem?_cons_zero, List.getElem?_cons_succ, Res.ok_bind]
    have hg' := hg
    unfold words at hg'
    rw [hg']
    rfl
  rw [← List.set_append_left _ _ hal, ← List.append_assoc]
  generalize h ++ [Val.arr ((words block).map .u32)] ++ t = H at *
  eval_go [env128, hH, Int.reduceLE, Int.reduceLT, List.getElem?_cons_succ, List.getElem?_cons_zero, List.getElem?_set_self, List.set_cons_succ, List.set_cons_zero, List.set_set, List.length_set, hl]
  rfl

/-- A loop of `hash256`. -/
theorem loop256 {H : List Val} {ax a : Nat} {block : List U8} (hax : H[ax]? = some (.arr ((words block).map .u32))) {round : Nat} (hr : round < 4)
    {rv j0 j1 : Int} {lim : Nat} (hrv : rv = round) (hlim : lim = (round + 1) * 16) (hj1 : j1 = ((round + 1) * 16 : Nat)) (hj0 : j0 = (round * 16 : Nat)) (t tkk tk : U32) (g : Regs4) {m : Nat} (hm : 16 < m) :
    ∃ t', loop (evalBool (P.ctx (m + 1) pkg (n! "hash256") .nil (run P (m + 1))) (.bin .lt (.id (n! "j")) (.int lim)))
      (scope (execs (P.ctx (m + 1) pkg (n! "hash256") .nil (run P (m + 1))) body256))
      (do let _ ← exec (P.ctx (m + 1) pkg (n! "hash256") .nil (run P (m + 1))) (.opAssign .add (.id (n! "j")) (.int 1)); pure ()) (m + 1)
      ⟨H, env256 t tkk tk rv j0 ax a g⟩ = .ok .next ⟨H, env256 t' tkk tk rv j1 ax a (iter4 (words block) round tk tkk (round * 16) g 16)⟩ := by
  have hW0 : 0 < P.W := by omega
  have h31 : (2 : Int) ^ 31 ≤ 2 ^ (P.W - 1) := by exact_mod_cast Nat.pow_le_pow_right (by decide) (by omega)
  subst hrv hlim hj0 hj1
  have key := loop_count (cond := evalBool (P.ctx (m + 1) pkg (n! "hash256") .nil (run P (m + 1))) (.bin .lt (.id (n! "j")) (.int ((round + 1) * 16))))
    (body := scope (execs (P.ctx (m + 1) pkg (n! "hash256") .nil (run P (m + 1))) body256))
    (post := do let _ ← exec (P.ctx (m + 1) pkg (n! "hash256") .nil (run P (m + 1))) (.opAssign .add (.id (n! "j")) (.int 1)); pure ())
    (fun i => ⟨H, env256 (match i with | 0 => t | i + 1 => (st4 (words block) round tk tkk (round * 16 + i) (iter4 (words block) round tk tkk (round * 16) g i)).bb)
      tkk tk round (round * 16 + i : Nat) ax a (iter4 (words block) round tk tkk (round * 16) g i)⟩) 16 ?_ ?_ (n := m + 1) (by omega) rfl
  · exact ⟨_, key.trans (by rw [show round * 16 + 16 = (round + 1) * 16 by omega])⟩
  · intro i hi
    simp only
    rw [iter4]
    generalize iter4 (words block) round tk tkk (round * 16) g i = g'
    generalize (match i with | 0 => t | i + 1 => (st4 (words block) round tk tkk (round * 16 + i) (iter4 (words block) round tk tkk (round * 16) g i)).bb) = t0
    have hi1 : ((round * 16 + i : Nat) : Int) < ((round + 1) * 16 : Nat) := by omega
    generalize hj : round * 16 + i = j at hi1 ⊢
    have hj80 : j < 80 := by omega
    obtain ⟨t1, t2, t3, t4⟩ := tables ⟨j, hj80⟩
    simp only at t1 t2 t3 t4
    have e1 := tab_str _root_.Ripemd.r hj80
    have e2 := tab_str _root_.Ripemd.rr hj80
    have e3 := tab_str _root_.Ripemd.s hj80
    have e4 := tab_str _root_.Ripemd.ss hj80
    have e5 := word_elem (words_length block) t1 hax
    have e6 := word_elem (words_length block) t2 hax
    have e7 := f_elem (i := round) (by omega)
    have e8 := f_elem (i := 3 - round) (by omega)
    have e9 : wrap P.W (3 - (round : Int)) = (3 - round : Nat) := by
      rw [← wrap_nat (W := P.W) (i := 3 - round) (by omega) hW0]
      congr 1
      omega
    have q3 : ((tab _root_.Ripemd.s j).toNat : Int) % 32 = (tab _root_.Ripemd.s j).toNat := by omega
    have q4 : ((tab _root_.Ripemd.ss j).toNat : Int) % 32 = (tab _root_.Ripemd.ss j).toNat := by omega
    have w3 : wrap P.W ((tab _root_.Ripemd.s j).toNat : Int) = (tab _root_.Ripemd.s j).toNat := wrap_nat (by omega) hW0
    have w4 : wrap P.W ((tab _root_.Ripemd.ss j).toNat : Int) = (tab _root_.Ripemd.ss j).toNat := wrap_nat (by omega) hW0
    have w5 : wrap P.W ((j : Int) + 1) = (j + 1 : Nat) := by
      rw [← wrap_nat (W := P.W) (i := j + 1) (by omega) hW0]; rfl
    have f1 := run_f hP (i := round) (by omega) (_root_.Ripemd.f_at (by omega))
    have f2 := run_f hP (i := 3 - round) (by omega) (_root_.Ripemd.f_at (by omega))
    have hR := elem_repo hP
    constructor
    · eval_go [env256, hi1]
    · refine ⟨⟨H, env256 (st4 (words block) round tk tkk j g').bb tkk tk round j ax a (st4 (words block) round tk tkk j g')⟩, ?_, ?_⟩
      · eval_go [env256, body256, ↓e1, ↓e2, ↓e3, ↓e4, ↓e5, ↓e6, ↓e7, ↓e8, e9, q3, q4, w3, w4, ↓f1, ↓f2, hR, hS, hM, std_rotate, st4, Int.toNat_natCast]
      · have : round * 16 + (i + 1) = j + 1 := by omega
        eval_go [env256, w5, this]
  · have : ¬ (((round * 16 + 16 : Nat) : Int) < ((round + 1) * 16 : Nat)) := by omega
    eval_go [env256, this]

theorem run_hash256 {h : List Val} {a : Nat} {hash : Name} {stateLen : Nat} {c : Ctx U32} (ha : h[a]? = some (rep hash stateLen c))
    (hst : c.state.length = 10) (hb : c.block.length = 64) {n : Nat} (hn : 18 < n) :
    ∃ t c', _root_.Ripemd.hash256 c = .ok c' ∧ c'.state.length = 10 ∧ c'.block.length = 64 ∧ c'.len = c.len ∧ c'.bPos = 0 ∧
      run P (n + 1) path 0 (n! "hash256") [obj path ty a] h = .ok [] ⟨h.set a (rep hash stateLen c') ++ t, []⟩ := by
  obtain ⟨m, rfl⟩ : ∃ m, n = m + 1 := ⟨n - 1, by omega⟩
  obtain ⟨st, len, block, bPos⟩ := c
  obtain ⟨s0, s1, s2, s3, s4, s5, s6, s7, s8, s9, rfl⟩ : ∃ s0 s1 s2 s3 s4 s5 s6 s7 s8 s9, st = [s0, s1, s2, s3, s4, s5, s6, s7, s8, s9] := by
    match st, hst with
    | [s0, s1, s2, s3, s4, s5, s6, s7, s8, s9], _ => exact ⟨_, _, _, _, _, _, _, _, _, _, rfl⟩
  have hW0 : 0 < P.W := by omega
  have h31 : (2 : Int) ^ 31 ≤ 2 ^ (P.W - 1) := by exact_mod_cast Nat.pow_le_pow_right (by decide) (by omega)
  have hg := run_getX hP hS hB hW ha hb (n := m) (by omega)
  simp only at hb hg
  have lit : ∀ z : Int, 0 ≤ z → z < 100 → wrap P.W z = z := fun z h1 h2 => wrap_eq (by omega) (by omega) hW0
  rw [run_func hP find_hash256]
  have w0 : wrap P.W (0 : Int) = 0 := lit _ (by decide) (by decide)
  have w4 : wrap P.W (4 : Int) = 4 := lit _ (by decide) (by decide)
  have w8 : wrap P.W (8 : Int) = 8 := lit _ (by decide) (by decide)
  have w12 : wrap P.W (12 : Int) = 12 := lit _ (by decide) (by decide)
  have w16 : wrap P.W (16 : Int) = 16 := lit _ (by decide) (by decide)
  have hk : ∀ r, r < 4 → r * 4 + 4 ≤ _root_.Ripemd.k.length := fun r hr => by rw [show _root_.Ripemd.k.length = 20 from rfl]; omega
  have hkk : ∀ r, r < 4 → r * 4 + 4 ≤ _root_.Ripemd.kk128.length := fun r hr => by rw [show _root_.Ripemd.kk128.length = 16 from rfl]; omega
  have k0 : ∀ s, slicing (.str _root_.Ripemd.k) (some (.int 0)) (some (.int 4)) s = _ := slice_const (hk 0 (by decide))
  have k1 : ∀ s, slicing (.str _root_.Ripemd.k) (some (.int 4)) (some (.int 8)) s = _ := slice_const (hk 1 (by decide))
  have k2 : ∀ s, slicing (.str _root_.Ripemd.k) (some (.int 8)) (some (.int 12)) s = _ := slice_const (hk 2 (by decide))
  have k3 : ∀ s, slicing (.str _root_.Ripemd.k) (some (.int 12)) (some (.int 16)) s = _ := slice_const (hk 3 (by decide))
  have kk0 : ∀ s, slicing (.str _root_.Ripemd.kk128) (some (.int 0)) (some (.int 4)) s = _ := slice_const (hkk 0 (by decide))
  have kk1 : ∀ s, slicing (.str _root_.Ripemd.kk128) (some (.int 4)) (some (.int 8)) s = _ := slice_const (hkk 1 (by decide))
  have kk2 : ∀ s, slicing (.str _root_.Ripemd.kk128) (some (.int 8)) (some (.int 12)) s = _ := slice_const (hkk 2 (by decide))
  have kk3 : ∀ s, slicing (.str _root_.Ripemd.kk128) (some (.int 12)) (some (.int 16)) s = _ := slice_const (hkk 3 (by decide))
  eval_go [ha, ↓hg, Int.reduceLE, Int.reduceLT, List.getElem?_cons_succ, List.getElem?_cons_zero, w0, w4, Int.zero_mul, Int.zero_add, ↓k0, ↓kk0, hS, hB, std_be32,
    constBytes_length (hk 0 (by decide)), constBytes_length (hkk 0 (by decide)), ↓read_const (hk 0 (by decide)), ↓read_const (hkk 0 (by decide))]
  have hax : ∀ t', (h ++ [.arr ((words block).map .u32)] ++ t')[h.length]? = some (.arr ((words block).map .u32)) := by
    intro t'
    simp
  generalize hlp : loop _ _ _ _ _ = o
  have hT : h ++ [Val.arr ((words block).map .u32)] ++ [.arr ((constBytes _root_.Ripemd.k 0).map .u8)] ++ [.arr ((constBytes _root_.Ripemd.kk128 0).map .u8)] =
    h ++ [.arr ((words block).map .u32)] ++ ([.arr ((constBytes _root_.Ripemd.k 0).map .u8)] ++ [.arr ((constBytes _root_.Ripemd.kk128 0).map .u8)]) := by simp
  rw [hT] at hlp
  generalize ([Val.arr ((constBytes _root_.Ripemd.k 0).map .u8)] ++ [.arr ((constBytes _root_.Ripemd.kk128 0).map .u8)]) = T0 at hlp
  clear hT
  obtain ⟨t0, hl⟩ := loop256 hP hS hB hM hW (hax T0) (round := 0) (rv := 0) (j0 := 0) (j1 := 16) (lim := 16) (by decide) rfl rfl rfl rfl 0
    (constOf _root_.Ripemd.kk128 0) (constOf _root_.Ripemd.k 0) (a := a) ⟨s0, s1, s2, s3, s4, s5, s6, s7⟩ (m := m) (by omega)
  have ho := hlp.symm.trans hl
  subst ho
  clear hl hlp
  have r0 := round4_ok (words_length block) (round := 0) (by decide) ⟨s0, s1, s2, s3, s4, s5, s6, s7⟩
  generalize iter4 (words block) 0 _ _ _ _ _ = g0 at r0 ⊢
  eval_go [env256, Int.reduceLE, Int.reduceLT, w4, w8, w12, w16, Int.reduceMul, Int.reduceAdd, ↓k1, ↓kk1, hS, hB, std_be32,
    constBytes_length (hk 1 (by decide)), constBytes_length (hkk 1 (by decide)), ↓read_const (hk 1 (by decide)), ↓read_const (hkk 1 (by decide))]
  generalize hlp : loop _ _ _ _ _ = o
  have hT : h ++ [Val.arr ((words block).map .u32)] ++ T0 ++ [.arr ((constBytes _root_.Ripemd.k 1).map .u8)] ++ [.arr ((constBytes _root_.Ripemd.kk128 1).map .u8)] =
    h ++ [.arr ((words block).map .u32)] ++ (T0 ++ [.arr ((constBytes _root_.Ripemd.k 1).map .u8)] ++ [.arr ((constBytes _root_.Ripemd.kk128 1).map .u8)]) := by simp
  rw [hT] at hlp
  generalize (T0 ++ [Val.arr ((constBytes _root_.Ripemd.k 1).map .u8)] ++ [.arr ((constBytes _root_.Ripemd.kk128 1).map .u8)]) = T1 at hlp
  clear hT
  obtain ⟨t1, hl⟩ := loop256 hP hS hB hM hW (hax T1) (round := 1) (rv := 1) (j0 := 16) (j1 := 32) (lim := 32) (by decide) rfl rfl rfl rfl t0
    (constOf _root_.Ripemd.kk128 1) (constOf _root_.Ripemd.k 1) (a := a) { g0 with a := g0.aa, aa := g0.a } (m := m) (by omega)
  have ho := hlp.symm.trans hl
  subst ho
  clear hl hlp
  have r1 := round4_ok (words_length block) (round := 1) (by decide) { g0 with a := g0.aa, aa := g0.a }
  generalize iter4 (words block) 1 _ _ _ _ _ = g1 at r1 ⊢
  eval_go [env256, Int.reduceLE, Int.reduceLT, w4, w8, w12, w16, Int.reduceMul, Int.reduceAdd, ↓k2, ↓kk2, hS, hB, std_be32,
    constBytes_length (hk 2 (by decide)), constBytes_length (hkk 2 (by decide)), ↓read_const (hk 2 (by decide)), ↓read_const (hkk 2 (by decide))]
  generalize hlp : loop _ _ _ _ _ = o
  have hT : h ++ [Val.arr ((words block).map .u32)] ++ T1 ++ [.arr ((constBytes _root_.Ripemd.k 2).map .u8)] ++ [.arr ((constBytes _root_.Ripemd.kk128 2).map .u8)] =
    h ++ [.arr ((words block).map .u32)] ++ (T1 ++ [.arr ((constBytes _root_.Ripemd.k 2).map .u8)] ++ [.arr ((constBytes _root_.Ripemd.kk128 2).map .u8)]) := by simp
  rw [hT] at hlp
  generalize (T1 ++ [Val.arr ((constBytes _root_.Ripemd.k 2).map .u8)] ++ [.arr ((constBytes _root_.Ripemd.kk128 2).map .u8)]) = T2 at hlp
  clear hT
  obtain ⟨t2, hl⟩ := loop256 hP hS hB hM hW (hax T2) (round := 2) (rv := 2) (j0 := 32) (j1 := 48) (lim := 48) (by decide) rfl rfl rfl rfl t1
    (constOf _root_.Ripemd.kk128 2) (constOf _root_.Ripemd.k 2) (a := a) { g1 with b := g1.bb, bb := g1.b } (m := m) (by omega)
  have ho := hlp.symm.trans hl
  subst ho
  clear hl hlp
  have r2 := round4_ok (words_length block) (round := 2) (by decide) { g1 with b := g1.bb, bb := g1.b }
  generalize iter4 (words block) 2 _ _ _ _ _ = g2 at r2 ⊢
  eval_go [env256, Int.reduceLE, Int.reduceLT, w4, w8, w12, w16, Int.reduceMul, Int.reduceAdd, ↓k3, ↓kk3, hS, hB, std_be32,
    constBytes_length (hk 3 (by decide)), constBytes_length (hkk 3 (by decide)), ↓read_const (hk 3 (by decide)), ↓read_const (hkk 3 (by decide))]
  generalize hlp : loop _ _ _ _ _ = o
  have hT : h ++ [Val.arr ((words block).map .u32)] ++ T2 ++ [.arr ((constBytes _root_.Ripemd.k 3).map .u8)] ++ [.arr ((constBytes _root_.Ripemd.kk128 3).map .u8)] =
    h ++ [.arr ((words block).map .u32)] ++ (T2 ++ [.arr ((constBytes _root_.Ripemd.k 3).map .u8)] ++ [.arr ((constBytes _root_.Ripemd.kk128 3).map .u8)]) := by simp
  rw [hT] at hlp
  generalize (T2 ++ [Val.arr ((constBytes _root_.Ripemd.k 3).map .u8)] ++ [.arr ((constBytes _root_.Ripemd.kk128 3).map .u8)]) = T3 at hlp
  clear hT
  obtain ⟨t3, hl⟩ := loop256 hP hS hB hM hW (hax T3) (round := 3) (rv := 3) (j0 := 48) (j1 := 64) (lim := 64) (by decide) rfl rfl rfl rfl t2
    (constOf _root_.Ripemd.kk128 3) (constOf _root_.Ripemd.k 3) (a := a) { g2 with c := g2.cc, cc := g2.c } (m := m) (by omega)
  have ho := hlp.symm.trans hl
  subst ho
  clear hl hlp
  have r3 := round4_ok (words_length block) (round := 3) (by decide) { g2 with c := g2.cc, cc := g2.c }
  generalize iter4 (words block) 3 _ _ _ _ _ = g3 at r3 ⊢
  have hal := lt_of_get ha
  have hH : (h ++ [.arr ((words block).map .u32)] ++ T3)[a]? = some (rep hash stateLen ⟨[s0, s1, s2, s3, s4, s5, s6, s7, s8, s9], len, block, bPos⟩) := by
    rw [List.append_assoc, List.getElem?_append_left hal, ha]
  have hl : a < (h ++ [Val.arr ((words block).map .u32)] ++ T3).length := lt_of_get hH
  refine ⟨[.arr ((words block).map .u32)] ++ T3,
    ⟨[s0 + g3.a, s1 + g3.b, s2 + g3.c, s3 + g3.dd, s4 + g3.aa, s5 + g3.bb, s6 + g3.cc, s7 + g3.d, s8, s9], len, block, 0⟩, ?_, rfl, hb, rfl, rfl, ?_⟩
  · unfold _root_.Ripemd.hash256
    rw [_root_.Ripemd.getX_eq _ hb]
    simp only [goIdx, List.getElem?_cons_zero, List.getElem?_cons_succ, Res.ok_bind]
    unfold words at r0 r1 r2 r3
    rw [r0, Res.ok_bind, r1, Res.ok_bind, r2, Res.ok_bind, r3, Res.ok_bind]
    rfl
  rw [← List.set_append_left _ _ hal, ← List.append_assoc]
  generalize h ++ [Val.arr ((words block).map .u32)] ++ T3 = H at *
  eval_go [env256, hH, Int.reduceLE, Int.reduceLT, List.getElem?_cons_succ, List.getElem?_cons_zero, List.getElem?_set_self, List.set_cons_succ, List.set_cons_zero, List.set_set, List.length_set, hl]
  rfl

end
end Source.Ripemd
