import Verif.Code.WhirlpoolObj
import Verif.Lang.Segments

/-!
# The code of package `whirlpool`: `Sum`
-/
namespace Source.Whirlpool
open GoLang BlockHash Source.Block

/-- The body of `Sum`. -/
def BSum : Stmts := bodyOf Whirlpool.ctx_Sum

theorem find_SumS : findFunc ty (n! "Sum") pkg.decls = some (.func (n! "c") true (n! "ctx") (n! "Sum") (.cons (n! "in") (.slice (.name (n! "byte"))) .nil)
    (.cons 0 (.slice (.name (n! "byte"))) .nil) (appS (takeS 4 BSum) (appS (takeS 1 (dropS 4 BSum)) (appS (takeS 1 (dropS 5 BSum)) (appS (takeS 9 (dropS 6 BSum))
      (appS (takeS 1 (dropS 15 BSum)) (dropS 16 BSum))))))) := by kernel_rfl

/-- The variables of `Sum`; the copy of the object is at `b`. -/
abbrev envS (v : Val) (b a : Nat) : List (Name × Val) := [(n! "sizeSpace", .const 32), (n! "h", .box b), (n! "in", v), (n! "c", obj path ty a)]

/-- The context of `Sum`. -/
abbrev ctxS (P : Prog) (n : Nat) : GoLang.Ctx := P.ctx n pkg (n! "Sum") (.cons 0 (.slice (.name (n! "byte"))) .nil) (run P n)

section
variable {P : Prog} (hP : findPkg path P.pkgs = some pkg) (hW : 32 ≤ P.W)
include hP hW

omit hP hW in
theorem gBytes : find (n! "blockSizeBytes") pkg.genv = some (.const 64) := by kernel_rfl

theorem sum_start {K : List Val} {a : Nat} {c : Ctx U64} (ha : K[a]? = some (rep c)) (hc : Inv c) (v : Val) (hv : Plain v) (n : Nat) :
    goSet c.block c.bPos 0x80#8 = .ok (c.block.set c.bPos 0x80#8) ∧
      execs (ctxS P n) (takeS 4 BSum) ⟨K, [(n! "in", v), (n! "c", obj path ty a)]⟩ =
        .ok .next ⟨(K ++ [Val.nil]).set K.length (rep ⟨c.state, c.len, c.block.set c.bPos 0x80#8, c.bPos + 1⟩), envS v K.length a⟩ := by
  have hW0 : 0 < P.W := by omega
  have h31 : (2 : Int) ^ 31 ≤ 2 ^ (P.W - 1) := by
    exact_mod_cast Nat.pow_le_pow_right (n := 2) (by decide) (by omega : 31 ≤ P.W - 1)
  obtain ⟨hst, hbl, hbp⟩ := hc
  have hl : c.bPos < c.block.length := by omega
  refine ⟨goSet_lt hl, ?_⟩
  have hbp' : (c.bPos : Int) < 64 := by omega
  have hx : (c.block.map Val.u8)[c.bPos]? = some (.u8 c.block[c.bPos]) := by simp
  have hms (l : List U8) (i : Nat) (x : U8) : (l.map Val.u8).set i (.u8 x) = (l.set i x).map .u8 := (List.map_set ..).symm
  have hget (x : Val) : (K ++ [x])[K.length]? = some x := List.getElem?_concat_length ..
  have hset (x y : Val) : (K ++ [x]).set K.length y = K ++ [y] := by simp
  have g2 : find (n! "lengthBytes") pkg.genv = some (.const 32) := by kernel_rfl
  rw [hset]
  simp only [takeS, BSum, bodyOf, Whirlpool.ctx_Sum]
  eval_go [envS, gBytes, g2, ha, hget, hset, hbp', hx, hms, hbl, List.length_map, wrap_succ hbp (show ((64 : Nat) : Int) < _ by omega) hW0]

theorem sum_close (hZ : findPkg Bytes.path P.pkgs = some Bytes.pkg) {K : List Val} {b : Nat} (hb : b < K.length) {c : Ctx U64} (hst : c.state.length = 8)
    (hbl : c.block.length = 64) (hbp : c.bPos ≤ 64) (v : Val) (a : Nat) {n : Nat} (hn : 70 < n) :
    ∃ c', _root_.Whirlpool.closeBlock c = .ok c' ∧ c'.state.length = 8 ∧ c'.block.length = 64 ∧ c'.len = c.len ∧ c'.bPos ≤ 32 ∧
      execs (ctxS P n) (takeS 1 (dropS 4 BSum)) ⟨K.set b (rep c), envS v b a⟩ = .ok .next ⟨K.set b (rep c'), envS v b a⟩ := by
  have hR := elem_repo hP
  have hRZ := elem_repo hZ
  by_cases h32 : 32 < c.bPos
  · have h32' : (32 : Int) < (c.bPos : Int) := by omega
    have hz := run_Zero hZ (part c.state c.len c.bPos) (h := K.set b (rep c)) (a := b) (b := c.block) (off := c.bPos) (len := 64 - c.bPos) (cap := 64 - c.bPos)
      (List.getElem?_set_self hb) (by omega) (by omega) (n := n - 1) (by omega)
    rw [show n - 1 + 1 = n by omega, List.set_set] at hz
    obtain ⟨B, hB⟩ : ∃ B, B = zeros c.block c.bPos (64 - c.bPos) := ⟨_, rfl⟩
    have hBl : B.length = 64 := by rw [hB]; simp; omega
    rw [← hB] at hz
    obtain ⟨c', h1, h2, h3, h4, h5, hrun⟩ := run_hash hP hW (h := K.set b (rep ⟨c.state, c.len, B, c.bPos⟩)) (a := b) (c := ⟨c.state, c.len, B, c.bPos⟩) (List.getElem?_set_self hb) hst hBl (n := n - 1) (by omega)
    rw [show n - 1 + 1 = n by omega, List.set_set] at hrun
    refine ⟨c', ?_, h2, h3, h4, by omega, ?_⟩
    · rw [_root_.Whirlpool.closeBlock, if_pos (by exact h32), zeroIn_eq (by omega) (by omega), Res.ok_bind, ← h1, hB, zeros, hbl, show c.bPos + (64 - c.bPos) = 64 by omega]
    · simp only [takeS, dropS, BSum, bodyOf, Whirlpool.ctx_Sum]
      have h65 : (c.bPos : Int) < 65 := by omega
      dsimp only [rep] at hrun
      eval_go [envS, List.getElem?_set_self, hb, hR, hRZ, ↓hz, ↓hrun, List.length_map, hbl, h65, hbp, Nat.zero_add, List.set_set, h32', List.length_set]
  · have h32' : ¬ (32 : Int) < (c.bPos : Int) := by omega
    refine ⟨c, ?_, hst, hbl, rfl, by omega, ?_⟩
    · rw [_root_.Whirlpool.closeBlock, if_neg (by exact h32)]
    · simp only [takeS, dropS, BSum, bodyOf, Whirlpool.ctx_Sum]
      eval_go [envS, List.getElem?_set_self, hb, h32']

theorem sum_zero (hZ : findPkg Bytes.path P.pkgs = some Bytes.pkg) {K : List Val} {b : Nat} (hb : b < K.length) {c : Ctx U64} (hbl : c.block.length = 64) (hbp : c.bPos ≤ 32) (v : Val) (a : Nat) {n : Nat} (hn : 60 < n) :
    zeroIn c.block c.bPos (blockSizeBytes - 9) = .ok (zeros c.block c.bPos (55 - c.bPos)) ∧
      execs (ctxS P n) (takeS 1 (dropS 5 BSum)) ⟨K.set b (rep c), envS v b a⟩ =
        .ok .next ⟨K.set b (rep ⟨c.state, c.len, zeros c.block c.bPos (55 - c.bPos), c.bPos⟩), envS v b a⟩ := by
  have hW0 : 0 < P.W := by omega
  have h31 : (2 : Int) ^ 31 ≤ 2 ^ (P.W - 1) := by
    exact_mod_cast Nat.pow_le_pow_right (n := 2) (by decide) (by omega : 31 ≤ P.W - 1)
  have hR := elem_repo hP
  have hRZ := elem_repo hZ
  have hz := run_Zero hZ (part c.state c.len c.bPos) (h := K.set b (rep c)) (a := b) (b := c.block) (off := c.bPos) (len := 55 - c.bPos) (cap := 64 - c.bPos)
    (List.getElem?_set_self hb) (by omega) (by omega) (n := n - 1) (by omega)
  rw [show n - 1 + 1 = n by omega, List.set_set] at hz
  refine ⟨?_, ?_⟩
  · rw [blockSizeBytes, zeroIn_eq (by omega) (by omega), zeros, show c.bPos + (55 - c.bPos) = 64 - 9 by omega]
  · simp only [takeS, dropS, BSum, bodyOf, Whirlpool.ctx_Sum]
    have h65 : (c.bPos : Int) < 65 := by omega
    have h55 : c.bPos ≤ 55 := by omega
    have h55' : (c.bPos : Int) ≤ 55 := by omega
    have h56 : (c.bPos : Int) < 56 := by omega
    eval_go [envS, gBytes, List.getElem?_set_self, hb, hR, hRZ, ↓hz, List.length_map, hbl, h65, h55, h55', h56, Nat.zero_add, Int.reduceLE, Int.reduceLT, List.set_set, List.length_set]

theorem sum_size {K : List Val} {b : Nat} (hb : b < K.length) {c c₀ : Ctx U64} (hbl : c.block.length = 64) (v : Val) {a : Nat} (ha : K[a]? = some (rep c₀)) (hab : b ≠ a) (n : Nat) :
    ∃ B, _root_.Whirlpool.putSize c.block c₀.len = .ok B ∧ B.length = 64 ∧
      execs (ctxS P n) (takeS 9 (dropS 6 BSum)) ⟨K.set b (rep c), envS v b a⟩ = .ok .next ⟨K.set b (rep ⟨c.state, c.len, B, c.bPos⟩), envS v b a⟩ := by
  obtain ⟨st, len, block, bPos⟩ := c
  simp only at hbl
  obtain ⟨R, hR⟩ : ∃ R, R = _root_.Whirlpool.putSize block c₀.len := ⟨_, rfl⟩
  have hm := hR
  simp only [_root_.Whirlpool.putSize, blockSizeBytes, goSet, List.length_set, hbl, Nat.reduceSub, Nat.reduceLT, if_true, Res.bind, bind] at hm
  subst hm
  refine ⟨_, hR.symm, by simp only [List.length_set, hbl], ?_⟩
  simp only [takeS, dropS, BSum, bodyOf, Whirlpool.ctx_Sum]
  have hgg (l : List U8) (i : Nat) (hi : i < l.length) : l[i]? = some l[i] := List.getElem?_eq_getElem hi
  have hss (l : List U8) (i : Nat) (x : U8) : (l.map Val.u8).set i (.u8 x) = (l.set i x).map .u8 := (List.map_set ..).symm
  have ha' (x : Val) : (K.set b x)[a]? = some (rep c₀) := by rw [List.getElem?_set_ne hab, ha]
  eval_go [envS, gBytes, ha', List.getElem?_set_self, List.set_set, List.length_set, hb, List.length_map, hbl, List.getElem?_map, Int.reduceLE, Int.reduceLT, hgg, hss, Nat.reduceLT]

theorem sum_hash {K : List Val} {b : Nat} (hb : b < K.length) {c : Ctx U64} (hst : c.state.length = 8) (hbl : c.block.length = 64) (v : Val) (a : Nat) {n : Nat} (hn : 19 < n) :
    ∃ c', _root_.Whirlpool.hash c = .ok c' ∧ c'.state.length = 8 ∧ c'.block.length = 64 ∧ c'.len = c.len ∧ c'.bPos = 0 ∧
      execs (ctxS P n) (takeS 1 (dropS 15 BSum)) ⟨K.set b (rep c), envS v b a⟩ = .ok .next ⟨K.set b (rep c'), envS v b a⟩ := by
  have hR := elem_repo hP
  obtain ⟨c', h1, h2, h3, h4, h5, hrun⟩ := run_hash hP hW (h := K.set b (rep c)) (a := b) (c := c) (List.getElem?_set_self hb) hst hbl (n := n - 1) (by omega)
  rw [show n - 1 + 1 = n by omega, List.set_set] at hrun
  refine ⟨c', h1, h2, h3, h4, h5, ?_⟩
  simp only [takeS, dropS, BSum, bodyOf, Whirlpool.ctx_Sum]
  eval_go [envS, List.getElem?_set_self, hb, hR, ↓hrun]

/-- The variables of `Sum` at its end. -/
abbrev envO (v o : Val) (b a : Nat) : List (Name × Val) := (n! "out", o) :: envS v b a

omit hP hW in
theorem std_put64 (v : Val) (x : BitVec 64) : stdlib (n! "encoding/binary") (n! "BigEndian") (n! "PutUint64") [v, .u64 x] = putUint true 8 v x.toNat := by kernel_rfl

omit hP hW in
theorem be64 (x : U64) : (GoLang.leBytes 8 x.toNat).reverse = (_root_.Whirlpool.bePut64 x).map .u8 := by
  have h (k : Nat) : BitVec.ofNat 8 (x.toNat / 2 ^ k) = (x >>> k).setWidth 8 := by
    apply BitVec.eq_of_toNat_eq
    simp [Nat.shiftRight_eq_div_pow]
  have h0 : BitVec.ofNat 8 x.toNat = x.setWidth 8 := by
    apply BitVec.eq_of_toNat_eq
    simp
  have e1 := h 8
  have e2 := h 16
  have e3 := h 24
  have e4 := h 32
  have e5 := h 40
  have e6 := h 48
  have e7 := h 56
  simp only [Nat.reducePow] at e1 e2 e3 e4 e5 e6 e7
  simp only [GoLang.leBytes, Nat.div_div_eq_div_mul, Nat.reduceMul, e1, e2, e3, e4, e5, e6, e7, h0, _root_.Whirlpool.bePut64]
  rfl

/-- The body of the loop over the words. -/
def outBody : Stmts := match dropS 17 BSum with
  | .cons (.for _ _ _ b) _ => b
  | _ => .nil

omit hP hW in
theorem out_eq : dropS 16 BSum = .cons (.define [n! "out"] (.cons (.call (.id (n! "make")) (.cons (.ty (.slice (.name (n! "byte")))) (.cons (.id (n! "digestSizeBytes")) .nil)) false) .nil)) (.cons
    (forE (n! "i") (.id (n! "digestSizeU64")) outBody) (.cons (.ret (.cons (.call (.id (n! "append")) (.cons (.id (n! "in")) (.cons (.id (n! "out")) .nil)) true) .nil)) .nil)) := by kernel_rfl

/-- The step of the loop over the words. -/
def outStep (st : List U64) (i : Nat) (w : List U8) : List U8 := w ++ _root_.Whirlpool.bePut64 (at64 st i)

omit hP in
theorem sum_out (hS : P.std = stdlib) (hB : elemN (n! "encoding/binary") (P.pkgs.map Pkg.path) = false) {K : List Val} {b : Nat} {c : Ctx U64} (hb : K[b]? = some (rep c))
    (hst : c.state.length = 8) (v : Val) (hv : Plain v) (a : Nat) {n : Nat} (hn : 20 < n) :
    ∃ w, _root_.Whirlpool.outLoop c.state 8 0 [] = .ok w ∧ ∀ v' h', Plain v' → (∀ e, appendTo P.grow v (w.map .u8) ⟨K ++ [.arr (w.map .u8)], e⟩ = .ok v' ⟨h', e⟩) →
      execs (ctxS P n) (dropS 16 BSum) ⟨K, envS v b a⟩ = .ok (.ret [v']) ⟨h', envO v (.slice K.length [] 0 64 64) b a⟩ := by
  have hW0 : 0 < P.W := by omega
  have h31 : (2 : Int) ^ 31 ≤ 2 ^ (P.W - 1) := by
    exact_mod_cast Nat.pow_le_pow_right (n := 2) (by decide) (by omega : 31 ≤ P.W - 1)
  have hKb (x : Val) : (K ++ [x])[b]? = some (rep c) := by rw [List.getElem?_append_left (lt_of_get hb), hb]
  have hKo (x : Val) : (K ++ [x])[K.length]? = some x := List.getElem?_concat_length ..
  have hKs (x y : Val) : (K ++ [x]).set K.length y = K ++ [y] := by simp
  have gU : find (n! "digestSizeU64") pkg.genv = some (.const 8) := by kernel_rfl
  have gD : find (n! "digestSizeBytes") pkg.genv = some (.const 64) := by kernel_rfl
  have hl := exec_forI (C := ctxS P n) (nm := n! "i") (lim := .id (n! "digestSizeU64")) (body := outBody) (N := 8) (σ := List U8) (s := []) hW rfl (by decide) (by decide)
    (outStep c.state) (fun i w => w.length = i * 8)
    (fun w => K ++ [.arr ((w ++ List.replicate (64 - w.length) 0#8).map .u8)]) (fun s => envO v (.slice K.length [] 0 64 64) b a) 5 (fun _ => rfl)
    (by
      intro i s
      eval_go [gU])
    (by
      rintro i w hi hwl
      obtain ⟨y, hy⟩ : ∃ y, y = _root_.Whirlpool.bePut64 (at64 c.state i) := ⟨_, rfl⟩
      have hyl : y.length = 8 := by rw [hy]; rfl
      have hbe := be64 (at64 c.state i)
      rw [← hy] at hbe
      simp only [outStep, ← hy]
      refine ⟨by rw [List.length_append]; omega, [], ?_⟩
      have hw8 : wrap P.W ((i : Int) * 8) = (i * 8 : Nat) := by
        rw [← wrap_nat (W := P.W) (i := i * 8) (by omega) hW0]
        rfl
      have hi' : (i : Int) < 8 := by omega
      have e2 : i * 8 ≤ 64 := by omega
      have e3 : i * 8 < 65 := by omega
      have e3' : ((i * 8 : Nat) : Int) < 65 := by omega
      have e4 : 8 ≤ 64 - i * 8 := by omega
      have hsp : put (w ++ List.replicate (64 - w.length) 0#8) (i * 8) y = w ++ y ++ List.replicate (64 - (w ++ y).length) 0#8 := by
        rw [put, List.take_left' hwl, hyl, ← List.drop_drop, List.drop_left' hwl, List.drop_replicate, List.length_append, hyl, show 64 - w.length - 8 = 64 - (w.length + 8) by omega]
      have e5 : i * 8 + y.length ≤ (w ++ List.replicate (64 - w.length) 0#8).length := by simp; omega
      simp only [outBody, dropS, BSum, bodyOf, Whirlpool.ctx_Sum]
      eval_go [envO, envS, hKb, hKo, hKs, hw8, hS, hB, std_put64, ↓putUint, hbe, at64_val (l := c.state) (i := i) (by omega), hst, List.length_map, hi, hi', e2, e3, e3', e4, e5, splice_put, hsp, Nat.zero_add])
    rfl (show 8 < n by omega)
  have hm : _root_.Whirlpool.outLoop c.state 8 0 [] = .ok (steps (outStep c.state) 8 []) := by
    refine model_steps (fun n i w => _root_.Whirlpool.outLoop c.state n i w) id (outStep c.state) (fun _ => True) 8 (fun _ _ => rfl) (fun _ _ _ _ => trivial) ?_ trivial
    intro m i w hi _
    simp only [_root_.Whirlpool.outLoop, Res.ok_bind, at64_ok (l := c.state) (i := i) (by omega), outStep]
  generalize steps (outStep c.state) 8 [] = w at *
  obtain ⟨h1, h2⟩ := hl
  rw [h2, Nat.sub_self, List.replicate_zero, List.append_nil] at h1
  refine ⟨w, hm, fun v' h' hv' hap => ?_⟩
  have e1 : (w.map Val.u8).length = 64 := by simp [h2]
  have e2 : (w.map Val.u8).take 64 = w.map Val.u8 := List.take_of_length_le (by omega)
  rw [out_eq]
  have hmk : exec (ctxS P n) (.define [n! "out"] (.cons (.call (.id (n! "make")) (.cons (.ty (.slice (.name (n! "byte")))) (.cons (.id (n! "digestSizeBytes")) .nil)) false) .nil))
      ⟨K, envS v b a⟩ = .ok .next ⟨K ++ [.arr (([] ++ List.replicate (64 - ([] : List U8).length) 0#8).map .u8)], envO v (.slice K.length [] 0 64 64) b a⟩ := by
    eval_go [gD, Int.reduceLT]
    rfl
  generalize Val.arr (([] ++ List.replicate (64 - ([] : List U8).length) 0#8).map Val.u8) = z at h1 hmk
  eval_go [↓hmk, ↓h1, hv, hap, hv', hKo, e1, e2, Nat.zero_add, Nat.le_refl, List.drop_zero]

theorem run_Sum (hS : P.std = stdlib) (hB : elemN (n! "encoding/binary") (P.pkgs.map Pkg.path) = false) (hZ : findPkg Bytes.path P.pkgs = some Bytes.pkg)
    {h : List Val} {a : Nat} {c : Ctx U64} (ha : h[a]? = some (rep c)) (hc : Inv c) {v : Val} (hv : Plain v) (inp : List U8) {n : Nat} (hn : 70 < n) :
    ∃ w t, _root_.Whirlpool.sum c inp = .ok (c, inp ++ w) ∧ ∀ v' h', Plain v' → (∀ e, appendTo P.grow v (w.map .u8) ⟨h ++ t, e⟩ = .ok v' ⟨h', e⟩) →
      run P (n + 1) path ty (n! "Sum") [obj path ty a, v] h = .ok [v'] ⟨h', []⟩ := by
  have hlen : h.length < (h ++ [Val.nil]).length := by simp
  have hah := lt_of_get ha
  have ha' : (h ++ [Val.nil])[a]? = some (rep c) := by rw [List.getElem?_append_left hah, ha]
  obtain ⟨m1, x1⟩ := sum_start hP hW ha hc v hv n
  obtain ⟨hst, hbl, hbp⟩ := hc
  obtain ⟨c1, m2, hs1, hb1, hl1, hp1, x2⟩ := sum_close hP hW hZ hlen (c := ⟨c.state, c.len, c.block.set c.bPos 0x80#8, c.bPos + 1⟩) hst (by simpa using hbl) (by simp only; omega) v a hn
  obtain ⟨m3, x3⟩ := sum_zero hP hW hZ hlen hb1 hp1 v a (n := n) (by omega)
  obtain ⟨B, hBe⟩ : ∃ B, B = zeros c1.block c1.bPos (55 - c1.bPos) := ⟨_, rfl⟩
  have hBl : B.length = 64 := by rw [hBe]; simp; omega
  rw [← hBe] at m3 x3
  obtain ⟨B', m4, hB', x4⟩ := sum_size hP hW hlen (c := ⟨c1.state, c1.len, B, c1.bPos⟩) hBl v ha' (by omega) n
  obtain ⟨c2, m5, hs2, hb2, hl2, hp2, x5⟩ := sum_hash hP hW hlen (c := ⟨c1.state, c1.len, B', c1.bPos⟩) hs1 hB' v a (n := n) (by omega)
  obtain ⟨w, m6, x6⟩ := sum_out hW hS hB (K := (h ++ [Val.nil]).set h.length (rep c2)) (List.getElem?_set_self hlen) hs2 v hv a (n := n) (by omega)
  refine ⟨w, [rep c2] ++ [.arr (w.map .u8)], ?_, ?_⟩
  · unfold _root_.Whirlpool.sum
    simp only
    rw [m1, Res.ok_bind, m2, Res.ok_bind]
    rw [m3, Res.ok_bind]
    simp only at m4
    rw [m4, Res.ok_bind, m5, Res.ok_bind, m6, Res.ok_bind]
    rfl
  · intro v' h' hv' hap
    have x7 := x6 v' h' hv' (by
      intro e
      rw [← hap e]
      congr 2
      simp)
    rw [run_func hP find_SumS]
    generalize takeS 4 BSum = S1 at *
    generalize takeS 1 (dropS 4 BSum) = S2 at *
    generalize takeS 1 (dropS 5 BSum) = S3 at *
    generalize takeS 9 (dropS 6 BSum) = S4 at *
    generalize takeS 1 (dropS 15 BSum) = S5 at *
    generalize dropS 16 BSum = S6 at *
    eval_go [hv, ↓execs_app, ↓x1, ↓x2, ↓x3, ↓x4, ↓x5, ↓x7]

end
end Source.Whirlpool
