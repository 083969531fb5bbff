import Verif.Code.RipemdObj

/-!
# The code of package `ripemd`: `Sum`
-/
namespace Source.Ripemd
open GoLang BlockHash Source.Block

/-- The body of `Sum`. -/
def BSum : Stmts := bodyOf RipeShared.ripeCtx_Sum

theorem find_SumS : findFunc ty (n! "Sum") pkg.decls = some (.func (n! "c") true (n! "ripeCtx") (n! "Sum") (.cons (n! "in") (.slice (.name (n! "byte"))) .nil)
    (.cons 0 (.slice (.name (n! "byte"))) .nil) (appS (takeS 4 BSum) (appS (takeS 1 (dropS 4 BSum)) (appS (takeS 2 (dropS 5 BSum)) (appS (takeS 9 (dropS 7 BSum))
      (appS (takeS 1 (dropS 16 BSum)) (dropS 17 BSum))))))) := by kernel_rfl

/-- The variables of `Sum`; the copy of the object is at `b`. -/
abbrev envS (v : Val) (b a : Nat) : List (Name × Val) := [(n! "h", obj path ty b), (n! "t", .box b), (n! "in", v), (n! "c", obj path ty a)]

/-- The context of `Sum`. -/
abbrev ctxS (P : Prog) (n : Nat) : GoLang.Ctx := P.ctx n pkg (n! "Sum") (.cons 0 (.slice (.name (n! "byte"))) .nil) (run P n)

section
variable {P : Prog} (hP : findPkg path P.pkgs = some pkg) (hW : 32 ≤ P.W) {hash : Name} {stateLen : Nat} {H : Ctx U32 → Res (Ctx U32)}
include hP hW

theorem sum_size {H : List Val} {b : Nat} (hb : b < H.length) {c : Ctx U32} (hbl : c.block.length = 64) (hbp : c.bPos = 56) (v : Val) (a n : Nat) :
    ∃ B, _root_.Ripemd.putSize c.block 56 c.len = .ok B ∧ B.length = 64 ∧ 
      execs (ctxS P n) (takeS 9 (dropS 7 BSum)) ⟨H.set b (rep hash stateLen c), envS v b a⟩ = .ok .next ⟨H.set b (rep hash stateLen ⟨c.state, c.len, B, 64⟩), envS v b a⟩ := by
  have hW0 : 0 < P.W := by omega
  have h31 : (2 : Int) ^ 31 ≤ 2 ^ (P.W - 1) := by
    exact_mod_cast Nat.pow_le_pow_right (n := 2) (by decide) (by omega : 31 ≤ P.W - 1)
  obtain ⟨st, len, block, bPos⟩ := c
  simp only at hbl hbp
  subst hbp
  obtain ⟨R, hR⟩ : ∃ R, R = _root_.Ripemd.putSize block 56 len := ⟨_, rfl⟩
  have hm := hR
  simp only [_root_.Ripemd.putSize, goSet, List.length_set, hbl, Nat.reduceAdd, Nat.reduceLT, if_true, Res.bind, bind] at hm
  subst hm
  refine ⟨_, hR.symm, by simp only [List.length_set, hbl], ?_⟩
  · simp only [takeS, dropS, BSum, bodyOf, RipeShared.ripeCtx_Sum]
    have hg (i : Nat) (hi : i < 9) : wrap P.W ((56 + i : Nat) : Int) = ((56 + i : Nat) : Int) := wrap_nat (by omega) hW0
    have g1 := hg 1 (by decide)
    have g2 := hg 2 (by decide)
    have g3 := hg 3 (by decide)
    have g4 := hg 4 (by decide)
    have g5 := hg 5 (by decide)
    have g6 := hg 6 (by decide)
    have g7 := hg 7 (by decide)
    have g8 := hg 8 (by decide)
    simp only [Nat.reduceAdd, Int.cast_ofNat_Int] at g1 g2 g3 g4 g5 g6 g7 g8
    have hgg (l : List U8) (i : Nat) (hi : i < l.length) : l[i]? = some l[i] := List.getElem?_eq_getElem hi
    have hss (l : List U8) (i : Nat) (x : U8) : (l.map Val.u8).set i (.u8 x) = (l.set i x).map .u8 := (List.map_set ..).symm
    eval_go [envS, List.getElem?_set_self, List.set_set, List.length_set, hb, List.length_map, hbl, List.getElem?_map, Int.reduceLE, Int.reduceLT, g1, g2, g3, g4, g5, g6, g7, g8, hgg, hss, Nat.reduceLT]
    rfl

/-- The rest of the function. -/
theorem sum_hash (hH : RunsHash P hash stateLen H) {K : List Val} {b : Nat} (hb : b < K.length) {c : Ctx U32} (hst : c.state.length = 10) (hbl : c.block.length = 64) (v : Val) (a : Nat) {n : Nat} (hn : 19 < n) :
    ∃ t c', H c = .ok c' ∧ c'.state.length = 10 ∧ c'.block.length = 64 ∧ c'.len = c.len ∧ c'.bPos = 0 ∧
      execs (ctxS P n) (takeS 1 (dropS 16 BSum)) ⟨K.set b (rep hash stateLen c), envS v b a⟩ = .ok .next ⟨(K ++ t).set b (rep hash stateLen c'), envS v b a⟩ := by
  have hR := elem_repo hP
  obtain ⟨t, c', h1, h2, h3, h4, h5, hrun⟩ := hH (h := K.set b (rep hash stateLen c)) (a := b) (c := c) (List.getElem?_set_self hb) hst hbl (n := n - 1) (by omega)
  rw [show n - 1 + 1 = n by omega, List.set_set, ← List.set_append_left _ _ hb] at hrun
  refine ⟨t, c', h1, h2, h3, h4, h5, ?_⟩
  simp only [takeS, dropS, BSum, bodyOf, RipeShared.ripeCtx_Sum]
  eval_go [envS, List.getElem?_set_self, hb, hR, ↓hrun]

theorem sum_zero (hZ : findPkg Bytes.path P.pkgs = some Bytes.pkg) {K : List Val} {b : Nat} (hb : b < K.length) {c : Ctx U32} (hbl : c.block.length = 64) (hbp : c.bPos ≤ 56) (v : Val) (a : Nat) {n : Nat} (hn : 60 < n) :
    zeroIn c.block c.bPos _root_.Ripemd.sizeSpace = .ok (zeros c.block c.bPos (56 - c.bPos)) ∧ 
      execs (ctxS P n) (takeS 2 (dropS 5 BSum)) ⟨K.set b (rep hash stateLen c), envS v b a⟩ =
        .ok .next ⟨K.set b (rep hash stateLen ⟨c.state, c.len, zeros c.block c.bPos (56 - c.bPos), 56⟩), envS v b a⟩ := by
  have hW0 : 0 < P.W := by omega
  have h31 : (2 : Int) ^ 31 ≤ 2 ^ (P.W - 1) := by
    exact_mod_cast Nat.pow_le_pow_right (n := 2) (by decide) (by omega : 31 ≤ P.W - 1)
  have hR := elem_repo hP
  have hRZ := elem_repo hZ
  have hz := run_Zero hZ (part hash stateLen c.state c.len c.bPos) (h := K.set b (rep hash stateLen c)) (a := b) (b := c.block) (off := c.bPos) (len := 56 - c.bPos) (cap := 64 - c.bPos)
    (List.getElem?_set_self hb) (by omega) (by omega) (n := n - 1) (by omega)
  rw [show n - 1 + 1 = n by omega, List.set_set] at hz
  refine ⟨?_, ?_⟩
  · rw [_root_.Ripemd.sizeSpace, zeroIn_eq hbp (by omega), zeros, show c.bPos + (56 - c.bPos) = 56 by omega]
  · simp only [takeS, dropS, BSum, bodyOf, RipeShared.ripeCtx_Sum]
    have h65 : (c.bPos : Int) < 65 := by omega
    have h56 : wrap P.W 56 = 56 := wrap_nat (i := 56) (by omega) hW0
    eval_go [envS, List.getElem?_set_self, hb, hR, hRZ, ↓hz, List.length_map, hbl, h65, hbp, Nat.zero_add, Int.reduceLE, Int.reduceLT, List.set_set, h56, List.length_set]
    rfl

theorem sum_close (hZ : findPkg Bytes.path P.pkgs = some Bytes.pkg) (hH : RunsHash P hash stateLen H) {K : List Val} {b : Nat} (hb : b < K.length) {c : Ctx U32} (hst : c.state.length = 10)
    (hbl : c.block.length = 64) (hbp : c.bPos ≤ 64) (v : Val) (a : Nat) {n : Nat} (hn : 70 < n) :
    ∃ t c', _root_.Ripemd.closeBlock ⟨H, stateLen⟩ c = .ok c' ∧ c'.state.length = 10 ∧ c'.block.length = 64 ∧ c'.len = c.len ∧ c'.bPos ≤ 56 ∧
      execs (ctxS P n) (takeS 1 (dropS 4 BSum)) ⟨K.set b (rep hash stateLen c), envS v b a⟩ = .ok .next ⟨(K ++ t).set b (rep hash stateLen c'), envS v b a⟩ := by
  have hR := elem_repo hP
  have hRZ := elem_repo hZ
  by_cases h56 : 56 < c.bPos
  · have h56' : (56 : Int) < (c.bPos : Int) := by omega
    have hz := run_Zero hZ (part hash stateLen c.state c.len c.bPos) (h := K.set b (rep hash stateLen c)) (a := b) (b := c.block) (off := c.bPos) (len := 64 - c.bPos) (cap := 64 - c.bPos)
      (List.getElem?_set_self hb) (by omega) (by omega) (n := n - 1) (by omega)
    rw [show n - 1 + 1 = n by omega, List.set_set] at hz
    obtain ⟨B, hB⟩ : ∃ B, B = zeros c.block c.bPos (64 - c.bPos) := ⟨_, rfl⟩
    have hBl : B.length = 64 := by rw [hB]; simp; omega
    rw [← hB] at hz
    obtain ⟨t, c', h1, h2, h3, h4, h5, hrun⟩ := hH (h := K.set b (rep hash stateLen ⟨c.state, c.len, B, c.bPos⟩)) (a := b) (c := ⟨c.state, c.len, B, c.bPos⟩) (List.getElem?_set_self hb) hst hBl (n := n - 1) (by omega)
    rw [show n - 1 + 1 = n by omega, List.set_set, ← List.set_append_left _ _ hb] at hrun
    refine ⟨t, c', ?_, h2, h3, h4, by omega, ?_⟩
    · rw [_root_.Ripemd.closeBlock, if_pos (by exact h56), zeroIn_eq (by omega) (by omega), Res.ok_bind, ← h1, hB, zeros, hbl, show c.bPos + (64 - c.bPos) = 64 by omega]
    · simp only [takeS, dropS, BSum, bodyOf, RipeShared.ripeCtx_Sum]
      have h65 : (c.bPos : Int) < 65 := by omega
      dsimp only [rep] at hrun
      eval_go [envS, List.getElem?_set_self, hb, hR, hRZ, ↓hz, ↓hrun, List.length_map, hbl, h65, hbp, Nat.zero_add, List.set_set, h56', List.length_set]
  · have h56' : ¬ (56 : Int) < (c.bPos : Int) := by omega
    refine ⟨[], c, ?_, hst, hbl, rfl, by omega, ?_⟩
    · rw [_root_.Ripemd.closeBlock, if_neg (by exact h56)]
    · rw [List.append_nil]
      simp only [takeS, dropS, BSum, bodyOf, RipeShared.ripeCtx_Sum]
      eval_go [envS, List.getElem?_set_self, hb, h56']

theorem sum_start {K : List Val} {a : Nat} {c : Ctx U32} (ha : K[a]? = some (rep hash stateLen c)) (hc : Inv c) (v : Val) (hv : Plain v) (n : Nat) :
    goSet c.block c.bPos 0x80#8 = .ok (c.block.set c.bPos 0x80#8) ∧
      execs (ctxS P n) (takeS 4 BSum) ⟨K, [(n! "in", v), (n! "c", obj path ty a)]⟩ =
        .ok .next ⟨(K ++ [Val.nil]).set K.length (rep hash stateLen ⟨c.state, c.len, c.block.set c.bPos 0x80#8, c.bPos + 1⟩), envS v K.length a⟩ := by
  have hW0 : 0 < P.W := by omega
  have h31 : (2 : Int) ^ 31 ≤ 2 ^ (P.W - 1) := by
    exact_mod_cast Nat.pow_le_pow_right (n := 2) (by decide) (by omega : 31 ≤ P.W - 1)
  obtain ⟨hst, hbl, hbp⟩ := hc
  have hl : c.bPos < c.block.length := by omega
  refine ⟨goSet_lt hl, ?_⟩
  have hbp' : (c.bPos : Int) < 64 := by omega
  have hx : (c.block.map Val.u8)[c.bPos]? = some (.u8 c.block[c.bPos]) := by simp
  have hms (l : List U8) (i : Nat) (x : U8) : (l.map Val.u8).set i (.u8 x) = (l.set i x).map .u8 := (List.map_set ..).symm
  have hget (x : Val) : (K ++ [x])[K.length]? = some x := List.getElem?_concat_length ..
  have hset (x y : Val) : (K ++ [x]).set K.length y = K ++ [y] := by simp
  rw [hset]
  simp only [takeS, BSum, bodyOf, RipeShared.ripeCtx_Sum]
  eval_go [envS, ha, hget, hset, hbp', hx, hms, hbl, List.length_map, wrap_succ hbp (show ((64 : Nat) : Int) < _ by omega) hW0]

/-- The variables of `Sum` at its end. -/
abbrev envO (v o : Val) (b a : Nat) : List (Name × Val) := [(n! "out", o), (n! "h", obj path ty b), (n! "t", .box b), (n! "in", v), (n! "c", obj path ty a)]

theorem sum_out (hS : P.std = stdlib) (hB : elemN (n! "encoding/binary") (P.pkgs.map Pkg.path) = false) {K : List Val} {b : Nat} {c : Ctx U32} (hb : K[b]? = some (rep hash stateLen c))
    (hst : c.state.length = 10) (hle : stateLen ≤ 10) (v : Val) (hv : Plain v) (a : Nat) {n : Nat} (hn : 20 < n) :
    ∃ w, _root_.Ripemd.outLoop c.state stateLen 0 [] = .ok w ∧ ∀ v' h', Plain v' → (∀ e, appendTo P.grow v (w.map .u8) ⟨K ++ [.arr (w.map .u8)], e⟩ = .ok v' ⟨h', e⟩) → 
      execs (ctxS P n) (dropS 17 BSum) ⟨K, envS v b a⟩ = .ok (.ret [v']) ⟨h', envO v (.slice K.length [] 0 (stateLen * 4) (stateLen * 4)) b a⟩ := by
  have hW0 : 0 < P.W := by omega
  have h31 : (2 : Int) ^ 31 ≤ 2 ^ (P.W - 1) := by
    exact_mod_cast Nat.pow_le_pow_right (n := 2) (by decide) (by omega : 31 ≤ P.W - 1)
  simp only [dropS, BSum, bodyOf, RipeShared.ripeCtx_Sum]
  have hw4 : wrap P.W ((stateLen : Int) * 4) = (stateLen * 4 : Nat) := by
    rw [← wrap_nat (W := P.W) (i := stateLen * 4) (by omega) hW0]
    rfl
  obtain ⟨R, hR0⟩ : ∃ R, R = _root_.Ripemd.outLoop c.state stateLen 0 [] := ⟨_, rfl⟩
  rw [← hR0]
  have hw0 : ¬ ((stateLen * 4 : Nat) : Int) < 0 := by omega
  eval_go [envS, hb, hw4, hw0]
  generalize hlp : loop _ _ _ _ _ = o
  obtain ⟨w, hm, hwl, rfl⟩ : ∃ w, R = .ok w ∧ w.length = stateLen * 4 ∧
      o = .ok .next ⟨K ++ [.arr (w.map .u8)], (n! "i", .int stateLen) :: envO v (.slice K.length [] 0 (stateLen * 4) (stateLen * 4)) b a⟩ := by
    refine loop_post (α := Nat × List U8)
      (fun o => ∃ w, R = .ok w ∧ w.length = stateLen * 4 ∧
        o = .ok .next ⟨K ++ [.arr (w.map .u8)], (n! "i", .int stateLen) :: envO v (.slice K.length [] 0 (stateLen * 4) (stateLen * 4)) b a⟩)
      (fun x => x.1 ≤ stateLen ∧ x.2.length = x.1 * 4 ∧ R = _root_.Ripemd.outLoop c.state (stateLen - x.1) x.1 x.2)
      (fun x => ⟨K ++ [.arr ((x.2 ++ List.replicate ((stateLen - x.1) * 4) 0#8).map .u8)], (n! "i", .int x.1) :: envO v (.slice K.length [] 0 (stateLen * 4) (stateLen * 4)) b a⟩)
      (fun x => stateLen - x.1) ?_ (0, []) ⟨Nat.zero_le _, rfl, hR0⟩ (by simp only; omega) ?_ hlp
    · clear hlp
      have hKb (x : Val) : (K ++ [x])[b]? = some (rep hash stateLen c) := by rw [List.getElem?_append_left (lt_of_get hb), hb]
      have hKo (x : Val) : (K ++ [x])[K.length]? = some x := List.getElem?_concat_length ..
      have hKs (x y : Val) : (K ++ [x]).set K.length y = K ++ [y] := by simp
      rintro ⟨i, w⟩ k ⟨hi, hwl, hm⟩ hk ih
      simp only at hi hwl hm hk ih ⊢
      by_cases hlt : i < stateLen
      · obtain ⟨m, hm'⟩ : ∃ m, stateLen - i = m + 1 := ⟨stateLen - i - 1, by omega⟩
        rw [hm', _root_.Ripemd.outLoop, goIdx_lt (by omega), Res.ok_bind] at hm
        have hw4 : wrap P.W ((i : Int) * 4) = (i * 4 : Nat) := by
          rw [← wrap_nat (W := P.W) (i := i * 4) (by omega) hW0]
          rfl
        obtain ⟨y, hy⟩ : ∃ y, y = _root_.Ripemd.lePut32 c.state[i] := ⟨_, rfl⟩
        have hyl : y.length = 4 := by rw [hy]; rfl
        have hle4 : GoLang.leBytes 4 c.state[i].toNat = y.map .u8 := by
          rw [hy, _root_.Ripemd.lePut32_eq]
          rfl
        rw [← hy] at hm
        have hsx : (c.state.map Val.u32)[i]? = some (.u32 c.state[i]) := by simp
        have hsl : (c.state.map Val.u32).length = 10 := by simp [hst]
        have e1 : (i : Int) < 10 := by omega
        have e2 : i * 4 ≤ stateLen * 4 := by omega
        have e3 : i * 4 < stateLen * 4 + 1 := by omega
        have e4 : 4 ≤ stateLen * 4 - i * 4 := by omega
        have hsp : put (w ++ List.replicate ((m + 1) * 4) 0#8) (i * 4) y = w ++ y ++ List.replicate (m * 4) 0#8 := by
          rw [put, List.take_left' hwl, hyl, ← List.drop_drop, List.drop_left' hwl, List.drop_replicate, show (m + 1) * 4 - 4 = m * 4 by omega]
        have e5 : i * 4 + (y.map Val.u8).length ≤ ((w ++ List.replicate ((m + 1) * 4) 0#8).map Val.u8).length := by simp; omega
        rw [hm', loop_next (s₁ := ⟨K ++ [.arr ((w ++ List.replicate ((m + 1) * 4) 0#8).map .u8)], (n! "i", .int i) :: envO v (.slice K.length [] 0 (stateLen * 4) (stateLen * 4)) b a⟩)
          (s₂ := ⟨K ++ [.arr ((w ++ y ++ List.replicate (m * 4) 0#8).map .u8)], (n! "i", .int i) :: envO v (.slice K.length [] 0 (stateLen * 4) (stateLen * 4)) b a⟩)
          (s₃ := ⟨K ++ [.arr ((w ++ y ++ List.replicate (m * 4) 0#8).map .u8)], (n! "i", .int (i + 1 : Nat)) :: envO v (.slice K.length [] 0 (stateLen * 4) (stateLen * 4)) b a⟩)]
        · have := ih (i + 1, w ++ y) ⟨by simp only; omega, by simp only [List.length_append]; omega, by rw [hm]; simp only; rw [show stateLen - (i + 1) = m by omega]⟩ (by simp only; omega)
          simp only [show stateLen - (i + 1) = m by omega] at this
          exact this
        · eval_go [envO, hKb, hlt]
        · eval_go [envO, hKb, hKo, hKs, hw4, hS, hB, std_put32, ↓putUint, hle4, hsx, hsl, e1, e2, e3, e4, ↓e5, splice_put, hsp, Nat.zero_add]
        · eval_go [envO, wrap_succ hlt (show ((stateLen : Nat) : Int) < _ by omega) hW0]
      · have hie : i = stateLen := by omega
        rw [hie] at hm hwl ⊢
        rw [Nat.sub_self, _root_.Ripemd.outLoop] at hm
        rw [loop_false (s₁ := ⟨K ++ [.arr ((w ++ List.replicate ((stateLen - stateLen) * 4) 0#8).map .u8)], (n! "i", .int stateLen) :: envO v (.slice K.length [] 0 (stateLen * 4) (stateLen * 4)) b a⟩)]
        · exact ⟨w, hm, hwl, by simp⟩
        · eval_go [envO, Nat.lt_irrefl, hKb]
    · simp [envO]
  clear hlp
  refine ⟨w, hm, fun v' h' hv' hap => ?_⟩
  have hKo (x : Val) : (K ++ [x])[K.length]? = some x := List.getElem?_concat_length ..
  have e1 : (w.map Val.u8).length = stateLen * 4 := by simp [hwl]
  have e2 : (w.map Val.u8).take (stateLen * 4) = w.map Val.u8 := List.take_of_length_le (by omega)
  eval_go [hv, hap, hv', hKo, e1, e2, Nat.zero_add, Nat.le_refl, List.drop_zero]

theorem run_Sum (hS : P.std = stdlib) (hB : elemN (n! "encoding/binary") (P.pkgs.map Pkg.path) = false) (hZ : findPkg Bytes.path P.pkgs = some Bytes.pkg) (hH : RunsHash P hash stateLen H)
    {h : List Val} {a : Nat} {c : Ctx U32} (ha : h[a]? = some (rep hash stateLen c)) (hc : Inv c) (hle : stateLen ≤ 10) {v : Val} (hv : Plain v) (inp : List U8) {n : Nat} (hn : 70 < n) :
    ∃ w t, _root_.Ripemd.sum ⟨H, stateLen⟩ c inp = .ok (c, inp ++ w) ∧ ∀ v' h', Plain v' → (∀ e, appendTo P.grow v (w.map .u8) ⟨h ++ t, e⟩ = .ok v' ⟨h', e⟩) →
      run P (n + 1) path ty (n! "Sum") [obj path ty a, v] h = .ok [v'] ⟨h', []⟩ := by
  have hlen (T : List Val) : h.length < (h ++ [Val.nil] ++ T).length := by simp
  obtain ⟨m1, x1⟩ := sum_start hP hW ha hc v hv n
  obtain ⟨hst, hbl, hbp⟩ := hc
  obtain ⟨t1, c1, m2, hs1, hb1, hl1, hp1, x2⟩ := sum_close hP hW hZ hH (K := h ++ [.nil]) (b := h.length) (by simp) (c := ⟨c.state, c.len, c.block.set c.bPos 0x80#8, c.bPos + 1⟩) hst (by simpa using hbl) (by simp only; omega) v a hn
  obtain ⟨m3, x3⟩ := sum_zero hP hW hZ (hash := hash) (stateLen := stateLen) (hlen t1) hb1 hp1 v a (n := n) (by omega)
  obtain ⟨B, hBe⟩ : ∃ B, B = zeros c1.block c1.bPos (56 - c1.bPos) := ⟨_, rfl⟩
  have hBl : B.length = 64 := by rw [hBe]; simp; omega
  rw [← hBe] at m3 x3
  obtain ⟨B', m4, hB', x4⟩ := sum_size hP hW (hash := hash) (stateLen := stateLen) (hlen t1) (c := ⟨c1.state, c1.len, B, 56⟩) hBl rfl v a n
  obtain ⟨t2, c2, m5, hs2, hb2, hl2, hp2, x5⟩ := sum_hash hP hW hH (hlen t1) (c := ⟨c1.state, c1.len, B', 64⟩) hs1 hB' v a (n := n) (by omega)
  rw [List.append_assoc _ t1] at x5
  obtain ⟨w, m6, x6⟩ := sum_out hP hW hS hB (K := (h ++ [Val.nil] ++ (t1 ++ t2)).set h.length (rep hash stateLen c2)) (List.getElem?_set_self (hlen _)) hs2 hle v hv a (n := n) (by omega)
  refine ⟨w, [rep hash stateLen c2] ++ (t1 ++ t2) ++ [.arr (w.map .u8)], ?_, ?_⟩
  · unfold _root_.Ripemd.sum
    simp only
    rw [m1, Res.ok_bind, m2, Res.ok_bind]
    rw [m3, Res.ok_bind]
    simp only at m4
    rw [_root_.Ripemd.sizeSpace, m4, Res.ok_bind, m5, Res.ok_bind, m6, Res.ok_bind]
    rfl
  · intro v' h' hv' hap
    have x7 := x6 v' h' hv' (by
      intro e
      rw [← hap e]
      congr 2
      simp)
    rw [run_func hP find_SumS]
    generalize takeS 4 BSum = S1 at *
    generalize takeS 1 (dropS 4 BSum) = S2 at *
    generalize takeS 2 (dropS 5 BSum) = S3 at *
    generalize takeS 9 (dropS 7 BSum) = S4 at *
    generalize takeS 1 (dropS 16 BSum) = S5 at *
    generalize dropS 17 BSum = S6 at *
    eval_go [hv, ↓execs_app, ↓x1, ↓x2, ↓x3, ↓x4, ↓x5, ↓x7]

/-! ## The other methods -/

theorem run_New128 (hS : P.std = stdlib) (hB : elemN (n! "encoding/binary") (P.pkgs.map Pkg.path) = false) (h : List Val) {n : Nat} (hn : 8 < n) :
    ∃ t st, _root_.Ripemd.new ⟨H, 4⟩ = .ok ⟨st, 0, List.replicate 64 0#8, 0⟩ ∧ st.length = 10 ∧
      run P (n + 1) path 0 (n! "New128") [] h = .ok [obj path ty h.length] ⟨h ++ [rep (n! "hash128") 4 ⟨st, 0, List.replicate 64 0#8, 0⟩] ++ t, []⟩ := by
  have h31 : (2 : Int) ^ 31 ≤ 2 ^ (P.W - 1) := by
    exact_mod_cast Nat.pow_le_pow_right (n := 2) (by decide) (by omega : 31 ≤ P.W - 1)
  have hk : wrap P.W 4 = 4 := wrap_nat (i := 4) (by omega) (by omega)
  obtain ⟨t, st, h1, h2, hrun⟩ := run_Reset (H := H) hP hW hS hB (hash := n! "hash128") (stateLen := 4) (h := h ++ [rep (n! "hash128") 4 ⟨List.replicate 10 0#32, 0, List.replicate 64 0#8, 0⟩])
    (a := h.length) (List.getElem?_concat_length ..) (by simp) (by decide) (n := n - 1) (by omega)
  have hset (x y : Val) : (h ++ [x]).set h.length y = h ++ [y] := by simp
  rw [show n - 1 + 1 = n by omega, hset] at hrun
  refine ⟨t, st, h1, h2, ?_⟩
  simp only [rep, List.map_replicate, Int.cast_ofNat_Int] at hrun
  simp only [rep, List.map_replicate, Int.cast_ofNat_Int]
  rw [run_func hP find_New128]
  eval_go [hk]
  erw [hrun]
  eval_go

theorem run_New160 (hS : P.std = stdlib) (hB : elemN (n! "encoding/binary") (P.pkgs.map Pkg.path) = false) (h : List Val) {n : Nat} (hn : 8 < n) :
    ∃ t st, _root_.Ripemd.new ⟨H, 5⟩ = .ok ⟨st, 0, List.replicate 64 0#8, 0⟩ ∧ st.length = 10 ∧
      run P (n + 1) path 0 (n! "New160") [] h = .ok [obj path ty h.length] ⟨h ++ [rep (n! "hash160") 5 ⟨st, 0, List.replicate 64 0#8, 0⟩] ++ t, []⟩ := by
  have h31 : (2 : Int) ^ 31 ≤ 2 ^ (P.W - 1) := by
    exact_mod_cast Nat.pow_le_pow_right (n := 2) (by decide) (by omega : 31 ≤ P.W - 1)
  have hk : wrap P.W 5 = 5 := wrap_nat (i := 5) (by omega) (by omega)
  obtain ⟨t, st, h1, h2, hrun⟩ := run_Reset (H := H) hP hW hS hB (hash := n! "hash160") (stateLen := 5) (h := h ++ [rep (n! "hash160") 5 ⟨List.replicate 10 0#32, 0, List.replicate 64 0#8, 0⟩])
    (a := h.length) (List.getElem?_concat_length ..) (by simp) (by decide) (n := n - 1) (by omega)
  have hset (x y : Val) : (h ++ [x]).set h.length y = h ++ [y] := by simp
  rw [show n - 1 + 1 = n by omega, hset] at hrun
  refine ⟨t, st, h1, h2, ?_⟩
  simp only [rep, List.map_replicate, Int.cast_ofNat_Int] at hrun
  simp only [rep, List.map_replicate, Int.cast_ofNat_Int]
  rw [run_func hP find_New160]
  eval_go [hk]
  erw [hrun]
  eval_go

theorem run_New256 (hS : P.std = stdlib) (hB : elemN (n! "encoding/binary") (P.pkgs.map Pkg.path) = false) (h : List Val) {n : Nat} (hn : 8 < n) :
    ∃ t st, _root_.Ripemd.new ⟨H, 8⟩ = .ok ⟨st, 0, List.replicate 64 0#8, 0⟩ ∧ st.length = 10 ∧
      run P (n + 1) path 0 (n! "New256") [] h = .ok [obj path ty h.length] ⟨h ++ [rep (n! "hash256") 8 ⟨st, 0, List.replicate 64 0#8, 0⟩] ++ t, []⟩ := by
  have h31 : (2 : Int) ^ 31 ≤ 2 ^ (P.W - 1) := by
    exact_mod_cast Nat.pow_le_pow_right (n := 2) (by decide) (by omega : 31 ≤ P.W - 1)
  have hk : wrap P.W 8 = 8 := wrap_nat (i := 8) (by omega) (by omega)
  obtain ⟨t, st, h1, h2, hrun⟩ := run_Reset (H := H) hP hW hS hB (hash := n! "hash256") (stateLen := 8) (h := h ++ [rep (n! "hash256") 8 ⟨List.replicate 10 0#32, 0, List.replicate 64 0#8, 0⟩])
    (a := h.length) (List.getElem?_concat_length ..) (by simp) (by decide) (n := n - 1) (by omega)
  have hset (x y : Val) : (h ++ [x]).set h.length y = h ++ [y] := by simp
  rw [show n - 1 + 1 = n by omega, hset] at hrun
  refine ⟨t, st, h1, h2, ?_⟩
  simp only [rep, List.map_replicate, Int.cast_ofNat_Int] at hrun
  simp only [rep, List.map_replicate, Int.cast_ofNat_Int]
  rw [run_func hP find_New256]
  eval_go [hk]
  erw [hrun]
  eval_go

theorem run_New320 (hS : P.std = stdlib) (hB : elemN (n! "encoding/binary") (P.pkgs.map Pkg.path) = false) (h : List Val) {n : Nat} (hn : 8 < n) :
    ∃ t st, _root_.Ripemd.new ⟨H, 10⟩ = .ok ⟨st, 0, List.replicate 64 0#8, 0⟩ ∧ st.length = 10 ∧
      run P (n + 1) path 0 (n! "New320") [] h = .ok [obj path ty h.length] ⟨h ++ [rep (n! "hash320") 10 ⟨st, 0, List.replicate 64 0#8, 0⟩] ++ t, []⟩ := by
  have h31 : (2 : Int) ^ 31 ≤ 2 ^ (P.W - 1) := by
    exact_mod_cast Nat.pow_le_pow_right (n := 2) (by decide) (by omega : 31 ≤ P.W - 1)
  have hk : wrap P.W 10 = 10 := wrap_nat (i := 10) (by omega) (by omega)
  obtain ⟨t, st, h1, h2, hrun⟩ := run_Reset (H := H) hP hW hS hB (hash := n! "hash320") (stateLen := 10) (h := h ++ [rep (n! "hash320") 10 ⟨List.replicate 10 0#32, 0, List.replicate 64 0#8, 0⟩])
    (a := h.length) (List.getElem?_concat_length ..) (by simp) (by decide) (n := n - 1) (by omega)
  have hset (x y : Val) : (h ++ [x]).set h.length y = h ++ [y] := by simp
  rw [show n - 1 + 1 = n by omega, hset] at hrun
  refine ⟨t, st, h1, h2, ?_⟩
  simp only [rep, List.map_replicate, Int.cast_ofNat_Int] at hrun
  simp only [rep, List.map_replicate, Int.cast_ofNat_Int]
  rw [run_func hP find_New320]
  eval_go [hk]
  erw [hrun]
  eval_go

theorem run_Size {h : List Val} {a : Nat} {c : Ctx U32} (ha : h[a]? = some (rep hash stateLen c)) (hle : stateLen ≤ 10) (n : Nat) :
    run P (n + 1) path ty (n! "Size") [obj path ty a] h = .ok [.int (stateLen * 4 : Nat)] ⟨h, []⟩ := by
  have h31 : (2 : Int) ^ 31 ≤ 2 ^ (P.W - 1) := by
    exact_mod_cast Nat.pow_le_pow_right (n := 2) (by decide) (by omega : 31 ≤ P.W - 1)
  have hw4 : wrap P.W ((stateLen : Int) * 4) = (stateLen * 4 : Nat) := by
    rw [← wrap_nat (W := P.W) (i := stateLen * 4) (by omega) (by omega)]
    rfl
  rw [run_func hP find_Size]
  eval_go [ha, hw4]

theorem run_BlockSize {h : List Val} {a : Nat} (n : Nat) :
    run P (n + 1) path ty (n! "BlockSize") [obj path ty a] h = .ok [.int (64 : Nat)] ⟨h, []⟩ := by
  have h31 : (2 : Int) ^ 31 ≤ 2 ^ (P.W - 1) := by
    exact_mod_cast Nat.pow_le_pow_right (n := 2) (by decide) (by omega : 31 ≤ P.W - 1)
  have hk : wrap P.W 64 = 64 := wrap_nat (i := 64) (by omega) (by omega)
  rw [run_func hP find_BlockSize]
  eval_go [hk]

end
end Source.Ripemd
