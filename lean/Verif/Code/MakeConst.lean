import Verif.Code.MakeText
import Verif.Code.Hex
import Verif.Lemmas.MakeTables

/-!
# `genConst` and `writeU64LE` of make_tables.go, run
-/
namespace Source.MakeTables
open GoLang

theorem find_genConst : findFunc 0 (n! "genConst") pkg.decls = some MakeTables.genConst := by kernel_rfl
theorem find_writeU64LE : findFunc 0 (n! "writeU64LE") pkg.decls = some MakeTables.writeU64LE := by kernel_rfl

theorem std_put64 (v : Val) (x : BitVec 64) : stdlib (n! "encoding/binary") (n! "LittleEndian") (n! "PutUint64") [v, .u64 x] = putUint false 8 v x.toNat := by kernel_rfl

/-- The bytes of a word. -/
theorem le64 (x : U64) : GoLang.leBytes 8 x.toNat = (_root_.MakeTables.lePut64 x).map .u8 := by
  have h (k : Nat) : BitVec.ofNat 8 (x.toNat / 2 ^ k) = (x >>> k).setWidth 8 := by
    apply BitVec.eq_of_toNat_eq
    simp [Nat.shiftRight_eq_div_pow]
  have h0 := h 0
  have h1 := h 8
  have h2 := h 16
  have h3 := h 24
  have h4 := h 32
  have h5 := h 40
  have h6 := h 48
  have h7 := h 56
  simp only [Nat.reducePow, Nat.div_one] at h0 h1 h2 h3 h4 h5 h6 h7
  simp only [GoLang.leBytes, Nat.div_div_eq_div_mul, Nat.reduceMul, h0, h1, h2, h3, h4, h5, h6, h7]
  rfl

theorem fmt_const (s : List (BitVec 8)) : sprintf [99#8, 111#8, 110#8, 115#8, 116#8, 32#8, 37#8, 115#8, 32#8, 61#8, 34#8, 34#8, 43#8, 10#8] [.str s] =
    some (ascii "const " ++ s ++ ascii " =\"\"+\n") := by
  simp [sprintf, show ascii "const " = [99#8, 111#8, 110#8, 115#8, 116#8, 32#8] by decide +kernel,
    show ascii " =\"\"+\n" = [32#8, 61#8, 34#8, 34#8, 43#8, 10#8] by decide +kernel]

section
variable {P : Prog} {fmtr : List (BitVec 8) → Except (List (BitVec 8)) (List (BitVec 8))} {wr : Option (List (BitVec 8))} {fs : Nat} (hT : Tools P fmtr wr fs)
  (hF : elemN (n! "fmt") (P.pkgs.map Pkg.path) = false) (hP : findPkg path P.pkgs = some pkg) {bd : _root_.Hex.Build} (hX : findPkg Hex.path P.pkgs = some (Hex.pkg bd))
  (hS : P.std (n! "encoding/binary") = stdlib (n! "encoding/binary")) (hE : elemN (n! "encoding/binary") (P.pkgs.map Pkg.path) = false) (hW : 32 ≤ P.W)
include hT hF hP hX hS hE hW

theorem run_writeU64LE {h : List Val} {b : Nat} {w w' : List (BitVec 8)} (hb : h[b]? = some (.str w)) {v : U64} (hw : _root_.MakeTables.writeU64LE w v = .ok w') {n : Nat} (hn : 20 < n) :
    ∃ j, run P (n + 1) path 0 (n! "writeU64LE") [.native b, .u64 v] h = .ok [] ⟨h.set b (.str w') ++ j, []⟩ := by
  have h31 : (2 : Int) ^ 31 ≤ 2 ^ (P.W - 1) := by
    exact_mod_cast Nat.pow_le_pow_right (n := 2) (by decide) (by omega : 31 ≤ P.W - 1)
  have hlt : b < h.length := (List.getElem?_eq_some_iff.mp hb).1
  rw [_root_.MakeTables.writeU64LE, _root_.Hex.FromBytes_eq] at hw
  simp only [Res.ok_bind] at hw
  have hll : (_root_.MakeTables.lePut64 v).length = 8 := rfl
  have hsl : (HexSpec.encode (_root_.MakeTables.lePut64 v)).length = 16 := by simp [HexSpec.encode, hll]
  have hb8 : HasBytes (h ++ [.arr ((_root_.MakeTables.lePut64 v).map .u8)]) (.slice h.length [] 0 8 8) (_root_.MakeTables.lePut64 v) := has_whole (b := _root_.MakeTables.lePut64 v) (get_last _ _)
  have r1 := Hex.run_FromBytes hX (_root_.Hex.FromBytes_eq _) hb8 hW (by rw [hll]; omega) (n := n - 1) (by rw [hll]; omega)
  rw [show n - 1 + 1 = n by omega] at r1
  generalize HexSpec.encode (_root_.MakeTables.lePut64 v) = s at *
  have hput (e : List (Name × Val)) : putUint false 8 (.slice h.length [] 0 8 8) v.toNat ⟨h ++ [.arr [.u8 0, .u8 0, .u8 0, .u8 0, .u8 0, .u8 0, .u8 0, .u8 0]], e⟩ =
      .ok (.tuple []) ⟨h ++ [.arr ((_root_.MakeTables.lePut64 v).map .u8)], e⟩ := by
    simp [putUint, go, le64, splice, hll]
  have hR := elem_repo hP
  have hR2 := elem_repo hX
  rw [run_func hP find_writeU64LE]
  eval_go [hS, hE, hF, hR, hR2, std_put64, hput, r1, show ¬ (8 : Int) < 0 by decide]
  obtain ⟨j, hj⟩ : ∃ j : List Val, j = [.arr ((_root_.MakeTables.lePut64 v).map .u8), .arr (s.map .u8)] := ⟨_, rfl⟩
  have hh : h ++ [.arr ((_root_.MakeTables.lePut64 v).map .u8)] ++ [.arr (s.map .u8)] = (h ++ j).set b (.str w) := by
    obtain ⟨_, e⟩ := List.getElem?_eq_some_iff.mp hb
    rw [hj, List.append_assoc, List.set_append_left _ _ hlt, ← e, List.set_getElem_self]
    rfl
  rw [hh]
  have hlt' : b < (h ++ j).length := by simp; omega
  have hg (w : List (BitVec 8)) : ((h ++ j).set b (.str w))[b]? = some (.str w) := by rw [List.getElem?_set_self hlt']
  have hp (w t : List (BitVec 8)) (e : List (Name × Val)) := hT.fprint ((h ++ j).set b (.str w)) e b w t (hg w)
  generalize hlp : loop _ _ _ _ _ = o
  have hl := loop_post (fun o => o = .ok .next ⟨(h ++ j).set b (.str w'), [(n! "i", .int 16), (n! "h", .str s), (n! "b", .slice h.length [] 0 8 8), (n! "v", .u64 v), (n! "w", .native b)]⟩)
    (fun x : Nat × List (BitVec 8) => x.1 ≤ 8 ∧ _root_.MakeTables.escapeLoop s (8 - x.1) (2 * x.1) x.2 = .ok w')
    (fun x => ⟨(h ++ j).set b (.str x.2), [(n! "i", .int (2 * x.1 : Nat)), (n! "h", .str s), (n! "b", .slice h.length [] 0 8 8), (n! "v", .u64 v), (n! "w", .native b)]⟩)
    (fun x => 8 - x.1)
    (by
      rintro ⟨i, w⟩ m ⟨hi, hI⟩ hm ih
      simp only at hi hI hm ih
      rw [loop]
      by_cases h8 : i = 8
      · subst h8
        have hI := Res.ok.inj hI
        eval_go
        rw [← hI]
        rfl
      · have hi : i < 8 := by omega
        rw [show 8 - i = (8 - (i + 1)) + 1 by omega, _root_.MakeTables.escapeLoop, goSlice] at hI
        have c1 : ((2 * i : Nat) : Int) < 16 := by omega
        have w2 : wrap P.W (((2 * i : Nat) : Int) + 2) = (2 * i + 2 : Nat) := wrap_add (k := 2) (by omega) (by omega)
        have c2 : ((2 * i : Nat) : Int) < 17 := by omega
        have c3 : ((2 * i + 2 : Nat) : Int) < 17 := by omega
        have c4 : 2 * i ≤ 2 * i + 2 := by omega
        have c5 : (s.drop (2 * i)).take (2 * i + 2 - 2 * i) = (s.take (2 * i + 2)).drop (2 * i) := by rw [List.drop_take]
        have c6 : [92#8, 120#8] = ascii "\\x" := by decide +kernel
        rw [if_pos (by rw [hsl]; omega), Res.ok_bind] at hI
        eval_go [c1, c2, c3, c4, c5, c6, w2, hsl, hp, hF, List.set_set]
        exact ih (i + 1, _) ⟨by omega, hI⟩ (by simp only; omega))
    (0, w) ⟨by omega, hw⟩ (n := n) (by simp; omega) rfl hlp
  rw [hl]
  eval_go
  exact ⟨j, by rw [List.set_append_left _ _ hlt]⟩

theorem run_genConst {h : List Val} {b a : Nat} (hab : a ≠ b) {w w' name : List (BitVec 8)} (hb : h[b]? = some (.str w)) {data : List U64} (ha : h[a]? = some (.arr (data.map .u64)))
    (hw : _root_.MakeTables.genConst w name data = .ok w') {n : Nat} (hn : 21 < n) :
    ∃ j, run P (n + 1) path 0 (n! "genConst") [.native b, .str name, .slice a [] 0 data.length data.length] h = .ok [] ⟨h.set b (.str w') ++ j, []⟩ := by
  have hlt : b < h.length := (List.getElem?_eq_some_iff.mp hb).1
  have hg (w : List (BitVec 8)) (j : List Val) : (h.set b (.str w) ++ j)[b]? = some (.str w) := by rw [List.getElem?_append_left (by simpa using hlt), List.getElem?_set_self hlt]
  have ha' (w : List (BitVec 8)) (j : List Val) : (h.set b (.str w) ++ j)[a]? = some (.arr (data.map .u64)) := by
    rw [List.getElem?_append_left (by simpa using (List.getElem?_eq_some_iff.mp ha).1), List.getElem?_set_ne hab.symm, ha]
  have hs (w w' : List (BitVec 8)) (j : List Val) : (h.set b (.str w) ++ j).set b (.str w') = h.set b (.str w') ++ j := by
    rw [List.set_append_left _ _ (by simpa using hlt), List.set_set]
  have hpf (w : List (BitVec 8)) (j : List Val) (f t : List (BitVec 8)) (args : List Val) (e : List (Name × Val)) := hT.fprintf (h.set b (.str w) ++ j) e b w f t args (hg w j)
  have hp (w : List (BitVec 8)) (j : List Val) (t : List (BitVec 8)) (e : List (Name × Val)) := hT.fprint (h.set b (.str w) ++ j) e b w t (hg w j)
  have h1 := fun e => hT.fprintf h e b w _ _ _ hb (fmt_const name)
  rw [run_func hP find_genConst]
  eval_go [hF, h1]
  rw [_root_.MakeTables.genConst] at hw
  obtain ⟨w2, hw2, hw3⟩ : ∃ w2, _root_.MakeTables.constLoop data 0 (w ++ ascii "const " ++ name ++ ascii " =\"\"+\n") = .ok w2 ∧ w' = w2 ++ ascii "\n\n" := by
    cases hc : _root_.MakeTables.constLoop data 0 (w ++ ascii "const " ++ name ++ ascii " =\"\"+\n") with
    | ok w2 =>
      simp only [hc, Res.ok_bind] at hw
      exact ⟨w2, rfl, (Res.ok.inj hw).symm⟩
    | panic => simp only [hc] at hw; cases hw
  generalize hlp : rangeLoop _ _ _ _ = o
  have hl := range_post (fun o => ∃ j, o = .ok .next ⟨h.set b (.str w2) ++ j, [(n! "data", .slice a [] 0 data.length data.length), (n! "name", .str name), (n! "w", .native b)]⟩)
    (fun i (x : List (BitVec 8) × List Val) => _root_.MakeTables.constLoop (data.drop i) i x.1 = .ok w2)
    (fun i x => ⟨h.set b (.str x.1) ++ x.2, [(n! "data", .slice a [] 0 data.length data.length), (n! "name", .str name), (n! "w", .native b)]⟩) data.length
    (by
      rintro i k ⟨w, j⟩ hi hI hQ
      have hdi : data.drop i = data[i] :: data.drop (i + 1) := List.drop_eq_getElem_cons hi
      rw [hdi, _root_.MakeTables.constLoop] at hI
      have hv : (data.map Val.u64)[i]? = some (.u64 data[i]) := by simp [hi]
      have hi' : (i : Int) < data.length := by omega
      have h1 := fun w j e => hpf w j _ _ _ e (fmt_index i)
      have h2 : ((i : Int).tmod 2 = 0) = (i % 2 = 0) := by
        rw [Int.tmod_eq_emod_of_nonneg (by omega)]
        exact propext (by omega)
      have h16 : ((i : Int).tmod 16 = 0) = (i % 16 = 0) := by
        rw [Int.tmod_eq_emod_of_nonneg (by omega)]
        exact propext (by omega)
      have h0 : ((0 : Int) < i) = (0 < i) := propext (by omega)
      have key (w1 : List (BitVec 8)) (hI : (do let w ← _root_.MakeTables.writeU64LE w1 data[i]; _root_.MakeTables.constLoop (data.drop (i + 1)) (i + 1) (w ++ ascii "\"")) = .ok w2) :
          ∃ w3 j', run P n path 0 (n! "writeU64LE") [.native b, .u64 data[i]] (h.set b (.str w1) ++ j) = .ok [] ⟨h.set b (.str w3) ++ (j ++ j'), []⟩ ∧
            _root_.MakeTables.constLoop (data.drop (i + 1)) (i + 1) (w3 ++ [34#8]) = .ok w2 := by
        cases hc : _root_.MakeTables.writeU64LE w1 data[i] with
        | ok w3 =>
          rw [hc, Res.ok_bind] at hI
          obtain ⟨j', hr⟩ := run_writeU64LE hT hF hP hX hS hE hW (hg w1 j) hc (n := n - 1) (by omega)
          rw [show n - 1 + 1 = n by omega, hs, List.append_assoc] at hr
          exact ⟨w3, j', hr, hI⟩
        | panic => rw [hc] at hI; cases hI
      rw [rangeLoop]
      have hR := elem_repo hP
      have e1 : ascii "\"" = [34#8] := by decide +kernel
      have e2 : ascii "+\n" = [43#8, 10#8] := by decide +kernel
      have e3 : ascii "+" = [43#8] := by decide +kernel
      by_cases c0 : 0 < i <;> by_cases c2 : i % 2 = 0 <;> by_cases c16 : i % 16 = 0
      all_goals
        simp only [c0, c2, c16, GT.gt, if_true, if_false, e1, e2, e3, List.append_assoc, List.cons_append, List.nil_append] at hI
        obtain ⟨w3, j', hr, hI⟩ := key _ (by rw [e1]; exact hI)
        eval_go [hF, h1, hp, ha', hv, hi, hi', h2, h16, h0, c0, c2, c16, List.length_map, hs, Nat.zero_add, List.append_assoc, hr, hR]
        exact hQ (_, _) hI)
    (by
      rintro ⟨w, j⟩ hw
      simp only [List.drop_length] at hw
      exact ⟨j, by rw [Res.ok.inj hw]⟩) 0 (by simp) (w ++ (ascii "const " ++ name ++ ascii " =\"\"+\n"), []) (by simpa [List.append_assoc] using hw2) (by simp) hlp
  obtain ⟨j, hl⟩ := hl
  rw [hl]
  eval_go [hF, hp, hs]
  exact ⟨j, by rw [hw3]; rfl⟩

end

end Source.MakeTables
