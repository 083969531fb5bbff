import Verif.Lang.HashCode
import Verif.Source.TestAbbr
import Verif.Source.TestHashCompare
import Verif.Source.TestStringMatch
import Verif.Model.TestHelpers

/-!
# The code of package `test`: Abbr.go, and the search for differences
-/
namespace Source.Test
open GoLang

abbrev path : Name := n! "github.com/gnabgib/gnablib-go/test"

/-- The package. -/
def pkg : Pkg := ⟨path, importTable TestAbbr.file.imports ++ (importTable TestHashCompare.file.imports ++ importTable TestStringMatch.file.imports),
  TestAbbr.file.decls ++ (TestHashCompare.file.decls ++ TestStringMatch.file.decls), [], []⟩

def texts : List (List String) := [TestAbbr.src, TestHashCompare.src, TestStringMatch.src]

theorem loaded : loadPkg stdlib path [TestAbbr.file, TestHashCompare.file, TestStringMatch.file] [] = some pkg := by kernel_rfl

theorem text : loadText path texts [] = some pkg := by
  simp only [texts, loadText, parseAll, TestAbbr.parsed, TestHashCompare.parsed, TestStringMatch.parsed, Option.bind_some, Option.map_some, loaded]

theorem find_Abbr : findFunc 0 (n! "Abbr") pkg.decls = some TestAbbr.Abbr := by kernel_rfl
theorem find_first : findFunc 0 (n! "findFirstMismatch") pkg.decls = some TestStringMatch.findFirstMismatch := by kernel_rfl
theorem find_last : findFunc 0 (n! "findLastMismatch") pkg.decls = some TestStringMatch.findLastMismatch := by kernel_rfl
theorem find_render : findFunc 0 (n! "renderText") pkg.decls = some TestStringMatch.renderText := by kernel_rfl
theorem find_match : findFunc 0 (n! "StringMatch") pkg.decls = some TestStringMatch.StringMatch := by kernel_rfl
theorem find_title : findFunc 0 (n! "StringMatchTitle") pkg.decls = some TestStringMatch.StringMatchTitle := by kernel_rfl
theorem find_HashTest : findFunc 0 (n! "HashTest") pkg.decls = some TestHashCompare.HashTest := by kernel_rfl
theorem find_HashHexTest : findFunc 0 (n! "HashHexTest") pkg.decls = some TestHashCompare.HashHexTest := by kernel_rfl

section
variable {P : Prog} (hP : findPkg path P.pkgs = some pkg) (hW : 32 ≤ P.W)
include hP

/-- `Abbr`. -/
theorem run_Abbr (h : List Val) (s : List U8) (n : Nat) :
    ∃ r, TestHelpers.Abbr s = .ok r ∧ run P (n + 1) path 0 (n! "Abbr") [.str s] h = .ok [.str r] ⟨h, []⟩ := by
  rw [run_func hP find_Abbr]
  unfold TestHelpers.Abbr
  by_cases hs : 20 < s.length
  · have h1 : 19 < s.length + 1 := by omega
    have h2 : 19 ≤ s.length := by omega
    have h3 : (19 : Int) < ((s.length + 1 : Nat) : Int) := by omega
    refine ⟨s.take 19 ++ TestHelpers.ellipsis, by simp [hs, goSlice, h2], ?_⟩
    have h4 : (20 : Int) < (s.length : Int) := by omega
    have h5 : (0 : Int) < ((s.length + 1 : Nat) : Int) := by omega
    have h6 : (0 : Int) ≤ 0 := by decide
    have h7 : (0 : Int) ≤ 19 := by decide
    eval_go [hs, h1, h2, h3, h4, h5, h6, h7]
    rfl
  · have h4 : ¬ (20 : Int) < (s.length : Int) := by omega
    refine ⟨s, by simp [hs], ?_⟩
    eval_go [hs, h4]

end

/-- A slice of a whole array. -/
abbrev whole (a n : Nat) : Val := .slice a [] 0 n n

theorem get_strs {l : List (List U8)} {i : Nat} (h : i < l.length) : (l.map Val.str)[i]? = some (.str l[i]) := by
  simp [h]

theorem pow31 {W : Nat} (hW : 32 ≤ W) : (2 : Int) ^ 31 ≤ 2 ^ (W - 1) := by
  have := Nat.pow_le_pow_right (n := 2) (by decide) (show 31 ≤ W - 1 by omega)
  exact_mod_cast this

theorem wrap_byte {W : Nat} (hW : 32 ≤ W) (b : U8) : wrap W (b.toNat : Int) = b.toNat := by
  have := b.isLt
  have h := pow31 hW
  exact wrap_nat (by omega) (by omega)

/-- The memory `H` with the array `m` at `a`. -/
def withM (H : List Val) (a : Nat) (m : List U8) : List Val := H.set a (.arr (m.map .u8))

section
variable {H : List Val} {a : Nat} {m : List U8}

theorem withM_get (h : a < H.length) : (withM H a m)[a]? = some (.arr (m.map .u8)) := by simp [withM, h]
theorem withM_ne {b : Nat} {v : Val} (h : a ≠ b) (hb : H[b]? = some v) : (withM H a m)[b]? = some v := by
  rw [withM, List.getElem?_set_ne h, hb]
theorem withM_set {m' : List U8} : (withM H a m).set a (.arr (m'.map .u8)) = withM H a m' := by simp [withM]
theorem withM_self (h : H[a]? = some (.arr (m.map .u8))) : withM H a m = H := by
  have ha := lt_of_get h
  rw [List.getElem?_eq_getElem ha] at h
  rw [withM, ← Option.some.inj h, List.set_getElem_self]

end

theorem firstLoop_length {e f : List (List U8)} {i j : Nat} {m m' : List U8} (h : TestHelpers.firstLoop e f i m = .ok (j, m')) :
    m'.length = m.length := by
  induction hk : e.length - i generalizing i m with
  | zero =>
    rw [TestHelpers.firstLoop, dif_neg (by omega)] at h
    cases h; rfl
  | succ k ih =>
    rw [TestHelpers.firstLoop, dif_pos (by omega)] at h
    split at h
    · cases h; rfl
    · generalize goIdx e i = x at h
      generalize goIdx f i = y at h
      rcases x with x | _ <;> rcases y with y | _ <;> simp only [go, reduceCtorEq] at h
      split at h
      · cases h; rfl
      · generalize TestHelpers.markByte x = z at h
        rcases z with z | _ <;> simp only [go, goSet, reduceCtorEq] at h
        split at h <;> simp only [go, reduceCtorEq] at h
        simpa using ih h (by omega)

theorem lastLoop_length {er fr : List (List U8)} {d s e f e' : Int} {m m' : List U8} (h : TestHelpers.lastLoop er fr d s e f m = .ok (e', m')) :
    m'.length = m.length := by
  induction hk : (e - s).toNat using Nat.strongRecOn generalizing e f m with
  | ind k ih =>
    rw [TestHelpers.lastLoop] at h
    split at h
    · generalize goIdxZ er e = x at h
      generalize goIdxZ fr f = y at h
      rcases x with x | _ <;> rcases y with y | _ <;> simp only [go, reduceCtorEq] at h
      split at h
      · cases h; rfl
      · simp only [goSetZ, goSet] at h
        split at h
        · split at h <;> simp only [go, reduceCtorEq] at h
          simpa using ih _ (by omega) h rfl
        · simp only [go, reduceCtorEq] at h
    · cases h; rfl

theorem lastLoop_bounds {er fr : List (List U8)} {d s e f e' : Int} {m m' : List U8} (h : TestHelpers.lastLoop er fr d s e f m = .ok (e', m'))
    (h0 : 0 ≤ s) (h1 : -1 ≤ e) : -1 ≤ e' ∧ e' ≤ e := by
  induction hk : (e - s).toNat using Nat.strongRecOn generalizing e f m with
  | ind k ih =>
    rw [TestHelpers.lastLoop] at h
    split at h
    · generalize goIdxZ er e = x at h
      generalize goIdxZ fr f = y at h
      rcases x with x | _ <;> rcases y with y | _ <;> simp only [go, reduceCtorEq] at h
      split at h
      · cases h; omega
      · simp only [goSetZ, goSet] at h
        split at h
        · split at h <;> simp only [go, reduceCtorEq] at h
          have := ih _ (by omega) h (by omega) rfl
          omega
        · simp only [go, reduceCtorEq] at h
    · cases h; omega

theorem fillLoop_length {s i : Int} {m m' : List U8} (h : TestHelpers.fillLoop s i m = .ok m') : m'.length = m.length := by
  induction hk : (i - s).toNat using Nat.strongRecOn generalizing i m with
  | ind k ih =>
    rw [TestHelpers.fillLoop] at h
    split at h
    · simp only [goSetZ, goSet] at h
      split at h
      · split at h <;> simp only [go, reduceCtorEq] at h
        simpa using ih _ (by omega) h rfl
      · simp only [go, reduceCtorEq] at h
    · cases h; rfl

/-- What a call that changes the array at `a` did. -/
def Marks (H : List Val) (a : Nat) (x : Res (Int × List U8)) (r : Out (List Val)) : Prop :=
  match x with
  | .ok (i, m) => r = .ok [.int i] ⟨withM H a m, []⟩
  | .panic => ∃ m, r = .panic (withM H a m)

section
variable {P : Prog} (hP : findPkg path P.pkgs = some pkg) (hW : 32 ≤ P.W)
  {e f : List (List U8)} {H : List Val} {ae af am : Nat} (hE : H[ae]? = some (.arr (e.map .str))) (hF : H[af]? = some (.arr (f.map .str)))
  (hne : am ≠ ae) (hnf : am ≠ af) (ha : am < H.length)
include hP hW hE hF hne hnf ha

theorem run_first {m : List U8} (hm : H[am]? = some (.arr (m.map .u8))) (hl : ((e.length + 1 : Nat) : Int) < 2 ^ (P.W - 1)) {n : Nat} (hn : e.length < n) :
    Marks H am (do let (i, m) ← TestHelpers.findFirstMismatch e f m; return ((i : Int), m))
      (run P (n + 1) path 0 (n! "findFirstMismatch") [whole ae e.length, whole af f.length, whole am m.length] H) := by
  rw [run_func hP find_first]
  eval_go []
  generalize hr : loop _ _ _ _ _ = r
  have := loop_ex (fun x : Nat × List U8 => x.2.length = m.length ∧ x.1 ≤ e.length)
    (fun x => ⟨withM H am x.2, [(n! "i", .int x.1), (n! "marker", whole am m.length), (n! "f", whole af f.length), (n! "e", whole ae e.length)]⟩)
    (fun x b => match TestHelpers.firstLoop e f x.1 x.2 with
      | .ok (i, m') => .ok .next ⟨withM H am m', [(n! "i", .int i), (n! "marker", whole am m.length), (n! "f", whole af f.length), (n! "e", whole ae e.length)]⟩
      | .panic => .panic (withM H am b))
    (fun x => e.length - x.1) (fun x k hI hk ih => ?_) (0, m) ⟨rfl, Nat.zero_le _⟩ (by simpa using hn) (by simp [withM_self hm]) hr
  · obtain ⟨b, rfl⟩ := this
    unfold TestHelpers.findFirstMismatch
    cases hx : TestHelpers.firstLoop e f 0 m with
    | panic => simpa [Marks] using ⟨b, by eval_go⟩
    | ok x =>
      obtain ⟨i, m'⟩ := x
      have hm' := firstLoop_length hx
      have e3 := withM_get (m := m') ha
      by_cases hi : i < m.length
      · have hi' : i < m'.length := by omega
        simp only [Marks, goSet, hi', if_true, go]
        eval_go [e3, hi, hi', get_map, hm', withM_set, set_map, Nat.zero_add]
      · have hi' : ¬ i < m'.length := by omega
        simp only [Marks, goSet, hi', if_false, go]
        refine ⟨m', ?_⟩
        eval_go [e3, hi, hm', Nat.zero_add]
  · obtain ⟨i, m'⟩ := x
    obtain ⟨hm', hi'⟩ := hI
    simp only at hm' hi' hk ih
    have e1 := withM_ne (m := m') hne hE
    have e2 := withM_ne (m := m') hnf hF
    have e3 := withM_get (m := m') ha
    by_cases hi : i < e.length
    · by_cases hf : i < f.length
      · by_cases heq : e[i] = f[i]
        · have w : wrap P.W ((i : Int) + 1) = (i + 1 : Nat) := wrap_add (k := 1) (by omega) (by omega)
          have next : ∀ b, TestHelpers.markByte e[i] = .ok b → i < m.length → TestHelpers.firstLoop e f i m' = TestHelpers.firstLoop e f (i + 1) (m'.set i b) := by
            intro b hb hmi
            rw [TestHelpers.firstLoop]
            simp [hi, Nat.not_le.mpr hf, List.getElem?_eq_getElem hf, heq.symm, goIdx, hb, goSet, hm', hmi]
          have stop : ¬ i < m.length → TestHelpers.firstLoop e f i m' = .panic := by
            intro hmi
            rw [TestHelpers.firstLoop]
            cases hb : TestHelpers.markByte e[i] <;> simp [hi, Nat.not_le.mpr hf, List.getElem?_eq_getElem hf, heq.symm, goIdx, hb, goSet, hm', hmi]
          have he : f[i] = e[i] := heq.symm
          by_cases h7 : e[i] = [0x7f#8]
          · by_cases hmi : i < m.length
            · have hmi' : i < m'.length := by omega
              obtain ⟨b', hb'⟩ := ih (i + 1, m'.set i 0x7f#8) ⟨by simpa using hm', hi⟩ (by simp; omega)
              refine ⟨b', ?_⟩
              rw [next 0x7f#8 (by simp [TestHelpers.markByte, h7]) hmi, ← hb', loop]
              eval_go [hi, hf, e1, e2, e3, get_strs, he, h7, Nat.zero_add, w, hmi, hmi', get_map, hm', withM_set, set_map, Nat.not_le]
            · refine ⟨m', ?_⟩
              rw [stop hmi, loop]
              eval_go [hi, hf, e1, e2, e3, get_strs, he, h7, Nat.zero_add, w, hmi, hm', withM_set, set_map, Nat.not_le]
          · cases hs : e[i] with
            | nil =>
              refine ⟨m', ?_⟩
              have stop' : TestHelpers.firstLoop e f i m' = .panic := by
                rw [TestHelpers.firstLoop]
                simp [hi, Nat.not_le.mpr hf, List.getElem?_eq_getElem hf, heq.symm, goIdx, hs, TestHelpers.markByte]
              rw [stop', loop]
              rw [hs] at h7 he
              have h0 : ¬ (0 : Int) < 0 := by decide
              have h1 : ¬ ([] : List U8) = [127] := by decide
              eval_go [hi, hf, e1, e2, e3, get_strs, he, hs, h1, h0, and_false, Nat.zero_add, Nat.not_le]
            | cons b bs =>
              have h0 : (0 : Int) < ((bs.length + 1 : Nat) : Int) := by omega
              have h00 : (0 : Int) ≤ 0 := by decide
              have wb : wrap P.W (b.toNat : Int) = b.toNat := wrap_byte hW b
              rw [hs] at h7 he
              by_cases hmi : i < m.length
              · have hmi' : i < m'.length := by omega
                by_cases h32 : b.toNat < 32
                · have hz : (b.toNat : Int) < 32 := by omega
                  obtain ⟨b', hb'⟩ := ih (i + 1, m'.set i b) ⟨by simpa using hm', hi⟩ (by simp; omega)
                  refine ⟨b', ?_⟩
                  rw [next b (by simp [TestHelpers.markByte, hs, h7, goIdx, h32]) hmi, ← hb', loop]
                  eval_go [hi, hf, e1, e2, e3, get_strs, he, hs, h7, h0, h00, wb, hz, List.getElem?_cons_zero, Nat.zero_add, w, hmi, hmi', get_map, hm', withM_set, set_map, Nat.not_le]
                · have hz : ¬ (b.toNat : Int) < 32 := by omega
                  obtain ⟨b', hb'⟩ := ih (i + 1, m'.set i 0x2D#8) ⟨by simpa using hm', hi⟩ (by simp; omega)
                  refine ⟨b', ?_⟩
                  rw [next 0x2D#8 (by simp [TestHelpers.markByte, hs, h7, goIdx, h32]) hmi, ← hb', loop]
                  eval_go [hi, hf, e1, e2, e3, get_strs, he, hs, h7, h0, h00, wb, hz, List.getElem?_cons_zero, Nat.zero_add, w, hmi, hmi', get_map, hm', withM_set, set_map, Nat.not_le]
              · refine ⟨m', ?_⟩
                rw [stop hmi, loop]
                by_cases h32 : b.toNat < 32
                · have hz : (b.toNat : Int) < 32 := by omega
                  eval_go [hi, hf, e1, e2, e3, get_strs, he, hs, h7, h0, h00, wb, hz, List.getElem?_cons_zero, Nat.zero_add, w, hmi, hm', withM_set, set_map, Nat.not_le]
                · have hz : ¬ (b.toNat : Int) < 32 := by omega
                  eval_go [hi, hf, e1, e2, e3, get_strs, he, hs, h7, h0, h00, wb, hz, List.getElem?_cons_zero, Nat.zero_add, w, hmi, hm', withM_set, set_map, Nat.not_le]
        · refine ⟨m', ?_⟩
          rw [TestHelpers.firstLoop, loop]
          eval_go [hi, hf, e1, e2, e3, get_strs, Nat.zero_add, heq, Nat.not_le, dif_pos, goIdx, ite_self, List.getElem?_eq_getElem hi, List.getElem?_eq_getElem hf]
      · refine ⟨m', ?_⟩
        rw [TestHelpers.firstLoop, loop]
        eval_go [hi, hf, e1, e2, e3, get_strs, Nat.zero_add, Nat.not_lt.mp hf, dif_pos, ite_self]
    · refine ⟨m', ?_⟩
      rw [TestHelpers.firstLoop, loop]
      eval_go [hi, e1, e2, e3, get_strs, Nat.zero_add]

theorem run_last {m : List U8} (hm : H[am]? = some (.arr (m.map .u8))) (hl : ((e.length + f.length + m.length + 2 : Nat) : Int) < 2 ^ (P.W - 1))
    (first : Nat) {n : Nat} (hn : e.length + m.length < n) :
    Marks H am (TestHelpers.findLastMismatch e f m first)
      (run P (n + 1) path 0 (n! "findLastMismatch") [whole ae e.length, whole af f.length, whole am m.length, .int first] H) := by
  have hB := pow31 hW
  have w1 : wrap P.W ((m.length : Int) - e.length) = m.length - e.length := wrap_eq (by omega) (by omega) (by omega)
  have w2 : wrap P.W ((m.length : Int) - e.length - 1) = m.length - e.length - 1 := wrap_eq (by omega) (by omega) (by omega)
  have w3 : wrap P.W ((e.length : Int) - 1) = e.length - 1 := wrap_eq (by omega) (by omega) (by omega)
  have w4 : wrap P.W ((f.length : Int) - 1) = f.length - 1 := wrap_eq (by omega) (by omega) (by omega)
  rw [run_func hP find_last]
  eval_go [w1, w2, w3, w4]
  rw [show TestHelpers.findLastMismatch e f m first = (TestHelpers.lastLoop e f ((m.length : Int) - e.length - 1) first ((e.length : Int) - 1) ((f.length : Int) - 1) m).bind fun x =>
    (TestHelpers.fillLoop first (x.1 - 1 + ((m.length : Int) - e.length - 1)) x.2).bind fun y => (goSetZ y (x.1 + ((m.length : Int) - e.length - 1)) 0x5E#8).bind fun z => .ok (x.1 - e.length + 1, z) from rfl]
  generalize hd : (m.length : Int) - e.length - 1 = d at w2 ⊢
  generalize hr : loop _ _ _ _ _ = r
  have := loop_ex (fun x : Int × Int × List U8 => x.2.2.length = m.length ∧ x.1 < e.length ∧ x.2.1 < f.length ∧ -1 ≤ x.1 ∧ -1 ≤ x.2.1)
    (fun x => ⟨withM H am x.2.2, [(n! "f", .int x.2.1), (n! "e", .int x.1), (n! "markerDelta", .int d), (n! "first", .int first),
      (n! "marker", whole am m.length), (n! "fRunes", whole af f.length), (n! "eRunes", whole ae e.length)]⟩)
    (fun x (b : Int × List U8) => match TestHelpers.lastLoop e f d first x.1 x.2.1 x.2.2 with
      | .ok (i, m') => .ok .next ⟨withM H am m', [(n! "f", .int b.1), (n! "e", .int i), (n! "markerDelta", .int d), (n! "first", .int first),
      (n! "marker", whole am m.length), (n! "fRunes", whole af f.length), (n! "eRunes", whole ae e.length)]⟩
      | .panic => .panic (withM H am b.2))
    (fun x => (x.1 - first).toNat) (fun x k hI hk ih => ?_) ((e.length : Int) - 1, (f.length : Int) - 1, m) ⟨rfl, by dsimp only; omega, by dsimp only; omega, by dsimp only; omega, by dsimp only; omega⟩
    (by simp only; omega) (by simp [withM_self hm]) hr
  · obtain ⟨⟨fv, b⟩, rfl⟩ := this
    cases hx : TestHelpers.lastLoop e f d first ((e.length : Int) - 1) ((f.length : Int) - 1) m with
    | panic => exact ⟨b, by eval_go⟩
    | ok x =>
      obtain ⟨i, m'⟩ := x
      have hm' := lastLoop_length hx
      obtain ⟨hi1, hi2⟩ := lastLoop_bounds hx (by omega) (by omega)
      have v1 : wrap P.W (i - 1) = i - 1 := wrap_eq (by omega) (by omega) (by omega)
      have v2 : wrap P.W (i - 1 + d) = i - 1 + d := wrap_eq (by omega) (by omega) (by omega)
      eval_go [v1, v2]
      clear hr
      generalize hr : loop _ _ _ _ _ = r
      have := loop_ex (fun x : Int × List U8 => x.2.length = m.length ∧ x.1 < m.length)
        (fun x => ⟨withM H am x.2, [(n! "i", .int x.1), (n! "e", .int i), (n! "markerDelta", .int d), (n! "first", .int first),
          (n! "marker", whole am m.length), (n! "fRunes", whole af f.length), (n! "eRunes", whole ae e.length)]⟩)
        (fun x (b : Int × List U8) => match TestHelpers.fillLoop first x.1 x.2 with
          | .ok m' => .ok .next ⟨withM H am m', [(n! "i", .int b.1), (n! "e", .int i), (n! "markerDelta", .int d), (n! "first", .int first),
          (n! "marker", whole am m.length), (n! "fRunes", whole af f.length), (n! "eRunes", whole ae e.length)]⟩
          | .panic => .panic (withM H am b.2))
        (fun x => (x.1 - first).toNat) (fun x k hI hk ih => ?_) (i - 1 + d, m') ⟨hm', by dsimp only; omega⟩
        (by simp only; omega) rfl hr
      · obtain ⟨⟨iv, b⟩, rfl⟩ := this
        cases hy : TestHelpers.fillLoop first (i - 1 + d) m' with
        | panic => simp only [Marks, Res.bind, hy, go]; exact ⟨b, by eval_go⟩
        | ok m'' =>
          have hm'' := fillLoop_length hy
          have e3 := withM_get (m := m'') ha
          have v3 : wrap P.W (i + d) = i + d := wrap_eq (by omega) (by omega) (by omega)
          have v4 : wrap P.W (i - e.length) = i - e.length := wrap_eq (by omega) (by omega) (by omega)
          have v5 : wrap P.W (i - e.length + 1) = i - e.length + 1 := wrap_eq (by omega) (by omega) (by omega)
          by_cases hk0 : 0 ≤ i + d
          · by_cases hk1 : i + d < m.length
            · have hkt : (i + d).toNat < m''.length := by omega
              simp only [Marks, Res.bind, hy, goSetZ, goSet, hk0, hkt, if_true, go]
              eval_go [e3, hk0, hk1, hkt, get_map, withM_set, set_map, Nat.zero_add, v3, v4, v5]
            · have hkt : ¬ (i + d).toNat < m''.length := by omega
              simp only [Marks, Res.bind, hy, goSetZ, goSet, hk0, hkt, if_true, if_false, go]
              exact ⟨m'', by eval_go [e3, hk0, hk1, Nat.zero_add, v3, and_false]⟩
          · simp only [Marks, Res.bind, hy, goSetZ, hk0, if_false, go]
            exact ⟨m'', by eval_go [e3, hk0, Nat.zero_add, v3, false_and]⟩
      · obtain ⟨j, m'⟩ := x
        obtain ⟨hm', hj⟩ := hI
        simp only at hm' hj hk ih
        have e3 := withM_get (m := m') ha
        by_cases h1 : (first : Int) < j
        · have j0 : 0 ≤ j := by omega
          have jt : j.toNat < m'.length := by omega
          have v1 : wrap P.W (j - 1) = j - 1 := wrap_eq (by omega) (by omega) (by omega)
          obtain ⟨b', hb'⟩ := ih (j - 1, m'.set j.toNat 0x20#8) ⟨by simpa using hm', by dsimp only; omega⟩ (by simp only; omega)
          refine ⟨b', ?_⟩
          rw [TestHelpers.fillLoop]
          simp only [h1, GT.gt, dif_pos, goSetZ, goSet, j0, jt, if_true, go]
          rw [← hb', loop]
          eval_go [h1, j0, hj, e3, jt, get_map, Nat.zero_add, v1, withM_set, set_map]
        · refine ⟨(j, m'), ?_⟩
          rw [TestHelpers.fillLoop]
          simp only [h1, GT.gt, dif_neg, not_false_eq_true]
          rw [loop]
          eval_go [h1]
  · obtain ⟨i, j, m'⟩ := x
    obtain ⟨hm', hi, hj, hi', hj'⟩ := hI
    simp only at hm' hi hj hi' hj' hk ih
    have e1 := withM_ne (m := m') hne hE
    have e2 := withM_ne (m := m') hnf hF
    have e3 := withM_get (m := m') ha
    by_cases h1 : (first : Int) < i
    · by_cases h2 : (first : Int) < j
      · have i0 : 0 ≤ i := by omega
        have j0 : 0 ≤ j := by omega
        have it : i.toNat < e.length := by omega
        have jt : j.toNat < f.length := by omega
        have v1 : wrap P.W (i - 1) = i - 1 := wrap_eq (by omega) (by omega) (by omega)
        have v2 : wrap P.W (j - 1) = j - 1 := wrap_eq (by omega) (by omega) (by omega)
        have v3 : wrap P.W (i + d) = i + d := wrap_eq (by omega) (by omega) (by omega)
        by_cases heq : e[i.toNat] = f[j.toNat]
        · have he : f[j.toNat] = e[i.toNat] := heq.symm
          by_cases hk0 : 0 ≤ i + d
          · by_cases hk1 : i + d < m.length
            · have hkt : (i + d).toNat < m'.length := by omega
              obtain ⟨b', hb'⟩ := ih (i - 1, j - 1, m'.set (i + d).toNat 0x2D#8) ⟨by simpa using hm', by dsimp only; omega, by dsimp only; omega, by dsimp only; omega, by dsimp only; omega⟩ (by simp; omega)
              refine ⟨b', ?_⟩
              rw [TestHelpers.lastLoop]
              simp only [h1, h2, GT.gt, and_self, dif_pos, goIdxZ, goIdx, i0, j0, List.getElem?_eq_getElem it, List.getElem?_eq_getElem jt, heq, goSetZ, hk0, goSet, hkt, go]
              rw [← hb', loop]
              eval_go [h1, h2, i0, j0, hi, hj, e1, e2, e3, get_strs, it, jt, he, hk0, hk1, hkt, get_map, Nat.zero_add, v1, v2, v3, withM_set, set_map]
            · refine ⟨(0, m'), ?_⟩
              have hkt : ¬ (i + d).toNat < m'.length := by omega
              rw [TestHelpers.lastLoop]
              simp only [h1, h2, GT.gt, and_self, dif_pos, goIdxZ, goIdx, i0, j0, List.getElem?_eq_getElem it, List.getElem?_eq_getElem jt, heq, goSetZ, hk0, goSet, hkt, go]
              rw [loop]
              eval_go [h1, h2, i0, j0, hi, hj, e1, e2, e3, get_strs, it, jt, he, hk0, hk1, Nat.zero_add, v1, v2, v3, and_false]
          · refine ⟨(0, m'), ?_⟩
            rw [TestHelpers.lastLoop]
            simp only [h1, h2, GT.gt, and_self, dif_pos, goIdxZ, goIdx, i0, j0, List.getElem?_eq_getElem it, List.getElem?_eq_getElem jt, heq, goSetZ, hk0, goSet, go]
            rw [loop]
            eval_go [h1, h2, i0, j0, hi, hj, e1, e2, e3, get_strs, it, jt, he, hk0, Nat.zero_add, v1, v2, v3, false_and]
        · refine ⟨(j, m'), ?_⟩
          rw [TestHelpers.lastLoop]
          simp only [h1, h2, GT.gt, and_self, dif_pos, goIdxZ, goIdx, i0, j0, List.getElem?_eq_getElem it, List.getElem?_eq_getElem jt, heq, go]
          rw [loop]
          eval_go [h1, h2, i0, j0, hi, hj, e1, e2, e3, get_strs, it, jt, heq, Nat.zero_add, v1, v2, v3]
      · refine ⟨(j, m'), ?_⟩
        rw [TestHelpers.lastLoop]
        simp only [h1, h2, GT.gt, and_false, dif_neg, not_false_eq_true]
        rw [loop]
        eval_go [h1, h2]
    · refine ⟨(j, m'), ?_⟩
      rw [TestHelpers.lastLoop]
      simp only [h1, GT.gt, false_and, dif_neg, not_false_eq_true]
      rw [loop]
      eval_go [h1]

end

end Source.Test
