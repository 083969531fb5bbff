import Verif.Code.Hex
import Verif.Source.CodegenString
import Verif.Source.CodegenHexSep
import Verif.Model.Codegen

/-!
# The code of package `codegen`
-/
namespace Source.Codegen
open GoLang

abbrev path : Name := n! "github.com/gnabgib/gnablib-go/codegen"

/-- The package. -/
def pkg : Pkg := ⟨path, importTable CodegenHexSep.file.imports ++ importTable CodegenString.file.imports, CodegenHexSep.file.decls ++ CodegenString.file.decls, [], []⟩

def texts : List (List String) := [CodegenHexSep.src, CodegenString.src]

theorem loaded : loadPkg stdlib path [CodegenHexSep.file, CodegenString.file] [] = some pkg := by kernel_rfl

theorem text : loadText path texts [] = some pkg := by
  simp only [texts, loadText, parseAll, CodegenHexSep.parsed, CodegenString.parsed, Option.bind_some, Option.map_some, loaded]

theorem find_HexSep : findFunc 0 (n! "BytesToHexSep") pkg.decls = some CodegenHexSep.BytesToHexSep := by kernel_rfl
theorem find_String : findFunc 0 (n! "BytesToString") pkg.decls = some CodegenString.BytesToString := by kernel_rfl
theorem find_StringSep : findFunc 0 (n! "BytesToStringSep") pkg.decls = some CodegenString.BytesToStringSep := by kernel_rfl

theorem tdiv_bound (n : Nat) (k : Int) : -(n : Int) ≤ (n : Int).tdiv k ∧ (n : Int).tdiv k ≤ n := by
  have h : ((n : Int).tdiv k).natAbs ≤ n := by
    rw [Int.natAbs_tdiv]
    exact Nat.div_le_self _ _
  omega

/-- The outcome of the model's function as outcome of a run: two copies of the hexadecimal text and the result are new in memory. -/
def Outcome (h : List Val) (e : List (BitVec 8)) (r : Res (List (BitVec 8))) (o : Out (List Val)) : Prop :=
  match r with
  | .ok s => o = .ok [.str s] ⟨h ++ [.arr (e.map .u8)] ++ [.arr (e.map .u8)] ++ [.arr (s.map .u8)], []⟩
  | .panic => ∃ t, o = .panic (h ++ t)

section
variable {P : Prog} {bd : _root_.Hex.Build} (hP : findPkg path P.pkgs = some pkg) (hH : findPkg Hex.path P.pkgs = some (Hex.pkg bd)) {h : List Val}
include hP hH

theorem run_BytesToString {v : Val} {b e s : List (BitVec 8)} (he : _root_.Hex.FromBytes b = .ok e) (hs : _root_.Codegen.BytesToString b = .ok s) (hb : HasBytes h v b) (hW : 32 ≤ P.W)
    (hl : ((b.length * 4 + 8 : Nat) : Int) < 2 ^ (P.W - 1)) {n : Nat} (hn : b.length < n) :
    run P (n + 2) path 0 (n! "BytesToString") [v] h = .ok [.str s] ⟨h ++ [.arr (e.map .u8)] ++ [.arr (e.map .u8)] ++ [.arr (s.map .u8)], []⟩ := by
  have hv := hb.plain
  have hR := elem_repo hH
  have hel : e.length = b.length * 2 := by
    have := Hex.fromBytesLoop_length he
    simpa using this
  have hF := Hex.run_FromBytes hH he hb hW (by omega) (n := n) hn
  have h1 : wrap P.W ((e.length : Int) * 2) = (e.length * 2 : Nat) := by
    rw [← wrap_nat (W := P.W) (i := e.length * 2) (by omega) (by omega)]; simp
  have h2 : wrap P.W (((e.length * 2 : Nat) : Int) + 2) = (e.length * 2 + 2 : Nat) := wrap_add (k := 2) (by omega) (by omega)
  have h0 : ¬ ((e.length * 2 + 2 : Nat) : Int) < 0 := by omega
  have h3 : (0 : Int) ≤ 0 ∧ (0 : Int) < ((e.length * 2 + 2 : Nat) : Int) := by omega
  have h4 : (0 : Nat) < e.length * 2 + 2 := by omega
  simp only [_root_.Codegen.BytesToString, he, go, _root_.Codegen.makeBytes] at hs
  rw [if_neg (by omega), show ((e.length : Int) * 2 + 2).toNat = e.length * 2 + 2 by omega] at hs
  simp only [go, goSet, List.length_replicate, h4] at hs
  generalize hH1 : h ++ [.arr (e.map .u8)] = H1 at hF
  have hE : ∀ x, (H1 ++ [.arr (e.map .u8)] ++ [x])[H1.length]? = some (.arr (e.map .u8)) := by simp
  generalize hH2 : H1 ++ [.arr (e.map .u8)] = H2 at hE
  rw [run_func hP find_String]
  have hr0 : ((List.replicate (e.length * 2 + 2) (0 : BitVec 8)).set 0 34#8).length = e.length * 2 + 2 := by simp
  have hg0 : ((List.replicate (e.length * 2 + 2) (0 : BitVec 8)).map Val.u8)[0]? = some (.u8 0) := by simp
  rw [show 0#8 = (0 : BitVec 8) from rfl] at hs
  eval_go [hv, hR, hF, h1, h2, h0, h3, hH2, replicate_u8, get_last, set_last, set_map, hg0, hH1]
  generalize hR0 : (List.replicate (e.length * 2 + 2) (0 : BitVec 8)).set 0 34#8 = r0 at *
  rcases hq : _root_.Codegen.stringLoop e 0 r0 1 with ⟨r1, p1⟩ | _
  · simp only [hq, go] at hs
    split at hs
    · rename_i hp1
      cases hs
      generalize hlp : rangeLoop _ _ _ _ = o
      have hQ := range_post (fun o => o = .ok .next ⟨H2 ++ [.arr (r1.map .u8)], [(n! "ptr", .int p1), (n! "ret", .slice H2.length [] 0 (e.length * 2 + 2) (e.length * 2 + 2)),
            (n! "n", .int e.length), (n! "h", .slice H1.length [] 0 e.length e.length), (n! "in", v)]⟩ ∧ r1.length = e.length * 2 + 2)
        (fun i (x : Nat × List (BitVec 8)) => x.2.length = e.length * 2 + 2 ∧ x.1 ≤ e.length * 2 + 2 ∧ _root_.Codegen.stringLoop (e.drop i) i x.2 x.1 = .ok (r1, p1))
        (fun i x => ⟨H2 ++ [.arr (x.2.map .u8)], [(n! "ptr", .int x.1), (n! "ret", .slice H2.length [] 0 (e.length * 2 + 2) (e.length * 2 + 2)),
            (n! "n", .int e.length), (n! "h", .slice H1.length [] 0 e.length e.length), (n! "in", v)]⟩)
        e.length (by
          rintro i k ⟨p, r⟩ hi ⟨hr, hp, hm⟩ ih
          simp only at hr hp hm
          have w1 : wrap P.W ((p : Int) + 1) = (p + 1 : Nat) := wrap_add (k := 1) (by omega) (by omega)
          have w2 : wrap P.W ((p : Int) + 2) = (p + 2 : Nat) := wrap_add (k := 2) (by omega) (by omega)
          rw [List.drop_eq_getElem_cons hi, _root_.Codegen.stringLoop, Nat.and_one_is_mod] at hm
          rw [rangeLoop]
          by_cases ho : i % 2 = 0
          · simp only [ho, go, goSet] at hm
            split at hm
            · rename_i c1
              simp only [go, List.length_set] at hm
              split at hm
              · rename_i c2
                simp only [go, List.length_set] at hm
                split at hm
                · rename_i c3
                  have w3 : wrap P.W (((p + 2 : Nat) : Int) + 1) = (p + 2 + 1 : Nat) := wrap_add (k := 1) (by omega) (by omega)
                  simp only [go] at hm
                  eval_go [and_one (by omega : 2 ≤ P.W), ho, hE, hi, hr, hr ▸ c1, hr ▸ c2, hr ▸ c3, w1, w2, w3, c1, c2, c3, get_last, set_last, set_map, get_map, Nat.zero_add,
                    List.length_set]
                  exact ih (p + 2 + 1, _) ⟨by simpa using hr, by simp; omega, hm⟩
                · simp [go] at hm
              · simp [go] at hm
            · simp [go] at hm
          · have ho' : i % 2 = 1 := by omega
            simp only [ho', go, goSet] at hm
            split at hm
            · rename_i c1
              simp only [go] at hm
              eval_go [and_one (by omega : 2 ≤ P.W), ho', hE, hi, hr, hr ▸ c1, w1, c1, get_last, set_last, set_map, get_map, Nat.zero_add, List.length_set]
              exact ih (p + 1, _) ⟨by simpa using hr, by simp; omega, hm⟩
            · simp [go] at hm) (by
          rintro ⟨p, r⟩ ⟨hr, hp, hm⟩
          rw [List.drop_length, _root_.Codegen.stringLoop] at hm
          cases hm
          exact ⟨rfl, hr⟩) 0 (by simp) (1, r0) ⟨hr0, by simp, by simpa using hq⟩ (by simp) hlp
      obtain ⟨rfl, hr1⟩ := hQ
      rw [hr1] at hp1
      eval_go [hp1, get_last, set_last, set_map, hr1, get_map, Nat.zero_add, List.length_set, List.length_map, Nat.le_refl, List.take_of_length_le, valBytes_map]
    · cases hs
  · simp only [hq, go, reduceCtorEq] at hs

set_option linter.unusedSimpArgs false in
set_option maxHeartbeats 4000000 in
theorem run_BytesToHexSep {v : Val} {b e : List (BitVec 8)} {bps k : Int} (h1 : 1 ≤ bps) (hk : wrap P.W (bps * 2) = k) (hk' : _root_.Codegen.int64 (bps * 2) = k) (hk0 : k ≠ 0)
    (he : _root_.Hex.FromBytes b = .ok e) (hb : HasBytes h v b) (hW : 32 ≤ P.W)
    (hl : ((b.length * 8 + 8 : Nat) : Int) < 2 ^ (P.W - 1)) {n : Nat} (hn : b.length < n) :
    Outcome h e (_root_.Codegen.BytesToHexSep b bps) (run P (n + 2) path 0 (n! "BytesToHexSep") [v, .int bps] h) := by
  have hv := hb.plain
  have hR := elem_repo hH
  have hel : e.length = b.length * 2 := by
    have := Hex.fromBytesLoop_length he
    simpa using this
  have hF := Hex.run_FromBytes hH he hb hW (by omega) (n := n) hn
  obtain ⟨q1, q2⟩ := tdiv_bound e.length k
  have w1 : wrap P.W ((b.length : Int) * 6) = b.length * 6 := wrap_eq (by omega) (by omega) (by omega)
  have w2 : wrap P.W ((e.length : Int).tdiv k) = (e.length : Int).tdiv k := wrap_eq (by omega) (by omega) (by omega)
  have w3 : wrap P.W ((e.length : Int).tdiv k - 1) = (e.length : Int).tdiv k - 1 := wrap_eq (by omega) (by omega) (by omega)
  obtain ⟨L, hL⟩ : ∃ L, (b.length : Int) * 6 + ((e.length : Int).tdiv k - 1) = L := ⟨_, rfl⟩
  have w4 : wrap P.W ((b.length : Int) * 6 + ((e.length : Int).tdiv k - 1)) = L := by
    rw [← hL]; exact wrap_eq (by omega) (by omega) (by omega)
  have hlen := hb.len
  have h1' : ¬ bps < 1 := by omega
  simp only [_root_.Codegen.BytesToHexSep, h1', he, go, _root_.Codegen.makeBytes, hk', hL]
  have hO : Outcome h e = Outcome h e := rfl
  unfold Outcome at hO ⊢
  clear hO
  generalize hH1 : h ++ [.arr (e.map .u8)] = H1 at hF ⊢
  have hE : ∀ x, (H1 ++ [.arr (e.map .u8)] ++ [x])[H1.length]? = some (.arr (e.map .u8)) := by simp
  have hE' : ∃ t, H1 ++ [.arr (e.map .u8)] = h ++ t := ⟨_, by rw [← hH1, List.append_assoc]⟩
  generalize hH2 : H1 ++ [.arr (e.map .u8)] = H2 at hE hE' ⊢
  obtain ⟨t0, ht0⟩ := hE'
  rw [run_func hP find_HexSep]
  by_cases h0 : L < 0
  · simp only [h0, go]
    refine ⟨t0, ?_⟩
    eval_go [hv, hR, hF, h1', hk, hk0, hlen, w1, w2, w3, w4, hH1, hH2, h0]
    exact congrArg _ ht0
  · obtain ⟨l, rfl⟩ : ∃ l : Nat, L = l := ⟨L.toNat, by omega⟩
    have hl8 : l ≤ b.length * 8 := by omega
    simp only [h0, go, goSet, List.length_replicate]
    rw [show 0#8 = (0 : BitVec 8) from rfl]
    by_cases h2 : 0 < l
    · have hr0 : ((List.replicate l (0 : BitVec 8)).set 0 0x7b#8).length = l := by simp
      have hg0 : ((List.replicate l (0 : BitVec 8)).map Val.u8)[0]? = some (.u8 0) := by simp [h2]
      have h2' : (0 : Int) ≤ 0 ∧ (0 : Int) < (l : Int) := by omega
      simp only [h2, go]
      eval_go [hv, hR, hF, h1', hk, hk0, hlen, w1, w2, w3, w4, hH1, hH2, h0, h2', replicate_u8, get_last, set_last, set_map, hg0]
      generalize hR0 : (List.replicate l (0 : BitVec 8)).set 0 0x7b#8 = r0 at *
      generalize hlp : rangeLoop _ _ _ _ = o
      generalize hm0 : _root_.Codegen.hexSepLoop k e 0 r0 1 = R
      have hQ := range_post (fun o => match (generalizing := false) R with
            | .ok (r1, p1) => o = .ok .next ⟨H2 ++ [.arr (r1.map .u8)], [(n! "ptr", .int p1), (n! "ret", .slice H2.length [] 0 l l), (n! "hexPerSection", .int k),
                (n! "retLen", .int l), (n! "n", .int e.length), (n! "h", .slice H1.length [] 0 e.length e.length), (n! "bytesPerSection", .int bps), (n! "in", v)]⟩ ∧ r1.length = l
            | .panic => ∃ x, o = .panic (H2 ++ [x]))
        (fun i (x : Nat × List (BitVec 8)) => x.2.length = l ∧ x.1 ≤ l ∧ _root_.Codegen.hexSepLoop k (e.drop i) i x.2 x.1 = R)
        (fun i x => ⟨H2 ++ [.arr (x.2.map .u8)], [(n! "ptr", .int x.1), (n! "ret", .slice H2.length [] 0 l l), (n! "hexPerSection", .int k),
                (n! "retLen", .int l), (n! "n", .int e.length), (n! "h", .slice H1.length [] 0 e.length e.length), (n! "bytesPerSection", .int bps), (n! "in", v)]⟩)
        e.length (by
          rintro i m ⟨p, r⟩ hi ⟨hr, hp, hm⟩ ih
          simp only at hr hp hm
          clear hlp
          rw [List.drop_eq_getElem_cons hi, _root_.Codegen.hexSepLoop, Nat.and_one_is_mod] at hm
          rw [rangeLoop]
          have w0_1 : wrap P.W ((p : Int) + 1) = (p + 1 : Nat) := wrap_add (k := 1) (by omega) (by omega)
          have w0_2 : wrap P.W ((p : Int) + 2) = (p + 2 : Nat) := wrap_add (k := 2) (by omega) (by omega)
          have w2_1 : wrap P.W (((p + 2 : Nat) : Int) + 1) = (p + 3 : Nat) := wrap_add (k := 1) (by omega) (by omega)
          have w2_2 : wrap P.W (((p + 2 : Nat) : Int) + 2) = (p + 4 : Nat) := wrap_add (k := 2) (by omega) (by omega)
          have w3_1 : wrap P.W (((p + 3 : Nat) : Int) + 1) = (p + 4 : Nat) := wrap_add (k := 1) (by omega) (by omega)
          have w3_2 : wrap P.W (((p + 3 : Nat) : Int) + 2) = (p + 5 : Nat) := wrap_add (k := 2) (by omega) (by omega)
          have w4_1 : wrap P.W (((p + 4 : Nat) : Int) + 1) = (p + 5 : Nat) := wrap_add (k := 1) (by omega) (by omega)
          have w5_1 : wrap P.W (((p + 5 : Nat) : Int) + 1) = (p + 6 : Nat) := wrap_add (k := 1) (by omega) (by omega)
          by_cases ho : i % 2 = 0
          · simp only [ho, go, goSet] at hm
            by_cases hp1 : 1 < p
            · have hp1' : (1 : Int) < (p : Int) := by omega
              simp only [hp1, GT.gt, go, Nat.add_assoc, Nat.reduceAdd] at hm
              by_cases c0 : p < r.length
              · simp only [c0, go, List.length_set, Nat.add_assoc, Nat.reduceAdd] at hm
                by_cases c1 : p + 1 < r.length
                · simp only [c1, go, List.length_set, Nat.add_assoc, Nat.reduceAdd] at hm
                  by_cases ht : (i : Int).tmod k = 0
                  · simp only [ht, go, Nat.add_assoc, Nat.reduceAdd] at hm
                    by_cases c2 : p + 2 < r.length
                    · simp only [c2, go, List.length_set, Nat.add_assoc, Nat.reduceAdd] at hm
                      by_cases c3 : p + 3 < r.length
                      · simp only [c3, go, List.length_set, Nat.add_assoc, Nat.reduceAdd] at hm
                        by_cases c4 : p + 4 < r.length
                        · simp only [c4, go, List.length_set, Nat.add_assoc, Nat.reduceAdd] at hm
                          by_cases c5 : p + 5 < r.length
                          · simp only [c5, go, List.length_set, Nat.add_assoc, Nat.reduceAdd] at hm
                            eval_go [and_one (by omega : 2 ≤ P.W), hk0, hE, hi, hr, get_last, set_last, set_map, get_map, Nat.zero_add, List.length_set, ho, hp1', hp1, w0_1, w0_2, w2_1, w2_2, w3_1, w3_2, w4_1, w5_1, hr ▸ c0, c0, hr ▸ c1, c1, ht, hr ▸ c2, c2, hr ▸ c3, c3, hr ▸ c4, c4, hr ▸ c5, c5]
                            exact ih (p + 6, _) ⟨by simpa using hr, by simp; omega, hm⟩
                          · simp only [c5, go] at hm
                            subst hm
                            eval_go [and_one (by omega : 2 ≤ P.W), hk0, hE, hi, hr, get_last, set_last, set_map, get_map, Nat.zero_add, List.length_set, ho, hp1', hp1, w0_1, w0_2, w2_1, w2_2, w3_1, w3_2, w4_1, w5_1, hr ▸ c0, c0, hr ▸ c1, c1, ht, hr ▸ c2, c2, hr ▸ c3, c3, hr ▸ c4, c4, hr ▸ c5]
                            exact ⟨_, rfl⟩
                        · simp only [c4, go] at hm
                          subst hm
                          eval_go [and_one (by omega : 2 ≤ P.W), hk0, hE, hi, hr, get_last, set_last, set_map, get_map, Nat.zero_add, List.length_set, ho, hp1', hp1, w0_1, w0_2, w2_1, w2_2, w3_1, w3_2, w4_1, w5_1, hr ▸ c0, c0, hr ▸ c1, c1, ht, hr ▸ c2, c2, hr ▸ c3, c3, hr ▸ c4]
                          exact ⟨_, rfl⟩
                      · simp only [c3, go] at hm
                        subst hm
                        eval_go [and_one (by omega : 2 ≤ P.W), hk0, hE, hi, hr, get_last, set_last, set_map, get_map, Nat.zero_add, List.length_set, ho, hp1', hp1, w0_1, w0_2, w2_1, w2_2, w3_1, w3_2, w4_1, w5_1, hr ▸ c0, c0, hr ▸ c1, c1, ht, hr ▸ c2, c2, hr ▸ c3]
                        exact ⟨_, rfl⟩
                    · simp only [c2, go] at hm
                      subst hm
                      eval_go [and_one (by omega : 2 ≤ P.W), hk0, hE, hi, hr, get_last, set_last, set_map, get_map, Nat.zero_add, List.length_set, ho, hp1', hp1, w0_1, w0_2, w2_1, w2_2, w3_1, w3_2, w4_1, w5_1, hr ▸ c0, c0, hr ▸ c1, c1, ht, hr ▸ c2]
                      exact ⟨_, rfl⟩
                  · simp only [ht, go, Nat.add_assoc, Nat.reduceAdd] at hm
                    by_cases c2 : p + 2 < r.length
                    · simp only [c2, go, List.length_set, Nat.add_assoc, Nat.reduceAdd] at hm
                      by_cases c3 : p + 3 < r.length
                      · simp only [c3, go, List.length_set, Nat.add_assoc, Nat.reduceAdd] at hm
                        by_cases c4 : p + 4 < r.length
                        · simp only [c4, go, List.length_set, Nat.add_assoc, Nat.reduceAdd] at hm
                          eval_go [and_one (by omega : 2 ≤ P.W), hk0, hE, hi, hr, get_last, set_last, set_map, get_map, Nat.zero_add, List.length_set, ho, hp1', hp1, w0_1, w0_2, w2_1, w2_2, w3_1, w3_2, w4_1, w5_1, hr ▸ c0, c0, hr ▸ c1, c1, ht, hr ▸ c2, c2, hr ▸ c3, c3, hr ▸ c4, c4]
                          exact ih (p + 5, _) ⟨by simpa using hr, by simp; omega, hm⟩
                        · simp only [c4, go] at hm
                          subst hm
                          eval_go [and_one (by omega : 2 ≤ P.W), hk0, hE, hi, hr, get_last, set_last, set_map, get_map, Nat.zero_add, List.length_set, ho, hp1', hp1, w0_1, w0_2, w2_1, w2_2, w3_1, w3_2, w4_1, w5_1, hr ▸ c0, c0, hr ▸ c1, c1, ht, hr ▸ c2, c2, hr ▸ c3, c3, hr ▸ c4]
                          exact ⟨_, rfl⟩
                      · simp only [c3, go] at hm
                        subst hm
                        eval_go [and_one (by omega : 2 ≤ P.W), hk0, hE, hi, hr, get_last, set_last, set_map, get_map, Nat.zero_add, List.length_set, ho, hp1', hp1, w0_1, w0_2, w2_1, w2_2, w3_1, w3_2, w4_1, w5_1, hr ▸ c0, c0, hr ▸ c1, c1, ht, hr ▸ c2, c2, hr ▸ c3]
                        exact ⟨_, rfl⟩
                    · simp only [c2, go] at hm
                      subst hm
                      eval_go [and_one (by omega : 2 ≤ P.W), hk0, hE, hi, hr, get_last, set_last, set_map, get_map, Nat.zero_add, List.length_set, ho, hp1', hp1, w0_1, w0_2, w2_1, w2_2, w3_1, w3_2, w4_1, w5_1, hr ▸ c0, c0, hr ▸ c1, c1, ht, hr ▸ c2]
                      exact ⟨_, rfl⟩
                · simp only [c1, go] at hm
                  subst hm
                  eval_go [and_one (by omega : 2 ≤ P.W), hk0, hE, hi, hr, get_last, set_last, set_map, get_map, Nat.zero_add, List.length_set, ho, hp1', hp1, w0_1, w0_2, w2_1, w2_2, w3_1, w3_2, w4_1, w5_1, hr ▸ c0, c0, hr ▸ c1]
                  exact ⟨_, rfl⟩
              · simp only [c0, go] at hm
                subst hm
                eval_go [and_one (by omega : 2 ≤ P.W), hk0, hE, hi, hr, get_last, set_last, set_map, get_map, Nat.zero_add, List.length_set, ho, hp1', hp1, w0_1, w0_2, w2_1, w2_2, w3_1, w3_2, w4_1, w5_1, hr ▸ c0]
                exact ⟨_, rfl⟩
            · have hp1' : ¬ (1 : Int) < (p : Int) := by omega
              simp only [hp1, GT.gt, go, Nat.add_assoc, Nat.reduceAdd] at hm
              by_cases c0 : p < r.length
              · simp only [c0, go, List.length_set, Nat.add_assoc, Nat.reduceAdd] at hm
                by_cases c1 : p + 1 < r.length
                · simp only [c1, go, List.length_set, Nat.add_assoc, Nat.reduceAdd] at hm
                  by_cases c2 : p + 2 < r.length
                  · simp only [c2, go, List.length_set, Nat.add_assoc, Nat.reduceAdd] at hm
                    eval_go [and_one (by omega : 2 ≤ P.W), hk0, hE, hi, hr, get_last, set_last, set_map, get_map, Nat.zero_add, List.length_set, ho, hp1', hp1, w0_1, w0_2, w2_1, w2_2, w3_1, w3_2, w4_1, w5_1, hr ▸ c0, c0, hr ▸ c1, c1, hr ▸ c2, c2]
                    exact ih (p + 3, _) ⟨by simpa using hr, by simp; omega, hm⟩
                  · simp only [c2, go] at hm
                    subst hm
                    eval_go [and_one (by omega : 2 ≤ P.W), hk0, hE, hi, hr, get_last, set_last, set_map, get_map, Nat.zero_add, List.length_set, ho, hp1', hp1, w0_1, w0_2, w2_1, w2_2, w3_1, w3_2, w4_1, w5_1, hr ▸ c0, c0, hr ▸ c1, c1, hr ▸ c2]
                    exact ⟨_, rfl⟩
                · simp only [c1, go] at hm
                  subst hm
                  eval_go [and_one (by omega : 2 ≤ P.W), hk0, hE, hi, hr, get_last, set_last, set_map, get_map, Nat.zero_add, List.length_set, ho, hp1', hp1, w0_1, w0_2, w2_1, w2_2, w3_1, w3_2, w4_1, w5_1, hr ▸ c0, c0, hr ▸ c1]
                  exact ⟨_, rfl⟩
              · simp only [c0, go] at hm
                subst hm
                eval_go [and_one (by omega : 2 ≤ P.W), hk0, hE, hi, hr, get_last, set_last, set_map, get_map, Nat.zero_add, List.length_set, ho, hp1', hp1, w0_1, w0_2, w2_1, w2_2, w3_1, w3_2, w4_1, w5_1, hr ▸ c0]
                exact ⟨_, rfl⟩
          · have ho' : i % 2 = 1 := by omega
            simp only [ho', go, goSet] at hm
            by_cases c0 : p < r.length
            · simp only [c0, go, List.length_set, Nat.add_assoc, Nat.reduceAdd] at hm
              eval_go [and_one (by omega : 2 ≤ P.W), hk0, hE, hi, hr, get_last, set_last, set_map, get_map, Nat.zero_add, List.length_set, ho', w0_1, hr ▸ c0, c0]
              exact ih (p + 1, _) ⟨by simpa using hr, by simp; omega, hm⟩
            · simp only [c0, go] at hm
              subst hm
              eval_go [and_one (by omega : 2 ≤ P.W), hk0, hE, hi, hr, get_last, set_last, set_map, get_map, Nat.zero_add, List.length_set, ho', w0_1, hr ▸ c0]
              exact ⟨_, rfl⟩) (by
          rintro ⟨p, r⟩ ⟨hr, hp, hm⟩
          rw [List.drop_length, _root_.Codegen.hexSepLoop] at hm
          subst hm
          exact ⟨rfl, hr⟩) 0 (by simp) (1, r0) ⟨hr0, by simp; omega, by simpa using hm0⟩ (by simp) hlp
      clear hlp
      rcases R with ⟨r1, p1⟩ | _
      · obtain ⟨rfl, hr1⟩ := hQ
        simp only [go]
        by_cases hp1 : p1 < r1.length
        · simp only [hp1, go]
          eval_go [hr1 ▸ hp1, get_last, set_last, set_map, hr1, get_map, Nat.zero_add, List.length_set, List.length_map, Nat.le_refl, List.take_of_length_le, valBytes_map]
        · simp only [hp1, go]
          eval_go [hr1 ▸ hp1]
          exact ⟨_, congrArg Out.panic (by rw [ht0, List.append_assoc])⟩
      · obtain ⟨x, rfl⟩ := hQ
        eval_go
        exact ⟨_, congrArg Out.panic (by rw [ht0, List.append_assoc])⟩
    · have h2' : ¬ ((0 : Int) ≤ 0 ∧ (0 : Int) < (l : Int)) := by omega
      simp only [h2, go]
      eval_go [hv, hR, hF, h1', hk, hk0, hlen, w1, w2, w3, w4, hH1, hH2, h0, h2']
      exact ⟨_, congrArg Out.panic (by rw [ht0, List.append_assoc])⟩

set_option linter.unusedSimpArgs false in
set_option maxHeartbeats 4000000 in
theorem run_BytesToStringSep {v : Val} {b e : List (BitVec 8)} {bps k : Int} (h1 : 1 ≤ bps) (hk : wrap P.W (bps * 2) = k) (hk' : _root_.Codegen.int64 (bps * 2) = k) (hk0 : k ≠ 0)
    (he : _root_.Hex.FromBytes b = .ok e) (hb : HasBytes h v b) (hW : 32 ≤ P.W)
    (hl : ((b.length * 16 + 16 : Nat) : Int) < 2 ^ (P.W - 1)) {n : Nat} (hn : b.length < n) :
    Outcome h e (_root_.Codegen.BytesToStringSep b bps) (run P (n + 2) path 0 (n! "BytesToStringSep") [v, .int bps] h) := by
  have hv := hb.plain
  have hR := elem_repo hH
  have hel : e.length = b.length * 2 := by
    have := Hex.fromBytesLoop_length he
    simpa using this
  have hF := Hex.run_FromBytes hH he hb hW (by omega) (n := n) hn
  obtain ⟨q1, q2⟩ := tdiv_bound e.length k
  have w1 : wrap P.W ((e.length : Int) * 2) = e.length * 2 := wrap_eq (by omega) (by omega) (by omega)
  have w2 : wrap P.W ((e.length : Int).tdiv k) = (e.length : Int).tdiv k := wrap_eq (by omega) (by omega) (by omega)
  have w3 : wrap P.W ((e.length : Int).tdiv k - 1) = (e.length : Int).tdiv k - 1 := wrap_eq (by omega) (by omega) (by omega)
  have w5 : wrap P.W (3 * ((e.length : Int).tdiv k - 1)) = 3 * ((e.length : Int).tdiv k - 1) := wrap_eq (by omega) (by omega) (by omega)
  have w6 : wrap P.W ((e.length : Int) * 2 + 3 * ((e.length : Int).tdiv k - 1)) = (e.length : Int) * 2 + 3 * ((e.length : Int).tdiv k - 1) :=
    wrap_eq (by omega) (by omega) (by omega)
  obtain ⟨L, hL⟩ : ∃ L, (e.length : Int) * 2 + 3 * ((e.length : Int).tdiv k - 1) + 2 = L := ⟨_, rfl⟩
  have w4 : wrap P.W ((e.length : Int) * 2 + 3 * ((e.length : Int).tdiv k - 1) + 2) = L := by
    rw [← hL]; exact wrap_eq (by omega) (by omega) (by omega)
  have hlen := hb.len
  have h1' : ¬ bps < 1 := by omega
  simp only [_root_.Codegen.BytesToStringSep, h1', he, go, _root_.Codegen.makeBytes, hk', hL]
  have hO : Outcome h e = Outcome h e := rfl
  unfold Outcome at hO ⊢
  clear hO
  generalize hH1 : h ++ [.arr (e.map .u8)] = H1 at hF ⊢
  have hE : ∀ x, (H1 ++ [.arr (e.map .u8)] ++ [x])[H1.length]? = some (.arr (e.map .u8)) := by simp
  have hE' : ∃ t, H1 ++ [.arr (e.map .u8)] = h ++ t := ⟨_, by rw [← hH1, List.append_assoc]⟩
  generalize hH2 : H1 ++ [.arr (e.map .u8)] = H2 at hE hE' ⊢
  obtain ⟨t0, ht0⟩ := hE'
  rw [run_func hP find_StringSep]
  by_cases h0 : L < 0
  · simp only [h0, go]
    refine ⟨t0, ?_⟩
    eval_go [hv, hR, hF, h1', hk, hk0, hlen, w1, w2, w3, w5, w6, w4, hH1, hH2, h0]
    exact congrArg _ ht0
  · obtain ⟨l, rfl⟩ : ∃ l : Nat, L = l := ⟨L.toNat, by omega⟩
    have hl8 : l ≤ b.length * 14 := by omega
    simp only [h0, go, goSet, List.length_replicate]
    rw [show 0#8 = (0 : BitVec 8) from rfl]
    by_cases h2 : 0 < l
    · have hr0 : ((List.replicate l (0 : BitVec 8)).set 0 0x22#8).length = l := by simp
      have hg0 : ((List.replicate l (0 : BitVec 8)).map Val.u8)[0]? = some (.u8 0) := by simp [h2]
      have h2' : (0 : Int) ≤ 0 ∧ (0 : Int) < (l : Int) := by omega
      simp only [h2, go]
      eval_go [hv, hR, hF, h1', hk, hk0, hlen, w1, w2, w3, w5, w6, w4, hH1, hH2, h0, h2', replicate_u8, get_last, set_last, set_map, hg0]
      generalize hR0 : (List.replicate l (0 : BitVec 8)).set 0 0x22#8 = r0 at *
      generalize hlp : rangeLoop _ _ _ _ = o
      generalize hm0 : _root_.Codegen.stringSepLoop k e 0 r0 1 = R
      have hQ := range_post (fun o => match (generalizing := false) R with
            | .ok (r1, p1) => o = .ok .next ⟨H2 ++ [.arr (r1.map .u8)], [(n! "ptr", .int p1), (n! "ret", .slice H2.length [] 0 l l), (n! "hexPerSection", .int k),
                (n! "retLen", .int l), (n! "n", .int e.length), (n! "h", .slice H1.length [] 0 e.length e.length), (n! "bytesPerSection", .int bps), (n! "in", v)]⟩ ∧ r1.length = l
            | .panic => ∃ x, o = .panic (H2 ++ [x]))
        (fun i (x : Nat × List (BitVec 8)) => x.2.length = l ∧ x.1 ≤ l ∧ _root_.Codegen.stringSepLoop k (e.drop i) i x.2 x.1 = R)
        (fun i x => ⟨H2 ++ [.arr (x.2.map .u8)], [(n! "ptr", .int x.1), (n! "ret", .slice H2.length [] 0 l l), (n! "hexPerSection", .int k),
                (n! "retLen", .int l), (n! "n", .int e.length), (n! "h", .slice H1.length [] 0 e.length e.length), (n! "bytesPerSection", .int bps), (n! "in", v)]⟩)
        e.length (by
          rintro i m ⟨p, r⟩ hi ⟨hr, hp, hm⟩ ih
          simp only at hr hp hm
          clear hlp
          rw [List.drop_eq_getElem_cons hi, _root_.Codegen.stringSepLoop, Nat.and_one_is_mod] at hm
          rw [rangeLoop]
          have w0_1 : wrap P.W ((p : Int) + 1) = (p + 1 : Nat) := wrap_add (k := 1) (by omega) (by omega)
          have w0_2 : wrap P.W ((p : Int) + 2) = (p + 2 : Nat) := wrap_add (k := 2) (by omega) (by omega)
          have w0_3 : wrap P.W ((p : Int) + 3) = (p + 3 : Nat) := wrap_add (k := 3) (by omega) (by omega)
          have w2_1 : wrap P.W (((p + 2 : Nat) : Int) + 1) = (p + 3 : Nat) := wrap_add (k := 1) (by omega) (by omega)
          have w2_2 : wrap P.W (((p + 2 : Nat) : Int) + 2) = (p + 4 : Nat) := wrap_add (k := 2) (by omega) (by omega)
          have w3_1 : wrap P.W (((p + 3 : Nat) : Int) + 1) = (p + 4 : Nat) := wrap_add (k := 1) (by omega) (by omega)
          have w3_2 : wrap P.W (((p + 3 : Nat) : Int) + 2) = (p + 5 : Nat) := wrap_add (k := 2) (by omega) (by omega)
          have w4_1 : wrap P.W (((p + 4 : Nat) : Int) + 1) = (p + 5 : Nat) := wrap_add (k := 1) (by omega) (by omega)
          have w5_1 : wrap P.W (((p + 5 : Nat) : Int) + 1) = (p + 6 : Nat) := wrap_add (k := 1) (by omega) (by omega)
          by_cases ho : i % 2 = 0
          · simp only [ho, go, goSet] at hm
            by_cases ht : (i : Int).tmod k = 0
            · by_cases hp1 : 1 < p
              · have hp1' : (1 : Int) < (p : Int) := by omega
                simp only [ht, hp1, GT.gt, go, Nat.add_assoc, Nat.reduceAdd] at hm
                by_cases c0 : p < r.length
                · simp only [c0, go, List.length_set, Nat.add_assoc, Nat.reduceAdd] at hm
                  by_cases c1 : p + 1 < r.length
                  · simp only [c1, go, List.length_set, Nat.add_assoc, Nat.reduceAdd] at hm
                    by_cases c2 : p + 2 < r.length
                    · simp only [c2, go, List.length_set, Nat.add_assoc, Nat.reduceAdd] at hm
                      by_cases c3 : p + 3 < r.length
                      · simp only [c3, go, List.length_set, Nat.add_assoc, Nat.reduceAdd] at hm
                        by_cases c4 : p + 4 < r.length
                        · simp only [c4, go, List.length_set, Nat.add_assoc, Nat.reduceAdd] at hm
                          by_cases c5 : p + 5 < r.length
                          · simp only [c5, go, List.length_set, Nat.add_assoc, Nat.reduceAdd] at hm
                            eval_go [and_one (by omega : 2 ≤ P.W), hk0, hE, hi, hr, get_last, set_last, set_map, get_map, Nat.zero_add, List.length_set, ho, w0_1, w0_2, w0_3, w2_1, w2_2, w3_1, w3_2, w4_1, w5_1, false_and, true_and, and_true, and_false, ht, hp1', hp1, hr ▸ c0, c0, hr ▸ c1, c1, hr ▸ c2, c2, hr ▸ c3, c3, hr ▸ c4, c4, hr ▸ c5, c5]
                            exact ih (p + 6, _) ⟨by simpa using hr, by simp; omega, hm⟩
                          · simp only [c5, go] at hm
                            subst hm
                            eval_go [and_one (by omega : 2 ≤ P.W), hk0, hE, hi, hr, get_last, set_last, set_map, get_map, Nat.zero_add, List.length_set, ho, w0_1, w0_2, w0_3, w2_1, w2_2, w3_1, w3_2, w4_1, w5_1, false_and, true_and, and_true, and_false, ht, hp1', hp1, hr ▸ c0, c0, hr ▸ c1, c1, hr ▸ c2, c2, hr ▸ c3, c3, hr ▸ c4, c4, hr ▸ c5]
                            exact ⟨_, rfl⟩
                        · simp only [c4, go] at hm
                          subst hm
                          eval_go [and_one (by omega : 2 ≤ P.W), hk0, hE, hi, hr, get_last, set_last, set_map, get_map, Nat.zero_add, List.length_set, ho, w0_1, w0_2, w0_3, w2_1, w2_2, w3_1, w3_2, w4_1, w5_1, false_and, true_and, and_true, and_false, ht, hp1', hp1, hr ▸ c0, c0, hr ▸ c1, c1, hr ▸ c2, c2, hr ▸ c3, c3, hr ▸ c4]
                          exact ⟨_, rfl⟩
                      · simp only [c3, go] at hm
                        subst hm
                        eval_go [and_one (by omega : 2 ≤ P.W), hk0, hE, hi, hr, get_last, set_last, set_map, get_map, Nat.zero_add, List.length_set, ho, w0_1, w0_2, w0_3, w2_1, w2_2, w3_1, w3_2, w4_1, w5_1, false_and, true_and, and_true, and_false, ht, hp1', hp1, hr ▸ c0, c0, hr ▸ c1, c1, hr ▸ c2, c2, hr ▸ c3]
                        exact ⟨_, rfl⟩
                    · simp only [c2, go] at hm
                      subst hm
                      eval_go [and_one (by omega : 2 ≤ P.W), hk0, hE, hi, hr, get_last, set_last, set_map, get_map, Nat.zero_add, List.length_set, ho, w0_1, w0_2, w0_3, w2_1, w2_2, w3_1, w3_2, w4_1, w5_1, false_and, true_and, and_true, and_false, ht, hp1', hp1, hr ▸ c0, c0, hr ▸ c1, c1, hr ▸ c2]
                      exact ⟨_, rfl⟩
                  · simp only [c1, go] at hm
                    subst hm
                    eval_go [and_one (by omega : 2 ≤ P.W), hk0, hE, hi, hr, get_last, set_last, set_map, get_map, Nat.zero_add, List.length_set, ho, w0_1, w0_2, w0_3, w2_1, w2_2, w3_1, w3_2, w4_1, w5_1, false_and, true_and, and_true, and_false, ht, hp1', hp1, hr ▸ c0, c0, hr ▸ c1]
                    exact ⟨_, rfl⟩
                · simp only [c0, go] at hm
                  subst hm
                  eval_go [and_one (by omega : 2 ≤ P.W), hk0, hE, hi, hr, get_last, set_last, set_map, get_map, Nat.zero_add, List.length_set, ho, w0_1, w0_2, w0_3, w2_1, w2_2, w3_1, w3_2, w4_1, w5_1, false_and, true_and, and_true, and_false, ht, hp1', hp1, hr ▸ c0]
                  exact ⟨_, rfl⟩
              · have hp1' : ¬ (1 : Int) < (p : Int) := by omega
                simp only [ht, hp1, GT.gt, go, Nat.add_assoc, Nat.reduceAdd] at hm
                by_cases c0 : p < r.length
                · simp only [c0, go, List.length_set, Nat.add_assoc, Nat.reduceAdd] at hm
                  by_cases c1 : p + 1 < r.length
                  · simp only [c1, go, List.length_set, Nat.add_assoc, Nat.reduceAdd] at hm
                    by_cases c2 : p + 2 < r.length
                    · simp only [c2, go, List.length_set, Nat.add_assoc, Nat.reduceAdd] at hm
                      eval_go [and_one (by omega : 2 ≤ P.W), hk0, hE, hi, hr, get_last, set_last, set_map, get_map, Nat.zero_add, List.length_set, ho, w0_1, w0_2, w0_3, w2_1, w2_2, w3_1, w3_2, w4_1, w5_1, false_and, true_and, and_true, and_false, ht, hp1', hp1, hr ▸ c0, c0, hr ▸ c1, c1, hr ▸ c2, c2]
                      exact ih (p + 3, _) ⟨by simpa using hr, by simp; omega, hm⟩
                    · simp only [c2, go] at hm
                      subst hm
                      eval_go [and_one (by omega : 2 ≤ P.W), hk0, hE, hi, hr, get_last, set_last, set_map, get_map, Nat.zero_add, List.length_set, ho, w0_1, w0_2, w0_3, w2_1, w2_2, w3_1, w3_2, w4_1, w5_1, false_and, true_and, and_true, and_false, ht, hp1', hp1, hr ▸ c0, c0, hr ▸ c1, c1, hr ▸ c2]
                      exact ⟨_, rfl⟩
                  · simp only [c1, go] at hm
                    subst hm
                    eval_go [and_one (by omega : 2 ≤ P.W), hk0, hE, hi, hr, get_last, set_last, set_map, get_map, Nat.zero_add, List.length_set, ho, w0_1, w0_2, w0_3, w2_1, w2_2, w3_1, w3_2, w4_1, w5_1, false_and, true_and, and_true, and_false, ht, hp1', hp1, hr ▸ c0, c0, hr ▸ c1]
                    exact ⟨_, rfl⟩
                · simp only [c0, go] at hm
                  subst hm
                  eval_go [and_one (by omega : 2 ≤ P.W), hk0, hE, hi, hr, get_last, set_last, set_map, get_map, Nat.zero_add, List.length_set, ho, w0_1, w0_2, w0_3, w2_1, w2_2, w3_1, w3_2, w4_1, w5_1, false_and, true_and, and_true, and_false, ht, hp1', hp1, hr ▸ c0]
                  exact ⟨_, rfl⟩
            · have ht' := beq_eq_false_iff_ne.mpr ht
              simp only [ht, GT.gt, go, Nat.add_assoc, Nat.reduceAdd] at hm
              by_cases c0 : p < r.length
              · simp only [c0, go, List.length_set, Nat.add_assoc, Nat.reduceAdd] at hm
                by_cases c1 : p + 1 < r.length
                · simp only [c1, go, List.length_set, Nat.add_assoc, Nat.reduceAdd] at hm
                  by_cases c2 : p + 2 < r.length
                  · simp only [c2, go, List.length_set, Nat.add_assoc, Nat.reduceAdd] at hm
                    eval_go [and_one (by omega : 2 ≤ P.W), hk0, hE, hi, hr, get_last, set_last, set_map, get_map, Nat.zero_add, List.length_set, ho, w0_1, w0_2, w0_3, w2_1, w2_2, w3_1, w3_2, w4_1, w5_1, false_and, true_and, and_true, and_false, ht, ht', hr ▸ c0, c0, hr ▸ c1, c1, hr ▸ c2, c2]
                    exact ih (p + 3, _) ⟨by simpa using hr, by simp; omega, hm⟩
                  · simp only [c2, go] at hm
                    subst hm
                    eval_go [and_one (by omega : 2 ≤ P.W), hk0, hE, hi, hr, get_last, set_last, set_map, get_map, Nat.zero_add, List.length_set, ho, w0_1, w0_2, w0_3, w2_1, w2_2, w3_1, w3_2, w4_1, w5_1, false_and, true_and, and_true, and_false, ht, ht', hr ▸ c0, c0, hr ▸ c1, c1, hr ▸ c2]
                    exact ⟨_, rfl⟩
                · simp only [c1, go] at hm
                  subst hm
                  eval_go [and_one (by omega : 2 ≤ P.W), hk0, hE, hi, hr, get_last, set_last, set_map, get_map, Nat.zero_add, List.length_set, ho, w0_1, w0_2, w0_3, w2_1, w2_2, w3_1, w3_2, w4_1, w5_1, false_and, true_and, and_true, and_false, ht, ht', hr ▸ c0, c0, hr ▸ c1]
                  exact ⟨_, rfl⟩
              · simp only [c0, go] at hm
                subst hm
                eval_go [and_one (by omega : 2 ≤ P.W), hk0, hE, hi, hr, get_last, set_last, set_map, get_map, Nat.zero_add, List.length_set, ho, w0_1, w0_2, w0_3, w2_1, w2_2, w3_1, w3_2, w4_1, w5_1, false_and, true_and, and_true, and_false, ht, ht', hr ▸ c0]
                exact ⟨_, rfl⟩
          · have ho' : i % 2 = 1 := by omega
            simp only [ho', go, goSet] at hm
            by_cases c0 : p < r.length
            · simp only [c0, go, List.length_set, Nat.add_assoc, Nat.reduceAdd] at hm
              eval_go [and_one (by omega : 2 ≤ P.W), hk0, hE, hi, hr, get_last, set_last, set_map, get_map, Nat.zero_add, List.length_set, ho', w0_1, hr ▸ c0, c0]
              exact ih (p + 1, _) ⟨by simpa using hr, by simp; omega, hm⟩
            · simp only [c0, go] at hm
              subst hm
              eval_go [and_one (by omega : 2 ≤ P.W), hk0, hE, hi, hr, get_last, set_last, set_map, get_map, Nat.zero_add, List.length_set, ho', w0_1, hr ▸ c0]
              exact ⟨_, rfl⟩) (by
          rintro ⟨p, r⟩ ⟨hr, hp, hm⟩
          rw [List.drop_length, _root_.Codegen.stringSepLoop] at hm
          subst hm
          exact ⟨rfl, hr⟩) 0 (by simp) (1, r0) ⟨hr0, by simp; omega, by simpa using hm0⟩ (by simp) hlp
      clear hlp
      rcases R with ⟨r1, p1⟩ | _
      · obtain ⟨rfl, hr1⟩ := hQ
        simp only [go]
        by_cases hp1 : p1 < r1.length
        · simp only [hp1, go]
          eval_go [hr1 ▸ hp1, get_last, set_last, set_map, hr1, get_map, Nat.zero_add, List.length_set, List.length_map, Nat.le_refl, List.take_of_length_le, valBytes_map]
        · simp only [hp1, go]
          eval_go [hr1 ▸ hp1]
          exact ⟨_, congrArg Out.panic (by rw [ht0, List.append_assoc])⟩
      · obtain ⟨x, rfl⟩ := hQ
        eval_go
        exact ⟨_, congrArg Out.panic (by rw [ht0, List.append_assoc])⟩
    · have h2' : ¬ ((0 : Int) ≤ 0 ∧ (0 : Int) < (l : Int)) := by omega
      simp only [h2, go]
      eval_go [hv, hR, hF, h1', hk, hk0, hlen, w1, w2, w3, w5, w6, w4, hH1, hH2, h0, h2']
      exact ⟨_, congrArg Out.panic (by rw [ht0, List.append_assoc])⟩

omit hH in
/-- A section size below one panics in both functions before anything is allocated. -/
theorem run_HexSep_bad {v : Val} {bps : Int} (h1 : bps < 1) (hv : Plain v) {n : Nat} :
    run P (n + 2) path 0 (n! "BytesToHexSep") [v, .int bps] h = .panic h := by
  rw [run_func hP find_HexSep]
  eval_go [h1, hv]

omit hH in
theorem run_StringSep_bad {v : Val} {bps : Int} (h1 : bps < 1) (hv : Plain v) {n : Nat} :
    run P (n + 2) path 0 (n! "BytesToStringSep") [v, .int bps] h = .panic h := by
  rw [run_func hP find_StringSep]
  eval_go [h1, hv]

end
end Source.Codegen
