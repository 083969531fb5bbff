import Verif.Code.TestReport
import Verif.Code.Hex
import Verif.Lemmas.Hex

/-!
# The code of package `test`: testing hash objects
-/
namespace Source.Test
open GoLang

theorem isBytes_frame {h h' : List Val} {v : Val} {b : List U8} (hb : IsBytes h v b) (hf : ∀ i, i < h.length → base v = some i → h'[i]? = h[i]?) : IsBytes h' v b := by
  rcases hb with hb | ⟨a', p, off, cap, o, l, rfl, ho', hr⟩
  · exact .inl hb
  · exact .inr ⟨a', p, off, cap, o, l, rfl, by rw [hf a' (lt_of_get ho') rfl, ho'], hr⟩

theorem encode_length (d : List U8) : (HexSpec.encode d).length = d.length * 2 := by
  induction d with
  | nil => rfl
  | cons x d ih => simp [HexSpec.encode] at ih ⊢; omega

/-- The calls `ops` on the object at `a`, each with a fresh slice for its argument, return one after another; memory is then the last list. -/
inductive Calls (P : Prog) (kp ty sumN : Name) (a : Nat) : List Val → List GoHash.Op → List Val → Prop
  | nil {h} : Calls P kp ty sumN a h [] h
  | cons {h op o h' ops h''} : CallReturns P kp ty sumN a h op o h' → Calls P kp ty sumN a h' ops h'' → Calls P kp ty sumN a h (op :: ops) h''

theorem prefix_frame {h h' : List Val} (hp : h <+: h') {j : Nat} (hj : j < h.length) : h'[j]? = h[j]? := by
  obtain ⟨t, rfl⟩ := hp
  rw [List.getElem?_append_left hj]

theorem calls_of {P : Prog} {kp ty new sumN : Name} {σ : Type} {I : GoHash.Impl σ} {rep : σ → Val} {Inv : σ → Prop}
    (hI : Implements P kp ty new sumN I rep Inv) {a : Nat} {h : List Val} {s s' : σ} {os : List GoHash.Out} (hs : Inv s) (ha : h[a]? = some (rep s))
    (ops : List GoHash.Op) (hops : Callable P.W sumN ops) (hr : GoHash.runFrom I s ops = .ok (s', os)) :
    ∃ h', Calls P kp ty sumN a h ops h' ∧ h'[a]? = some (rep s') ∧ Inv s' ∧ h.length ≤ h'.length ∧ ∀ j, j < h.length → j ≠ a → h'[j]? = h[j]? := by
  induction ops generalizing h s os with
  | nil =>
    cases hr
    exact ⟨h, .nil, ha, hs, Nat.le_refl _, fun _ _ _ => rfl⟩
  | cons op ops ih =>
    have hops' : Callable P.W sumN ops := ⟨fun p hp => hops.1 p (.tail _ hp), fun hp => hops.2 (.tail _ hp)⟩
    have next {s1 : σ} {h1 : List Val} {o : GoHash.Out} (hst : GoHash.step I s op = .ok (s1, o)) (hc : CallReturns P kp ty sumN a h op o h1)
        (hs1 : Inv s1) (ha1 : h1[a]? = some (rep s1)) (hl : h.length ≤ h1.length) (hf : ∀ j, j < h.length → j ≠ a → h1[j]? = h[j]?) :
        ∃ h', Calls P kp ty sumN a h (op :: ops) h' ∧ h'[a]? = some (rep s') ∧ Inv s' ∧ h.length ≤ h'.length ∧ ∀ j, j < h.length → j ≠ a → h'[j]? = h[j]? := by
      rw [GoHash.runFrom, hst] at hr
      simp only [go] at hr
      rcases hf2 : GoHash.runFrom I s1 ops with ⟨s2, os2⟩ | _
      · rw [hf2] at hr
        cases hr
        obtain ⟨h', c, e1, e2, e3, e4⟩ := ih hs1 ha1 hops' hf2
        exact ⟨h', .cons hc c, e1, e2, Nat.le_trans hl e3, fun j hj hne => (e4 j (by omega) hne).trans (hf j hj hne)⟩
      · rw [hf2] at hr
        cases hr
    cases op with
    | write p =>
      have hw := hI.write _ a s _ p hs (get_withBytes p ha) (isBytes_lit h p) (base_lit p ha) (hops.1 p (.head _))
      rcases hr' : I.write s p with ⟨s1, k, e⟩ | _
      · simp only [hr'] at hw
        obtain ⟨hi, rfl, h1, hret, hpre⟩ := hw
        have hlen := hpre.length_le
        simp only [withBytes, List.length_set, List.length_append, List.length_cons, List.length_nil] at hlen
        refine next (s1 := s1) (h1 := h1) (o := .wrote k false) (by simp [GoHash.step, hr']) ⟨.nil, hret, by simp⟩ hi (prefix_get hpre ?_) (by omega) fun j hj hne => ?_
        · rw [List.getElem?_set_self (lt_of_get (get_withBytes p ha))]
        · rw [prefix_frame hpre (by simp [withBytes]; omega), List.getElem?_set_ne (Ne.symm hne), withBytes, List.getElem?_append_left hj]
      · rw [GoHash.runFrom] at hr
        simp only [GoHash.step, hr', go] at hr
    | sum p =>
      obtain ⟨w, h₁, v', h1, hsum, hpre, hap, hret⟩ := hI.sum _ a s _ p hs (get_withBytes p ha) (isBytes_lit h p) (base_lit p ha)
      have hb : IsBytes h₁ (litBytes h p) p := isBytes_frame (isBytes_lit h p) fun j hj _ => prefix_frame hpre hj
      obtain ⟨v₂, h₂, hap₂, hb₂, _, hfr⟩ := appendTo_bytes P.grow hb w
      have := hap.symm.trans (hap₂ [])
      simp only [Out.ok.injEq, St.mk.injEq, and_true] at this
      obtain ⟨rfl, rfl⟩ := this
      have fr (j : Nat) (hj : j < h.length) : h1[j]? = h[j]? := by
        have := hpre.length_le
        simp only [withBytes, List.length_append, List.length_cons, List.length_nil] at this
        rw [hfr j (by omega) (by simp only [litBytes, base, ne_eq, Option.some.injEq]; omega), prefix_frame hpre (by simp [withBytes]; omega), withBytes,
          List.getElem?_append_left hj]
      refine next (s1 := s) (h1 := h1) (o := .bytes (p ++ w)) (by simp [GoHash.step, hsum]) ⟨v', hret, hb₂⟩ hs ?_ ?_ fun j hj _ => fr j hj
      · rw [fr a (lt_of_get ha), ha]
      · rcases Nat.eq_zero_or_pos h.length with e | e
        · omega
        · have := fr (h.length - 1) (by omega)
          rw [List.getElem?_eq_getElem (show h.length - 1 < h.length by omega)] at this
          have := lt_of_get this
          omega
    | sumN =>
      obtain ⟨v, k, hk, hv, hret⟩ := hI.sumN h a s hs ha (hops.2 (.head _))
      exact next (s1 := s) (h1 := h) (o := .num k) (by simp [GoHash.step, hk]) ⟨v, hret, hv⟩ hs ha (Nat.le_refl _) fun _ _ _ => rfl
    | reset =>
      obtain ⟨s1, h1, hr', hi, hret, hpre⟩ := hI.reset h a s hs ha
      have hlen := hpre.length_le
      simp only [List.length_set] at hlen
      refine next (s1 := s1) (h1 := h1) (o := .unit) (by simp [GoHash.step, hr']) hret hi (prefix_get hpre ?_) (by omega) fun j hj hne => ?_
      · rw [List.getElem?_set_self (lt_of_get ha)]
      · rw [prefix_frame hpre (by simpa using hj), List.getElem?_set_ne (Ne.symm hne)]
    | size => exact next (s1 := s) (h1 := h) (o := .num (I.size s)) rfl (hI.size h a s hs ha) hs ha (Nat.le_refl _) fun _ _ _ => rfl
    | blockSize => exact next (s1 := s) (h1 := h) (o := .num (I.blockSize s)) rfl (hI.blockSize h a s hs ha) hs ha (Nat.le_refl _) fun _ _ _ => rfl

/-- The empty slice `[]byte{}` at the end of memory. -/
theorem isBytes_empty (h : List Val) : IsBytes (h ++ [.arr []]) (.slice h.length [] 0 0 0) [] :=
  isBytes_lit h []

section
variable {P : Prog} (hP : findPkg path P.pkgs = some pkg) (hW : 32 ≤ P.W) (hS : P.std = stdlib) (hB : elemN (n! "strings") (P.pkgs.map Pkg.path) = false)
include hP hW hS hB

theorem run_match {H : List Val} {i a : Nat} (hL : Logs P i a) {ms : List (List U8)} (hms : H[a]? = some (.arr (ms.map .str))) (expect found : List U8)
    {r : List (List U8)} (hx : TestHelpers.StringMatch expect found = .ok r)
    (hl : ((4 * (expect.length + found.length) + 64 : Nat) : Int) < 2 ^ (P.W - 1)) {n : Nat} (hn : 2 * (expect.length + found.length) + 2 < n) :
    ∃ t, run P (n + 3) path 0 (n! "StringMatch") [.native i, .str expect, .str found] H = .ok [] ⟨H.set a (.arr ((ms ++ r).map .str)) ++ t, []⟩ := by
  obtain ⟨t, ht⟩ := run_title hP hW hS hB hL hms [] [] expect found hx hl hn
  have hR := elem_repo hP
  refine ⟨t, ?_⟩
  rw [run_func hP find_match]
  eval_go [hR, ht]

variable {bd : _root_.Hex.Build} (hX : findPkg Source.Hex.path P.pkgs = some (Source.Hex.pkg bd))
  {kp ty new sumN : Name} {σ : Type} {I : GoHash.Impl σ} {rep : σ → Val} {Inv : σ → Prop} (hI : Implements P kp ty new sumN I rep Inv)
  (hk : Nat.beq kp path = false) (ht : Nat.beq ty 0 = false) (hmW : P.methods kp ty (n! "Write") = some true) (hmS : P.methods kp ty (n! "Sum") = some true)
include hX hI hk ht hmW hmS

/-- `h.Sum([]byte{})`. -/
theorem sum_empty {H1 : List Val} {ao : Nat} {s1 s2 : σ} (hi1 : Inv s1) (ho1 : H1[ao]? = some (rep s1)) (t1 : List Val) {d : List U8}
    (hsum : I.sum s1 [] = .ok (s2, d)) : s2 = s1 ∧ ∃ v2 h3 N,
      (∀ n, N ≤ n → run P n kp ty (n! "Sum") [obj kp ty ao, .slice (H1 ++ t1).length [] 0 0 0] (H1 ++ t1 ++ [.arr []]) = .ok [v2] ⟨h3, []⟩) ∧
      IsBytes h3 v2 d ∧ Plain v2 ∧ ∀ j, j < H1.length → h3[j]? = H1[j]? := by
  obtain ⟨w, h2, v2, h3, q1, ⟨t2, rfl⟩, q2, N2, q3⟩ := hI.sum (H1 ++ t1 ++ [.arr []]) ao s1 (.slice (H1 ++ t1).length [] 0 0 0) [] hi1
    (by rw [List.append_assoc, List.getElem?_append_left (lt_of_get ho1), ho1]) (isBytes_empty _) (by
      have := lt_of_get ho1
      simp only [base, List.length_append, ne_eq, Option.some.injEq]
      omega)
  rw [hsum] at q1
  simp only [List.nil_append, Res.ok.injEq, Prod.mk.injEq] at q1
  obtain ⟨rfl, rfl⟩ := q1
  obtain ⟨v3, h4, y1, y2, y3, y4⟩ := appendTo_bytes P.grow (h := H1 ++ t1 ++ [.arr []] ++ t2) ((isBytes_empty (H1 ++ t1)).append t2) d
  rw [y1] at q2
  cases q2
  refine ⟨rfl, v2, h3, N2, q3, y2, y3, fun j hj => ?_⟩
  rw [y4 j (by simp; omega) (by simp only [base, List.length_append, ne_eq, Option.some.injEq]; omega), List.append_assoc, List.append_assoc, List.getElem?_append_left hj]

/-- `HashTest` does what the model says. -/
theorem returns_HashTest {H : List Val} {i a ao : Nat} (hL : Logs P i a) {ms : List (List U8)} (hms : H[a]? = some (.arr (ms.map .str)))
    {s s1 s2 : σ} (hs : Inv s) (ho : H[ao]? = some (rep s)) (hne : a ≠ ao) {v : Val} {b d : List U8} (hb : IsBytes H v b) (hv : base v ≠ some ao)
    (hbl : (b.length : Int) < 2 ^ (P.W - 1)) {k : Nat} {e : Bool} (hw : I.write s b = .ok (s1, k, e)) (hsum : I.sum s1 [] = .ok (s2, d))
    (expectHex : List U8) {r : List (List U8)} (hx : TestHelpers.HashTest I s b expectHex = .ok (s2, r))
    (hl : ((4 * (expectHex.length + d.length * 2) + 64 : Nat) : Int) < 2 ^ (P.W - 1)) :
    ∃ h', Returns P path 0 (n! "HashTest") [.native i, obj kp ty ao, v, .str expectHex] H [] h' ∧ h'[a]? = some (.arr ((ms ++ r).map .str)) ∧
      h'[ao]? = some (rep s2) := by
  have w := hI.write H ao s v b hs ho hb hv hbl
  rw [hw] at w
  obtain ⟨hi1, rfl, h1, ⟨N1, w1⟩, w2⟩ := w
  have ho1 : (H.set ao (rep s1))[ao]? = some (rep s1) := by simp [lt_of_get ho]
  have hms1 : (H.set ao (rep s1))[a]? = some (.arr (ms.map .str)) := by rw [List.getElem?_set_ne (Ne.symm hne), hms]
  have hb1 : IsBytes (H.set ao (rep s1)) v b := isBytes_frame hb fun j _ hj => by
    rw [List.getElem?_set_ne]
    rintro rfl
    exact hv hj
  obtain ⟨t1, rfl⟩ := w2
  generalize hH1 : H.set ao (rep s1) = H1 at *
  obtain ⟨rfl, v2, h3, N2, q3, y2, y3, fr⟩ := sum_empty hP hW hS hB hX hI hk ht hmW hmS (ao := ao) hi1 ho1 t1 hsum
  have hb3 : IsBytes h3 v b := isBytes_frame hb1 fun j hj _ => fr j hj
  have ho3 : h3[ao]? = some (rep s2) := by rw [fr _ (lt_of_get ho1), ho1]
  have hms3 : h3[a]? = some (.arr (ms.map .str)) := by rw [fr _ (lt_of_get hms1), hms1]
  have z1 := _root_.Hex.FromBytes_eq d
  have zl := encode_length d
  generalize HexSpec.encode d = fx at *
  unfold TestHelpers.HashTest at hx
  rw [hw] at hx
  simp only [Res.ok_bind] at hx
  rw [hsum] at hx
  simp only [Res.ok_bind] at hx
  obtain ⟨ab, z2, _⟩ := run_Abbr hP (h3 ++ [Val.arr (fx.map .u8)]) b 0
  cases z4 : TestHelpers.StringMatchTitle (ascii "Hash(" ++ ab ++ ascii ")") [] expectHex fx with
  | panic =>
    rw [z1, Res.ok_bind, z2, Res.ok_bind, z4] at hx
    cases hx
  | ok r' =>
  simp only [z1, z2, z4, Res.ok_bind, Res.pure_eq, Res.ok.injEq, Prod.mk.injEq, true_and] at hx
  subst hx
  have hmsX : (h3 ++ [.arr (fx.map .u8)])[a]? = some (.arr (ms.map .str)) := by rw [List.getElem?_append_left (lt_of_get hms3), hms3]
  obtain ⟨t, x3⟩ := run_title hP hW hS hB hL hmsX (ascii "Hash(" ++ ab ++ ascii ")") [] expectHex fx z4 (by omega) (Nat.lt_succ_self _)
  refine ⟨(h3 ++ [Val.arr (fx.map .u8)]).set a (.arr ((ms ++ r').map .str)) ++ t, ?_, ?_, ?_⟩
  · refine ⟨N1 + N2 + (2 * (expectHex.length + fx.length) + 2).succ + d.length + 9, fun n hn => ?_⟩
    obtain ⟨n, rfl⟩ : ∃ m, n = m + 3 := ⟨n - 3, by omega⟩
    have x0 := w1 (n + 2) (by omega)
    have x1 := q3 (n + 2) (by omega)
    have x2 := Hex.run_FromBytes hX z1 y2.has hW (by omega) (n := n + 1) (by omega)
    obtain ⟨ab', z2', x4⟩ := run_Abbr hP (h3 ++ [.arr (fx.map .u8)]) b (n + 1)
    rw [z2] at z2'
    cases z2'
    have x3 := run_mono (m := n + 2) (by omega) (by simp) x3
    rw [show ascii "Hash(" ++ ab ++ ascii ")" = 72#8 :: 97#8 :: 115#8 :: 104#8 :: 40#8 :: (ab ++ [41#8]) from rfl] at x3
    have hR := elem_repo hP
    have hR' := elem_repo hX
    have hpl := y3
    rw [run_func hP find_HashTest]
    rcases hb3.append [.arr (fx.map .u8)] with ⟨rfl, rfl⟩ | ⟨a', p, off, cap, o, l, rfl, ho', hg, hc, hl', he⟩
    · eval_go [hR, hR', hk, ht, hmW, hmS, x0, x1, x2, x4, x3, hpl]
    · have : off + b.length ≤ l.length := by omega
      eval_go [hR, hR', hk, ht, hmW, hmS, x0, x1, x2, x4, x3, hpl, ho', hg, this, he, valBytes_map]
  · rw [List.getElem?_append_left (by simp; have := lt_of_get hms3; omega), List.getElem?_set_self (lt_of_get hmsX)]
  · rw [List.getElem?_append_left (by simp; have := lt_of_get ho3; omega), List.getElem?_set_ne hne, List.getElem?_append_left (lt_of_get ho3), ho3]

/-- `HashHexTest` does what the model says. -/
theorem returns_HashHexTest {H : List Val} {i a ao : Nat} (hL : Logs P i a) {ms : List (List U8)} (hms : H[a]? = some (.arr (ms.map .str)))
    {s s1 s2 : σ} (hs : Inv s) (ho : H[ao]? = some (rep s)) (hne : a ≠ ao) {inHex d : List U8} {ob : Option (List U8)}
    (hd : _root_.Hex.ToBytesFast bd inHex = .ok ob) (hbl : ((inHex.length + 1 : Nat) : Int) < 2 ^ (P.W - 1)) {k : Nat} {e : Bool} (hw : I.write s (ob.getD []) = .ok (s1, k, e)) (hsum : I.sum s1 [] = .ok (s2, d))
    (expectHex : List U8) {r : List (List U8)} (hx : TestHelpers.HashHexTest bd I s inHex expectHex = .ok (s2, r))
    (hl : ((4 * (expectHex.length + d.length * 2) + 64 : Nat) : Int) < 2 ^ (P.W - 1)) :
    ∃ h', Returns P path 0 (n! "HashHexTest") [.native i, obj kp ty ao, .str inHex, .str expectHex] H [] h' ∧ h'[a]? = some (.arr ((ms ++ r).map .str)) ∧
      h'[ao]? = some (rep s2) := by
  obtain ⟨x, xl, xs, u⟩ := Hex.run_ToBytesFast hX (h := H) hd hW (by omega) (Nat.lt_succ_self _)
  have hb : IsBytes (H ++ [.arr (x.map .u8)]) (Hex.sliceVal H.length ob) (ob.getD []) := by
    cases ob with
    | none => exact .inl ⟨rfl, rfl⟩
    | some b =>
      obtain rfl := xs b rfl
      exact isBytes_all (get_last _ _)
  have hbl' : ((ob.getD []).length : Int) < 2 ^ (P.W - 1) := by
    cases ob with
    | none => exact Int.pow_pos (by decide)
    | some b =>
      obtain rfl := xs b rfl
      simp only [Option.getD_some]
      omega
  have hv : base (Hex.sliceVal H.length ob) ≠ some ao := by
    have := lt_of_get ho
    cases ob <;> simp only [Hex.sliceVal, base, ne_eq, reduceCtorEq, not_false_eq_true, Option.some.injEq]
    omega
  have hpv : Plain (Hex.sliceVal H.length ob) := hb.has.plain
  replace ho : (H ++ [.arr (x.map .u8)])[ao]? = some (rep s) := by rw [List.getElem?_append_left (lt_of_get ho), ho]
  replace hms : (H ++ [.arr (x.map .u8)])[a]? = some (.arr (ms.map .str)) := by rw [List.getElem?_append_left (lt_of_get hms), hms]
  generalize hH0 : H ++ [.arr (x.map .u8)] = H0 at *
  have w := hI.write H0 ao s _ _ hs ho hb hv hbl'
  rw [hw] at w
  obtain ⟨hi1, rfl, h1, ⟨N1, w1⟩, w2⟩ := w
  have ho1 : (H0.set ao (rep s1))[ao]? = some (rep s1) := by simp [lt_of_get ho]
  have hms1 : (H0.set ao (rep s1))[a]? = some (.arr (ms.map .str)) := by rw [List.getElem?_set_ne (Ne.symm hne), hms]
  obtain ⟨t1, rfl⟩ := w2
  generalize hH1 : H0.set ao (rep s1) = H1 at *
  obtain ⟨rfl, v2, h3, N2, q3, y2, y3, fr⟩ := sum_empty hP hW hS hB hX hI hk ht hmW hmS (ao := ao) hi1 ho1 t1 hsum
  have ho3 : h3[ao]? = some (rep s2) := by rw [fr _ (lt_of_get ho1), ho1]
  have hms3 : h3[a]? = some (.arr (ms.map .str)) := by rw [fr _ (lt_of_get hms1), hms1]
  have z1 := _root_.Hex.FromBytes_eq d
  have zl := encode_length d
  generalize HexSpec.encode d = fx at *
  unfold TestHelpers.HashHexTest at hx
  rw [hd, Res.ok_bind, hw] at hx
  simp only [Res.ok_bind] at hx
  rw [hsum] at hx
  simp only [Res.ok_bind] at hx
  obtain ⟨ab, z2, _⟩ := run_Abbr hP (h3 ++ [Val.arr (fx.map .u8)]) inHex 0
  cases z4 : TestHelpers.StringMatchTitle (ascii "HashHex(" ++ ab ++ ascii ")") [] expectHex fx with
  | panic =>
    rw [z1, Res.ok_bind, z2, Res.ok_bind, z4] at hx
    cases hx
  | ok r' =>
  simp only [z1, z2, z4, Res.ok_bind, Res.pure_eq, Res.ok.injEq, Prod.mk.injEq, true_and] at hx
  subst hx
  have hmsX : (h3 ++ [.arr (fx.map .u8)])[a]? = some (.arr (ms.map .str)) := by rw [List.getElem?_append_left (lt_of_get hms3), hms3]
  obtain ⟨t, x3⟩ := run_title hP hW hS hB hL hmsX (ascii "HashHex(" ++ ab ++ ascii ")") [] expectHex fx z4 (by omega) (Nat.lt_succ_self _)
  refine ⟨(h3 ++ [Val.arr (fx.map .u8)]).set a (.arr ((ms ++ r').map .str)) ++ t, ?_, ?_, ?_⟩
  · refine ⟨N1 + N2 + (2 * (expectHex.length + fx.length) + 2).succ + d.length + inHex.length + 9, fun n hn => ?_⟩
    obtain ⟨n, rfl⟩ : ∃ m, n = m + 3 := ⟨n - 3, by omega⟩
    have x0 := w1 (n + 2) (by omega)
    have x1 := q3 (n + 2) (by omega)
    have x2 := Hex.run_FromBytes hX z1 y2.has hW (by omega) (n := n + 1) (by omega)
    obtain ⟨ab', z2', x4⟩ := run_Abbr hP (h3 ++ [.arr (fx.map .u8)]) inHex (n + 1)
    rw [z2] at z2'
    cases z2'
    have x3 := run_mono (m := n + 2) (by omega) (by simp) x3
    rw [show ascii "HashHex(" ++ ab ++ ascii ")" = 72#8 :: 97#8 :: 115#8 :: 104#8 :: 72#8 :: 101#8 :: 120#8 :: 40#8 :: (ab ++ [41#8]) from rfl] at x3
    have hR := elem_repo hP
    have hR' := elem_repo hX
    have hpl := y3
    rw [run_func hP find_HashHexTest]
    have u := run_mono (m := n + 2) (by omega) (by simp) u
    eval_go [hR, hR', hk, ht, hmW, hmS, u, hpv, x0, x1, x2, x4, x3, hpl]
  · rw [List.getElem?_append_left (by simp; have := lt_of_get hms3; omega), List.getElem?_set_self (lt_of_get hmsX)]
  · rw [List.getElem?_append_left (by simp; have := lt_of_get ho3; omega), List.getElem?_set_ne hne, List.getElem?_append_left (lt_of_get ho3), ho3]

/-- If `Write` panics, so does `HashTest`. -/
theorem panics_HashTest {H : List Val} {ao : Nat} {s : σ} (hs : Inv s) (ho : H[ao]? = some (rep s)) {v : Val} {b : List U8} (hb : IsBytes H v b)
    (hv : base v ≠ some ao) (hbl : (b.length : Int) < 2 ^ (P.W - 1)) (hw : I.write s b = .panic) (t : Nat) (expectHex : List U8) :
    ∃ h', Panics P path 0 (n! "HashTest") [.native t, obj kp ty ao, v, .str expectHex] H h' := by
  have w := hI.write H ao s v b hs ho hb hv hbl
  rw [hw] at w
  obtain ⟨h1, ⟨N1, w1⟩, _⟩ := w
  refine ⟨h1, N1 + 1, fun n hn => ?_⟩
  obtain ⟨n, rfl⟩ : ∃ m, n = m + 1 := ⟨n - 1, by omega⟩
  have x0 := w1 n (by omega)
  have hpl := hb.has.plain
  rw [run_func hP find_HashTest]
  eval_go [hk, ht, hmW, x0, hpl]

end

end Source.Test
