import Verif.Code.BytesAny

/-!
# The code of package `bytes`: addition of any length, continued
-/
namespace Source.Bytes
open GoLang

set_option linter.unusedSimpArgs false

section
variable {P : Prog} (hP : findPkg path P.pkgs = some pkg) {L : Layout} {h : List Val} {m : Mem}
variable (hS : P.std = stdlib) (hE : elemN (n! "errors") (P.pkgs.map Pkg.path) = false) (hB : elemN (n! "encoding/binary") (P.pkgs.map Pkg.path) = false)
include hP hS hE hB

set_option maxHeartbeats 4000000 in
theorem run_addAnyLE (hW : 32 ≤ P.W) (hV : View L h m) {vs va vb : Val} {s a b : Slice} (hs : SliceAt L vs s) (ha : SliceAt L va a) (hb : SliceAt L vb b)
    (k : Nat) (hk : (k : Int) < 2 ^ (P.W - 1)) {n : Nat} (hn : s.len + k + 9 < n) :
    Ends L h sumVals (_root_.Bytes.addAnyLE m s a b k) (run P (n + 1) path 0 (n! "addAnyLE") [vs, va, vb, .int k] h) := by
  have hvs := hs.plain
  have hva := ha.plain
  have hvb := hb.plain
  rw [run_func hP find_addAnyLE]
  have r := run_padLE hP hS hE hV hs ha k (n := n - 1) (by omega)
  rw [show n - 1 + 1 = n by omega] at r
  rw [_root_.Bytes.addAnyLE]
  cases hp : _root_.Bytes.padLE m s a k with
  | panic =>
    rw [hp] at r
    obtain ⟨h', r, hF⟩ := r
    eval_go [hvs, hva, hvb, elem_repo hP, r]
    exact ⟨h', rfl, hF⟩
  | ok y =>
    obtain ⟨m', e⟩ := y
    rw [hp] at r
    obtain ⟨h', r, hV', hF⟩ := r
    cases e with
    | true =>
      simp only [errVal_true] at r
      eval_go [hvs, hva, hvb, elem_repo hP, r]
      exact ⟨h' ++ [.arr []], rfl, view_push hV' _, hF.trans (frame_push ..)⟩
    | false =>
      simp only [errVal, cond_false] at r
      have hks := padLE_ok hp
      have hdiv : wrap P.W ((k : Int).tdiv 4) = (k / 4 : Nat) := by
        rw [show (k : Int).tdiv 4 = (k / 4 : Nat) from by rw [Int.tdiv_eq_ediv_of_nonneg (by omega)]; rfl]
        exact wrap_nat (by omega) (by omega)
      have hmod : (k : Int).tmod 4 = (k % 4 : Nat) := by
        rw [Int.tmod_eq_emod_of_nonneg (by omega)]; rfl
      eval_go [hvs, hva, hvb, elem_repo hP, r, hdiv, hmod]
      simp only [Res.ok_bind, Bool.false_eq_true, if_false]
      obtain ⟨q, hq⟩ : ∃ q, q = k / 4 := ⟨_, rfl⟩
      obtain ⟨t, ht⟩ : ∃ t, t = k % 4 := ⟨_, rfl⟩
      rw [← hq, ← ht]
      have hV₀ := view_push hV' (.arr [])
      have hF₀ := hF.trans (frame_push L h' (.arr []))
      generalize h' ++ [Val.arr []] = H' at hV₀ hF₀
      generalize h'.length = H
      clear r hV' hF hdiv hmod hp
      have hp31 := pow31 hW
      generalize hlp : loop _ _ _ _ _ = out
      obtain ⟨i, vb₁, b₁, c₁, h₁, m₁, rfl, hi, hb₁, hV₁, hF₁, e₁⟩ : ∃ (i : Nat) (vb₁ : Val) (b₁ : Slice) (c₁ : BitVec 8) (h₁ : List Val) (m₁ : Mem),
          out = .ok .next ⟨h₁, [(n! "numU16", .int 0), (n! "numU32", .int i), (n! "in8", .int t), (n! "in32", .int q), (n! "empty", .slice H [] 0 0 0), (n! "err", .nil), (n! "carry", .u8 c₁), (n! "byteSize", .int k), (n! "b", vb₁), (n! "a", va), (n! "sum", vs)]⟩ ∧ i ≤ q ∧ SliceAt L vb₁ b₁ ∧ View L h₁ m₁ ∧ Frame L h h₁ ∧ _root_.Bytes.loopLE1 s q 0 m' b 0#8 = .ok (m₁, i, b₁, c₁) := by
        refine loop_post (α := Nat × Val × Slice × BitVec 8 × List Val × Mem)
          (fun out => ∃ (i : Nat) (vb₁ : Val) (b₁ : Slice) (c₁ : BitVec 8) (h₁ : List Val) (m₁ : Mem),
            out = .ok .next ⟨h₁, [(n! "numU16", .int 0), (n! "numU32", .int i), (n! "in8", .int t), (n! "in32", .int q), (n! "empty", .slice H [] 0 0 0), (n! "err", .nil), (n! "carry", .u8 c₁), (n! "byteSize", .int k), (n! "b", vb₁), (n! "a", va), (n! "sum", vs)]⟩ ∧ i ≤ q ∧ SliceAt L vb₁ b₁ ∧ View L h₁ m₁ ∧ Frame L h h₁ ∧ _root_.Bytes.loopLE1 s q 0 m' b 0#8 = .ok (m₁, i, b₁, c₁))
          (fun x => x.1 ≤ q ∧ SliceAt L x.2.1 x.2.2.1 ∧ View L x.2.2.2.2.1 x.2.2.2.2.2 ∧ Frame L h x.2.2.2.2.1 ∧
            _root_.Bytes.loopLE1 s q 0 m' b 0#8 = _root_.Bytes.loopLE1 s (q - x.1) x.1 x.2.2.2.2.2 x.2.2.1 x.2.2.2.1)
          (fun x => ⟨x.2.2.2.2.1, [(n! "numU16", .int 0), (n! "numU32", .int x.1), (n! "in8", .int t), (n! "in32", .int q), (n! "empty", .slice H [] 0 0 0), (n! "err", .nil), (n! "carry", .u8 x.2.2.2.1), (n! "byteSize", .int k), (n! "b", x.2.1), (n! "a", va), (n! "sum", vs)]⟩) (fun x => q - x.1) ?_ (0, vb, b, 0#8, H', m') ⟨by simp, hb, hV₀, hF₀, rfl⟩ (by simp; omega) rfl hlp
        clear hlp
        rintro ⟨i, vb₁, b₁, c₁, h₁, m₁⟩ z ⟨hi, hb₁, hV₁, hF₁, e₁⟩ hz ih
        simp only at hi hb₁ hV₁ hF₁ e₁ hz ih ⊢
        have hvb₁ := hb₁.plain
        have hlb₁ := hb₁.len
        have hab₁ := hb₁.able
        have has := hs.able
        by_cases hiq : i < q
        · have hiq' : (i : Int) < (q : Int) := by omega
          by_cases hb4 : 4 < b₁.len
          · have hb4' : (4 : Int) < (b₁.len : Int) := by omega
            have hw4 : wrap P.W ((i : Int) * 4) = (i * 4 : Nat) := by
              rw [← wrap_nat (W := P.W) (i := i * 4) (by omega) (by omega)]; simp
            have hw := wrap_succ hiq (by omega) (show 0 < P.W by omega)
            obtain ⟨vt, hvt, ft⟩ := hs.from (lo := i * 4) (by omega) (x := .int (i * 4 : Nat)) rfl
            have hpt := hvt.plain
            obtain ⟨h₂, m₂, c₂, r₂, e₂, hV₂, hF₂⟩ := step32LE hP hS hB hW hV₁ hvt (by show 4 ≤ s.len - i * 4; omega) (reads hV₁ hb₁) c₁ (n := n) (by omega)
            obtain ⟨vb₂, hb₂, fb⟩ := hb₁.from (lo := 4) (by omega) (x := .const 4) rfl
            have hpb₂ := hb₂.plain
            rw [loop_next (s₁ := ⟨h₁, [(n! "numU16", .int 0), (n! "numU32", .int i), (n! "in8", .int t), (n! "in32", .int q), (n! "empty", .slice H [] 0 0 0), (n! "err", .nil), (n! "carry", .u8 c₁), (n! "byteSize", .int k), (n! "b", vb₁), (n! "a", va), (n! "sum", vs)]⟩) (s₂ := ⟨h₂, [(n! "numU16", .int 0), (n! "numU32", .int i), (n! "in8", .int t), (n! "in32", .int q), (n! "empty", .slice H [] 0 0 0), (n! "err", .nil), (n! "carry", .u8 c₂), (n! "byteSize", .int k), (n! "b", vb₂), (n! "a", va), (n! "sum", vs)]⟩) (s₃ := ⟨h₂, [(n! "numU16", .int 0), (n! "numU32", .int (i + 1 : Nat)), (n! "in8", .int t), (n! "in32", .int q), (n! "empty", .slice H [] 0 0 0), (n! "err", .nil), (n! "carry", .u8 c₂), (n! "byteSize", .int k), (n! "b", vb₂), (n! "a", va), (n! "sum", vs)]⟩)]
            · refine ih (i + 1, vb₂, ⟨b₁.base + 4, b₁.len - 4⟩, c₂, h₂, m₂) ⟨hiq, hb₂, hV₂, hF₁.trans hF₂, ?_⟩ (by show q - (i + 1) < _; omega)
              rw [e₁, show q - i = q - (i + 1) + 1 by omega, _root_.Bytes.loopLE1, if_pos hb4, _root_.Bytes.drop_le (by omega)]
              simp only [Res.ok_bind, e₂]
              rw [_root_.Bytes.drop_le (by omega)]
              rfl
            all_goals eval_go [hvs, hva, hvb₁, hlb₁, hab₁, has, hiq', hb4', hw4, hw, ft, hpt, r₂, fb, hpb₂, elem_repo hP]
          · have hb4' : ¬ (4 : Int) < (b₁.len : Int) := by omega
            rw [loop_false (s₁ := ⟨h₁, [(n! "numU16", .int 0), (n! "numU32", .int i), (n! "in8", .int t), (n! "in32", .int q), (n! "empty", .slice H [] 0 0 0), (n! "err", .nil), (n! "carry", .u8 c₁), (n! "byteSize", .int k), (n! "b", vb₁), (n! "a", va), (n! "sum", vs)]⟩)]
            · refine ⟨i, vb₁, b₁, c₁, h₁, m₁, rfl, hi, hb₁, hV₁, hF₁, ?_⟩
              rw [e₁, show q - i = q - (i + 1) + 1 by omega, _root_.Bytes.loopLE1, if_neg hb4]
            · eval_go [hvs, hva, hvb₁, hlb₁, hiq', hb4']
        · have hiq' : ¬ (i : Int) < (q : Int) := by omega
          rw [loop_false (s₁ := ⟨h₁, [(n! "numU16", .int 0), (n! "numU32", .int i), (n! "in8", .int t), (n! "in32", .int q), (n! "empty", .slice H [] 0 0 0), (n! "err", .nil), (n! "carry", .u8 c₁), (n! "byteSize", .int k), (n! "b", vb₁), (n! "a", va), (n! "sum", vs)]⟩)]
          · refine ⟨i, vb₁, b₁, c₁, h₁, m₁, rfl, hi, hb₁, hV₁, hF₁, ?_⟩
            rw [e₁, show q - i = 0 by omega, _root_.Bytes.loopLE1]
          · eval_go [hvs, hva, hvb₁, hlb₁, hiq']
      clear hlp
      simp only [e₁, Res.ok_bind]
      have hlb₁ := hb₁.len
      have hvb₁ := hb₁.plain
      have hab₁ := hb₁.able
      have has := hs.able
      by_cases hpt : 0 < b₁.len ∧ i < q
      on_goal 1 =>
        have hb0' : (0 : Int) < (b₁.len : Int) := by omega
        have hiq' : (i : Int) < (q : Int) := by omega
        have hw4 : wrap P.W ((i : Int) * 4) = (i * 4 : Nat) := by
          rw [← wrap_nat (W := P.W) (i := i * 4) (by omega) (by omega)]; simp
        have hw := wrap_succ hpt.2 (by omega) (show 0 < P.W by omega)
        obtain ⟨vt, hvt, ft⟩ := hs.from (lo := i * 4) (by omega) (x := .int (i * 4 : Nat)) rfl
        have hpvt := hvt.plain
        obtain ⟨hj, mj, cj, r₂, e₂, hVj, hFj⟩ := step32LE hP hS hB hW hV₁ hvt (by show 4 ≤ s.len - i * 4; omega) (reads hV₁ hb₁) c₁ (n := n) (by omega)
        obtain ⟨vbj, hbj, fb⟩ := hb₁.from (lo := b₁.len) (by omega) (x := .int b₁.len) rfl
        have hvbj := hbj.plain
        eval_go [hvs, hva, hvb₁, hlb₁, hab₁, has, hiq', hb0', hw4, hw, ft, hpvt, r₂, fb, hvbj, elem_repo hP]
        rw [_root_.Bytes.partLE, if_pos hpt, _root_.Bytes.drop_le (by omega)]
        simp only [Res.ok_bind, e₂]
        rw [_root_.Bytes.drop_le (by omega)]
        simp only [Res.ok_bind, Res.pure_eq]
        have hjq : i + 1 ≤ q := hpt.2
        replace hFj := hF₁.trans hFj
        clear hb0' hiq' hw4 hw ft hpvt hvt r₂ e₂ fb e₁ hb₁ hV₁ hF₁ hlb₁ hvb₁ hab₁ hpt hi
        generalize (⟨b₁.base + b₁.len, b₁.len - b₁.len⟩ : Slice) = bj at hbj ⊢
        generalize i + 1 = j at hjq ⊢
      on_goal 2 =>
        have hfalse : (decide ((0 : Int) < (b₁.len : Int)) && decide ((i : Int) < (q : Int))) = false := by
          rw [Bool.and_eq_false_iff, decide_eq_false_iff_not, decide_eq_false_iff_not]; omega
        by_cases hb0 : 0 < b₁.len
        on_goal 1 =>
          have hb0' : (0 : Int) < (b₁.len : Int) := by omega
          have hiq' : ¬ (i : Int) < (q : Int) := by omega
          eval_go [hvs, hva, hvb₁, hlb₁, hiq', hb0']
        on_goal 2 =>
          have hb0' : ¬ (0 : Int) < (b₁.len : Int) := by omega
          eval_go [hvs, hva, hvb₁, hlb₁, hb0']
        all_goals
          rw [_root_.Bytes.partLE, if_neg hpt]
          simp only [Res.ok_bind]
          clear hb0 hb0' hfalse hlb₁ hpt hab₁ e₁
          try clear hiq'
          obtain ⟨j, rfl⟩ : ∃ j, j = i := ⟨i, rfl⟩
          obtain ⟨vbj, rfl⟩ : ∃ j, j = vb₁ := ⟨_, rfl⟩
          obtain ⟨bj, rfl⟩ : ∃ j, j = b₁ := ⟨_, rfl⟩
          obtain ⟨cj, rfl⟩ : ∃ j, j = c₁ := ⟨_, rfl⟩
          obtain ⟨hj, rfl⟩ : ∃ j, j = h₁ := ⟨_, rfl⟩
          obtain ⟨mj, rfl⟩ : ∃ j, j = m₁ := ⟨_, rfl⟩
          obtain ⟨hjq⟩ : Nonempty (j ≤ q) := ⟨hi⟩
          obtain ⟨hVj⟩ : Nonempty (View L hj mj) := ⟨hV₁⟩
          obtain ⟨hFj⟩ : Nonempty (Frame L h hj) := ⟨hF₁⟩
          obtain ⟨hbj⟩ : Nonempty (SliceAt L vbj bj) := ⟨hb₁⟩
          obtain ⟨hvbj⟩ : Nonempty (Plain vbj) := ⟨hvb₁⟩
          clear hi hV₁ hF₁ hb₁ hvb₁
      all_goals
        generalize hlp : loop _ _ _ _ _ = out
        obtain ⟨c₃, h₃, m₃, rfl, hV₃, hF₃, e₃⟩ : ∃ (c₃ : BitVec 8) (h₃ : List Val) (m₃ : Mem),
            out = .ok .next ⟨h₃, [(n! "numU16", .int 0), (n! "numU32", .int q), (n! "in8", .int t), (n! "in32", .int q), (n! "empty", .slice H [] 0 0 0), (n! "err", .nil), (n! "carry", .u8 c₃), (n! "byteSize", .int k), (n! "b", vbj), (n! "a", va), (n! "sum", vs)]⟩ ∧ View L h₃ m₃ ∧ Frame L h h₃ ∧ _root_.Bytes.loopLE2 s (q - j) j mj cj = .ok (m₃, c₃) := by
          refine loop_post (α := Nat × BitVec 8 × List Val × Mem)
            (fun out => ∃ (c₃ : BitVec 8) (h₃ : List Val) (m₃ : Mem),
              out = .ok .next ⟨h₃, [(n! "numU16", .int 0), (n! "numU32", .int q), (n! "in8", .int t), (n! "in32", .int q), (n! "empty", .slice H [] 0 0 0), (n! "err", .nil), (n! "carry", .u8 c₃), (n! "byteSize", .int k), (n! "b", vbj), (n! "a", va), (n! "sum", vs)]⟩ ∧ View L h₃ m₃ ∧ Frame L h h₃ ∧ _root_.Bytes.loopLE2 s (q - j) j mj cj = .ok (m₃, c₃))
            (fun x => x.1 ≤ q ∧ View L x.2.2.1 x.2.2.2 ∧ Frame L h x.2.2.1 ∧ _root_.Bytes.loopLE2 s (q - j) j mj cj = _root_.Bytes.loopLE2 s (q - x.1) x.1 x.2.2.2 x.2.1)
            (fun x => ⟨x.2.2.1, [(n! "numU16", .int 0), (n! "numU32", .int x.1), (n! "in8", .int t), (n! "in32", .int q), (n! "empty", .slice H [] 0 0 0), (n! "err", .nil), (n! "carry", .u8 x.2.1), (n! "byteSize", .int k), (n! "b", vbj), (n! "a", va), (n! "sum", vs)]⟩) (fun x => q - x.1) ?_ (j, cj, hj, mj) ⟨hjq, hVj, hFj, rfl⟩ (by simp; omega) rfl hlp
          clear hlp
          rintro ⟨i, c₁, h₁, m₁⟩ z ⟨hi, hV₁, hF₁, e₁⟩ hz ih
          simp only at hi hV₁ hF₁ e₁ hz ih ⊢
          by_cases hiq : i < q
          · have hiq' : (i : Int) < (q : Int) := by omega
            have hw4 : wrap P.W ((i : Int) * 4) = (i * 4 : Nat) := by
              rw [← wrap_nat (W := P.W) (i := i * 4) (by omega) (by omega)]; simp
            have hw := wrap_succ hiq (by omega) (show 0 < P.W by omega)
            obtain ⟨vt, hvt, ft⟩ := hs.from (lo := i * 4) (by omega) (x := .int (i * 4 : Nat)) rfl
            have hpt := hvt.plain
            obtain ⟨h₂, m₂, c₂, r₂, e₂, hV₂, hF₂⟩ := step32LE hP hS hB hW hV₁ hvt (by show 4 ≤ s.len - i * 4; omega) (reads_empty h₁ m₁ H) c₁ (n := n) (by omega)
            rw [loop_next (s₁ := ⟨h₁, [(n! "numU16", .int 0), (n! "numU32", .int i), (n! "in8", .int t), (n! "in32", .int q), (n! "empty", .slice H [] 0 0 0), (n! "err", .nil), (n! "carry", .u8 c₁), (n! "byteSize", .int k), (n! "b", vbj), (n! "a", va), (n! "sum", vs)]⟩) (s₂ := ⟨h₂, [(n! "numU16", .int 0), (n! "numU32", .int i), (n! "in8", .int t), (n! "in32", .int q), (n! "empty", .slice H [] 0 0 0), (n! "err", .nil), (n! "carry", .u8 c₂), (n! "byteSize", .int k), (n! "b", vbj), (n! "a", va), (n! "sum", vs)]⟩) (s₃ := ⟨h₂, [(n! "numU16", .int 0), (n! "numU32", .int (i + 1 : Nat)), (n! "in8", .int t), (n! "in32", .int q), (n! "empty", .slice H [] 0 0 0), (n! "err", .nil), (n! "carry", .u8 c₂), (n! "byteSize", .int k), (n! "b", vbj), (n! "a", va), (n! "sum", vs)]⟩)]
            · refine ih (i + 1, c₂, h₂, m₂) ⟨hiq, hV₂, hF₁.trans hF₂, ?_⟩ (by show q - (i + 1) < _; omega)
              rw [e₁, show q - i = q - (i + 1) + 1 by omega, _root_.Bytes.loopLE2, _root_.Bytes.drop_le (by omega)]
              simp only [Res.ok_bind, e₂]
            all_goals eval_go [hvs, hva, hvbj, has, hiq', hw4, hw, ft, hpt, r₂, elem_repo hP]
          · obtain rfl : i = q := by omega
            rw [loop_false (s₁ := ⟨h₁, [(n! "numU16", .int 0), (n! "numU32", .int i), (n! "in8", .int t), (n! "in32", .int i), (n! "empty", .slice H [] 0 0 0), (n! "err", .nil), (n! "carry", .u8 c₁), (n! "byteSize", .int k), (n! "b", vbj), (n! "a", va), (n! "sum", vs)]⟩)]
            · refine ⟨c₁, h₁, m₁, rfl, hV₁, hF₁, ?_⟩
              rw [e₁, show i - i = 0 by omega, _root_.Bytes.loopLE2]
            · eval_go [hvs, hva, hvbj, decide_false, hiq]
        clear hlp hVj hFj
        simp only [e₃, Res.ok_bind]
        clear e₃ hjq
        have i01 : (0 : Int) < 1 := by omega
        have i11 : ¬ (1 : Int) < 1 := by omega
        have i12 : (1 : Int) < 2 := by omega
        have i13 : (1 : Int) < 3 := by omega
        have hlbj := hbj.len
        have habj := hbj.able
        have hw4 : wrap P.W ((q : Int) * 4) = (q * 4 : Nat) := by
          rw [← wrap_nat (W := P.W) (i := q * 4) (by omega) (by omega)]; simp
        have hw0 : wrap P.W 0 = 0 := wrap_nat (i := 0) (by omega) (by omega)
        have hw1 : wrap P.W 1 = 1 := wrap_nat (i := 1) (by omega) (by omega)
        have hw2 : wrap P.W 2 = 2 := wrap_nat (i := 2) (by omega) (by omega)
        obtain ⟨vt, hvt, ft⟩ := hs.from (lo := q * 4) (by omega) (x := .int (q * 4 : Nat)) rfl
        have hpt := hvt.plain
        have hRj := reads hV₃ hbj
        rcases (by omega : t = 0 ∨ t = 1 ∨ t = 2 ∨ t = 3) with rfl | rfl | rfl | rfl
        · eval_go [hvs, hva, hvbj, Nat.cast_zero]
          exact ⟨h₃, rfl, hV₃, hF₃⟩
        · have hwq : wrap P.W (((q * 4 : Nat) : Int) + 0) = (q * 4 : Nat) := by rw [Int.add_zero]; exact wrap_nat (by omega) (by omega)
          obtain ⟨h₄, m₄, c₄, r₄, e₄, hV₄, hF₄⟩ := step8 hP hV₃ hvt (by show 1 ≤ s.len - q * 4; omega) hRj c₃ (n := n) (by omega)
          eval_go [hvs, hva, hvbj, i11, i01, has, hw4, hw0, hwq, ft, hpt, r₄, elem_repo hP, Nat.cast_one]
          simp only [_root_.Bytes.tailLE, gt_iff_lt, Nat.lt_irrefl, Nat.zero_lt_one, if_true, if_false, Nat.zero_mul, Nat.add_zero, _root_.Bytes.drop_le (show q * 4 ≤ s.len by omega), Res.ok_bind, e₄]
          exact ⟨h₄, rfl, hV₄, hF₃.trans hF₄⟩
        all_goals
          obtain ⟨h₄, m₄, c₄, r₄, e₄, hV₄, hF₄⟩ := step16LE hP hS hB hW hV₃ hvt (by show 2 ≤ s.len - q * 4; omega) hRj c₃ (n := n) (by omega)
          replace hF₄ := hF₃.trans hF₄
          simp only [_root_.Bytes.tailLE, gt_iff_lt, Nat.lt_irrefl, Nat.reduceLT, Nat.reduceSub, if_true, if_false, _root_.Bytes.drop_le (show q * 4 ≤ s.len by omega), Res.ok_bind, e₄]
          obtain ⟨vbk, bk, hbk, hdrop, fbk⟩ : ∃ vbk bk, SliceAt L vbk bk ∧ _root_.Bytes.dropTwoLE bj = .ok bk ∧
              ((bj.len = 1 ∧ ∀ st, slicing vbj (some (.const 1)) none st = .ok vbk st) ∨ (2 ≤ bj.len ∧ ∀ st, slicing vbj (some (.const 2)) none st = .ok vbk st) ∨
                (bj.len = 0 ∧ vbk = vbj)) := by
            rcases (by omega : bj.len = 1 ∨ 2 ≤ bj.len ∨ bj.len = 0) with c | c | c
            · obtain ⟨vbk, hbk, fb⟩ := hbj.from (lo := 1) (by omega) (x := .const 1) rfl
              exact ⟨vbk, _, hbk, by rw [_root_.Bytes.dropTwoLE, if_pos c, _root_.Bytes.drop_le (by omega)], .inl ⟨c, fb⟩⟩
            · obtain ⟨vbk, hbk, fb⟩ := hbj.from (lo := 2) (by omega) (x := .const 2) rfl
              exact ⟨vbk, _, hbk, by rw [_root_.Bytes.dropTwoLE, if_neg (by omega), if_pos (by omega), _root_.Bytes.drop_le (by omega)], .inr (.inl ⟨c, fb⟩)⟩
            · exact ⟨vbj, _, hbj, by rw [_root_.Bytes.dropTwoLE, if_neg (by omega), if_neg (by omega)], .inr (.inr ⟨c, rfl⟩)⟩
          rw [hdrop]
          have hvbk := hbk.plain
          have hRk := reads hV₄ hbk
        · simp only [Res.ok_bind]
          rcases fbk with ⟨c, fb⟩ | ⟨c, fb⟩ | ⟨c, rfl⟩
          · have c1 : ((bj.len : Int) == 1) = true := by simp [c]
            eval_go [hvs, hva, hvbj, hvbk, i12, i13, i11, i01, hlbj, habj, has, hw4, hw0, hw1, ft, hpt, r₄, fb, c1, elem_repo hP, Nat.cast_ofNat]
            exact ⟨h₄, rfl, hV₄, hF₄⟩
          · have c1 : ((bj.len : Int) == 1) = false := by simp; omega
            have c2 : ¬ (bj.len : Int) < 2 := by omega
            eval_go [hvs, hva, hvbj, hvbk, i12, i13, i11, i01, hlbj, habj, has, hw4, hw0, hw1, ft, hpt, r₄, fb, c1, c2, elem_repo hP, Nat.cast_ofNat]
            exact ⟨h₄, rfl, hV₄, hF₄⟩
          · have c1 : ((bj.len : Int) == 1) = false := by simp; omega
            have c2 : (bj.len : Int) < 2 := by omega
            eval_go [hvs, hva, hvbk, i12, i13, i11, i01, hlbj, habj, has, hw4, hw0, hw1, ft, hpt, r₄, c1, c2, elem_repo hP, Nat.cast_ofNat]
            exact ⟨h₄, rfl, hV₄, hF₄⟩
        · have hwq : wrap P.W (((q * 4 : Nat) : Int) + 2) = (q * 4 + 2 : Nat) := wrap_add (k := 2) (by omega) (by omega)
          obtain ⟨vu, hvu, fu⟩ := hs.from (lo := q * 4 + 2) (by omega) (x := .int (q * 4 + 2 : Nat)) rfl
          have hpu := hvu.plain
          obtain ⟨h₅, m₅, c₅, r₅, e₅, hV₅, hF₅⟩ := step8 hP hV₄ hvu (by show 1 ≤ s.len - (q * 4 + 2); omega) hRk c₄ (n := n) (by omega)
          simp only [Res.ok_bind, Nat.one_mul, _root_.Bytes.drop_le (show q * 4 + 2 ≤ s.len by omega), e₅, Nat.zero_lt_one, if_true]
          rcases fbk with ⟨c, fb⟩ | ⟨c, fb⟩ | ⟨c, rfl⟩
          · have c1 : ((bj.len : Int) == 1) = true := by simp [c]
            eval_go [hvs, hva, hvbj, hvbk, i12, i13, i11, i01, hlbj, habj, has, hw4, hw0, hw1, hw2, hwq, fu, hpu, r₅, ft, hpt, r₄, fb, c1, elem_repo hP, Nat.cast_ofNat]
            exact ⟨h₅, rfl, hV₅, hF₄.trans hF₅⟩
          · have c1 : ((bj.len : Int) == 1) = false := by simp; omega
            have c2 : ¬ (bj.len : Int) < 2 := by omega
            eval_go [hvs, hva, hvbj, hvbk, i12, i13, i11, i01, hlbj, habj, has, hw4, hw0, hw1, hw2, hwq, fu, hpu, r₅, ft, hpt, r₄, fb, c1, c2, elem_repo hP, Nat.cast_ofNat]
            exact ⟨h₅, rfl, hV₅, hF₄.trans hF₅⟩
          · have c1 : ((bj.len : Int) == 1) = false := by simp; omega
            have c2 : (bj.len : Int) < 2 := by omega
            eval_go [hvs, hva, hvbk, i12, i13, i11, i01, hlbj, habj, has, hw4, hw0, hw1, hw2, hwq, fu, hpu, r₅, ft, hpt, r₄, c1, c2, elem_repo hP, Nat.cast_ofNat]
            exact ⟨h₅, rfl, hV₅, hF₄.trans hF₅⟩

end
end Source.Bytes
