import Verif.Code.BytesAny

/-!
# The code of package `bytes`: big endian addition of any length
-/
namespace Source.Bytes
open GoLang

set_option linter.unusedSimpArgs false

section
variable {P : Prog} (hP : findPkg path P.pkgs = some pkg) {L : Layout} {h : List Val} {m : Mem}
variable (hS : P.std = stdlib) (hE : elemN (n! "errors") (P.pkgs.map Pkg.path) = false) (hB : elemN (n! "encoding/binary") (P.pkgs.map Pkg.path) = false)
include hP hS hE hB

set_option maxHeartbeats 4000000 in
theorem run_addAnyBE (hW : 32 ≤ P.W) (hV : View L h m) {vs va vb : Val} {s a b : Slice} (hs : SliceAt L vs s) (ha : SliceAt L va a) (hb : SliceAt L vb b)
    (hbl : (b.len : Int) < 2 ^ (P.W - 1)) (k : Nat) (hk : (k : Int) < 2 ^ (P.W - 1)) {n : Nat} (hn : s.len + k + 9 < n) :
    Ends L h sumVals (_root_.Bytes.addAnyBE m s a b k) (run P (n + 1) path 0 (n! "addAnyBE") [vs, va, vb, .int k] h) := by
  have hvs := hs.plain
  have hva := ha.plain
  have hvb := hb.plain
  rw [run_func hP find_addAnyBE]
  have r := run_padBE hP hS hE hW hV hs ha k hk (n := n - 1) (by omega)
  rw [show n - 1 + 1 = n by omega] at r
  rw [_root_.Bytes.addAnyBE]
  cases hp : _root_.Bytes.padBE m s a k with
  | panic =>
    rw [hp] at r
    obtain ⟨h', r, hF⟩ := r
    eval_go [hvs, hva, hvb, elem_repo hP, r]
    exact ⟨h', rfl, hF⟩
  | ok y =>
    obtain ⟨m', e⟩ := y
    rw [hp] at r
    obtain ⟨h', r, hV', hF⟩ := r
    cases e with
    | true =>
      simp only [errVal_true] at r
      eval_go [hvs, hva, hvb, elem_repo hP, r]
      exact ⟨h' ++ [.arr []], rfl, view_push hV' _, hF.trans (frame_push ..)⟩
    | false =>
      simp only [errVal, cond_false] at r
      have hks := padBE_ok hp
      have hp31 := pow31 hW
      have hdiv : wrap P.W ((k : Int).tdiv 4) = (k / 4 : Nat) := by
        rw [show (k : Int).tdiv 4 = (k / 4 : Nat) from by rw [Int.tdiv_eq_ediv_of_nonneg (by omega)]; rfl]
        exact wrap_nat (by omega) (by omega)
      have hmod : (k : Int).tmod 4 = (k % 4 : Nat) := by
        rw [Int.tmod_eq_emod_of_nonneg (by omega)]; rfl
      have hdec : wrap P.W (((k / 4 : Nat) : Int) - 1) = ((k / 4 : Nat) : Int) - 1 := wrap_eq (by omega) (by omega) (by omega)
      eval_go [hvs, hva, hvb, elem_repo hP, r, hdiv, hmod, hdec]
      simp only [Res.ok_bind, Bool.false_eq_true, if_false]
      obtain ⟨q, hq⟩ : ∃ q, q = k / 4 := ⟨_, rfl⟩
      obtain ⟨t, ht⟩ : ∃ t, t = k % 4 := ⟨_, rfl⟩
      rw [← hq, ← ht]
      have hV₀ := view_push hV' (.arr [])
      have hF₀ := hF.trans (frame_push L h' (.arr []))
      generalize h' ++ [Val.arr []] = H' at hV₀ hF₀
      generalize h'.length = H
      clear r hV' hF hdiv hmod hp hdec
      have has := hs.able
      have hneg : (-1 : Int) < 0 := by omega
      have hcast : ∀ j : Nat, ((j + 1 : Nat) : Int) - 1 = (j : Int) := fun j => by omega
      have hcast0 : ((0 : Nat) : Int) - 1 = -1 := rfl
      generalize hlp : loop _ _ _ _ _ = out
      obtain ⟨i, vb₁, b₁, c₁, h₁, m₁, rfl, hi, hb₁, hbl₁, hV₁, hF₁, e₁⟩ : ∃ (i : Nat) (vb₁ : Val) (b₁ : Slice) (c₁ : BitVec 8) (h₁ : List Val) (m₁ : Mem),
          out = .ok .next ⟨h₁, [(n! "in8", .int t), (n! "in32", .int ((i : Int) - 1)), (n! "empty", .slice H [] 0 0 0), (n! "err", .nil), (n! "carry", .u8 c₁), (n! "byteSize", .int k), (n! "b", vb₁), (n! "a", va), (n! "sum", vs)]⟩ ∧ i ≤ q ∧ SliceAt L vb₁ b₁ ∧ b₁.len ≤ b.len ∧ View L h₁ m₁ ∧ Frame L h h₁ ∧ _root_.Bytes.loopBE1 s q m' b 0#8 = .ok (m₁, i, b₁, c₁) := by
        refine loop_post (α := Nat × Val × Slice × BitVec 8 × List Val × Mem)
          (fun out => ∃ (i : Nat) (vb₁ : Val) (b₁ : Slice) (c₁ : BitVec 8) (h₁ : List Val) (m₁ : Mem),
            out = .ok .next ⟨h₁, [(n! "in8", .int t), (n! "in32", .int ((i : Int) - 1)), (n! "empty", .slice H [] 0 0 0), (n! "err", .nil), (n! "carry", .u8 c₁), (n! "byteSize", .int k), (n! "b", vb₁), (n! "a", va), (n! "sum", vs)]⟩ ∧ i ≤ q ∧ SliceAt L vb₁ b₁ ∧ b₁.len ≤ b.len ∧ View L h₁ m₁ ∧ Frame L h h₁ ∧ _root_.Bytes.loopBE1 s q m' b 0#8 = .ok (m₁, i, b₁, c₁))
          (fun x => x.1 ≤ q ∧ SliceAt L x.2.1 x.2.2.1 ∧ x.2.2.1.len ≤ b.len ∧ View L x.2.2.2.2.1 x.2.2.2.2.2 ∧ Frame L h x.2.2.2.2.1 ∧
            _root_.Bytes.loopBE1 s q m' b 0#8 = _root_.Bytes.loopBE1 s x.1 x.2.2.2.2.2 x.2.2.1 x.2.2.2.1)
          (fun x => ⟨x.2.2.2.2.1, [(n! "in8", .int t), (n! "in32", .int ((x.1 : Int) - 1)), (n! "empty", .slice H [] 0 0 0), (n! "err", .nil), (n! "carry", .u8 x.2.2.2.1), (n! "byteSize", .int k), (n! "b", x.2.1), (n! "a", va), (n! "sum", vs)]⟩) (fun x => x.1) ?_ (q, vb, b, 0#8, H', m') ⟨by simp, hb, Nat.le_refl _, hV₀, hF₀, rfl⟩ (by simp; omega) rfl hlp
        clear hlp
        rintro ⟨i, vb₁, b₁, c₁, h₁, m₁⟩ z ⟨hi, hb₁, hbl₁, hV₁, hF₁, e₁⟩ hz ih
        simp only at hi hb₁ hbl₁ hV₁ hF₁ e₁ hz ih ⊢
        have hvb₁ := hb₁.plain
        have hlb₁ := hb₁.len
        have hab₁ := hb₁.able
        cases i with
        | succ i =>
          have hi0 : ¬ (i : Int) < 0 := by omega
          rw [hcast]
          by_cases hb4 : 4 < b₁.len
          · have hb4' : (4 : Int) < (b₁.len : Int) := by omega
            have hw4 : wrap P.W ((i : Int) * 4) = (i * 4 : Nat) := by
              rw [← wrap_nat (W := P.W) (i := i * 4) (by omega) (by omega)]; simp
            have hw : wrap P.W ((i : Int) - 1) = (i : Int) - 1 := wrap_eq (by omega) (by omega) (by omega)
            have hwb : wrap P.W ((b₁.len : Int) - 4) = (b₁.len - 4 : Nat) := wrap_sub (k := 4) (by omega) (by omega) (by omega)
            obtain ⟨vt, hvt, ft⟩ := hs.from (lo := i * 4) (by omega) (x := .int (i * 4 : Nat)) rfl
            have hpt := hvt.plain
            obtain ⟨vl, hvl, fl⟩ := hb₁.from (lo := b₁.len - 4) (by omega) (x := .int (b₁.len - 4 : Nat)) rfl
            have hpl := hvl.plain
            obtain ⟨h₂, m₂, c₂, r₂, e₂, hV₂, hF₂⟩ := step32BE hP hS hB hW hV₁ hvt (by show 4 ≤ s.len - i * 4; omega) (reads hV₁ hvl) c₁ (n := n) (by omega)
            obtain ⟨vb₂, hb₂, fb⟩ := hb₁.upto (hi := b₁.len - 4) (by omega) (y := .int (b₁.len - 4 : Nat)) rfl
            have hpb₂ := hb₂.plain
            rw [loop_next (s₁ := ⟨h₁, [(n! "in8", .int t), (n! "in32", .int (i : Nat)), (n! "empty", .slice H [] 0 0 0), (n! "err", .nil), (n! "carry", .u8 c₁), (n! "byteSize", .int k), (n! "b", vb₁), (n! "a", va), (n! "sum", vs)]⟩) (s₂ := ⟨h₂, [(n! "in8", .int t), (n! "in32", .int (i : Nat)), (n! "empty", .slice H [] 0 0 0), (n! "err", .nil), (n! "carry", .u8 c₂), (n! "byteSize", .int k), (n! "b", vb₂), (n! "a", va), (n! "sum", vs)]⟩) (s₃ := ⟨h₂, [(n! "in8", .int t), (n! "in32", .int ((i : Int) - 1)), (n! "empty", .slice H [] 0 0 0), (n! "err", .nil), (n! "carry", .u8 c₂), (n! "byteSize", .int k), (n! "b", vb₂), (n! "a", va), (n! "sum", vs)]⟩)]
            · refine ih (i, vb₂, ⟨b₁.base, b₁.len - 4⟩, c₂, h₂, m₂) ⟨by show i ≤ q; omega, hb₂, by show b₁.len - 4 ≤ b.len; omega, hV₂, hF₁.trans hF₂, ?_⟩ (by show i < _; omega)
              rw [e₁, _root_.Bytes.loopBE1, if_pos hb4, _root_.Bytes.drop_le (by omega), _root_.Bytes.drop_le (by omega)]
              simp only [Res.ok_bind, e₂]
              rw [_root_.Bytes.sub_le (by omega) (by omega)]
              simp only [Res.ok_bind, Nat.add_zero, Nat.sub_zero]
            all_goals eval_go [hvs, hva, hvb₁, hlb₁, hab₁, has, hi0, hb4', hw4, hw, hwb, ft, hpt, fl, hpl, r₂, fb, hpb₂, elem_repo hP]
          · have hb4' : ¬ (4 : Int) < (b₁.len : Int) := by omega
            rw [loop_false (s₁ := ⟨h₁, [(n! "in8", .int t), (n! "in32", .int (i : Nat)), (n! "empty", .slice H [] 0 0 0), (n! "err", .nil), (n! "carry", .u8 c₁), (n! "byteSize", .int k), (n! "b", vb₁), (n! "a", va), (n! "sum", vs)]⟩)]
            · refine ⟨i + 1, vb₁, b₁, c₁, h₁, m₁, by rw [hcast], hi, hb₁, hbl₁, hV₁, hF₁, ?_⟩
              rw [e₁, _root_.Bytes.loopBE1, if_neg hb4]
            · eval_go [hvs, hva, hvb₁, hlb₁, hi0, hb4']
        | zero =>
          rw [hcast0]
          rw [loop_false (s₁ := ⟨h₁, [(n! "in8", .int t), (n! "in32", .int (-1)), (n! "empty", .slice H [] 0 0 0), (n! "err", .nil), (n! "carry", .u8 c₁), (n! "byteSize", .int k), (n! "b", vb₁), (n! "a", va), (n! "sum", vs)]⟩)]
          · refine ⟨0, vb₁, b₁, c₁, h₁, m₁, rfl, hi, hb₁, hbl₁, hV₁, hF₁, ?_⟩
            rw [e₁, _root_.Bytes.loopBE1]
          · eval_go [hvs, hva, hvb₁, hlb₁, hneg]
      clear hlp
      simp only [e₁, Res.ok_bind]
      have hlb₁ := hb₁.len
      have hvb₁ := hb₁.plain
      have hab₁ := hb₁.able
      by_cases hpt : b₁.len > 0 ∧ i > 0
      on_goal 1 =>
        obtain ⟨j, rfl⟩ : ∃ j, i = j + 1 := ⟨i - 1, by omega⟩
        rw [hcast]
        have hb0' : (0 : Int) < (b₁.len : Int) := by omega
        have hj0 : ¬ (j : Int) < 0 := by omega
        have hw4 : wrap P.W ((j : Int) * 4) = (j * 4 : Nat) := by
          rw [← wrap_nat (W := P.W) (i := j * 4) (by omega) (by omega)]; simp
        have hw : wrap P.W ((j : Int) - 1) = (j : Int) - 1 := wrap_eq (by omega) (by omega) (by omega)
        obtain ⟨vt, hvt, ft⟩ := hs.from (lo := j * 4) (by omega) (x := .int (j * 4 : Nat)) rfl
        have hpvt := hvt.plain
        obtain ⟨hj, mj, cj, r₂, e₂, hVj, hFj⟩ := step32BE hP hS hB hW hV₁ hvt (by show 4 ≤ s.len - j * 4; omega) (reads hV₁ hb₁) c₁ (n := n) (by omega)
        obtain ⟨vbj, hbj, fb⟩ := hb₁.upto (hi := 0) (by omega) (y := .const 0) rfl
        have hvbj := hbj.plain
        eval_go [hvs, hva, hvb₁, hlb₁, hab₁, has, hj0, hb0', hw4, hw, ft, hpvt, r₂, fb, hvbj, elem_repo hP]
        rw [_root_.Bytes.partBE, if_pos hpt, Nat.add_sub_cancel, _root_.Bytes.drop_le (by omega)]
        simp only [Res.ok_bind, e₂]
        rw [_root_.Bytes.sub_le (by omega) (by omega)]
        simp only [Res.ok_bind, Res.pure_eq, Nat.add_zero, Nat.sub_zero]
        have hjq : j ≤ q := by omega
        have hblj : (0 : Nat) ≤ b.len := by omega
        replace hFj := hF₁.trans hFj
        clear hb0' hj0 hw4 hw ft hpvt hvt r₂ e₂ fb e₁ hb₁ hV₁ hF₁ hlb₁ hvb₁ hab₁ hpt hi hbl₁
        replace hblj : (⟨b₁.base, 0⟩ : Slice).len ≤ b.len := hblj
        generalize (⟨b₁.base, 0⟩ : Slice) = bj at hbj hblj ⊢
      on_goal 2 =>
        by_cases hb0 : 0 < b₁.len
        on_goal 1 =>
          have hb0' : (0 : Int) < (b₁.len : Int) := by omega
          have hiq' : (i : Int) - 1 < 0 := by omega
          eval_go [hvs, hva, hvb₁, hlb₁, hiq', hb0']
        on_goal 2 =>
          have hb0' : ¬ (0 : Int) < (b₁.len : Int) := by omega
          eval_go [hvs, hva, hvb₁, hlb₁, hb0']
        all_goals
          rw [_root_.Bytes.partBE, if_neg hpt]
          simp only [Res.ok_bind]
          clear hb0 hb0' hlb₁ hpt hab₁ e₁
          try clear hiq'
          obtain ⟨j, rfl⟩ : ∃ j, j = i := ⟨i, rfl⟩
          obtain ⟨vbj, rfl⟩ : ∃ j, j = vb₁ := ⟨_, rfl⟩
          obtain ⟨bj, rfl⟩ : ∃ j, j = b₁ := ⟨_, rfl⟩
          obtain ⟨cj, rfl⟩ : ∃ j, j = c₁ := ⟨_, rfl⟩
          obtain ⟨hj, rfl⟩ : ∃ j, j = h₁ := ⟨_, rfl⟩
          obtain ⟨mj, rfl⟩ : ∃ j, j = m₁ := ⟨_, rfl⟩
          obtain ⟨hjq⟩ : Nonempty (j ≤ q) := ⟨hi⟩
          obtain ⟨hblj⟩ : Nonempty (bj.len ≤ b.len) := ⟨hbl₁⟩
          obtain ⟨hVj⟩ : Nonempty (View L hj mj) := ⟨hV₁⟩
          obtain ⟨hFj⟩ : Nonempty (Frame L h hj) := ⟨hF₁⟩
          obtain ⟨hbj⟩ : Nonempty (SliceAt L vbj bj) := ⟨hb₁⟩
          obtain ⟨hvbj⟩ : Nonempty (Plain vbj) := ⟨hvb₁⟩
          clear hi hV₁ hF₁ hb₁ hvb₁ hbl₁
      all_goals
        generalize hlp : loop _ _ _ _ _ = out
        obtain ⟨c₃, h₃, m₃, rfl, hV₃, hF₃, e₃⟩ : ∃ (c₃ : BitVec 8) (h₃ : List Val) (m₃ : Mem),
            out = .ok .next ⟨h₃, [(n! "in8", .int t), (n! "in32", .int (-1)), (n! "empty", .slice H [] 0 0 0), (n! "err", .nil), (n! "carry", .u8 c₃), (n! "byteSize", .int k), (n! "b", vbj), (n! "a", va), (n! "sum", vs)]⟩ ∧ View L h₃ m₃ ∧ Frame L h h₃ ∧ _root_.Bytes.loopBE2 s j mj cj = .ok (m₃, c₃) := by
          refine loop_post (α := Nat × BitVec 8 × List Val × Mem)
            (fun out => ∃ (c₃ : BitVec 8) (h₃ : List Val) (m₃ : Mem),
              out = .ok .next ⟨h₃, [(n! "in8", .int t), (n! "in32", .int (-1)), (n! "empty", .slice H [] 0 0 0), (n! "err", .nil), (n! "carry", .u8 c₃), (n! "byteSize", .int k), (n! "b", vbj), (n! "a", va), (n! "sum", vs)]⟩ ∧ View L h₃ m₃ ∧ Frame L h h₃ ∧ _root_.Bytes.loopBE2 s j mj cj = .ok (m₃, c₃))
            (fun x => x.1 ≤ q ∧ View L x.2.2.1 x.2.2.2 ∧ Frame L h x.2.2.1 ∧ _root_.Bytes.loopBE2 s j mj cj = _root_.Bytes.loopBE2 s x.1 x.2.2.2 x.2.1)
            (fun x => ⟨x.2.2.1, [(n! "in8", .int t), (n! "in32", .int ((x.1 : Int) - 1)), (n! "empty", .slice H [] 0 0 0), (n! "err", .nil), (n! "carry", .u8 x.2.1), (n! "byteSize", .int k), (n! "b", vbj), (n! "a", va), (n! "sum", vs)]⟩) (fun x => x.1) ?_ (j, cj, hj, mj) ⟨hjq, hVj, hFj, rfl⟩ (by simp; omega) rfl hlp
          clear hlp
          rintro ⟨i, c₁, h₁, m₁⟩ z ⟨hi, hV₁, hF₁, e₁⟩ hz ih
          simp only at hi hV₁ hF₁ e₁ hz ih ⊢
          cases i with
          | succ i =>
            have hi0 : ¬ (i : Int) < 0 := by omega
            rw [hcast]
            have hw4 : wrap P.W ((i : Int) * 4) = (i * 4 : Nat) := by
              rw [← wrap_nat (W := P.W) (i := i * 4) (by omega) (by omega)]; simp
            have hw : wrap P.W ((i : Int) - 1) = (i : Int) - 1 := wrap_eq (by omega) (by omega) (by omega)
            obtain ⟨vt, hvt, ft⟩ := hs.from (lo := i * 4) (by omega) (x := .int (i * 4 : Nat)) rfl
            have hpt := hvt.plain
            obtain ⟨h₂, m₂, c₂, r₂, e₂, hV₂, hF₂⟩ := step32BE hP hS hB hW hV₁ hvt (by show 4 ≤ s.len - i * 4; omega) (reads_empty h₁ m₁ H) c₁ (n := n) (by omega)
            rw [loop_next (s₁ := ⟨h₁, [(n! "in8", .int t), (n! "in32", .int (i : Nat)), (n! "empty", .slice H [] 0 0 0), (n! "err", .nil), (n! "carry", .u8 c₁), (n! "byteSize", .int k), (n! "b", vbj), (n! "a", va), (n! "sum", vs)]⟩) (s₂ := ⟨h₂, [(n! "in8", .int t), (n! "in32", .int (i : Nat)), (n! "empty", .slice H [] 0 0 0), (n! "err", .nil), (n! "carry", .u8 c₂), (n! "byteSize", .int k), (n! "b", vbj), (n! "a", va), (n! "sum", vs)]⟩) (s₃ := ⟨h₂, [(n! "in8", .int t), (n! "in32", .int ((i : Int) - 1)), (n! "empty", .slice H [] 0 0 0), (n! "err", .nil), (n! "carry", .u8 c₂), (n! "byteSize", .int k), (n! "b", vbj), (n! "a", va), (n! "sum", vs)]⟩)]
            · refine ih (i, c₂, h₂, m₂) ⟨by show i ≤ q; omega, hV₂, hF₁.trans hF₂, ?_⟩ (by show i < _; omega)
              rw [e₁, _root_.Bytes.loopBE2, _root_.Bytes.drop_le (by omega)]
              simp only [Res.ok_bind, e₂]
            all_goals eval_go [hvs, hva, hvbj, has, hi0, hw4, hw, ft, hpt, r₂, elem_repo hP]
          | zero =>
            rw [hcast0]
            rw [loop_false (s₁ := ⟨h₁, [(n! "in8", .int t), (n! "in32", .int (-1)), (n! "empty", .slice H [] 0 0 0), (n! "err", .nil), (n! "carry", .u8 c₁), (n! "byteSize", .int k), (n! "b", vbj), (n! "a", va), (n! "sum", vs)]⟩)]
            · refine ⟨c₁, h₁, m₁, rfl, hV₁, hF₁, ?_⟩
              rw [e₁, _root_.Bytes.loopBE2]
            · eval_go [hvs, hva, hvbj, hneg]
        clear hlp hVj hFj
        simp only [e₃, Res.ok_bind]
        clear e₃ hjq
        have i01 : (0 : Int) < 1 := by omega
        have i11 : ¬ (1 : Int) < 1 := by omega
        have i12 : (1 : Int) < 2 := by omega
        have i13 : (1 : Int) < 3 := by omega
        have hlbj := hbj.len
        have habj := hbj.able
        have hw0 : wrap P.W 0 = 0 := wrap_nat (i := 0) (by omega) (by omega)
        have hw1 : wrap P.W 1 = 1 := wrap_nat (i := 1) (by omega) (by omega)
        have hRj := reads hV₃ hbj
        rcases (by omega : t = 0 ∨ t = 1 ∨ t = 2 ∨ t = 3) with rfl | rfl | rfl | rfl
        · eval_go [hvs, hva, hvbj, Nat.cast_zero]
          exact ⟨h₃, rfl, hV₃, hF₃⟩
        · obtain ⟨h₄, m₄, c₄, r₄, e₄, hV₄, hF₄⟩ := step8 hP hV₃ hs (by omega) hRj c₃ (n := n) (by omega)
          eval_go [hvs, hva, hvbj, i11, i01, has, r₄, elem_repo hP, Nat.cast_one]
          simp only [_root_.Bytes.tailBE, gt_iff_lt, Nat.lt_irrefl, Nat.zero_lt_one, if_true, if_false, Res.ok_bind, e₄]
          exact ⟨h₄, rfl, hV₄, hF₃.trans hF₄⟩
        all_goals
          obtain ⟨vt, hvt, ft⟩ := hs.from (lo := k % 4 - 2) (by omega) (x := .int (k % 4 - 2 : Nat)) rfl
          have hpt := hvt.plain
          obtain ⟨h₄, m₄, c₄, r₄, e₄, hV₄, hF₄⟩ := step16BE hP hS hB hW hV₃ hvt (by show 2 ≤ s.len - _; omega) hRj c₃ (n := n) (by omega)
          rw [← ht] at ft e₄
          simp only [Nat.reduceSub, Nat.cast_zero, Nat.cast_one, Nat.sub_self] at ft e₄
          replace hF₄ := hF₃.trans hF₄
          simp only [_root_.Bytes.tailBE, gt_iff_lt, Nat.lt_irrefl, Nat.reduceLT, Nat.reduceSub, if_true, if_false, _root_.Bytes.drop_le (show 0 ≤ s.len by omega), _root_.Bytes.drop_le (show 1 ≤ s.len by omega), Res.ok_bind, e₄]
          obtain ⟨vbk, bk, hbk, hdrop, fbk⟩ : ∃ vbk bk, SliceAt L vbk bk ∧ _root_.Bytes.dropTwoBE bj = .ok bk ∧
              ((bj.len = 1 ∧ ∀ st, slicing vbj none (some (.const 0)) st = .ok vbk st) ∨ (2 ≤ bj.len ∧ ∀ st, slicing vbj none (some (.int (bj.len - 2 : Nat))) st = .ok vbk st) ∨
                (bj.len = 0 ∧ vbk = vbj)) := by
            rcases (by omega : bj.len = 1 ∨ 2 ≤ bj.len ∨ bj.len = 0) with c | c | c
            · obtain ⟨vbk, hbk, fb⟩ := hbj.upto (hi := 0) (by omega) (y := .const 0) rfl
              exact ⟨vbk, _, hbk, by rw [_root_.Bytes.dropTwoBE, if_pos c, _root_.Bytes.sub_le (by omega) (by omega)]; rfl, .inl ⟨c, fb⟩⟩
            · obtain ⟨vbk, hbk, fb⟩ := hbj.upto (hi := bj.len - 2) (by omega) (y := .int (bj.len - 2 : Nat)) rfl
              exact ⟨vbk, _, hbk, by rw [_root_.Bytes.dropTwoBE, if_neg (by omega), if_pos (by omega), _root_.Bytes.sub_le (by omega) (by omega)]; rfl, .inr (.inl ⟨c, fb⟩)⟩
            · exact ⟨vbj, _, hbj, by rw [_root_.Bytes.dropTwoBE, if_neg (by omega), if_neg (by omega)], .inr (.inr ⟨c, rfl⟩)⟩
          rw [hdrop]
          have hvbk := hbk.plain
          have hRk := reads hV₄ hbk
        · simp only [Res.ok_bind]
          rcases fbk with ⟨c, fb⟩ | ⟨c, fb⟩ | ⟨c, rfl⟩
          · have c1 : ((bj.len : Int) == 1) = true := by simp [c]
            eval_go [hvs, hva, hvbj, hvbk, i01, i11, i12, i13, hlbj, habj, has, hw0, hw1, ft, hpt, r₄, fb, c1, elem_repo hP, Nat.cast_ofNat]
            exact ⟨h₄, rfl, hV₄, hF₄⟩
          · have c1 : ((bj.len : Int) == 1) = false := by simp; omega
            have c2 : ¬ (bj.len : Int) < 2 := by omega
            have hwb : wrap P.W ((bj.len : Int) - 2) = (bj.len - 2 : Nat) := wrap_sub (k := 2) (by omega) (by omega) (by omega)
            eval_go [hvs, hva, hvbj, hvbk, i01, i11, i12, i13, hlbj, habj, has, hw0, hw1, hwb, ft, hpt, r₄, fb, c1, c2, elem_repo hP, Nat.cast_ofNat]
            exact ⟨h₄, rfl, hV₄, hF₄⟩
          · have c1 : ((bj.len : Int) == 1) = false := by simp; omega
            have c2 : (bj.len : Int) < 2 := by omega
            eval_go [hvs, hva, hvbk, i01, i11, i12, i13, hlbj, habj, has, hw0, hw1, ft, hpt, r₄, c1, c2, elem_repo hP, Nat.cast_ofNat]
            exact ⟨h₄, rfl, hV₄, hF₄⟩
        · obtain ⟨h₅, m₅, c₅, r₅, e₅, hV₅, hF₅⟩ := step8 hP hV₄ hs (by omega) hRk c₄ (n := n) (by omega)
          simp only [Res.ok_bind, e₅, Nat.zero_lt_one, if_true]
          rcases fbk with ⟨c, fb⟩ | ⟨c, fb⟩ | ⟨c, rfl⟩
          · have c1 : ((bj.len : Int) == 1) = true := by simp [c]
            eval_go [hvs, hva, hvbj, hvbk, i01, i11, i12, i13, hlbj, habj, has, hw0, hw1, r₅, ft, hpt, r₄, fb, c1, elem_repo hP, Nat.cast_ofNat]
            exact ⟨h₅, rfl, hV₅, hF₄.trans hF₅⟩
          · have c1 : ((bj.len : Int) == 1) = false := by simp; omega
            have c2 : ¬ (bj.len : Int) < 2 := by omega
            have hwb : wrap P.W ((bj.len : Int) - 2) = (bj.len - 2 : Nat) := wrap_sub (k := 2) (by omega) (by omega) (by omega)
            eval_go [hvs, hva, hvbj, hvbk, i01, i11, i12, i13, hlbj, habj, has, hw0, hw1, hwb, r₅, ft, hpt, r₄, fb, c1, c2, elem_repo hP, Nat.cast_ofNat]
            exact ⟨h₅, rfl, hV₅, hF₄.trans hF₅⟩
          · have c1 : ((bj.len : Int) == 1) = false := by simp; omega
            have c2 : (bj.len : Int) < 2 := by omega
            eval_go [hvs, hva, hvbk, i01, i11, i12, i13, hlbj, habj, has, hw0, hw1, r₅, ft, hpt, r₄, c1, c2, elem_repo hP, Nat.cast_ofNat]
            exact ⟨h₅, rfl, hV₅, hF₄.trans hF₅⟩

end
end Source.Bytes
