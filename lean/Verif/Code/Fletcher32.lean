import Verif.Code.Fletcher
import Verif.Model.Checksum

/-!
# The code of Fletcher-32
-/
namespace Source.Fletcher32
open GoLang Source.Fletcher

abbrev ty : Name := n! "digest32"

/-- The object in a state. -/
abbrev rep (d : Fletcher.Digest32) : Val := .struct path ty [(n! "a", .u16 d.a), (n! "b", .u16 d.b)]

theorem find_New32 : findFunc 0 (n! "New32") pkg.decls = some New32 := by kernel_rfl
theorem find_Reset : findFunc ty (n! "Reset") pkg.decls = some digest32_Reset := by kernel_rfl
theorem find_update : findFunc ty (n! "update") pkg.decls = some digest32_update := by kernel_rfl
theorem find_Write : findFunc ty (n! "Write") pkg.decls = some digest32_Write := by kernel_rfl
theorem find_Sum : findFunc ty (n! "Sum") pkg.decls = some digest32_Sum := by kernel_rfl
theorem find_Sum32 : findFunc ty (n! "Sum32") pkg.decls = some digest32_Sum32 := by kernel_rfl
theorem find_Size : findFunc ty (n! "Size") pkg.decls = some digest32_Size := by kernel_rfl
theorem find_BlockSize : findFunc ty (n! "BlockSize") pkg.decls = some digest32_BlockSize := by kernel_rfl

theorem outer_eq (rest : List (BitVec 8)) (c0 c1 : BitVec 64) : Fletcher.outer32 rest c0 c1 =
    if 0 < rest.length then
      Fletcher.inner32 (if rest.length > Fletcher.c1Overflow32 then Fletcher.c1Overflow32 else rest.length) 0 rest c0 c1 >>= fun r =>
        Fletcher.outer32 r.1 (r.2.1 % 65535#64) (r.2.2 % 65535#64)
    else .ok (c0, c1) := by
  rw [Fletcher.outer32.eq_def]
  split
  · dsimp only
    split
    · simp_all
    · simp_all
  · rfl

theorem suffix (len j : Nat) (rest : List (BitVec 8)) (c0 c1 : BitVec 64) :
    ∀ r, Fletcher.inner32 len j rest c0 c1 = .ok r → r.1 <:+ rest := by
  fun_induction Fletcher.inner32 len j rest c0 c1 <;> intro r hr
  case case1 => simp at hr
  case case4 => cases hr; exact List.suffix_refl _
  all_goals
    rename_i ih
    refine (ih r hr).trans ?_
    repeat (first | exact List.nil_suffix | exact List.suffix_refl _ | refine List.IsSuffix.trans ?_ (List.suffix_cons _ _))

theorem drop_suffix {b r : List (BitVec 8)} {i : Nat} (h : r <:+ b.drop i) : r = b.drop (b.length - r.length) := by
  obtain ⟨p, hp⟩ := h.trans (List.drop_suffix i b)
  subst hp
  simp

section
variable {P : Prog} (hP : findPkg path P.pkgs = some pkg) {h : List Val} {a : Nat} {d : Fletcher.Digest32}
include hP

theorem run_Reset (ha : h[a]? = some (rep d)) (n : Nat) :
    run P (n + 1) path ty (n! "Reset") [obj path ty a] h = .ok [] ⟨h.set a (rep ⟨0, 0⟩), []⟩ := by
  rw [run_func hP find_Reset]
  eval_go [ha, lt_of_get ha]
  rfl

theorem run_New (n : Nat) : run P (n + 2) path 0 (n! "New32") [] h = .ok [obj path ty h.length] ⟨h ++ [rep ⟨0, 0⟩], []⟩ := by
  rw [run_func hP find_New32]
  eval_go [run_Reset hP (h := h ++ [rep ⟨0, 0⟩]) (a := h.length) (d := ⟨0, 0⟩) (by simp) n]
  simp

theorem run_update (hW : 32 ≤ P.W) {v : Val} {b : List (BitVec 8)} (ha : h[a]? = some (rep d)) (hb : HasBytes h v b)
    (hl : (b.length : Int) < 2 ^ (P.W - 1)) {n : Nat} (hn : b.length + 1 < n) :
    run P (n + 1) path ty (n! "update") [obj path ty a, v] h = 
      match Fletcher.update32 d b with
      | .ok d' => .ok [] ⟨h.set a (rep d'), []⟩
      | .panic => .panic h := by
  have hW0 : 0 < P.W := by omega
  have hv := hb.plain
  have hlen := hb.len
  rw [run_func hP find_update]
  eval_go [ha, hv, hlen]
  rw [loop_wf (fun x => x.1 ≤ b.length) (fun x : Nat × BitVec 64 × BitVec 64 => ⟨h, [(n! "i", .int x.1), (n! "n", .int b.length), (n! "c1", .u64 x.2.2), (n! "c0", .u64 x.2.1),
      (n! "c1Overflow", .const 23726746), (n! "mod", .const 65535), (n! "p", v), (n! "d", obj path ty a)]⟩)
    (fun x => match Fletcher.outer32 (b.drop x.1) x.2.1 x.2.2 with
      | .ok r => .ok .next ⟨h, [(n! "i", .int b.length), (n! "n", .int b.length), (n! "c1", .u64 r.2), (n! "c0", .u64 r.1),
      (n! "c1Overflow", .const 23726746), (n! "mod", .const 65535), (n! "p", v), (n! "d", obj path ty a)]⟩
      | .panic => .panic h) (fun x => b.length - x.1) ?_ (0, d.a.setWidth 64, d.b.setWidth 64) (Nat.zero_le _) (by simp; omega)]
  · unfold Fletcher.update32
    rw [List.drop_zero]
    rcases hr : Fletcher.outer32 b (d.a.setWidth 64) (d.b.setWidth 64) with r | _
    · eval_go [hr, ha, hv, lt_of_get ha]
    · eval_go [hr]
  · rfl
  · rintro ⟨i, c0, c1⟩ m (hib : i ≤ b.length) hm ih
    have hs : wrap P.W ((b.length : Int) - i) = (b.length - i : Nat) := by
      rw [← wrap_nat (W := P.W) (i := b.length - i) (by omega) hW0]
      congr 1
      omega
    have hB : ∃ B : Nat, B = (if (b.drop i).length > Fletcher.c1Overflow32 then Fletcher.c1Overflow32 else (b.drop i).length) ∧
        (((b.length - i : Nat) : Int) > 23726746 ∧ Val.int 23726746 = Val.int B ∨
        ¬ ((b.length - i : Nat) : Int) > 23726746 ∧ Val.int (b.length - i : Nat) = Val.int B) ∧ B ≤ b.length - i ∧ B ≤ 23726746 ∧ (i < b.length → 0 < B) := by
      refine ⟨_, rfl, ?_⟩
      rw [List.length_drop, Fletcher.c1Overflow32]
      by_cases hc : b.length - i > 23726746
      · rw [if_pos hc]; exact ⟨.inl ⟨by omega, rfl⟩, by omega, by omega, by omega⟩
      · rw [if_neg hc]; exact ⟨.inr ⟨by omega, rfl⟩, by omega, by omega, by omega⟩
    have hd : (0 < (b.drop i).length) ↔ i < b.length := by rw [List.length_drop]; omega
    rw [loop, outer_eq]
    by_cases hi : i < b.length
    · obtain ⟨B, hBB, hB, hBl, hBo, hB0⟩ := hB
      have h31 : (2 : Int) ^ 31 ≤ 2 ^ (P.W - 1) := by
        exact_mod_cast Nat.pow_le_pow_right (n := 2) (by decide) (by omega : 31 ≤ P.W - 1)
      simp only [← hBB, hd]
      let last (j : Nat) : Nat := j + (B - j + 1) / 2 * 2
      rcases hB with ⟨hc, hB⟩ | ⟨hc, hB⟩
      all_goals
        eval_go [hv, hlen, Int.ofNat_lt, hi, hs, hc]
        rw [hB]
        rw [loop_wf (fun x => x.2.1 ≤ b.length) (fun x : Nat × Nat × BitVec 64 × BitVec 64 => ⟨h, [(n! "j", .int x.1), (n! "len", .int B),
              (n! "i", .int x.2.1), (n! "n", .int b.length), (n! "c1", .u64 x.2.2.2), (n! "c0", .u64 x.2.2.1),
      (n! "c1Overflow", .const 23726746), (n! "mod", .const 65535), (n! "p", v), (n! "d", obj path ty a)]⟩)
          (fun x => match Fletcher.inner32 B x.1 (b.drop x.2.1) x.2.2.1 x.2.2.2 with
            | .ok r => .ok .next ⟨h, [(n! "j", .int (last x.1)), (n! "len", .int B),
              (n! "i", .int (b.length - r.1.length : Nat)), (n! "n", .int b.length), (n! "c1", .u64 r.2.2), (n! "c0", .u64 r.2.1),
      (n! "c1Overflow", .const 23726746), (n! "mod", .const 65535), (n! "p", v), (n! "d", obj path ty a)]⟩
            | .panic => .panic h) (fun x => B - x.1) ?_ (0, i, c0, c1) hib (by simp; omega)]
        · rcases hr : Fletcher.inner32 B 0 (b.drop i) c0 c1 with r | _
          · have hlt := Fletcher.inner32_lt B (b.drop i) c0 c1 (hB0 hi) r.1 r.2.1 r.2.2 hr
            have hsuf := drop_suffix (suffix B 0 (b.drop i) c0 c1 r hr)
            rw [List.length_drop] at hlt
            eval_go [hr]
            refine (ih (b.length - r.1.length, r.2.1 % 65535#64, r.2.2 % 65535#64) (by simp only; omega) (by simp only; omega)).trans ?_
            simp only [← hsuf]
          · eval_go [hr]
        · rfl
        · rintro ⟨j, i, c0, c1⟩ m (hib : i ≤ b.length) hm ih
          rw [loop, Fletcher.inner32.eq_def]
          by_cases hlt : j < B
          · have hj : wrap P.W ((j : Int) + 2) = (j + 2 : Nat) := by
              rw [← wrap_nat (W := P.W) (i := j + 2) (by omega) hW0]
              rfl
            by_cases h0 : i < b.length
            ·
              by_cases h1 : i + 1 < b.length
              · eval_go [Int.ofNat_lt, hlt, hv, h0, hb.at h0, List.drop_eq_getElem_cons h0, wrap_succ h0 hl hW0, h1, hb.at h1, List.drop_eq_getElem_cons h1, wrap_succ h1 hl hW0, hj]
                refine (ih (j + 2, i + 1 + 1, _, _) (by simp only; omega) (by simp only; omega)).trans ?_
                rw [show last (j + 2) = last j by unfold last; omega]
              · eval_go [Int.ofNat_lt, hlt, hv, h0, hb.at h0, List.drop_eq_getElem_cons h0, wrap_succ h0 hl hW0, h1, List.drop_eq_nil_of_le (Nat.le_of_not_lt h1), hj]
                refine (ih (j + 2, i + 1, _, _) (by simp only; omega) (by simp only; omega)).trans ?_
                rw [show last (j + 2) = last j by unfold last; omega, List.drop_eq_nil_of_le (Nat.le_of_not_lt h1)]
            · eval_go [Int.ofNat_lt, hlt, hv, h0, List.drop_eq_nil_of_le (Nat.le_of_not_lt h0), hb.oob (Nat.le_of_not_lt h0)]
          · eval_go [Int.ofNat_lt, hlt]
            rw [show last j = j by unfold last; omega, List.length_drop, show b.length - (b.length - i) = i by omega]
    · have hi' : b.length = i := by omega
      eval_go [hv, hlen, Int.ofNat_lt, hi, hd]
      rw [hi']

theorem run_Write (hW : 32 ≤ P.W) {v : Val} {b : List (BitVec 8)} (ha : h[a]? = some (rep d)) (hb : HasBytes h v b)
    (hl : (b.length : Int) < 2 ^ (P.W - 1)) {n : Nat} (hn : b.length + 1 < n) :
    run P (n + 2) path ty (n! "Write") [obj path ty a, v] h =
      match Fletcher.update32 d b with
      | .ok d' => .ok [.int b.length, .nil] ⟨h.set a (rep d'), []⟩
      | .panic => .panic h := by
  have hv := hb.plain
  have hlen := hb.len
  have hu := run_update hP hW ha hb hl hn
  rw [run_func hP find_Write]
  rcases hr : Fletcher.update32 d b with d' | _
  · eval_go [hv, hlen, hu, hr]
  · eval_go [hv, hlen, hu, hr]

theorem run_Sum {v v' : Val} {h' : List Val} (ha : h[a]? = some (rep d)) (hv : Plain v) (hv' : Plain v')
    (hap : ∀ e, appendTo P.grow v ([(d.b >>> 8).setWidth 8, d.b.setWidth 8, (d.a >>> 8).setWidth 8, d.a.setWidth 8].map .u8) ⟨h, e⟩ = .ok v' ⟨h', e⟩) (n : Nat) :
    run P (n + 1) path ty (n! "Sum") [obj path ty a, v] h = .ok [v'] ⟨h', []⟩ := by
  rw [run_func hP find_Sum]
  simp only [List.map] at hap
  eval_go [hv, ha, hap, hv']

theorem run_Sum32 (ha : h[a]? = some (rep d)) (n : Nat) :
    run P (n + 1) path ty (n! "Sum32") [obj path ty a] h = .ok [.u32 (Fletcher.sum32 d)] ⟨h, []⟩ := by
  rw [run_func hP find_Sum32]
  eval_go [ha]
  rfl

theorem run_Size (n : Nat) :
    run P (n + 1) path ty (n! "Size") [obj path ty a] h = .ok [.int (wrap P.W 4)] ⟨h, []⟩ := by
  rw [run_func hP find_Size]
  eval_go

theorem run_BlockSize (n : Nat) :
    run P (n + 1) path ty (n! "BlockSize") [obj path ty a] h = .ok [.int (wrap P.W 2)] ⟨h, []⟩ := by
  rw [run_func hP find_BlockSize]
  eval_go

end
end Source.Fletcher32
