import Verif.Code.Fletcher
import Verif.Model.Checksum

/-!
# The code of Fletcher-16
-/
namespace Source.Fletcher16
open GoLang Source.Fletcher

abbrev ty : Name := n! "digest16"

/-- The object in a state. -/
abbrev rep (d : Fletcher.Digest16) : Val := .struct path ty [(n! "a", .u8 d.a), (n! "b", .u8 d.b)]

theorem find_New16 : findFunc 0 (n! "New16") pkg.decls = some New16 := by kernel_rfl
theorem find_Reset : findFunc ty (n! "Reset") pkg.decls = some digest16_Reset := by kernel_rfl
theorem find_update : findFunc ty (n! "update") pkg.decls = some digest16_update := by kernel_rfl
theorem find_Write : findFunc ty (n! "Write") pkg.decls = some digest16_Write := by kernel_rfl
theorem find_Sum : findFunc ty (n! "Sum") pkg.decls = some digest16_Sum := by kernel_rfl
theorem find_Sum16 : findFunc ty (n! "Sum16") pkg.decls = some digest16_Sum16 := by kernel_rfl
theorem find_Size : findFunc ty (n! "Size") pkg.decls = some digest16_Size := by kernel_rfl
theorem find_BlockSize : findFunc ty (n! "BlockSize") pkg.decls = some digest16_BlockSize := by kernel_rfl

theorem batch_le (n : Nat) : Fletcher.batch16 n ≤ n ∧ (0 < n → 0 < Fletcher.batch16 n) := by
  unfold Fletcher.batch16 Fletcher.c1Overflow16
  split <;> omega

theorem inner_ok {b : List (BitVec 8)} {k i : Nat} {c0 c1 : BitVec 32} {r : BitVec 32 × BitVec 32} (h : Fletcher.inner16 b k i c0 c1 = .ok r)
    (hi : i ≤ b.length) : i + k ≤ b.length := by
  induction k generalizing i c0 c1 with
  | zero => omega
  | succ k ih =>
    rw [Fletcher.inner16] at h
    by_cases hl : i < b.length
    · simp only [goIdx, List.getElem?_eq_getElem hl, go] at h
      have := ih h (by omega)
      omega
    · simp only [goIdx, List.getElem?_eq_none (Nat.le_of_not_lt hl), go] at h

section
variable {P : Prog} (hP : findPkg path P.pkgs = some pkg) {h : List Val} {a : Nat} {d : Fletcher.Digest16}
include hP

theorem run_Reset (ha : h[a]? = some (rep d)) (n : Nat) :
    run P (n + 1) path ty (n! "Reset") [obj path ty a] h = .ok [] ⟨h.set a (rep ⟨0, 0⟩), []⟩ := by
  rw [run_func hP find_Reset]
  eval_go [ha, lt_of_get ha]
  rfl

theorem run_New (n : Nat) : run P (n + 2) path 0 (n! "New16") [] h = .ok [obj path ty h.length] ⟨h ++ [rep ⟨0, 0⟩], []⟩ := by
  rw [run_func hP find_New16]
  eval_go [run_Reset hP (h := h ++ [rep ⟨0, 0⟩]) (a := h.length) (d := ⟨0, 0⟩) (by simp) n]
  simp

theorem run_update (hW : 32 ≤ P.W) {v : Val} {b : List (BitVec 8)} (ha : h[a]? = some (rep d)) (hb : HasBytes h v b)
    (hl : (b.length : Int) < 2 ^ (P.W - 1)) {n : Nat} (hn : b.length + 1 < n) :
    run P (n + 1) path ty (n! "update") [obj path ty a, v] h = 
      match Fletcher.update16 d b with
      | .ok d' => .ok [] ⟨h.set a (rep d'), []⟩
      | .panic => .panic h := by
  have hv := hb.plain
  have hlen := hb.len
  rw [run_func hP find_update]
  eval_go [ha, hv]
  rw [loop_wf (fun _ => True) (fun x : Nat × BitVec 32 × BitVec 32 => ⟨h, [(n! "i", .int x.1), (n! "c1", .u32 x.2.2), (n! "c0", .u32 x.2.1),
      (n! "c1Overflow", .const 5803), (n! "mod", .const 255), (n! "p", v), (n! "d", obj path ty a)]⟩)
    (fun x => match Fletcher.outer16 b x.1 x.2.1 x.2.2 with
      | .ok r => .ok .next ⟨h, [(n! "i", .int (max x.1 b.length)), (n! "c1", .u32 r.2), (n! "c0", .u32 r.1),
          (n! "c1Overflow", .const 5803), (n! "mod", .const 255), (n! "p", v), (n! "d", obj path ty a)]⟩
      | .panic => .panic h) (fun x => b.length - x.1) ?_ (0, d.a.setWidth 32, d.b.setWidth 32) trivial (by simp; omega)]
  · unfold Fletcher.update16
    rcases hr : Fletcher.outer16 b 0 (d.a.setWidth 32) (d.b.setWidth 32) with r | _
    · eval_go [hr, ha, hv, lt_of_get ha]
    · eval_go [hr]
  · rfl
  · rintro ⟨i, c0, c1⟩ m - hm ih
    have hB : (b.length : Int) > 5803 ∧ Val.int 5803 = Val.int (Fletcher.batch16 b.length) ∨
        ¬ (b.length : Int) > 5803 ∧ Val.int b.length = Val.int (Fletcher.batch16 b.length) := by
      unfold Fletcher.batch16 Fletcher.c1Overflow16
      by_cases hc : b.length > 5803
      · rw [if_pos hc]; exact .inl ⟨by omega, rfl⟩
      · rw [if_neg hc]; exact .inr ⟨by omega, rfl⟩
    have hB' := batch_le b.length
    rw [loop, Fletcher.outer16]
    by_cases hi : i < b.length
    · generalize hBB : Fletcher.batch16 b.length = B at *
      rcases hB with ⟨hc, hB⟩ | ⟨hc, hB⟩
      all_goals
        eval_go [hv, hlen, Int.ofNat_lt, hi, hc]
        rw [hB]
        rw [loop_wf (fun x => x.1 ≤ B) (fun x : Nat × Nat × BitVec 32 × BitVec 32 => ⟨h, [(n! "j", .int (B - x.1 : Nat)), (n! "len", .int B),
              (n! "i", .int x.2.1), (n! "c1", .u32 x.2.2.2), (n! "c0", .u32 x.2.2.1),
              (n! "c1Overflow", .const 5803), (n! "mod", .const 255), (n! "p", v), (n! "d", obj path ty a)]⟩)
          (fun x => match Fletcher.inner16 b x.1 x.2.1 x.2.2.1 x.2.2.2 with
            | .ok r => .ok .next ⟨h, [(n! "j", .int B), (n! "len", .int B),
              (n! "i", .int (x.2.1 + x.1 : Nat)), (n! "c1", .u32 r.2), (n! "c0", .u32 r.1),
              (n! "c1Overflow", .const 5803), (n! "mod", .const 255), (n! "p", v), (n! "d", obj path ty a)]⟩
            | .panic => .panic h) (fun x => x.1) ?_ (B, i, c0, c1) (Nat.le_refl _) (by simp; omega)]
        · rcases hr : Fletcher.inner16 b B i c0 c1 with ⟨c0', c1'⟩ | _
          · eval_go [hr]
            refine (ih (i + B, c0' % 255#32, c1' % 255#32) trivial (by simp; omega)).trans ?_
            eval_go
            rcases ho : Fletcher.outer16 b (i + B) (c0' % 255#32) (c1' % 255#32) with r | _
            · eval_go [ho]
              rw [show max ((i + B : Nat) : Int) b.length = max (i : Int) b.length by have := inner_ok hr (by omega); omega]
            · eval_go [ho]
          · eval_go [hr]
        · simp
        · rintro ⟨k, i, c0, c1⟩ m (hk : k ≤ B) hm ih
          cases k with
          | zero =>
            rw [loop, Fletcher.inner16]
            eval_go [Int.lt_irrefl, Nat.sub_zero, Nat.add_zero]
          | succ k =>
            have hlt : B - (k + 1) < B := by omega
            rw [loop, Fletcher.inner16]
            by_cases hi : i < b.length
            · eval_go [Int.ofNat_lt, hlt, hi, hv, hb.at hi, goIdx, List.getElem?_eq_getElem hi, wrap_succ hi hl (by omega : 0 < P.W),
                wrap_succ hlt (Int.lt_of_le_of_lt (Int.ofNat_le.mpr hB'.1) hl) (by omega : 0 < P.W)]
              rw [show B - (k + 1) + 1 = B - k by omega]
              refine (ih (k, i + 1, _, _) (by simp; omega) (by simp)).trans ?_
              rw [show i + 1 + k = i + (k + 1) by omega]
            · eval_go [Int.ofNat_lt, hlt, hi, hv, hb.oob (Nat.le_of_not_lt hi), goIdx, List.getElem?_eq_none (Nat.le_of_not_lt hi)]
    · eval_go [hv, hlen, Int.ofNat_lt, hi]
      rw [show max (i : Int) b.length = i by omega]

theorem run_Write (hW : 32 ≤ P.W) {v : Val} {b : List (BitVec 8)} (ha : h[a]? = some (rep d)) (hb : HasBytes h v b)
    (hl : (b.length : Int) < 2 ^ (P.W - 1)) {n : Nat} (hn : b.length + 1 < n) :
    run P (n + 2) path ty (n! "Write") [obj path ty a, v] h =
      match Fletcher.update16 d b with
      | .ok d' => .ok [.int b.length, .nil] ⟨h.set a (rep d'), []⟩
      | .panic => .panic h := by
  have hv := hb.plain
  have hlen := hb.len
  have hu := run_update hP hW ha hb hl hn
  rw [run_func hP find_Write]
  rcases hr : Fletcher.update16 d b with d' | _
  · eval_go [hv, hlen, hu, hr]
  · eval_go [hv, hlen, hu, hr]

theorem run_Sum {v v' : Val} {h' : List Val} (ha : h[a]? = some (rep d)) (hv : Plain v) (hv' : Plain v')
    (hap : ∀ e, appendTo P.grow v [.u8 d.b, .u8 d.a] ⟨h, e⟩ = .ok v' ⟨h', e⟩) (n : Nat) :
    run P (n + 1) path ty (n! "Sum") [obj path ty a, v] h = .ok [v'] ⟨h', []⟩ := by
  rw [run_func hP find_Sum]
  eval_go [hv, ha, hap, hv']

theorem run_Sum16 (ha : h[a]? = some (rep d)) (n : Nat) :
    run P (n + 1) path ty (n! "Sum16") [obj path ty a] h = .ok [.u16 (Fletcher.sum16 d)] ⟨h, []⟩ := by
  rw [run_func hP find_Sum16]
  eval_go [ha]
  rfl

theorem run_Size (n : Nat) :
    run P (n + 1) path ty (n! "Size") [obj path ty a] h = .ok [.int (wrap P.W 2)] ⟨h, []⟩ := by
  rw [run_func hP find_Size]
  eval_go

theorem run_BlockSize (n : Nat) :
    run P (n + 1) path ty (n! "BlockSize") [obj path ty a] h = .ok [.int (wrap P.W 1)] ⟨h, []⟩ := by
  rw [run_func hP find_BlockSize]
  eval_go

end
end Source.Fletcher16
