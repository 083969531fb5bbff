import Verif.Code.NetRange
import Verif.Code.NetList

/-!
# The code of package `net`: nil trees, nil networks, and the methods `getValue`
-/
namespace Source.Net
open GoLang
open _root_.Net (Node Eff)

set_option linter.unusedSimpArgs false

theorem find_all_getValue : findFunc (n! "all") (n! "getValue") pkg.decls = some NetIpTree.all_getValue := by kernel_rfl
theorem find_none_getValue : findFunc (n! "none") (n! "getValue") pkg.decls = some NetIpTree.none_getValue := by kernel_rfl
theorem find_treeNode_getValue : findFunc (n! "treeNode") (n! "getValue") pkg.decls = some NetIpTree.treeNode_getValue := by kernel_rfl

section
variable {P : Prog} (hP : findPkg path P.pkgs = some pkg) {h : List Val}
include hP

theorem run_all_getValue {v : Val} (hv : Plain v) (n : Nat) : run P (n + 1) path (n! "all") (n! "getValue") [allVal v] h = .ok [v] ⟨h, []⟩ := by
  rw [run_func hP find_all_getValue]
  eval_go [hv]

theorem run_none_getValue (n : Nat) : run P (n + 1) path (n! "none") (n! "getValue") [noneVal] h = .ok [.nil] ⟨h, []⟩ := by
  rw [run_func hP find_none_getValue]
  eval_go

theorem run_treeNode_getValue (l r : Val) (n : Nat) : run P (n + 1) path (n! "treeNode") (n! "getValue") [treeVal l r] h = .ok [.nil] ⟨h, []⟩ := by
  rw [run_func hP find_treeNode_getValue]
  eval_go

/-! ## Nil networks -/

theorem run_CidrEqual_nil (v : Val) (hv : Plain v) (n : Nat) : run P (n + 1) path 0 (n! "CidrEqual") [.nil, v] h = .panic h := by
  rw [run_func hP find_CidrEqual]
  eval_go [hv]

theorem run_CidrEqual_nil' {v ip mask : Val} (hn : IsNet h v ip mask) (hm : Plain mask) (n : Nat) : run P (n + 1) path 0 (n! "CidrEqual") [v, .nil] h = .panic h := by
  obtain ⟨k₁, t₁, a₁, p₁, x₁, rfl, e₁, f₁, g₁⟩ := hn
  rw [run_func hP find_CidrEqual]
  eval_go [e₁, g₁, hm]

theorem run_FirstIpv4_nil (n : Nat) : run P (n + 1) path 0 (n! "FirstIpv4") [.nil] h = .panic h := by
  rw [run_func hP find_FirstIpv4]
  eval_go

theorem run_LastIpv4_nil (n : Nat) : run P (n + 1) path 0 (n! "LastIpv4") [.nil] h = .panic (h ++ [.arr [.u8 0, .u8 0, .u8 0, .u8 0]]) := by
  rw [run_func hP find_LastIpv4]
  have h4 : ¬ (4 : Int) < 0 := by decide
  have hl : (0 : Int) < 4 := by decide
  have il : (0 : Int) ≤ 0 := by decide
  eval_go [h4, hl, il]

/-! ## Nil trees -/

variable (hS : P.std = stdlib) (hB : elemN (n! "encoding/binary") (P.pkgs.map Pkg.path) = false)

include hS hB in
theorem run_AddIp_nilTree {value : Val} (hv : Plain value) {vi : Val} {ip : List (BitVec 8)} (hi : IsBytes h vi ip) (n : Nat) :
    run P (n + 2) path (n! "Tree") (n! "AddIp") [.nil, vi, value] h = .panic h := by
  have hvi := hi.has.plain
  have hR := elem_repo hP
  obtain ⟨u, hu, hrun⟩ := run_Ipv4ToUint hP hS hB hi n
  rw [run_func hP find_AddIp]
  eval_go [hvi, hv, hR, hrun]

include hS hB in
theorem run_AddCidr_nilTree {value : Val} (hv : Plain value) {vc vi vm : Val} {c : _root_.Net.IPNet} (hc : IsNet h vc vi vm)
    (hi : IsBytes h vi c.ip) (hm : IsBytes h vm c.mask) (n : Nat) :
    run P (n + 2) path (n! "Tree") (n! "AddCidr") [.nil, vc, value] h = .panic h := by
  have hvi := hi.has.plain
  have hvm := hm.has.plain
  have hR := elem_repo hP
  obtain ⟨k₁, t₁, a₁, p₁, x₁, rfl, e₁, f₁, g₁⟩ := hc
  obtain ⟨u, hu, hrun⟩ := run_Ipv4ToUint hP hS hB hi n
  have hrm := run_MaskToByte hP hS hm n
  rw [run_func hP find_AddCidr]
  eval_go [hvi, hvm, e₁, f₁, g₁, hv, hR, hrun, hrm]

/-- Both nil. -/
theorem run_AddCidr_nilnil {value : Val} (hv : Plain value) (n : Nat) :
    run P (n + 1) path (n! "Tree") (n! "AddCidr") [.nil, .nil, value] h = .panic h := by
  rw [run_func hP find_AddCidr]
  eval_go [hv]

set_option maxHeartbeats 4000000 in
include hS hB in
/-- A range that is not empty: the first assignment panics. An empty one: nothing happens. -/
theorem run_AddRange_nilTree {value : Val} (hv : Plain value) {n : Nat} (hn : 34 ≤ n) {va ve : Val} {a e : List (BitVec 8)} (ha : IsBytes h va a)
    (he : IsBytes h ve e) :
    ∃ ua ue, _root_.Net.Ipv4ToUint a = .ok ua ∧ _root_.Net.Ipv4ToUint e = .ok ue ∧
      run P (n + 2) path (n! "Tree") (n! "AddRange") [.nil, va, ve, value] h = if ua ≤ ue then .panic h else .ok [] ⟨h, []⟩ := by
  have hva := ha.has.plain
  have hve := he.has.plain
  have hR := elem_repo hP
  obtain ⟨ua, hua, hra⟩ := run_Ipv4ToUint hP hS hB ha n
  obtain ⟨u, hue, hre⟩ := run_Ipv4ToUint hP hS hB he n
  refine ⟨ua, u, hua, hue, ?_⟩
  rw [run_func hP find_AddRange]
  eval_go [hva, hve, hv, hR, hra, hre]
  rw [loop]
  by_cases hle : ua ≤ u
  · have hlt : ¬ u < ua := BitVec.not_lt.mpr hle
    obtain ⟨m, hm⟩ := shrink_done hle 32 ((ua - 1#32) &&& ~~~ua) (BitVec.isLt _)
    rw [if_pos hle]
    eval_go [hlt, hva, hve, hv]
    generalize hi : loop _ _ _ (n + 1) _ = oi
    have hin : oi = .ok .next ⟨h, [(n! "m", .u32 m), (n! "uEnd", .u32 u), (n! "uStart", .u32 ua), (n! "value", value), (n! "end", ve), (n! "start", va),
        (n! "t", .nil)]⟩ := by
      refine loop_post (fun r => r = .ok .next ⟨h, [(n! "m", .u32 m), (n! "uEnd", .u32 u), (n! "uStart", .u32 ua), (n! "value", value), (n! "end", ve),
          (n! "start", va), (n! "t", .nil)]⟩)
        (fun x : Nat × BitVec 32 => _root_.Net.shrink ua u x.1 x.2 = some m)
        (fun x => ⟨h, [(n! "m", .u32 x.2), (n! "uEnd", .u32 u), (n! "uStart", .u32 ua), (n! "value", value), (n! "end", ve),
          (n! "start", va), (n! "t", .nil)]⟩) (fun x => x.1) ?_ (32, (ua - 1#32) &&& ~~~ua) hm (by simp; omega) rfl hi
      clear hi
      rintro ⟨k, x⟩ j hx hj ihj
      simp only at hx hj ⊢
      by_cases hgt : u < ua + x
      · cases k with
        | zero => rw [_root_.Net.shrink, if_pos hgt] at hx; cases hx
        | succ k =>
          rw [_root_.Net.shrink, if_pos hgt] at hx
          rw [loop]
          eval_go [hgt]
          exact ihj (k, x >>> 1) hx (by simp)
      · have : x = m := by
          cases k <;> rw [_root_.Net.shrink, if_neg hgt] at hx <;> exact Option.some.inj hx
        subst this
        rw [loop]
        eval_go [hgt]
    clear hi
    subst hin
    eval_go [hva, hve, hv]
    generalize hi : loop _ _ _ (n + 1) _ = oi
    have hin : ∃ b, oi = .ok .next ⟨h, [(n! "temp", .u32 0#32), (n! "bit", .u8 b), (n! "m", .u32 m), (n! "uEnd", .u32 u), (n! "uStart", .u32 ua), (n! "value", value),
        (n! "end", ve), (n! "start", va), (n! "t", .nil)]⟩ := by
      refine loop_post (fun r => ∃ b, r = .ok .next ⟨h, [(n! "temp", .u32 0#32), (n! "bit", .u8 b), (n! "m", .u32 m), (n! "uEnd", .u32 u),
          (n! "uStart", .u32 ua), (n! "value", value), (n! "end", ve), (n! "start", va), (n! "t", .nil)]⟩)
        (fun x : Nat × BitVec 32 × BitVec 8 => x.2.1.toNat < 2 ^ x.1)
        (fun x => ⟨h, [(n! "temp", .u32 x.2.1), (n! "bit", .u8 x.2.2), (n! "m", .u32 m), (n! "uEnd", .u32 u),
          (n! "uStart", .u32 ua), (n! "value", value), (n! "end", ve), (n! "start", va), (n! "t", .nil)]⟩) (fun x => x.1) ?_
        (32, m, 0#8) m.isLt (by simp; omega) rfl hi
      clear hi
      rintro ⟨k, x, b⟩ j hk hj ihj
      simp only at hk hj ⊢
      rw [loop]
      by_cases h0 : x = 0#32
      · subst h0
        refine ⟨b, ?_⟩
        eval_go
      · cases k with
        | zero => exact absurd (BitVec.eq_of_toNat_eq (by simpa using hk)) h0
        | succ k =>
          eval_go [h0]
          exact ihj (k, x >>> 1, b + 1#8) (half_lt hk) (by simp)
    clear hi
    obtain ⟨b, rfl⟩ := hin
    eval_go [hva, hve, hv, hR]
  · have hlt : u < ua := BitVec.not_le.mp hle
    rw [if_neg hle]
    eval_go [hlt]

end
end Source.Net
