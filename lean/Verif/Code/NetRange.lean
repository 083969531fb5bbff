import Verif.Code.NetTree

/-!
# The code of package `net`: ranges
-/
namespace Source.Net
open GoLang
open _root_.Net (Node Eff)

set_option linter.unusedSimpArgs false

theorem half_lt {x : BitVec 32} {k : Nat} (h : x.toNat < 2 ^ (k + 1)) : (x >>> 1).toNat < 2 ^ k := by
  rw [BitVec.toNat_ushiftRight, Nat.shiftRight_eq_div_pow]
  rw [Nat.pow_succ] at h
  omega

theorem shrink_done {u e : BitVec 32} (hle : u ≤ e) : ∀ (fuel : Nat) (m : BitVec 32), m.toNat < 2 ^ fuel → ∃ m', _root_.Net.shrink u e fuel m = some m'
  | 0, m, h => by
    have : m = 0#32 := BitVec.eq_of_toNat_eq (by simpa using h)
    subst this
    rw [_root_.Net.shrink, if_neg]
    · exact ⟨_, rfl⟩
    · simpa using hle
  | fuel + 1, m, h => by
    rw [_root_.Net.shrink]
    split
    · exact shrink_done hle fuel _ (half_lt h)
    · exact ⟨_, rfl⟩

theorem shrink_mono {u e : BitVec 32} : ∀ {fuel fuel' : Nat} {m m' : BitVec 32}, _root_.Net.shrink u e fuel m = some m' → fuel ≤ fuel' →
    _root_.Net.shrink u e fuel' m = some m'
  | 0, fuel', m, m', h, _ => by
    rw [_root_.Net.shrink] at h
    split at h
    · cases h
    · rename_i q
      cases fuel' <;> rw [_root_.Net.shrink, if_neg q, h]
  | fuel + 1, 0, m, m', _, hf => by omega
  | fuel + 1, fuel' + 1, m, m', h, hf => by
    rw [_root_.Net.shrink] at h ⊢
    split at h
    · rename_i q
      rw [if_pos q]
      exact shrink_mono h (by omega)
    · rename_i q
      rw [if_neg q, h]

variable {σ : Type}

/-- The outer loop with a bound only for its own iterations. -/
def outer (merge : Val → Val → Eff (Node Val × σ) Val) (e : BitVec 32) (value : Val) :
    Nat → BitVec 32 → Node Val × σ → Option (Option Unit × (Node Val × σ))
  | 0, _, _ => none
  | n + 1, u, s =>
    if u ≤ e then
      match _root_.Net.shrink u e 32 ((u - 1#32) &&& ~~~u) with
      | none => none
      | some m =>
        match _root_.Net.assignC merge u (_root_.Net.bitCount m 0#8) value s with
        | (none, s) => some (none, s)
        | (some (), s) => outer merge e value n (u + (m + 1#32)) s
    else some (some (), s)

theorem outer_mono {merge : Val → Val → Eff (Node Val × σ) Val} {e : BitVec 32} {value : Val} {r} :
    ∀ {n m : Nat} {u : BitVec 32} {s}, outer merge e value n u s = some r → n ≤ m → outer merge e value m u s = some r
  | 0, _, u, s, h, _ => by cases h
  | n + 1, 0, u, s, h, hm => by omega
  | n + 1, m + 1, u, s, h, hm => by
    rw [outer] at h ⊢
    split at h
    · rename_i q
      rw [if_pos q]
      split at h
      · cases h
      · split at h
        · exact h
        · exact outer_mono h (by omega)
    · rename_i q
      rw [if_neg q, h]

theorem outer_of_model {merge : Val → Val → Eff (Node Val × σ) Val} {e : BitVec 32} {value : Val} {r} :
    ∀ {fuel : Nat} {u : BitVec 32} {s}, _root_.Net.rangeLoopC merge e value fuel u s = some r → outer merge e value (fuel + 1) u s = some r
  | 0, u, s, h => by
    rw [_root_.Net.rangeLoopC] at h
    split at h
    · cases h
    · rename_i q
      rw [outer, if_neg q, h]
  | fuel + 1, u, s, h => by
    rw [_root_.Net.rangeLoopC] at h
    rw [outer]
    split at h
    · rename_i q
      rw [if_pos q]
      split at h
      · cases h
      · rename_i m hm
        obtain ⟨m', hm'⟩ := shrink_done q 32 ((u - 1#32) &&& ~~~u) (BitVec.isLt _)
        have e1 := shrink_mono hm (Nat.le_add_right fuel 32)
        have e2 := shrink_mono hm' (Nat.le_add_left 32 fuel)
        rw [e1] at e2
        cases e2
        rw [hm']
        simp only at h ⊢
        split at h
        · rename_i s' ha
          simp only [ha, h]
        · rename_i s' ha
          simp only [ha]
          exact outer_of_model h
    · rename_i q
      rw [if_neg q, h]

theorem model_of_outer {merge : Val → Val → Eff (Node Val × σ) Val} {e : BitVec 32} {value : Val} {r} :
    ∀ {n : Nat} {u : BitVec 32} {s}, outer merge e value n u s = some r → ∃ fuel, ∀ k, fuel ≤ k → _root_.Net.rangeLoopC merge e value k u s = some r
  | 0, u, s, h => by cases h
  | n + 1, u, s, h => by
    rw [outer] at h
    split at h
    · rename_i q
      split at h
      · cases h
      · rename_i m hm
        split at h
        · rename_i s' ha
          refine ⟨33, fun k hk => ?_⟩
          obtain ⟨k, rfl⟩ : ∃ j, k = j + 1 := ⟨k - 1, by omega⟩
          rw [_root_.Net.rangeLoopC, if_pos q, shrink_mono hm (by omega)]
          simp only [ha, h]
        · rename_i s' ha
          obtain ⟨fuel, hf⟩ := model_of_outer h
          refine ⟨fuel + 33, fun k hk => ?_⟩
          obtain ⟨k, rfl⟩ : ∃ j, k = j + 1 := ⟨k - 1, by omega⟩
          rw [_root_.Net.rangeLoopC, if_pos q, shrink_mono hm (by omega)]
          simp only [ha]
          exact hf k (by omega)
    · rename_i q
      refine ⟨0, fun k _ => ?_⟩
      cases k <;> rw [_root_.Net.rangeLoopC, if_neg q, h]

/-- Induction over the bound for the iterations. -/
theorem loop_ind {α : Type} {cond : M Bool} {body : M Ctl} {post : M Unit} (Q : Nat → α → Out Ctl → Prop) (S : α → St) (h0 : ∀ x, Q 0 x .stuck)
    (step : ∀ x j, (∀ y, Q j y (loop cond body post j (S y))) → Q (j + 1) x (loop cond body post (j + 1) (S x)))
    (x : α) {n : Nat} {s : St} (hs : s = S x) {r : Out Ctl} (hr : loop cond body post n s = r) : Q n x r := by
  subst hs hr
  induction n generalizing x with
  | zero => exact h0 x
  | succ n ih => exact step x n fun y => ih y

section
variable {P : Prog} (hP : findPkg path P.pkgs = some pkg) (hS : P.std = stdlib) (hB : elemN (n! "encoding/binary") (P.pkgs.map Pkg.path) = false)
include hP hS hB

set_option maxHeartbeats 4000000 in
/-- `AddRange` ends as the outer loop does, or uses up all fuel. -/
theorem run_AddRange {t : Nat} {f : Val} {World : List Val → σ → Prop} {merge : Val → Val → Eff (Node Val × σ) Val}
    (hf : Callback P t f World merge) (hA : Apart t f World) {value : Val} (hv : Plain value) {n : Nat} (hn : 34 ≤ n)
    {h : List Val} {s : Node Val × σ} (hs : Holds t f World h s) {va ve : Val} {a e : List (BitVec 8)} (ha : IsBytes h va a) (he : IsBytes h ve e) :
    ∃ ua ue, _root_.Net.Ipv4ToUint a = .ok ua ∧ _root_.Net.Ipv4ToUint e = .ok ue ∧
      match outer merge ue value (n + 1) ua s with
      | some r => Ends t f World r (run P (n + 2) path (n! "Tree") (n! "AddRange") [.ptr path (n! "Tree") t [], va, ve, value] h)
      | none => run P (n + 2) path (n! "Tree") (n! "AddRange") [.ptr path (n! "Tree") t [], va, ve, value] h = .stuck := by
  have hva := ha.has.plain
  have hve := he.has.plain
  have hR := elem_repo hP
  have hpf := hf.plain
  obtain ⟨ua, hua, hra⟩ := run_Ipv4ToUint hP hS hB ha n
  obtain ⟨ue, hue, hre⟩ := run_Ipv4ToUint hP hS hB he n
  refine ⟨ua, ue, hua, hue, ?_⟩
  rw [run_func hP find_AddRange]
  eval_go [hva, hve, hv, hR, hra, hre]
  generalize hlp : loop _ _ _ _ _ = o
  have key := loop_ind (fun j (x : BitVec 32 × List Val × (Node Val × σ)) r => Holds t f World x.2.1 x.2.2 →
      match outer merge ue value j x.1 x.2.2 with
      | some (some (), s') => ∃ h' u', r = .ok .next ⟨h', [(n! "uEnd", .u32 ue), (n! "uStart", .u32 u'), (n! "value", value), (n! "end", ve), (n! "start", va),
          (n! "t", .ptr path (n! "Tree") t [])]⟩ ∧ Holds t f World h' s'
      | some (none, s') => ∃ h', r = .panic h' ∧ Holds t f World h' s'
      | none => r = .stuck)
    (fun x => ⟨x.2.1, [(n! "uEnd", .u32 ue), (n! "uStart", .u32 x.1), (n! "value", value), (n! "end", ve), (n! "start", va),
          (n! "t", .ptr path (n! "Tree") t [])]⟩) (fun x _ => rfl) (by
      rintro ⟨u, h, s⟩ j ih hs
      simp only at hs ⊢
      clear hlp hra hre ha he
      rw [loop]
      by_cases hle : u ≤ ue
      · have hlt : ¬ ue < u := BitVec.not_lt.mpr hle
        obtain ⟨m, hm⟩ := shrink_done hle 32 ((u - 1#32) &&& ~~~u) (BitVec.isLt _)
        rw [outer, if_pos hle, hm]
        simp only
        eval_go [hlt, hva, hve, hv]
        generalize hi : loop _ _ _ (n + 1) _ = oi
        have hin : oi = .ok .next ⟨h, [(n! "m", .u32 m), (n! "uEnd", .u32 ue), (n! "uStart", .u32 u), (n! "value", value), (n! "end", ve), (n! "start", va),
            (n! "t", .ptr path (n! "Tree") t [])]⟩ := by
          refine loop_post (fun r => r = .ok .next ⟨h, [(n! "m", .u32 m), (n! "uEnd", .u32 ue), (n! "uStart", .u32 u), (n! "value", value), (n! "end", ve),
              (n! "start", va), (n! "t", .ptr path (n! "Tree") t [])]⟩)
            (fun x : Nat × BitVec 32 => _root_.Net.shrink u ue x.1 x.2 = some m)
            (fun x => ⟨h, [(n! "m", .u32 x.2), (n! "uEnd", .u32 ue), (n! "uStart", .u32 u), (n! "value", value), (n! "end", ve),
              (n! "start", va), (n! "t", .ptr path (n! "Tree") t [])]⟩) (fun x => x.1) ?_ (32, (u - 1#32) &&& ~~~u) hm (by simp; omega) rfl hi
          clear hi
          rintro ⟨k, x⟩ j hx hj ihj
          simp only at hx hj ⊢
          by_cases hgt : ue < u + x
          · cases k with
            | zero => rw [_root_.Net.shrink, if_pos hgt] at hx; cases hx
            | succ k =>
              rw [_root_.Net.shrink, if_pos hgt] at hx
              rw [loop]
              eval_go [hgt]
              exact ihj (k, x >>> 1) hx (by simp)
          · have : x = m := by
              cases k <;> rw [_root_.Net.shrink, if_neg hgt] at hx <;> exact Option.some.inj hx
            subst this
            rw [loop]
            eval_go [hgt]
        clear hi
        subst hin
        eval_go [hva, hve, hv]
        generalize hi : loop _ _ _ (n + 1) _ = oi
        have hin : oi = .ok .next ⟨h, [(n! "temp", .u32 0#32), (n! "bit", .u8 (_root_.Net.bitCount m 0#8)), (n! "m", .u32 m), (n! "uEnd", .u32 ue), (n! "uStart", .u32 u), (n! "value", value),
            (n! "end", ve), (n! "start", va), (n! "t", .ptr path (n! "Tree") t [])]⟩ := by
          refine loop_post (fun r => r = .ok .next ⟨h, [(n! "temp", .u32 0#32), (n! "bit", .u8 (_root_.Net.bitCount m 0#8)), (n! "m", .u32 m), (n! "uEnd", .u32 ue),
              (n! "uStart", .u32 u), (n! "value", value), (n! "end", ve), (n! "start", va), (n! "t", .ptr path (n! "Tree") t [])]⟩)
            (fun x : Nat × BitVec 32 × BitVec 8 => x.2.1.toNat < 2 ^ x.1 ∧ _root_.Net.bitCount x.2.1 x.2.2 = _root_.Net.bitCount m 0#8)
            (fun x => ⟨h, [(n! "temp", .u32 x.2.1), (n! "bit", .u8 x.2.2), (n! "m", .u32 m), (n! "uEnd", .u32 ue),
              (n! "uStart", .u32 u), (n! "value", value), (n! "end", ve), (n! "start", va), (n! "t", .ptr path (n! "Tree") t [])]⟩) (fun x => x.1) ?_
            (32, m, 0#8) ⟨m.isLt, rfl⟩ (by simp; omega) rfl hi
          clear hi
          rintro ⟨k, x, b⟩ j ⟨hk, hx⟩ hj ihj
          simp only at hk hx hj ⊢
          rw [loop]
          rw [_root_.Net.bitCount] at hx
          by_cases h0 : x = 0#32
          · subst h0
            rw [dif_neg (by simp)] at hx
            eval_go [hx]
          · rw [dif_pos h0] at hx
            cases k with
            | zero => exact absurd (BitVec.eq_of_toNat_eq (by simpa using hk)) h0
            | succ k =>
              eval_go [h0]
              exact ihj (k, x >>> 1, b + 1#8) ⟨half_lt hk, hx⟩ (by simp)
        clear hi
        subst hin
        obtain ⟨root, hr, hpr, ⟨s', h', hm, hs', hadd⟩ | ⟨s', h', v, o, hm, ho, hpv, hs', hadd⟩⟩ := assign_cases hP hf hA u (_root_.Net.bitCount m 0#8) hv hn hs
        · simp only [hm]
          refine ⟨h', ?_, hs'⟩
          eval_go [hva, hve, hv, hR, hr, hpr, hpf, const_add hP hpr hv hpf, hadd]
        · simp only [hm]
          have := ih (u + (m + 1#32), _, s') hs'
          simp only at this
          eval_go [hva, hve, hv, hR, hr, hpr, hpf, const_add hP hpr hv hpf, hadd, ho, hpv]
          exact this
      · have hlt : ue < u := BitVec.not_le.mp hle
        rw [outer, if_neg hle]
        refine ⟨h, u, ?_, hs⟩
        eval_go [hlt]) (ua, h, s) rfl hlp hs
  simp only at key
  clear hlp
  rcases hq : outer merge ue value (n + 1) ua s with _ | ⟨_ | _, s'⟩ <;> simp only [hq] at key ⊢
  · subst key
    eval_go
  · obtain ⟨h', rfl, hh⟩ := key
    refine ⟨h', ?_, hh⟩
    eval_go
  · obtain ⟨h', u', rfl, hh⟩ := key
    refine ⟨h', ?_, hh⟩
    eval_go

end
end Source.Net
