import Verif.Lemmas.NetHeap
import Verif.Props.Net
import Mathlib.Data.List.Nodup

/-!
# Properties C83 and C84: package `net` and the caller's memory

Programs with any number of trees and networks that pass any slices of their memory to the package, and change that memory and the
networks in between, also what they got from the package.
-/
namespace NetHeap
open Net NetSpec HashHeap

variable {V : Type} {merge : V → V → V}

theorem Run.trees {w w' : World V} {cs : List (Call V)} {evs : List (Event V)} (h : Run merge w cs w' evs) {t : Nat}
    {r' : Node V} (ht : w'.trees[t]? = some r') :
    (∃ r, w.trees[t]? = some r ∧ Runs merge r (opsOf t evs) r') ∨
      (w.trees.length ≤ t ∧ Runs merge New (opsOf t evs) r') := by
  induction h with
  | nil w => exact .inl ⟨r', ht, rfl⟩
  | @cons w c w1 ev cs w2 evs hl hd hr ih =>
    rw [opsOf_append]
    have he := Does_effect hd
    have hlen : w.trees.length ≤ w1.trees.length := by
      cases he with
      | new => simp
      | add => simp [setTree]
      | list => rw [(listLoop_spec _ w).1]
      | _ => exact Nat.le_refl _
    have hadd : w1.trees.length ≤ t → opsOf t ev = [] := by
      intro h
      cases he with
      | @add _ t1 op r r1 _ _ _ hrt hs =>
        obtain ⟨h1, _⟩ := List.getElem?_eq_some_iff.mp hrt
        simp only [setTree, List.length_set] at h
        have : t1 ≠ t := by omega
        simp [opsOf, this]
      | quiet _ _ _ h1 h2 =>
        rename_i e _ _ _
        cases e <;> first | rfl | (exact absurd rfl (h1 _ _))
      | fresh _ _ _ he => rcases he with rfl | rfl <;> rfl
      | _ => rfl
    rcases ih ht with ⟨r1, h1, h2⟩ | ⟨h1, h2⟩
    · rcases he.tree h1 with ⟨r, h3, h4⟩ | ⟨h3, h4, h5⟩
      · exact .inl ⟨r, h3, Runs_append _ _ h4 h2⟩
      · subst h4; right; rw [h5]; exact ⟨by omega, h2⟩
    · right; rw [hadd h1]; exact ⟨by omega, h2⟩

/-- A run ends where its parts end. -/
theorem Run.split {w w' : World V} {cs : List (Call V)} {evs : List (Event V)} (h : Run merge w cs w' evs) {pre post : List (Event V)}
    {t : Nat} {ret : List (Nat × V)} {bytes : List (IPNet × V)} (he : evs = pre ++ .listed t ret bytes :: post) :
    ∃ cs1 cs2 w1 w2, cs = cs1 ++ .list t :: cs2 ∧ Run merge w cs1 w1 pre ∧ Legal w1 (.list t) ∧
      Does merge w1 (.list t) w2 [.listed t ret bytes] ∧ Run merge w2 cs2 w' post := by
  induction h generalizing pre with
  | nil w => simp at he
  | @cons w c w1 ev cs w2 evs hl hd hr ih =>
    rcases List.append_eq_append_iff.mp he with ⟨a, h1, h2⟩ | ⟨a, h1, h2⟩
    · obtain ⟨cs1, cs2, v1, v2, h3, h4, h5, h6, h7⟩ := ih h2
      refine ⟨c :: cs1, cs2, v1, v2, by rw [h3]; rfl, ?_, h5, h6, h7⟩
      rw [h1]
      exact .cons hl hd h4
    · cases a with
      | nil =>
        simp only [List.append_nil, List.nil_append] at h1 h2
        obtain ⟨cs1, cs2, v1, v2, h3, h4, h5, h6, h7⟩ := ih (pre := []) h2.symm
        refine ⟨c :: cs1, cs2, v1, v2, by rw [h3]; rfl, ?_, h5, h6, h7⟩
        rw [← h1, ← List.append_nil ev]
        exact .cons hl hd h4
      | cons x a =>
        rw [List.cons_append, List.cons.injEq] at h2
        obtain ⟨rfl, h2⟩ := h2
        have key : pre = [] ∧ a = [] ∧ c = .list t := by
          have hd := Does_effect hd
          rw [h1] at hd
          generalize hg : pre ++ Event.listed t ret bytes :: a = g at hd
          have hm : Event.listed t ret bytes ∈ g := by rw [← hg]; simp
          cases hd with
          | add => simp at hm
          | list =>
            simp only [List.mem_singleton, Event.listed.injEq] at hm
            obtain ⟨rfl, _, _⟩ := hm
            have := congrArg List.length hg
            simp only [List.length_append, List.length_cons, List.length_nil] at this
            exact ⟨List.eq_nil_of_length_eq_zero (by omega), List.eq_nil_of_length_eq_zero (by omega), rfl⟩
          | quiet _ _ _ _ h2 => exact absurd (List.mem_singleton.mp hm).symm (h2 _ _ _)
          | fresh _ _ _ he => rcases he with rfl | rfl <;> simp at hm
          | _ => simp at hm
        obtain ⟨rfl, rfl, rfl⟩ := key
        rw [h1] at hd
        rw [List.nil_append] at h2
        exact ⟨[], cs, w, w1, rfl, .nil w, hl, hd, h2 ▸ hr⟩

/-! ## C83 -/

/-- **C83** A tree depends only on the bytes its arguments had when it was called: stores and assignments in between, and what happens
to other trees, do not change it. -/
theorem C83_tree {w : World V} {cs : List (Call V)} {evs : List (Event V)} (h : Run merge start cs w evs) {t : Nat} {r : Node V}
    (ht : w.trees[t]? = some r) : Runs merge New (opsOf t evs) r := by
  rcases h.trees ht with ⟨r0, h0, _⟩ | ⟨_, h1⟩
  · simp [start] at h0
  · exact h1

/-- **C83** The networks that `ListCidr` returns have on return the bytes that a lone tree would list for those calls. -/
theorem C83_list {w : World V} {cs : List (Call V)} {evs : List (Event V)} (h : Run merge start cs w evs)
    {pre post : List (Event V)} {t : Nat} {ret : List (Nat × V)} {bytes : List (IPNet × V)}
    (he : evs = pre ++ .listed t ret bytes :: post) : ∃ r, Runs merge New (opsOf t pre) r ∧ bytes = ListCidr r := by
  obtain ⟨cs1, cs2, w1, w2, _, h1, hl, h2, _⟩ := h.split he
  have hd := Does_effect h2
  generalize hg : [Event.listed t ret bytes] = g at hd
  cases hd with
  | list hr =>
    cases hg
    exact ⟨_, C83_tree h1 hr, rfl⟩
  | quiet h1 => exact absurd rfl (h1 t)
  | fresh h1 => exact absurd rfl (h1 t)
  | add h1 => exact absurd rfl (h1 t)

/-- **C83** So they contain exactly the addresses added before to that tree, if its arguments were IPv4 at the time of the calls. -/
theorem C83_exact {w : World V} {cs : List (Call V)} {evs : List (Event V)} (h : Run merge start cs w evs)
    {pre post : List (Event V)} {t : Nat} {ret : List (Nat × V)} {bytes : List (IPNet × V)}
    (he : evs = pre ++ .listed t ret bytes :: post) (h4 : ∀ op, .added t op ∈ pre → IPv4Args op) (a : Nat) :
    (∃ c ∈ bytes, Contains c.1 a) ↔ ∃ op, .added t op ∈ pre ∧ Adds a op := by
  obtain ⟨r, hr, rfl⟩ := C83_list h he
  have hm : ∀ op, op ∈ opsOf t pre ↔ .added t op ∈ pre := by
    intro op
    simp only [opsOf, List.mem_filterMap]
    constructor
    · rintro ⟨e, h1, h2⟩
      cases e with
      | added t' op' =>
        simp only at h2
        split at h2
        · rename_i h; cases h2; exact h ▸ h1
        · cases h2
      | _ => cases h2
    · intro h; exact ⟨_, h, by simp⟩
  rw [C16_exact (opsOf t pre) (fun op ho => h4 op ((hm op).mp ho)) hr a]
  simp only [hm]

/-- **C83** No call changes allocated memory, or the fields of a network; only the program's own assignments do. -/
theorem C83_frame {w w' : World V} {c : Call V} {ev : List (Event V)} (h : Does merge w c w' ev) :
    ((∀ x v, c ≠ .set x v) → ∀ x, x < w.top → w'.mem x = w.mem x) ∧
      ∀ n, n < w.nets.length → (∀ i m, c ≠ .setNet n i m) → w'.nets[n]? = w.nets[n]? :=
  ⟨fun hc _ hx => (Does_effect h).mem hc hx, fun _ hn hc => (Does_effect h).net hc hn⟩

/-- All addresses and masks of the networks pointed to. -/
def slices (w : World V) (ret : List (Nat × V)) : List Slice :=
  ret.flatMap fun p => match w.nets[p.1]? with | some n => [n.1, n.2] | none => []

theorem slices_ptrs (w : World V) (l : List (U32 × U8 × V)) : ∀ (k : Nat) (x : Nat),
    (∀ i, i < l.length → w.nets[k + i]? = some (⟨x + 8 * i, 4⟩, ⟨x + 8 * i + 4, 4⟩)) →
    slices w (ptrs k l) = (List.range (2 * l.length)).map fun i => ⟨x + 4 * i, 4⟩ := by
  induction l with
  | nil => intro k x _; rfl
  | cons p l ih =>
    intro k x h
    have h0 := h 0 (by simp)
    have hs := ih (k + 1) (x + 8) (fun i hi => by
      have := h (i + 1) (by simpa using hi)
      rw [show k + 1 + i = k + (i + 1) by omega, this, show x + 8 + 8 * i = x + 8 * (i + 1) by omega])
    simp only [slices, ptrs, List.flatMap_cons] at hs ⊢
    rw [hs]
    simp only [Nat.add_zero, Nat.mul_zero] at h0
    rw [h0, List.length_cons, show 2 * (l.length + 1) = (2 * l.length + 1) + 1 by omega, List.range_succ_eq_map, List.map_cons,
      List.map_map, List.range_succ_eq_map, List.map_cons, List.map_map]
    simp only [List.cons_append, List.nil_append, Nat.mul_zero, Nat.add_zero]
    congr 2
    apply List.map_congr_left
    intro i _
    simp only [Function.comp, Slice.mk.injEq, and_true]
    omega

/-- **C83** `ListCidr` returns new variables in new memory: no pointer or address was in use before, and no two of the slices share
a byte. -/
theorem C83_fresh {w w' : World V} {t : Nat} {ret : List (Nat × V)} {bytes : List (IPNet × V)}
    (h : Does merge w (.list t) w' [.listed t ret bytes]) :
    (∀ p ∈ ret, w.nets.length ≤ p.1 ∧ p.1 < w'.nets.length) ∧ (ret.map Prod.fst).Nodup ∧
      (∀ s ∈ slices w' ret, w.top ≤ s.base ∧ Alloc w' s ∧ s.len = 4) ∧ (slices w' ret).Pairwise Slice.Disjoint ∧
      (slices w' ret).length = 2 * ret.length := by
  have hd := Does_effect h
  generalize hg : [Event.listed t ret bytes] = g at hd
  cases hd with
  | quiet h1 => exact absurd rfl (h1 t)
  | fresh h1 => exact absurd rfl (h1 t)
  | add h1 => exact absurd rfl (h1 t)
  | @list _ r hr =>
    cases hg
    obtain ⟨_, h2, _, h4, h5, _⟩ := listLoop_spec (r.each 0#32 31#8) w
    generalize r.each 0#32 31#8 = l at *
    have hs : slices (listLoop w l).1 (listLoop w l).2 = (List.range (2 * l.length)).map fun i => ⟨w.top + 4 * i, 4⟩ := by
      rw [h5]
      apply slices_ptrs
      intro i hi
      rw [h4, List.getElem?_append_right (by omega), show w.nets.length + i - w.nets.length = i by omega, newNets_get _ _ _ hi]
    refine ⟨?_, ?_, ?_, ?_, ?_⟩
    · intro p hp
      rw [h5] at hp
      have hp := List.mem_map_of_mem (f := Prod.fst) hp
      rw [ptrs_fst] at hp
      obtain ⟨i, hi, he⟩ := List.mem_map.mp hp
      rw [h4, List.length_append, newNets_length]
      have := List.mem_range.mp hi
      omega
    · rw [h5, ptrs_fst]
      exact List.Nodup.map (fun a b h => by simpa using h) List.nodup_range
    · rw [hs]
      intro s hs'
      obtain ⟨i, hi, rfl⟩ := List.mem_map.mp hs'
      have := List.mem_range.mp hi
      refine ⟨Nat.le_add_right _ _, ?_, rfl⟩
      rw [Alloc, h2]
      dsimp only
      omega
    · rw [hs, List.pairwise_map]
      refine List.Pairwise.imp ?_ List.pairwise_lt_range
      rintro a b hab x ⟨⟨_, h1⟩, ⟨h2, _⟩⟩
      dsimp only at h1 h2
      omega
    · rw [hs, List.length_map, List.length_range, h5, ptrs_length]

/-- **C83** What `ListCidr` returned stays as it is through any further calls, until the program itself stores into it or assigns
to its fields. -/
theorem C83_stable {w w1 w2 : World V} {t : Nat} {ret : List (Nat × V)} {bytes : List (IPNet × V)} {cs : List (Call V)}
    {evs : List (Event V)} (hl : Does merge w (.list t) w1 [.listed t ret bytes]) (h : Run merge w1 cs w2 evs)
    (hset : ∀ x v, .set x v ∈ cs → ∀ s ∈ slices w1 ret, ¬ s.Has x) (hnet : ∀ n i m, .setNet n i m ∈ cs → ∀ p ∈ ret, p.1 ≠ n) :
    bytesAll w2 ret = bytes := by
  have hb : bytesAll w1 ret = bytes := by
    obtain ⟨fuel, hl⟩ := hl
    simp only [step] at hl
    obtain ⟨r, _, hl⟩ := bind_ok' hl
    cases hl
    rfl
  obtain ⟨f1, d1, f3, d2, d3⟩ := C83_fresh hl
  replace f1 : ∀ p ∈ ret, p.1 < w1.nets.length := fun p hp => (f1 p hp).2
  replace f3 : ∀ s ∈ slices w1 ret, Alloc w1 s := fun s hs => (f3 s hs).2.1
  clear hl
  clear d1 d2 d3
  induction h with
  | nil w => exact hb
  | @cons w c w1 ev cs w2 evs _ hd hr ih =>
    have he := Does_effect hd
    have hn : ∀ p ∈ ret, w1.nets[p.1]? = w.nets[p.1]? := fun p hp => by
      refine he.net ?_ (f1 p hp)
      intro i m e
      exact hnet p.1 i m (by rw [e]; simp) p hp rfl
    have hs : slices w1 ret = slices w ret := by
      unfold slices
      rw [List.flatMap_def, List.flatMap_def]
      congr 1
      exact List.map_congr_left fun p hp => by rw [hn p hp]
    have hm : ∀ s ∈ slices w ret, ∀ x, s.Has x → w1.mem x = w.mem x := by
      intro s hs x hx
      have hx' : x < w.top := by have h1 := f3 s hs; have h2 := hx.2; unfold Alloc at h1; omega
      by_cases hc : ∃ y v, c = .set y v
      · obtain ⟨y, v, rfl⟩ := hc
        have hne : x ≠ y := by rintro rfl; exact hset x v (by simp) s hs hx
        cases he with
        | set =>
          dsimp only
          rcases Nat.lt_or_gt_of_ne hne with h | h
          · exact store_lt h
          · exact store_ge (by simp only [List.length_singleton]; omega)
        | quiet _ h1 => exact absurd rfl (h1 _ _)
        | fresh _ h1 => exact absurd rfl (h1 _ _)
        | add _ h1 => exact absurd rfl (h1 _ _)
      · exact he.mem (fun y v e => hc ⟨y, v, e⟩) hx'
    apply ih
    · intro x v hx s hs'; rw [hs] at hs'; exact hset x v (List.mem_cons_of_mem _ hx) s hs'
    · intro n i m hx; exact hnet n i m (List.mem_cons_of_mem _ hx)
    · rw [← hb]
      unfold bytesAll
      apply List.map_congr_left
      intro p hp
      have hlt := f1 p hp
      have e1 : w1.nets.getD p.1 (⟨0, 0⟩, ⟨0, 0⟩) = w.nets[p.1] := by
        rw [List.getD, hn p hp, List.getElem?_eq_getElem hlt]; rfl
      have e2 : w.nets.getD p.1 (⟨0, 0⟩, ⟨0, 0⟩) = w.nets[p.1] := by rw [List.getD, List.getElem?_eq_getElem hlt]; rfl
      have mem1 : ∀ s, s = (w.nets[p.1]).1 ∨ s = (w.nets[p.1]).2 → s ∈ slices w ret := by
        intro s hs
        refine List.mem_flatMap.mpr ⟨p, hp, ?_⟩
        rw [List.getElem?_eq_getElem hlt]
        simpa using hs
      rw [e1, e2, bytesOf, bytesOf, content_congr (hm _ (mem1 _ (.inl rfl))), content_congr (hm _ (mem1 _ (.inr rfl)))]
    · intro p hp; exact Nat.lt_of_lt_of_le (f1 p hp) he.grows.2
    · intro s hs'; rw [hs] at hs'; exact Nat.le_trans (f3 s hs') he.grows.1

/-- **C83** Every call that can be written returns, except a range that ends at 255.255.255.255 and `LastIpv4` of a network with
fewer than 4 bytes of address or mask. -/
theorem C83_returns (merge : V → V → V) (w : World V) (c : Call V) (hl : Legal w c)
    (h1 : ∀ t s e v, c = .addRange t s e v → ¬ IPv4 (Slice.content w.mem e) 0xffffffff)
    (h2 : ∀ n, c = .last n → ∀ p, w.nets[n]? = some p → 4 ≤ p.1.len ∧ 4 ≤ p.2.len) : ∃ w' ev, Does merge w c w' ev := by
  have one : ∀ (r : Node V) (op : Op V), (∀ s e v, op = .addRange s e v → ¬ IPv4 e 0xffffffff) → ∃ r', Step merge r op r' := by
    intro r op h
    obtain ⟨r', r1, h1, _⟩ := C16_runs merge [op] (by simpa using h) r
    exact ⟨r1, h1⟩
  cases c with
  | new => exact ⟨_, _, 0, rfl⟩
  | addIp t ip v =>
    obtain ⟨r', hr⟩ := one (w.trees[t]'hl.1) (.addIp (Slice.content w.mem ip) v) (by simp)
    refine ⟨setTree w t r', [.added t (.addIp (Slice.content w.mem ip) v)], 0, ?_⟩
    simp only [step]
    rw [goIdx_lt hl.1, Res.ok_bind, show AddIp merge _ _ _ = _ from hr]
    rfl
  | addRange t s e v =>
    obtain ⟨r', fuel, hr⟩ := one (w.trees[t]'hl.1) (.addRange (Slice.content w.mem s) (Slice.content w.mem e) v) (by
      rintro _ _ _ he; cases he; exact h1 t s e v rfl)
    refine ⟨setTree w t r', [.added t (.addRange (Slice.content w.mem s) (Slice.content w.mem e) v)], fuel, ?_⟩
    simp only [step]
    rw [goIdx_lt hl.1, Res.ok_bind, hr]
    rfl
  | addCidr t n v =>
    obtain ⟨r', hr⟩ := one (w.trees[t]'hl.1) (.addCidr (bytesOf w.mem (w.nets[n]'hl.2)) v) (by simp)
    refine ⟨setTree w t r', [.added t (.addCidr (bytesOf w.mem (w.nets[n]'hl.2)) v)], 0, ?_⟩
    simp only [step]
    rw [goIdx_lt hl.1, Res.ok_bind, goIdx_lt hl.2, Res.ok_bind, show AddCidr merge _ _ _ = _ from hr]
    rfl
  | list t => exact ⟨_, _, 0, by simp only [step]; rw [goIdx_lt hl]; rfl⟩
  | first n => exact ⟨_, _, 0, by simp only [step]; rw [goIdx_lt hl]; rfl⟩
  | last n =>
    obtain ⟨ha, hb⟩ := h2 n rfl _ (List.getElem?_eq_getElem hl)
    have l1 := content_length w.mem (w.nets[n]'hl).1
    have l2 := content_length w.mem (w.nets[n]'hl).2
    have hd : ∃ d, LastIpv4 (bytesOf w.mem (w.nets[n]'hl)) = .ok d := by
      simp only [LastIpv4, bytesOf]
      iterate 4 rw [goIdx_lt (by omega), Res.ok_bind, goIdx_lt (by omega), Res.ok_bind]
      exact ⟨_, rfl⟩
    obtain ⟨d, hd⟩ := hd
    exact ⟨_, _, 0, by simp only [step]; rw [goIdx_lt hl, Res.ok_bind, hd]; rfl⟩
  | equal a b => exact ⟨_, _, 0, by simp only [step]; rw [goIdx_lt hl.1, Res.ok_bind, goIdx_lt hl.2]; rfl⟩
  | fromUint u => exact ⟨_, _, 0, rfl⟩
  | toUint ip =>
    have hu : ∃ u, Ipv4ToUint (Slice.content w.mem ip) = .ok u := by
      by_cases h : ∃ u, IPv4 (Slice.content w.mem ip) u
      · obtain ⟨u, h⟩ := h
        obtain ⟨v, hv, _⟩ := Ipv4ToUint_of h
        exact ⟨v, hv⟩
      · exact ⟨_, Ipv4ToUint_not h⟩
    obtain ⟨u, hu⟩ := hu
    exact ⟨_, _, 0, by simp only [step]; rw [hu]; rfl⟩
  | fromByte u => exact ⟨_, _, 0, rfl⟩
  | toByte m => exact ⟨_, _, 0, rfl⟩
  | set x v => exact ⟨_, _, 0, rfl⟩
  | make k => exact ⟨_, _, 0, rfl⟩
  | mkNet i m => exact ⟨_, _, 0, rfl⟩
  | setNet n i m => exact ⟨_, _, 0, rfl⟩

/-- A program: the tree gets the bytes 10.0.0.0 as an address; then they are changed to 10.0.0.9 and the tree is listed. It lists
10.0.0.0 only. -/
example : ∃ w evs ret bytes, Run (V := Nat) (· + ·) start [.make 4, .set 0 10, .new, .addIp 0 ⟨0, 4⟩ 7, .set 3 9, .list 0] w evs ∧
    evs = [.added 0 (.addIp [10, 0, 0, 0] 7), .listed 0 ret bytes] ∧
    (∀ a, (∃ c ∈ bytes, Contains c.1 a) ↔ a = 10 * 2 ^ 24) ∧ bytesAll w ret = bytes := by
  have hr : ∃ w evs ret bytes, Run (V := Nat) (· + ·) start [.make 4, .set 0 10, .new, .addIp 0 ⟨0, 4⟩ 7, .set 3 9, .list 0] w evs ∧
      evs = [.added 0 (.addIp [10, 0, 0, 0] 7), .listed 0 ret bytes] ∧ bytesAll w ret = bytes := by
    obtain ⟨r, r1, hr, _⟩ := C16_runs (V := Nat) (· + ·) [.addIp [10, 0, 0, 0] 7] (by simp) New
    let wB : World Nat := ⟨store (store (fun _ => 0#8) 0 (List.replicate 4 0#8)) 0 [10], 4, [], [New]⟩
    let wA : World Nat := ⟨store (store (store (fun _ => 0#8) 0 (List.replicate 4 0#8)) 0 [10]) 3 [9], 4, [], [r1]⟩
    let res := listLoop wA (r1.each 0#32 31#8)
    refine ⟨res.1, [] ++ ([] ++ ([] ++ ([.added 0 (.addIp [10, 0, 0, 0] 7)] ++ ([] ++ ([.listed 0 res.2 (bytesAll res.1 res.2)] ++ []))))),
      res.2, _, ?_, rfl, rfl⟩
    have hadd : Does (· + ·) wB (.addIp 0 ⟨0, 4⟩ 7) (setTree wB 0 r1) [.added 0 (.addIp [10, 0, 0, 0] 7)] := by
      refine ⟨0, ?_⟩
      show (AddIp (· + ·) New [10, 0, 0, 0] 7 >>= fun r => Res.ok (some (setTree wB 0 r, _))) = _
      rw [show AddIp _ _ _ _ = _ from hr]
      rfl
    refine .cons trivial ⟨0, rfl⟩ (.cons (by show 0 < 4; omega) ⟨0, rfl⟩ (.cons trivial ⟨0, rfl⟩ (.cons ?_ hadd
      (.cons (w1 := wA) (by show 3 < 4; omega) ⟨0, rfl⟩ (.cons ?_ ⟨0, rfl⟩ (.nil _))))))
    · exact ⟨by show 0 < 1; omega, by show 4 ≤ 4; omega⟩
    · show 0 < 1; omega
  obtain ⟨w, evs, ret, bytes, h1, h2, h3⟩ := hr
  refine ⟨w, evs, ret, bytes, h1, h2, ?_, h3⟩
  intro a
  rw [C83_exact h1 (pre := [.added 0 (.addIp [10, 0, 0, 0] 7)]) (post := []) h2]
  · simp only [List.mem_singleton, Event.added.injEq, true_and, exists_eq_left, Adds]
    constructor
    · rintro ⟨a, b, c, d, h | h, e⟩
      · simp only [List.cons.injEq] at h
        obtain ⟨rfl, rfl, rfl, rfl, _⟩ := h
        simpa using e
      · simp at h
    · rintro rfl
      exact ⟨10, 0, 0, 0, .inl rfl, rfl⟩
  · intro op ho
    simp only [List.mem_singleton, Event.added.injEq, true_and] at ho
    subst ho
    exact ⟨_, 10, 0, 0, 0, .inl rfl, rfl⟩

/-! ## C84 -/

/-- **C84** Slices returned by the functions other than `FirstIpv4` are new memory with the bytes of the result for the bytes the
arguments had. (Full statement: also those of `FirstIpv4`; false, see `C84_not`.) -/
theorem C84_partial {w w' : World V} {c : Call V} {s : Slice} {bytes : List U8} (h : Does merge w c w' [.slice s bytes])
    (hc : ∀ n, c ≠ .first n) :
    w.top ≤ s.base ∧ Alloc w' s ∧ Slice.content w'.mem s = bytes ∧
      ((∃ u, c = .fromUint u ∧ bytes = Ipv4FromUint u) ∨ (∃ b, c = .fromByte b ∧ bytes = MaskFromByte b) ∨
        ∃ n p, c = .last n ∧ w.nets[n]? = some p ∧ LastIpv4 (bytesOf w.mem p) = .ok bytes) := by
  obtain ⟨fuel, h⟩ := h
  cases c with
  | first n => exact absurd rfl (hc n)
  | last n =>
    simp only [step] at h
    obtain ⟨p, hp, h⟩ := bind_ok' h
    obtain ⟨d, hd, h⟩ := bind_ok' h
    cases h
    exact ⟨Nat.le_refl _, Nat.le_refl _, rfl, .inr (.inr ⟨n, p, rfl, goIdx_some hp, by rw [alloc_content]; exact hd⟩)⟩
  | fromUint u =>
    simp only [step] at h
    cases h
    exact ⟨Nat.le_refl _, Nat.le_refl _, rfl, .inl ⟨u, rfl, alloc_content _ _⟩⟩
  | fromByte u =>
    simp only [step] at h
    cases h
    exact ⟨Nat.le_refl _, Nat.le_refl _, rfl, .inr (.inl ⟨u, rfl, alloc_content _ _⟩)⟩
  | addRange t s e v =>
    simp only [step] at h
    obtain ⟨r, _, h⟩ := bind_ok' h
    obtain ⟨r', _, h⟩ := bind_ok' h
    cases r' <;> cases h
  | addIp =>
    simp only [step] at h
    obtain ⟨r, _, h⟩ := bind_ok' h
    obtain ⟨r', _, h⟩ := bind_ok' h
    cases h
  | addCidr =>
    simp only [step] at h
    obtain ⟨r, _, h⟩ := bind_ok' h
    obtain ⟨n, _, h⟩ := bind_ok' h
    obtain ⟨r', _, h⟩ := bind_ok' h
    cases h
  | list => simp only [step] at h; obtain ⟨r, _, h⟩ := bind_ok' h; cases h
  | equal =>
    simp only [step] at h
    obtain ⟨r, _, h⟩ := bind_ok' h
    obtain ⟨r', _, h⟩ := bind_ok' h
    cases h
  | toUint => simp only [step] at h; obtain ⟨r, _, h⟩ := bind_ok' h; cases h
  | _ => simp only [step] at h; cases h

/-- **C84** `FirstIpv4` returns the slice in the network itself: a store into the result changes the address of the network. -/
theorem C84_first {w w' : World V} {n : Nat} {s : Slice} {bytes : List U8} (h : Does merge w (.first n) w' [.slice s bytes])
    {i : Nat} (hi : i < s.len) (v : U8) : ∃ p, w.nets[n]? = some p ∧ s = p.1 ∧ bytes = Slice.content w.mem p.1 ∧
      ∀ w1 ev, Does merge w' (.set (s.base + i) v) w1 ev →
        w1.nets[n]? = some p ∧ Slice.content w1.mem p.1 = (Slice.content w.mem p.1).set i v := by
  obtain ⟨fuel, h⟩ := h
  simp only [step] at h
  obtain ⟨p, hp, h⟩ := bind_ok' h
  cases h
  refine ⟨p, goIdx_some hp, rfl, rfl, ?_⟩
  rintro w1 ev ⟨fuel', h1⟩
  simp only [step] at h1
  cases h1
  refine ⟨goIdx_some hp, ?_⟩
  apply List.ext_getElem
  · simp [content_length]
  · intro j h1 h2
    rw [List.getElem_set]
    simp only [Slice.content, List.getElem_map, List.getElem_range]
    split
    · rename_i e; subst e; rw [store_in (by omega) (by simp)]; simp
    · rename_i e
      rcases Nat.lt_or_gt_of_ne e with h | h
      · exact store_ge (by simp only [List.length_singleton]; omega)
      · exact store_lt (by omega)

/-- A program that makes the network 10.0.0.0/8. -/
def makeTen : List (Call Nat) := [.make 8, .set 0 10, .set 4 255, .mkNet ⟨0, 4⟩ ⟨4, 4⟩]

/-- The state after it. -/
def ten : World Nat :=
  ⟨store (store (store (fun _ => 0#8) 0 (List.replicate 8 0#8)) 0 [10]) 4 [255], 8, [(⟨0, 4⟩, ⟨4, 4⟩)], []⟩

theorem ten_run : Run (V := Nat) (· + ·) start makeTen ten [] :=
  .cons (ev := []) trivial ⟨0, rfl⟩ (.cons (ev := []) (by show 0 < 8; omega) ⟨0, rfl⟩ (.cons (ev := []) (by show 4 < 8; omega) ⟨0, rfl⟩
    (.cons (ev := []) (by constructor <;> (show _ ≤ 8; decide)) ⟨0, rfl⟩ (.nil _))))

/-- **C84** Not every slice returned is new memory: the first address of 10.0.0.0/8 is the address of the network. -/
theorem C84_not : ¬ ∀ (w w' : World Nat) (c : Call Nat) (s : Slice) (bytes : List U8),
    (∃ cs evs, Run (· + ·) start cs w evs) → Legal w c → Does (· + ·) w c w' [.slice s bytes] → ∀ x, s.Has x → w.top ≤ x := by
  intro h
  have := h ten ten (.first 0) ⟨0, 4⟩ [10, 0, 0, 0] ⟨_, _, ten_run⟩ (by show 0 < 1; omega) ⟨0, rfl⟩ 0 ⟨by simp, by simp⟩
  simp [ten] at this

/-- The program goes on: it stores 1 into the last byte of the first address, and the network is 10.0.0.1. -/
example : ∃ w evs, Run (· + ·) start (makeTen ++ [.first 0, .set 3 1, .first 0]) w evs ∧
    evs = [.slice ⟨0, 4⟩ [10, 0, 0, 0], .slice ⟨0, 4⟩ [10, 0, 0, 1]] := by
  refine ⟨{ ten with mem := store ten.mem 3 [1] }, [] ++ ([] ++ ([] ++ ([] ++ ([.slice ⟨0, 4⟩ [10, 0, 0, 0]] ++ ([] ++ ([.slice ⟨0, 4⟩ [10, 0, 0, 1]] ++ [])))))),
    ?_, rfl⟩
  refine .cons trivial ⟨0, rfl⟩ (.cons (by show 0 < 8; omega) ⟨0, rfl⟩ (.cons (by show 4 < 8; omega) ⟨0, rfl⟩
    (.cons (by constructor <;> (show _ ≤ 8; decide)) ⟨0, rfl⟩ (.cons (by show 0 < 1; omega) ⟨0, rfl⟩
      (.cons (by show 3 < 8; omega) ⟨0, rfl⟩ (.cons (by show 0 < 1; omega) ⟨0, rfl⟩ (.nil _)))))))

end NetHeap
