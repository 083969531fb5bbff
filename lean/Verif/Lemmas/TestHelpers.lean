import Verif.Model.TestHelpers
import Verif.Spec.TestHelpers
import Mathlib.Data.List.Basic
import Mathlib.Tactic.SplitIfs

/-! # Lemmas about the string comparison report -/
namespace TestHelpers
open TestSpec

/-! ## Indexed lists -/

theorem idx_map {α : Type} (f : Nat → α) {n i : Nat} (h : i < n) : goIdx ((List.range n).map f) i = .ok (f i) := by
  rw [goIdx_lt (by simpa using h)]
  simp

theorem set_map {α : Type} (f : Nat → α) {n i : Nat} (v : α) (h : i < n) :
    goSet ((List.range n).map f) i v = .ok ((List.range n).map fun m => if m = i then v else f m) := by
  rw [goSet_lt (by simpa using h)]
  congr 1
  apply List.ext_getElem
  · simp
  · intro k h1 h2
    simp only [List.getElem_set, List.getElem_map, List.getElem_range]
    by_cases hk : i = k
    · simp [hk]
    · rw [if_neg hk, if_neg (fun e => hk e.symm)]

theorem setZ_map {α : Type} (f : Nat → α) {n i : Nat} {z : Int} (v : α) (hz : z = i) (h : i < n) :
    goSetZ ((List.range n).map f) z v = .ok ((List.range n).map fun m => if m = i then v else f m) := by
  subst hz
  rw [goSetZ, if_pos (by omega), Int.toNat_natCast, set_map f v h]

theorem map_congr {α : Type} {f g : Nat → α} {n : Nat} (h : ∀ m, m < n → f m = g m) :
    (List.range n).map f = (List.range n).map g :=
  List.map_congr_left fun m hm => h m (List.mem_range.mp hm)

theorem idxZ {α : Type} {s : List α} {z : Int} {i : Nat} (hz : z = i) (h : i < s.length) : goIdxZ s z = .ok s[i] := by
  subst hz
  rw [goIdxZ, if_pos (by omega), Int.toNat_natCast, goIdx_lt h]

/-! ## Common prefixes -/

section
variable {α : Type} [DecidableEq α]

theorem common_le_left : ∀ a b : List α, common a b ≤ a.length
  | [], _ => by simp [common]
  | a :: as, [] => by simp [common]
  | a :: as, b :: bs => by
    unfold common; split
    · simpa using common_le_left as bs
    · simp

theorem common_le_right : ∀ a b : List α, common a b ≤ b.length
  | [], _ => by simp [common]
  | a :: as, [] => by simp [common]
  | a :: as, b :: bs => by
    unfold common; split
    · simpa using common_le_right as bs
    · simp

theorem common_take : ∀ a b : List α, a.take (common a b) = b.take (common a b)
  | [], _ => by simp [common]
  | a :: as, [] => by simp [common]
  | a :: as, b :: bs => by
    unfold common; split
    · next h => rw [List.take_succ_cons, List.take_succ_cons, common_take as bs, h]
    · rfl

theorem common_next : ∀ (a b : List α) (x y : α), a[common a b]? = some x → b[common a b]? = some y → x ≠ y
  | [], _, _, _ => by simp
  | a :: as, [], _, _ => by simp
  | a :: as, b :: bs, x, y => by
    unfold common; split
    · simpa using common_next as bs x y
    · next h =>
      intro h1 h2
      simp only [List.getElem?_cons_zero, Option.some.injEq] at h1 h2
      rw [← h1, ← h2]; exact h

theorem common_drop_step {a b : List α} {j : Nat} (ha : j < a.length) (hb : j < b.length) :
    common (a.drop j) (b.drop j) = if a[j] = b[j] then common (a.drop (j + 1)) (b.drop (j + 1)) + 1 else 0 := by
  rw [List.drop_eq_getElem_cons ha, List.drop_eq_getElem_cons hb, common]

theorem common_drop_end {a b : List α} {j : Nat} (h : a.length ≤ j ∨ b.length ≤ j) : common (a.drop j) (b.drop j) = 0 := by
  rcases h with h | h
  · rw [List.drop_of_length_le h]; rfl
  · rw [List.drop_of_length_le h]; cases a.drop j <;> rfl

end

/-! ## The first mismatch -/

theorem markByte_eq {r : List U8} (h : r ≠ []) : markByte r = .ok (mark r) := by
  unfold markByte mark
  by_cases h1 : r = [0x7f#8]
  · rw [if_pos h1, if_pos h1]
  · rw [if_neg h1, if_neg h1]
    match r, h with
    | b :: t, _ =>
      rw [goIdx_lt (by simp)]
      simp only [List.getElem_cons_zero, Res.ok_bind, List.headD_cons, Res.pure_eq]
      by_cases h2 : b.toNat < 32
      · rw [if_pos h2]; exact congrArg Res.ok (if_pos h2).symm
      · rw [if_neg h2]; exact congrArg Res.ok (if_neg h2).symm

theorem firstLoop_eq (e f : List (List U8)) (he : ∀ r ∈ e, r ≠ []) (M : Nat) (hM : common e f < M) : ∀ (n i : Nat) (g : Nat → U8),
    e.length - i = n → i + common (e.drop i) (f.drop i) = common e f →
    firstLoop e f i ((List.range M).map g) = .ok (common e f, (List.range M).map fun m =>
      if i ≤ m ∧ m < common e f then mark (e.getD m []) else g m) := by
  intro n
  induction n with
  | zero =>
    intro i g hn hi
    rw [firstLoop, dif_neg (by omega)]
    rw [common_drop_end (.inl (by omega)), Nat.add_zero] at hi
    rw [hi]
    congr 2
    apply map_congr
    intro m _
    rw [if_neg (by omega)]
  | succ n ih =>
    intro i g hn hi
    rw [firstLoop, dif_pos (by omega)]
    by_cases hf : f.length ≤ i
    · rw [if_pos hf]
      rw [common_drop_end (.inr hf), Nat.add_zero] at hi
      rw [hi]
      congr 2
      apply map_congr
      intro m _
      rw [if_neg (by omega)]
    · have hie : i < e.length := by omega
      have hif : i < f.length := by omega
      rw [if_neg hf, goIdx_lt hie, goIdx_lt hif]
      simp only [Res.ok_bind]
      rw [common_drop_step hie hif] at hi
      by_cases hq : e[i] = f[i]
      · rw [if_neg (by simpa using hq), markByte_eq (he _ (List.getElem_mem hie))]
        rw [if_pos hq] at hi
        simp only [Res.ok_bind]
        rw [set_map g _ (by omega)]
        simp only [Res.ok_bind]
        rw [ih (i + 1) _ (by omega) (by omega)]
        congr 2
        apply map_congr
        intro m _
        by_cases h1 : m = i
        · subst h1
          rw [if_neg (by omega), if_pos rfl, if_pos (by omega), List.getD_eq_getElem?_getD, List.getElem?_eq_getElem hie]
          rfl
        · rw [if_neg h1]
          by_cases h2 : i ≤ m ∧ m < common e f
          · rw [if_pos h2, if_pos (by omega)]
          · rw [if_neg h2, if_neg (by omega)]
      · rw [if_pos hq]
        rw [if_neg hq, Nat.add_zero] at hi
        rw [hi]
        show Res.ok _ = _
        congr 2
        apply map_congr
        intro m _
        rw [if_neg (by omega)]

/-! ## The last mismatch -/

theorem rev_get {e : List (List U8)} {s j : Nat} (h : j < (e.drop s).reverse.length) :
    (e.drop s).reverse[j] = e[e.length - 1 - j]'(by simp at h; omega) := by
  simp only [List.getElem_reverse, List.getElem_drop, List.length_drop]
  congr 1
  simp at h
  omega

theorem lastLoop_eq (e f : List (List U8)) (first M T : Nat) (hf1 : first ≤ e.length) (hf2 : first ≤ f.length)
    (hT : T = common (e.drop (first + 1)).reverse (f.drop (first + 1)).reverse) (hM : T + 2 ≤ M) : ∀ (n j : Nat) (g : Nat → U8),
    T - j = n → j + common ((e.drop (first + 1)).reverse.drop j) ((f.drop (first + 1)).reverse.drop j) = T →
    lastLoop e f ((M : Int) - e.length - 1) first ((e.length : Int) - 1 - j) ((f.length : Int) - 1 - j) ((List.range M).map g) =
      .ok ((e.length : Int) - 1 - T, (List.range M).map fun m => if M ≤ m + 1 + T ∧ m + 1 + j < M then 0x2D#8 else g m) := by
  intro n
  induction n with
  | zero =>
    intro j g hn hj
    have hjT : j = T := by omega
    subst hjT
    have h0 : common ((e.drop (first + 1)).reverse.drop j) ((f.drop (first + 1)).reverse.drop j) = 0 := by omega
    have hfun : (List.range M).map g = (List.range M).map fun m => if M ≤ m + 1 + j ∧ m + 1 + j < M then 0x2D#8 else g m := by
      apply map_congr
      intro m _
      rw [if_neg (by omega)]
    rw [lastLoop]
    by_cases hc : (e.length : Int) - 1 - j > first ∧ (f.length : Int) - 1 - j > first
    · rw [dif_pos hc]
      have h1 : j < (e.drop (first + 1)).reverse.length := by simp; omega
      have h2 : j < (f.drop (first + 1)).reverse.length := by simp; omega
      rw [common_drop_step h1 h2, rev_get, rev_get] at h0
      rw [idxZ (i := e.length - 1 - j) (by omega) (by omega), idxZ (i := f.length - 1 - j) (by omega) (by omega)]
      simp only [Res.ok_bind]
      by_cases hq : e[e.length - 1 - j]'(by omega) = f[f.length - 1 - j]'(by omega)
      · rw [if_pos hq] at h0; omega
      · rw [if_pos hq, ← hfun]; rfl
    · rw [dif_neg hc, ← hfun]
  | succ n ih =>
    intro j g hn hj
    have h1 : j < (e.drop (first + 1)).reverse.length := by
      by_contra h
      rw [common_drop_end (.inl (by omega))] at hj; omega
    have h2 : j < (f.drop (first + 1)).reverse.length := by
      by_contra h
      rw [common_drop_end (.inr (by omega))] at hj; omega
    rw [common_drop_step h1 h2, rev_get, rev_get] at hj
    simp only [List.length_reverse, List.length_drop] at h1 h2
    have hq : e[e.length - 1 - j]'(by omega) = f[f.length - 1 - j]'(by omega) := by
      by_contra hq
      rw [if_neg hq] at hj; omega
    rw [if_pos hq] at hj
    rw [lastLoop, dif_pos (by omega), idxZ (i := e.length - 1 - j) (by omega) (by omega),
      idxZ (i := f.length - 1 - j) (by omega) (by omega)]
    simp only [Res.ok_bind]
    rw [if_neg (by simpa using hq), setZ_map g (i := M - 2 - j) _ (by omega) (by omega)]
    simp only [Res.ok_bind]
    rw [show (e.length : Int) - 1 - j - 1 = (e.length : Int) - 1 - (j + 1 : Nat) by omega,
      show (f.length : Int) - 1 - j - 1 = (f.length : Int) - 1 - (j + 1 : Nat) by omega, ih (j + 1) _ (by omega) (by omega)]
    congr 2
    apply map_congr
    intro m hm
    by_cases h3 : m = M - 2 - j
    · rw [if_pos h3, if_neg (by omega), if_pos (by omega)]
    · rw [if_neg h3]
      by_cases h4 : M ≤ m + 1 + T ∧ m + 1 + j < M
      · rw [if_pos h4, if_pos (by omega)]
      · rw [if_neg h4, if_neg (by omega)]

theorem fillLoop_eq (first M : Nat) : ∀ (n : Nat) (i : Int) (g : Nat → U8), (i - first).toNat = n → i < M →
    fillLoop first i ((List.range M).map g) = .ok ((List.range M).map fun (m : Nat) => if first < m ∧ (m : Int) ≤ i then 0x20#8 else g m) := by
  intro n
  induction n with
  | zero =>
    intro i g hn hi
    rw [fillLoop, dif_neg (by omega)]
    congr 1
    apply map_congr
    intro m _
    rw [if_neg (by omega)]
  | succ n ih =>
    intro i g hn hi
    rw [fillLoop, dif_pos (by omega), setZ_map g (i := i.toNat) _ (by omega) (by omega)]
    simp only [Res.ok_bind]
    rw [ih (i - 1) _ (by omega) (by omega)]
    congr 1
    apply map_congr
    intro m _
    by_cases h1 : first < m ∧ (m : Int) ≤ i - 1
    · rw [if_pos h1, if_pos (by omega)]
    · rw [if_neg h1]
      by_cases h2 : m = i.toNat
      · rw [if_pos h2, if_pos (by omega)]
      · rw [if_neg h2, if_neg (by omega)]

theorem headMatch_le (e f : List (List U8)) : headMatch e f ≤ e.length ∧ headMatch e f ≤ f.length :=
  ⟨common_le_left _ _, common_le_right _ _⟩

theorem tailMatch_le (e f : List (List U8)) : tailMatch e f ≤ e.length - headMatch e f - 1 ∧
    tailMatch e f ≤ f.length - headMatch e f - 1 := by
  have h1 := common_le_left (e.drop (headMatch e f + 1)).reverse (f.drop (headMatch e f + 1)).reverse
  have h2 := common_le_right (e.drop (headMatch e f + 1)).reverse (f.drop (headMatch e f + 1)).reverse
  simp only [List.length_reverse, List.length_drop] at h1 h2
  unfold tailMatch
  omega

/-- Both passes over the marker line. -/
theorem marks_eq (e f : List (List U8)) (he : ∀ r ∈ e, r ≠ []) (n : Nat) (hn : headMatch e f < n) (hn' : tailMatch e f + headMatch e f < n) :
    (do let (first, marker) ← findFirstMismatch e f (List.replicate (n + 1) 0#8)
        let (last, marker) ← findLastMismatch e f marker first
        pure (first, last, marker)) = Res.ok (headMatch e f, -(tailMatch e f : Int), markers e f n) := by
  have hr : List.replicate (n + 1) 0#8 = (List.range (n + 1)).map fun _ => 0#8 := by
    rw [List.map_const', List.length_range]
  have hh := headMatch_le e f
  unfold findFirstMismatch
  rw [hr, firstLoop_eq e f he (n + 1) (by unfold headMatch at hn; omega) _ 0 _ rfl (by simp)]
  simp only [Res.ok_bind]
  rw [set_map _ _ (by unfold headMatch at hn; omega)]
  simp only [Res.ok_bind, Res.pure_eq]
  unfold findLastMismatch
  simp only [List.length_map, List.length_range]
  have hl := fun g => lastLoop_eq e f (common e f) (n + 1) (tailMatch e f) hh.1 hh.2 rfl (by omega) (tailMatch e f - 0) 0 g rfl
    (by simp [tailMatch, headMatch])
  simp only [Int.natCast_zero, Int.sub_zero] at hl
  rw [hl]
  simp only [Res.ok_bind]
  rw [fillLoop_eq _ _ _ _ _ rfl (by omega)]
  simp only [Res.ok_bind]
  rw [setZ_map _ (i := n - 1 - tailMatch e f) _ (by omega) (by omega)]
  simp only [Res.ok_bind]
  refine congrArg Res.ok (Prod.ext rfl (Prod.ext ?_ ?_))
  · show (e.length : Int) - 1 - tailMatch e f - e.length + 1 = -(tailMatch e f : Int)
    omega
  · dsimp only
    unfold markers
    apply map_congr
    intro m hm
    have hc : headMatch e f = common e f := rfl
    rw [hc] at hn hn' ⊢
    split_ifs <;> first | rfl | omega

/-! ## Rendering -/

theorem copy_append {D S : List U8} {r p : Nat} (hp : p = D.length) (h : S.length ≤ r) :
    goCopyAt (D ++ List.replicate r 0#8) p S = .ok (D ++ S ++ List.replicate (r - S.length) 0#8) := by
  subst hp
  unfold goCopyAt
  rw [if_pos (by simp)]
  simp only [List.length_append, List.length_replicate]
  rw [Nat.add_sub_cancel_left, Nat.min_eq_right h, List.take_left' rfl, List.take_of_length_le (Nat.le_refl _),
    List.drop_append, List.drop_of_length_le (by omega), List.nil_append, Nat.add_sub_cancel_left, List.drop_replicate]

theorem copyZ_append {D S : List U8} {r : Nat} {p : Int} (hp : p = D.length) (h : S.length ≤ r) :
    goCopyAtZ (D ++ List.replicate r 0#8) p S = .ok (D ++ S ++ List.replicate (r - S.length) 0#8) := by
  rw [goCopyAtZ, if_pos (by omega), copy_append (by omega) h]

theorem setZ_append {D : List U8} {r : Nat} {p : Int} {v : U8} (hp : p = D.length) :
    goSetZ (D ++ List.replicate (r + 1) 0#8) p v = .ok (D ++ [v] ++ List.replicate r 0#8) := by
  rw [goSetZ, if_pos (by omega), goSet_lt (by simp; omega), show p.toNat = D.length by omega, List.set_append_right _ _ (by omega),
    Nat.sub_self, List.replicate_succ, List.set_cons_zero]
  simp

theorem blankLoop_eq (me : Int) : ∀ (k : Nat) (i : Int) (D : List U8) (r : Nat), me + 4 + i = D.length → 2 * k ≤ r →
    blankLoop me k i (D ++ List.replicate r 0#8) = .ok (D ++ dots k ++ List.replicate (r - 2 * k) 0#8)
  | 0, i, D, r, _, _ => by simp [blankLoop, dots]
  | k + 1, i, D, r, hD, hr => by
    unfold blankLoop
    rw [show r = (r - 2) + 1 + 1 by omega, setZ_append hD]
    simp only [Res.ok_bind]
    rw [setZ_append (by simp; omega)]
    simp only [Res.ok_bind]
    rw [blankLoop_eq me k (i + 2) _ (r - 2) (by simp; omega) (by omega)]
    congr 1
    rw [show r - 2 + 1 + 1 - 2 * (k + 1) = r - 2 - 2 * k by omega]
    simp [dots, List.replicate_succ]

theorem dots_length (b : Nat) : (dots b).length = 2 * b := by
  induction b with
  | zero => rfl
  | succ b ih => rw [dots, List.replicate_succ, List.flatten_cons, List.length_append]; rw [dots] at ih; rw [ih]; simp; omega

theorem renderText_eq (t : List U8) (b s k : Nat) (hk : k ≤ t.length) (hs : s ≤ t.length - k) :
    renderText t b s (-(k : Int)) = .ok (render t b s k) := by
  unfold renderText
  simp only
  rw [goMakeZ, if_pos (by omega), show ((t.length : Int) + (4 + 4) + (b : Int) * 2).toNat = t.length + 8 + 2 * b by omega]
  simp only [Res.ok_bind]
  have s1 : goSliceZ t 0 s = .ok (t.take s) := by
    rw [goSliceZ, if_pos (by omega), goSlice, if_pos (by constructor <;> omega)]; rfl
  have s2 : goSliceZ t s ((t.length : Int) + -(k : Int)) = .ok ((t.take (t.length - k)).drop s) := by
    rw [goSliceZ, if_pos (by omega), goSlice, if_pos (by constructor <;> omega)]
    rw [show ((t.length : Int) + -(k : Int)).toNat = t.length - k by omega, Int.toNat_natCast]
  have s3 : goSliceZ t ((t.length : Int) + -(k : Int)) t.length = .ok (t.drop (t.length - k)) := by
    rw [goSliceZ, if_pos (by omega), goSlice, if_pos (by constructor <;> omega)]
    rw [show ((t.length : Int) + -(k : Int)).toNat = t.length - k by omega, Int.toNat_natCast, List.take_of_length_le (Nat.le_refl _)]
  rw [s1, s2, s3]
  simp only [Res.ok_bind]
  have c1 := copy_append (D := []) (S := t.take s) (r := t.length + 8 + 2 * b) (p := 0) rfl (by simp; omega)
  rw [List.nil_append, List.nil_append] at c1
  rw [c1]
  simp only [Res.ok_bind]
  rw [copyZ_append (by simp; omega) (by simp; omega)]
  simp only [Res.ok_bind]
  rw [copyZ_append (by simp; omega) (by simp; omega)]
  simp only [Res.ok_bind, Int.toNat_natCast]
  rw [blankLoop_eq _ _ _ _ _ (by simp; omega) (by simp; omega)]
  simp only [Res.ok_bind]
  rw [copyZ_append (by simp [dots_length]; omega) (by simp; omega)]
  simp only [Res.ok_bind]
  rw [copyZ_append (by simp [dots_length]; omega) (by simp; omega)]
  rw [render]
  rw [show t.length + 8 + 2 * b - (t.take s).length - [0x1b#8, 0x5b#8, 0x37#8, 0x6d#8].length -
      ((t.take (t.length - k)).drop s).length - 2 * b - [0x1b#8, 0x5b#8, 0x30#8, 0x6d#8].length - (t.drop (t.length - k)).length = 0 by
    simp; omega]
  rw [List.replicate_zero, List.append_nil]
  rfl

/-! ## Pieces -/

theorem pieces_le : ∀ l : List (List U8), (∀ r ∈ l, r ≠ []) → l.length ≤ l.flatten.length
  | [], _ => by simp
  | r :: l, h => by
    have := pieces_le l (fun x hx => h x (by simp [hx]))
    have hr : r.length ≠ 0 := fun e => h r (by simp) (List.length_eq_zero_iff.mp e)
    simp only [List.length_cons, List.flatten_cons, List.length_append]
    omega

theorem explode_splits : Splits explode := by
  intro s
  generalize hn : s.length = n
  induction n using Nat.strongRecOn generalizing s with
  | _ n ih =>
    subst hn
    rw [explode]
    split
    · next h => subst h; simp
    · next h =>
      have hb := runeSize_bounds s h
      obtain ⟨h1, h2⟩ := ih (s.drop (runeSize s)).length (by simp; omega) (s.drop (runeSize s)) rfl
      refine ⟨by rw [List.flatten_cons, h1, List.take_append_drop], ?_⟩
      intro r hr
      rcases List.mem_cons.mp hr with rfl | hr
      · intro e
        have := congrArg List.length e
        rw [List.length_take, List.length_nil] at this; omega
      · exact h2 r hr

/-- If the first string's pieces all match, it is a prefix of the other. -/
theorem head_lt {e f : List (List U8)} (he : ∀ r ∈ e, r ≠ []) (hf : ∀ r ∈ f, r ≠ []) (hne : f.flatten ≠ e.flatten) :
    (headMatch e f < if f.flatten.length > e.flatten.length then f.length else e.length) := by
  have hh := headMatch_le e f
  have ht := common_take e f
  by_contra hc
  split at hc
  · next h =>
    have : f <+: e := by
      rw [show f = f.take (common e f) from (List.take_of_length_le (by unfold headMatch at hc; omega)).symm, ← ht]
      exact List.take_prefix _ _
    obtain ⟨r, rfl⟩ := this
    rw [List.flatten_append, List.length_append] at h
    omega
  · next h =>
    have : e <+: f := by
      rw [show e = e.take (common e f) from (List.take_of_length_le (by unfold headMatch at hc; omega)).symm, ht]
      exact List.take_prefix _ _
    obtain ⟨r, rfl⟩ := this
    rw [List.flatten_append, List.length_append] at h
    have : r.flatten = [] := List.length_eq_zero_iff.mp (by omega)
    apply hne
    rw [List.flatten_append, this, List.append_nil]

theorem match_eq (split : List U8 → List (List U8)) (hs : Splits split) (title pre expect found : List U8) (hne : found ≠ expect) :
    stringMatchTitle split title pre expect found = .ok (lengthReport expect found ++ [report split title pre expect found]) := by
  obtain ⟨ee, he⟩ := hs expect
  obtain ⟨ef, hf⟩ := hs found
  have hh := headMatch_le (split expect) (split found)
  have ht := tailMatch_le (split expect) (split found)
  have hl := head_lt he hf (by rw [ee, ef]; exact hne)
  have pe := pieces_le _ he
  have pf := pieces_le _ hf
  rw [ee, ef] at hl
  rw [ee] at pe
  rw [ef] at pf
  unfold stringMatchTitle
  rw [if_neg hne]
  have hsz : sizes expect found (split expect) (split found) = (max expect.length found.length,
      if found.length > expect.length then (split found).length else (split expect).length) := by
    unfold sizes; split <;> congr 1 <;> omega
  simp only [hsz]
  generalize hn : (if found.length > expect.length then (split found).length else (split expect).length) = n at *
  have hn' : tailMatch (split expect) (split found) + headMatch (split expect) (split found) < n := by
    rw [← hn] at hl ⊢
    split at hl <;> rename_i h
    · rw [if_pos h]; omega
    · rw [if_neg h]; omega
  have hm := marks_eq (split expect) (split found) he n hl hn'
  revert hm
  cases h1 : findFirstMismatch (split expect) (split found) (List.replicate (n + 1) 0#8) with
  | panic => intro hm; exact absurd hm (by simp)
  | ok p =>
    obtain ⟨first, mk⟩ := p
    simp only [Res.ok_bind]
    cases h2 : findLastMismatch (split expect) (split found) mk first with
    | panic => intro hm; exact absurd hm (by simp)
    | ok q =>
      obtain ⟨last, mk2⟩ := q
      simp only [Res.ok_bind, Res.pure_eq, Res.ok.injEq, Prod.mk.injEq]
      rintro ⟨rfl, rfl, rfl⟩
      rw [show ((max expect.length found.length : Nat) : Int) - expect.length = ((max expect.length found.length - expect.length : Nat) : Int) by omega,
        show ((max expect.length found.length : Nat) : Int) - found.length = ((max expect.length found.length - found.length : Nat) : Int) by omega,
        renderText_eq _ _ _ _ (by omega) (by omega), renderText_eq _ _ _ _ (by omega) (by omega)]
      simp only [Res.ok_bind]
      unfold report
      simp only [hn]
      have htt : (if title.length > 0 then title ++ ascii ": " else []) = if title = [] then [] else title ++ ascii ": " := by
        cases title <;> simp
      rw [htt]
      rfl

theorem messages_eq (split : List U8 → List (List U8)) (hs : Splits split) (title pre expect found : List U8) :
    stringMatchTitle split title pre expect found = .ok (messages split title pre expect found) := by
  unfold messages
  by_cases h : found = expect
  · rw [if_pos h, stringMatchTitle, if_pos h]
  · rw [if_neg h, match_eq split hs _ _ _ _ h]
    congr 2
    unfold lengthReport decimal
    by_cases hl : found.length = expect.length <;> simp [hl]

theorem messages_length (split : List U8 → List (List U8)) (title pre expect found : List U8) :
    (messages split title pre expect found).length =
      if found = expect then 0 else if found.length = expect.length then 1 else 2 := by
  unfold messages
  split_ifs <;> simp

/-! ## Characters and bytes -/

theorem flatten_length_one : ∀ l : List (List U8), (∀ r ∈ l, r.length = 1) → l.flatten.length = l.length
  | [], _ => rfl
  | r :: l, h => by
    rw [List.flatten_cons, List.length_append, flatten_length_one l (fun x hx => h x (by simp [hx])), h r (by simp),
      List.length_cons]; omega

/-- If the characters at both ends are single bytes, counting bytes there is counting characters. -/
theorem render_chars (e : List (List U8)) (b h k : Nat) (hle : h + k ≤ e.length) (h1 : ∀ r ∈ e.take h, r.length = 1)
    (h2 : ∀ r ∈ e.drop (e.length - k), r.length = 1) : render e.flatten b h k = renderChars e b h k := by
  have l1 := flatten_length_one _ h1
  have l2 := flatten_length_one _ h2
  rw [List.length_take, Nat.min_eq_left (by omega)] at l1
  rw [List.length_drop] at l2
  have e1 : e = e.take h ++ (e.drop h).take (e.length - k - h) ++ e.drop (e.length - k) := by
    conv => lhs; rw [← List.take_append_drop h e, ← List.take_append_drop (e.length - k - h) (e.drop h), List.drop_drop]
    rw [List.append_assoc, show h + (e.length - k - h) = e.length - k by omega]
  have e2 : (e.take (e.length - k)).drop h = (e.drop h).take (e.length - k - h) := List.drop_take
  unfold render renderChars
  rw [e2]
  have e3 : e.flatten = (e.take h).flatten ++ ((e.drop h).take (e.length - k - h)).flatten ++ (e.drop (e.length - k)).flatten := by
    conv => lhs; rw [e1]
    simp only [List.flatten_append]
  generalize (e.take h).flatten = A at *
  generalize ((e.drop h).take (e.length - k - h)).flatten = B at *
  generalize (e.drop (e.length - k)).flatten = C at *
  rw [e3]
  have l3 : (A ++ B ++ C).length - k = (A ++ B).length := by simp only [List.length_append]; omega
  rw [l3, List.drop_left' rfl, List.take_left' rfl, List.drop_left' l1, List.append_assoc A B C, List.take_left' l1]

end TestHelpers
