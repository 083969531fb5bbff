import Verif.Code.Bytes
import Verif.Lang.HashCode
import Verif.Lemmas.BlockHash

/-!
# Slices of an array of bytes inside an object
-/
namespace Source.Block
open GoLang

/-- Bytes written into others from a position on. -/
def put (b : List U8) (off : Nat) (w : List U8) : List U8 := b.take off ++ w ++ b.drop (off + w.length)

/-- Zeros written. -/
abbrev zeros (b : List U8) (off len : Nat) : List U8 := b.take off ++ List.replicate len 0#8 ++ b.drop (off + len)

theorem put_length {b : List U8} {off : Nat} {w : List U8} (h : off + w.length ≤ b.length) : (put b off w).length = b.length := by
  simp [put]; omega

theorem splice_put (b : List U8) (off : Nat) (w : List U8) : splice (b.map .u8) off (w.map .u8) = (put b off w).map .u8 := by
  simp [splice, put]

theorem put_copy {b : List U8} {off : Nat} {w : List U8} (h : off ≤ b.length) : goCopyAt b off w = .ok (put b off (w.take (b.length - off))) := by
  unfold goCopyAt put
  rw [if_pos h]
  simp only
  rw [List.length_take]
  congr 3
  rw [← List.take_take, List.take_length]

theorem slice_front {p : List U8} {k : Nat} (h : k ≤ p.length) : goSlice p 0 k = .ok (p.take k) := by
  unfold goSlice; rw [if_pos ⟨by omega, by omega⟩]; rfl

theorem slice_back {p : List U8} {k : Nat} (h : k ≤ p.length) : goSlice p k p.length = .ok (p.drop k) := by
  unfold goSlice; rw [if_pos ⟨by omega, by omega⟩, List.take_of_length_le (Nat.le_refl _)]

theorem zeros_step {b : List U8} {off len k : Nat} (h : off + len ≤ b.length) (hk : k ≤ len) :
    zeros b off len = zeros (put b off (List.replicate k 0#8)) (off + k) (len - k) := by
  apply List.ext_getElem
  · simp [put]; omega
  · intro i h1 h2
    simp only [List.length_append, List.length_take, List.length_replicate, List.length_drop] at h1
    simp only [put, List.getElem_append, List.length_append, List.length_take, List.length_replicate, List.getElem_take, List.getElem_replicate,
      List.getElem_drop]
    by_cases c1 : i < off
    · rw [dif_pos (by omega), dif_pos (by omega), dif_pos (by simp; omega), dif_pos (by simp; omega), dif_pos (by omega)]
    · by_cases c2 : i < off + k
      · rw [dif_pos (by omega), dif_neg (by omega), dif_pos (by simp; omega), dif_pos (by simp; omega), dif_pos (by omega)]
      · by_cases c3 : i < off + len
        · rw [dif_pos (by omega), dif_neg (by omega), dif_pos (by simp; omega), dif_neg (by simp; omega)]
        · rw [dif_neg (by omega), dif_neg (by simp; omega), dif_neg (by simp; omega)]
          congr 1
          simp
          omega

/-- An object with an array of bytes. -/
structure Part (p : List Sel) (O : List U8 → Val) : Prop where
  get : ∀ b, getPath (O b) p = some (.arr (b.map .u8))
  set : ∀ b b', setPath (O b) p (.arr (b'.map .u8)) = some (O b')

section
variable {p : List Sel} {O : List U8 → Val} {h : List Val} {a : Nat} {b : List U8} {off len cap : Nat}

/-- `copy` into the array. -/
theorem Part.copy (hO : Part p O) (ha : h[a]? = some (O b)) (w : List U8) (hl : off + len ≤ b.length) (e : List (Name × Val)) :
    copyTo (.slice a p off len cap) (w.map .u8) ⟨h, e⟩ = .ok (.int (min len w.length : Nat)) ⟨h.set a (O (put b off (w.take len))), e⟩ := by
  have : off + min len w.length ≤ b.length := by omega
  simp [go, ha, hO.get, this, ← List.map_take, splice_put, hO.set]

end

section
variable {P : Prog} (hP : findPkg Bytes.path P.pkgs = some Bytes.pkg)
include hP

/-- `bytes.Zero` of a part of the array. -/
theorem run_Zero {p : List Sel} {O : List U8 → Val} {h : List Val} {a : Nat} {b : List U8} {off len cap : Nat} (hO : Part p O) (ha : h[a]? = some (O b)) (hl : off + len ≤ b.length) (hc : len ≤ cap) {n : Nat} (hn : len < n) :
    run P (n + 1) Bytes.path 0 (n! "Zero") [.slice a p off len cap] h = .ok [] ⟨h.set a (O (zeros b off len)), []⟩ := by
  rw [run_func hP Bytes.find_Zero]
  eval_go
  generalize hlp : loop _ _ _ _ _ = o
  obtain ⟨b', off', len', cap', rfl, e, h8, hl', hb⟩ : ∃ b' off' len' cap', o = .ok .next ⟨h.set a (O b'), [(n! "target", .slice a p off' len' cap')]⟩ ∧
      zeros b off len = zeros b' off' len' ∧ len' ≤ 8 ∧ off' + len' ≤ b'.length ∧ b'.length = b.length := by
    refine loop_post (α := List U8 × Nat × Nat × Nat)
      (fun o => ∃ b' off' len' cap', o = .ok .next ⟨h.set a (O b'), [(n! "target", .slice a p off' len' cap')]⟩ ∧
        zeros b off len = zeros b' off' len' ∧ len' ≤ 8 ∧ off' + len' ≤ b'.length ∧ b'.length = b.length)
      (fun x => zeros b off len = zeros x.1 x.2.1 x.2.2.1 ∧ x.2.1 + x.2.2.1 ≤ x.1.length ∧ x.2.2.1 ≤ x.2.2.2 ∧ x.1.length = b.length)
      (fun x => ⟨h.set a (O x.1), [(n! "target", .slice a p x.2.1 x.2.2.1 x.2.2.2)]⟩) (fun x => x.2.2.1) ?_ (b, off, len, cap) ⟨rfl, hl, hc, rfl⟩ hn ?_ hlp
    · clear hlp
      rintro ⟨b₁, off₁, len₁, cap₁⟩ k ⟨e₁, hl₁, hc₁, hb₁⟩ hk ih
      simp only at e₁ hl₁ hc₁ hb₁ hk ih ⊢
      by_cases h8 : 8 < len₁
      · have h8' : (8 : Int) < (len₁ : Int) := by omega
        have e1 : (0 : Int) ≤ 8 ∧ (8 : Int) < ((cap₁ + 1 : Nat) : Int) := by omega
        have e2 : 8 ≤ len₁ := by omega
        have ha₁ : (h.set a (O b₁))[a]? = some (O b₁) := List.getElem?_set_self (lt_of_get ha)
        have hcp := hO.copy (cap := cap₁) ha₁ (List.replicate 8 0#8) hl₁
        rw [List.set_set, List.take_of_length_le (by simp; omega)] at hcp
        simp only [List.reduceReplicate, List.map_cons, List.map_nil, List.length_cons, List.length_nil] at hcp
        rw [loop_next (s₁ := ⟨h.set a (O b₁), [(n! "target", .slice a p off₁ len₁ cap₁)]⟩)
          (s₂ := ⟨h.set a (O (put b₁ off₁ (List.replicate 8 0#8))), [(n! "target", .slice a p (off₁ + 8) (len₁ - 8) (cap₁ - 8))]⟩)
          (s₃ := ⟨h.set a (O (put b₁ off₁ (List.replicate 8 0#8))), [(n! "target", .slice a p (off₁ + 8) (len₁ - 8) (cap₁ - 8))]⟩)]
        · refine ih (put b₁ off₁ (List.replicate 8 0#8), off₁ + 8, len₁ - 8, cap₁ - 8) ⟨?_, ?_, ?_, ?_⟩ ?_
          · rw [e₁, zeros_step hl₁ e2]
          · rw [put_length (by simp; omega)]; simp only; omega
          · simp only; omega
          · rw [put_length (by simp; omega), hb₁]
          · simp only; omega
        all_goals eval_go [h8', ↓hcp, e1, e2]
      · have h8' : ¬ (8 : Int) < (len₁ : Int) := by omega
        rw [loop_false (s₁ := ⟨h.set a (O b₁), [(n! "target", .slice a p off₁ len₁ cap₁)]⟩)]
        · exact ⟨b₁, off₁, len₁, cap₁, rfl, e₁, by omega, hl₁, hb₁⟩
        · eval_go [h8']
    · obtain ⟨_, h2⟩ := List.getElem?_eq_some_iff.1 ha
      simp only
      rw [← h2, List.set_getElem_self]
  clear hlp
  have ha₁ : (h.set a (O b'))[a]? = some (O b') := List.getElem?_set_self (lt_of_get ha)
  have hcp := hO.copy (cap := cap') ha₁ (List.replicate 8 0#8) hl'
  rw [List.set_set, List.take_replicate, Nat.min_eq_left h8] at hcp
  simp only [List.reduceReplicate, List.map_cons, List.map_nil, List.length_cons, List.length_nil] at hcp
  eval_go [↓hcp]
  rw [e]
  congr 4
  simp [put, zeros]

end

/-! ## Slices of slices -/

/-- `s[k:]`. -/
theorem bytes_from {h : List Val} {v : Val} {b : List U8} (hb : IsBytes h v b) {k : Nat} (hk : k ≤ b.length) :
    ∃ v', (∀ s, slicing v (some (.int k)) none s = .ok v' s) ∧ IsBytes h v' (b.drop k) ∧ base v' = base v := by
  rcases hb with ⟨rfl, rfl⟩ | ⟨a, p, off, cap, o, l, rfl, ho, hg, hc, hl, he⟩
  · simp at hk
    subst hk
    exact ⟨.nil, fun s => by simp [go], .inl ⟨rfl, by simp⟩, rfl⟩
  · have e1 : k < cap + 1 := by omega
    refine ⟨.slice a p (off + k) (b.length - k) (cap - k), fun s => by eval_go [e1, hk], .inr ⟨a, p, off + k, cap - k, o, l, by simp, ho, hg, by omega, by simp; omega, ?_⟩, rfl⟩
    rw [List.length_drop, ← List.drop_drop, ← List.drop_take, he, List.map_drop]

/-- `s[0:k]`. -/
theorem bytes_upto {h : List Val} {v : Val} {b : List U8} (hb : IsBytes h v b) {k : Nat} (hk : k ≤ b.length) :
    ∃ v', (∀ s, slicing v (some (.const 0)) (some (.int k)) s = .ok v' s) ∧ IsBytes h v' (b.take k) ∧ base v' = base v := by
  rcases hb with ⟨rfl, rfl⟩ | ⟨a, p, off, cap, o, l, rfl, ho, hg, hc, hl, he⟩
  · simp at hk
    subst hk
    exact ⟨.nil, fun s => by simp [go], .inl ⟨rfl, by simp⟩, rfl⟩
  · have e1 : (k : Int) < (cap : Int) + 1 := by omega
    have e0 : (0 : Int) < (cap : Int) + 1 := by omega
    refine ⟨.slice a p off k cap, fun s => by simp [go, e1, e0], .inr ⟨a, p, off, cap, o, l, by simp; omega, ho, hg, hc, by simp; omega, ?_⟩, rfl⟩
    rw [List.length_take, Nat.min_eq_left hk, List.map_take, ← he, List.take_take, Nat.min_eq_left hk]

/-- A slice may be sliced. -/
theorem able {h : List Val} {v : Val} {b : List U8} (hb : IsBytes h v b) (l : M Loc) : sliceable v l = pure v := by
  rcases hb with ⟨rfl, rfl⟩ | ⟨a, p, off, cap, o, l, rfl, ho, hg, hc, hl, he⟩ <;> rfl

/-- The elements of a slice. -/
theorem elems_of {h : List Val} {v : Val} {b : List U8} (hb : IsBytes h v b) (e : List (Name × Val)) : elemsIn v ⟨h, e⟩ = .ok (b.map .u8) ⟨h, e⟩ := by
  rcases hb with ⟨rfl, rfl⟩ | ⟨a, p, off, cap, o, l, rfl, ho, hg, hc, hl, he⟩
  · rfl
  · have : off + b.length ≤ l.length := by omega
    simp [go, ho, hg, this, he]

/-- Other objects may change. -/
theorem bytes_set {h : List Val} {v : Val} {b : List U8} (hb : IsBytes h v b) {a : Nat} (hne : base v ≠ some a) (x : Val) : IsBytes (h.set a x) v b := by
  rcases hb with hb | ⟨a', p, off, cap, o, l, rfl, ho, hr⟩
  · exact .inl hb
  · exact .inr ⟨a', p, off, cap, o, l, rfl, by rw [List.getElem?_set_ne (by simpa [base, eq_comm] using hne), ho], hr⟩

end Source.Block
