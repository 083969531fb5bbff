import Verif.Model.HashHeap
import Verif.Lemmas.Stream

namespace HashHeap
open GoHash

/-- `Sum` appends to its argument something that depends on the object only. -/
def SumAppends {σ : Type} (I : Impl σ) : Prop :=
  ∀ s inp, I.sum s inp = (I.sum s [] >>= fun r => Res.ok (r.1, inp ++ r.2))

theorem store_lt {m : Mem} {x : Nat} {d : List U8} {y : Nat} (h : y < x) : store m x d y = m y := by
  simp [store]; omega

theorem store_ge {m : Mem} {x : Nat} {d : List U8} {y : Nat} (h : x + d.length ≤ y) : store m x d y = m y := by
  have : d[y - x]? = none := by rw [List.getElem?_eq_none_iff]; omega
  simp [store, this]

theorem store_in {m : Mem} {x : Nat} {d : List U8} {y : Nat} (h : x ≤ y) (h' : y - x < d.length) :
    store m x d y = d[y - x] := by
  simp [store, h, h']

theorem content_congr {m m' : Mem} {s : Slice} (h : ∀ y, s.Has y → m y = m' y) : Slice.content m s = Slice.content m' s := by
  unfold Slice.content
  apply List.map_congr_left
  intro i hi
  exact h _ ⟨by omega, by have := List.mem_range.mp hi; omega⟩

theorem content_length (m : Mem) (s : Slice) : (Slice.content m s).length = s.len := by simp [Slice.content]

theorem content_append (m : Mem) (x a b : Nat) :
    Slice.content m ⟨x, a + b⟩ = Slice.content m ⟨x, a⟩ ++ Slice.content m ⟨x + a, b⟩ := by
  simp [Slice.content, List.range_add, Nat.add_assoc]

theorem content_store (m : Mem) (x : Nat) (d e : List U8) : Slice.content (store m x (d ++ e)) ⟨x, d.length⟩ = d := by
  apply List.ext_getElem
  · simp [Slice.content]
  · intro i h1 h2
    have : x + i - x = i := by omega
    simp [Slice.content, store, this, List.getElem?_append_left h2, h2]

/-- The content of the result of `append`. -/
theorem append_content {σ : Type} (w : World σ) (b : Buf) (d : List U8) (extra : Nat) :
    Slice.content (append w b d extra).1.mem (append w b d extra).2.slice = Slice.content w.mem b.slice ++ d := by
  unfold append
  split
  · simp only [Buf.slice]
    rw [content_append]
    congr 1
    · exact content_congr fun y hy => store_lt hy.2
    · have := content_store w.mem (b.base + b.len) d []
      rwa [List.append_nil] at this
  · have e : b.len + d.length = (Slice.content w.mem b.slice ++ d).length := by simp [content_length, Buf.slice]
    simp only [Buf.slice] at e ⊢
    conv => lhs; arg 2; rw [e]
    exact content_store _ _ _ _

theorem append_objs {σ : Type} (w : World σ) (b : Buf) (d : List U8) (extra : Nat) : (append w b d extra).1.objs = w.objs := by
  unfold append; split <;> rfl

section
variable {σ : Type} {I : Impl σ}

theorem runFrom_append (I : Impl σ) : ∀ (a b : List Op) (s : σ), runFrom I s (a ++ b) =
    (runFrom I s a >>= fun r => runFrom I r.1 b >>= fun r' => Res.ok (r'.1, r.2 ++ r'.2))
  | [], b, s => by
    simp only [List.nil_append, runFrom, Res.ok_bind]
    cases runFrom I s b <;> simp
  | op :: a, b, s => by
    simp only [List.cons_append, runFrom]
    cases GoHash.step I s op with
    | panic => simp
    | ok r =>
      simp only [Res.ok_bind, runFrom_append I a b]
      cases runFrom I r.1 a with
      | panic => simp
      | ok q =>
        simp only [Res.ok_bind, Res.pure_eq]
        cases runFrom I q.1 b <;> simp

/-- Every object is in the state its method calls lead to, and they returned what they return to a lone object. -/
def Inv (I : Impl σ) (w : World σ) (evs : List Event) : Prop :=
  (∀ e ∈ evs, e.obj < w.objs.length) ∧
  ∀ i s, w.objs[i]? = some s → ∃ s₀, I.new = .ok s₀ ∧ runFrom I s₀ (opsOf i evs) = .ok (s, outsOf i evs)

theorem opsOf_append (i : Nat) (a b : List Event) : opsOf i (a ++ b) = opsOf i a ++ opsOf i b := by simp [opsOf]
theorem outsOf_append (i : Nat) (a b : List Event) : outsOf i (a ++ b) = outsOf i a ++ outsOf i b := by simp [outsOf]

theorem opsOf_none {i : Nat} {evs : List Event} (h : ∀ e ∈ evs, e.obj < i) : opsOf i evs = [] ∧ outsOf i evs = [] := by
  have : evs.filter (·.obj = i) = [] := by
    rw [List.filter_eq_nil_iff]
    intro e he
    have := h e he
    simp; omega
  simp [opsOf, outsOf, this]

/-- A method call of object `i` keeps the invariant. -/
theorem Inv_call {w : World σ} {evs : List Event} (h : Inv I w evs) {i : Nat} {s s' : σ} {op : Op} {out : Out} {r : Option Buf}
    (hs : w.objs[i]? = some s) (hstep : GoHash.step I s op = .ok (s', out)) {w' : World σ} (hw : w'.objs = w.objs.set i s') :
    Inv I w' (evs ++ [⟨i, op, out, r⟩]) := by
  have hi : i < w.objs.length := by
    rw [List.getElem?_eq_some_iff] at hs; exact hs.1
  constructor
  · intro e he
    rw [hw, List.length_set]
    rcases List.mem_append.mp he with he | he
    · exact h.1 e he
    · obtain rfl := List.mem_singleton.mp he; exact hi
  · intro j t hj
    rw [opsOf_append, outsOf_append]
    rw [hw] at hj
    by_cases hij : i = j
    · subst hij
      rw [List.getElem?_set_self hi] at hj
      cases hj
      obtain ⟨s₀, h0, h1⟩ := h.2 i s hs
      refine ⟨s₀, h0, ?_⟩
      rw [runFrom_append, h1]
      simp [opsOf, outsOf, runFrom, hstep]
    · rw [List.getElem?_set_ne hij] at hj
      obtain ⟨s₀, h0, h1⟩ := h.2 j t hj
      refine ⟨s₀, h0, ?_⟩
      have : opsOf j [⟨i, op, out, r⟩] = [] ∧ outsOf j [⟨i, op, out, r⟩] = [] := by simp [opsOf, outsOf, hij]
      rw [this.1, this.2, List.append_nil, List.append_nil]
      exact h1

theorem Inv_same {w w' : World σ} {evs : List Event} (h : Inv I w evs) (e : w'.objs = w.objs) : Inv I w' evs := by
  unfold Inv at h ⊢; rw [e]; exact h

theorem goIdx_some {α : Type} {l : List α} {i : Nat} {a : α} (h : goIdx l i = .ok a) : l[i]? = some a := by
  unfold goIdx at h; split at h <;> simp_all

/-- The method call behind a call of the program, with the object and the bytes of the argument. -/
def Call.view {σ : Type} (w : World σ) : Call → Option (Nat × Op)
  | .new => none
  | .write i p => some (i, .write (Slice.content w.mem p.slice))
  | .sum i b _ => some (i, .sum (Slice.content w.mem b.slice))
  | .sumN i => some (i, .sumN)
  | .reset i => some (i, .reset)
  | .size i => some (i, .size)
  | .blockSize i => some (i, .blockSize)
  | .set _ _ => none
  | .make _ => none

/-- A call of the program is a method call on the object. -/
theorem step_view (hI : SumAppends I) {w : World σ} {c : Call} (hl : Legal w c) {i : Nat} {op : Op} (hv : c.view w = some (i, op)) :
    ∃ s, w.objs[i]? = some s ∧
      match GoHash.step I s op with
      | .panic => step I w c = .panic
      | .ok (s', out) => ∃ w' r, step I w c = .ok (w', [⟨i, op, out, r⟩]) ∧ w'.objs = w.objs.set i s' := by
  have some_idx : ∀ {i}, i < w.objs.length → ∃ s, w.objs[i]? = some s ∧ goIdx w.objs i = .ok s := fun h =>
    ⟨_, List.getElem?_eq_getElem h, goIdx_lt h⟩
  have set_same : ∀ {i s}, w.objs[i]? = some s → w.objs = w.objs.set i s := by
    intro i s h
    obtain ⟨h1, h2⟩ := List.getElem?_eq_some_iff.mp h
    subst h2
    exact List.set_getElem_self h1 |>.symm
  cases c with
  | new => simp [Call.view] at hv
  | set => simp [Call.view] at hv
  | make => simp [Call.view] at hv
  | write j p =>
    simp only [Call.view, Option.some.injEq, Prod.mk.injEq] at hv
    obtain ⟨rfl, rfl⟩ := hv
    obtain ⟨s, hs, hs'⟩ := some_idx hl.1
    refine ⟨s, hs, ?_⟩
    simp only [GoHash.step, step, hs', Res.ok_bind]
    cases I.write s (Slice.content w.mem p.slice) with
    | panic => simp
    | ok q => exact ⟨_, none, rfl, rfl⟩
  | sum j b extra =>
    simp only [Call.view, Option.some.injEq, Prod.mk.injEq] at hv
    obtain ⟨rfl, rfl⟩ := hv
    obtain ⟨s, hs, hs'⟩ := some_idx hl.1
    refine ⟨s, hs, ?_⟩
    simp only [GoHash.step, step, hs', Res.ok_bind]
    rw [hI s]
    cases I.sum s [] with
    | panic => simp
    | ok q =>
      refine ⟨{ (append w b q.2 extra).1 with objs := w.objs.set j q.1 }, some (append w b q.2 extra).2, ?_, rfl⟩
      simp only [Res.ok_bind, Res.pure_eq, append_content]
  | sumN j =>
    simp only [Call.view, Option.some.injEq, Prod.mk.injEq] at hv
    obtain ⟨rfl, rfl⟩ := hv
    obtain ⟨s, hs, hs'⟩ := some_idx hl
    refine ⟨s, hs, ?_⟩
    simp only [GoHash.step, step, hs', Res.ok_bind]
    cases I.sumN s <;> exact ⟨_, none, rfl, set_same hs⟩
  | reset j =>
    simp only [Call.view, Option.some.injEq, Prod.mk.injEq] at hv
    obtain ⟨rfl, rfl⟩ := hv
    obtain ⟨s, hs, hs'⟩ := some_idx hl
    refine ⟨s, hs, ?_⟩
    simp only [GoHash.step, step, hs', Res.ok_bind]
    cases I.reset s with
    | panic => simp
    | ok q => exact ⟨_, none, rfl, rfl⟩
  | size j =>
    simp only [Call.view, Option.some.injEq, Prod.mk.injEq] at hv
    obtain ⟨rfl, rfl⟩ := hv
    obtain ⟨s, hs, hs'⟩ := some_idx hl
    refine ⟨s, hs, ?_⟩
    simp only [GoHash.step, step, hs', Res.ok_bind]
    exact ⟨_, none, rfl, set_same hs⟩
  | blockSize j =>
    simp only [Call.view, Option.some.injEq, Prod.mk.injEq] at hv
    obtain ⟨rfl, rfl⟩ := hv
    obtain ⟨s, hs, hs'⟩ := some_idx hl
    refine ⟨s, hs, ?_⟩
    simp only [GoHash.step, step, hs', Res.ok_bind]
    exact ⟨_, none, rfl, set_same hs⟩

/-- One call keeps the invariant. -/
theorem Inv_step (hI : SumAppends I) {w w' : World σ} {evs ev : List Event} {c : Call} (h : Inv I w evs) (hl : Legal w c)
    (hs : step I w c = .ok (w', ev)) : Inv I w' (evs ++ ev) := by
  cases hv : c.view w with
  | some p =>
    obtain ⟨i, op⟩ := p
    obtain ⟨s, h1, h2⟩ := step_view hI hl hv
    cases hst : GoHash.step I s op with
    | panic => rw [hst] at h2; rw [h2] at hs; cases hs
    | ok q =>
      rw [hst] at h2
      obtain ⟨w2, r, h3, h4⟩ := h2
      rw [h3] at hs
      cases hs
      exact Inv_call h h1 hst h4
  | none =>
    cases c with
    | new =>
      simp only [step] at hs
      cases hn : I.new with
      | panic => rw [hn] at hs; cases hs
      | ok s0 =>
        rw [hn] at hs
        cases hs
        rw [List.append_nil]
        constructor
        · intro e he
          have := h.1 e he
          simp; omega
        · intro i t hi
          dsimp only at hi
          rcases Nat.lt_or_ge i w.objs.length with hlt | hge
          · rw [List.getElem?_append_left hlt] at hi
            exact hn ▸ h.2 i t hi
          · have hlen := (List.getElem?_eq_some_iff.mp hi).1
            have : i = w.objs.length := by simp at hlen; omega
            subst this
            rw [List.getElem?_append_right (Nat.le_refl _)] at hi
            simp at hi
            subst hi
            obtain ⟨h1, h2⟩ := opsOf_none (i := w.objs.length) h.1
            exact ⟨s0, hn, by rw [h1, h2]; rfl⟩
    | set x v => cases hs; rw [List.append_nil]; exact Inv_same h rfl
    | make n => cases hs; rw [List.append_nil]; exact Inv_same h rfl
    | write => simp [Call.view] at hv
    | sum => simp [Call.view] at hv
    | sumN => simp [Call.view] at hv
    | reset => simp [Call.view] at hv
    | size => simp [Call.view] at hv
    | blockSize => simp [Call.view] at hv

theorem Inv_start : Inv I (start : World σ) [] := by
  constructor
  · simp
  · intro i s h; simp [start] at h

theorem Inv_runs (hI : SumAppends I) : ∀ (cs : List Call) (w w' : World σ) (evs ev : List Event), Inv I w evs → LegalAll I w cs →
    runs I w cs = .ok (w', ev) → Inv I w' (evs ++ ev)
  | [], w, w', evs, ev, h, _, hr => by cases hr; simpa using h
  | c :: cs, w, w', evs, ev, h, hl, hr => by
    simp only [runs] at hr
    cases hs : step I w c with
    | panic => rw [hs] at hr; cases hr
    | ok q =>
      obtain ⟨w1, ev1⟩ := q
      rw [hs] at hr
      simp only [Res.ok_bind] at hr
      cases hs' : runs I w1 cs with
      | panic => rw [hs'] at hr; cases hr
      | ok q' =>
        obtain ⟨w2, ev2⟩ := q'
        rw [hs'] at hr
        cases hr
        rw [← List.append_assoc]
        exact Inv_runs hI cs w1 _ _ _ (Inv_step hI h hl.1 hs) (hl.2 _ _ hs) hs'

theorem runs_append (I : Impl σ) : ∀ (a b : List Call) (w : World σ), runs I w (a ++ b) =
    (runs I w a >>= fun r => runs I r.1 b >>= fun r' => Res.ok (r'.1, r.2 ++ r'.2))
  | [], b, w => by
    simp only [List.nil_append, runs, Res.ok_bind]
    cases runs I w b <;> simp
  | c :: a, b, w => by
    simp only [List.cons_append, runs]
    cases step I w c with
    | panic => simp
    | ok r =>
      simp only [Res.ok_bind, runs_append I a b]
      cases runs I r.1 a with
      | panic => simp
      | ok q =>
        simp only [Res.ok_bind, Res.pure_eq]
        cases runs I q.1 b <;> simp

/-- If every method call on an object with such a history succeeds, no program panics. -/
theorem runs_ok (hI : SumAppends I) {s₀ : σ} (hn : I.new = .ok s₀)
    (hok : ∀ ops, ∃ r, runFrom I s₀ ops = .ok r) : ∀ (cs : List Call) (w : World σ) (evs : List Event), Inv I w evs →
    LegalAll I w cs → ∃ w' ev, runs I w cs = .ok (w', ev)
  | [], w, _, _, _ => ⟨w, [], rfl⟩
  | c :: cs, w, evs, h, hl => by
    have h1 : ∃ w1 ev1, step I w c = .ok (w1, ev1) := by
      cases hv : c.view w with
      | some p =>
        obtain ⟨i, op⟩ := p
        obtain ⟨s, h1, h2⟩ := step_view hI hl.1 hv
        cases hst : GoHash.step I s op with
        | ok q =>
          rw [hst] at h2
          obtain ⟨w2, r, h3, _⟩ := h2
          exact ⟨_, _, h3⟩
        | panic =>
          obtain ⟨s1, e1, e2⟩ := h.2 i s h1
          rw [hn] at e1
          cases e1
          obtain ⟨r, hr⟩ := hok (opsOf i evs ++ [op])
          rw [runFrom_append, e2] at hr
          simp [runFrom, hst] at hr
      | none =>
        cases c with
        | new => simp only [step, hn]; exact ⟨_, _, rfl⟩
        | set x v => exact ⟨_, _, rfl⟩
        | make n => exact ⟨_, _, rfl⟩
        | write => simp [Call.view] at hv
        | sum => simp [Call.view] at hv
        | sumN => simp [Call.view] at hv
        | reset => simp [Call.view] at hv
        | size => simp [Call.view] at hv
        | blockSize => simp [Call.view] at hv
    obtain ⟨w1, ev1, h1⟩ := h1
    obtain ⟨w2, ev2, h2⟩ := runs_ok hI hn hok cs w1 (evs ++ ev1) (Inv_step hI h hl.1 h1) (hl.2 _ _ h1)
    exact ⟨w2, ev1 ++ ev2, by simp [runs, h1, h2]⟩

end
end HashHeap
