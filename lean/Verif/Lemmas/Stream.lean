import Verif.Spec.Stream

/-! # Refinement of a hash object to the message log -/
namespace HashSpec
open GoHash

theorem writesOk_true : ∀ (log : List U8) (ops : List Op), writesOk (fun _ _ => True) log ops
  | _, [] => trivial
  | _, .write _ :: ops => ⟨trivial, writesOk_true _ ops⟩
  | _, .reset :: ops => writesOk_true _ ops
  | _, .sum _ :: ops => writesOk_true _ ops
  | _, .sumN :: ops => writesOk_true _ ops
  | _, .size :: ops => writesOk_true _ ops
  | _, .blockSize :: ops => writesOk_true _ ops

/-- `R` is a refinement relation between the states of `I` and message logs. -/
structure Refines {σ : Type} (I : Impl σ) (A : Algo) (W : List U8 → List U8 → Prop) (R : σ → List U8 → Prop) : Prop where
  new : ∃ s, I.new = .ok s ∧ R s []
  write : ∀ s log p, R s log → W log p → ∃ s', I.write s p = .ok (s', p.length, false) ∧ R s' (log ++ p)
  sum : ∀ s log inp, R s log → ∃ s', I.sum s inp = .ok (s', inp ++ A.digest log) ∧ R s' log
  sumN : ∀ s log, R s log → I.sumN s = A.num log
  reset : ∀ s log, R s log → ∃ s', I.reset s = .ok s' ∧ R s' []
  size : ∀ s log, R s log → I.size s = A.size
  blockSize : ∀ s log, R s log → I.blockSize s = A.blockSize

variable {σ : Type} {I : Impl σ} {A : Algo} {W : List U8 → List U8 → Prop} {R : σ → List U8 → Prop}

theorem Refines.runFrom (h : Refines I A W R) : ∀ (ops : List Op) (s : σ) (log : List U8), R s log →
    writesOk W log ops → ∃ s', GoHash.runFrom I s ops = .ok (s', expectFrom A log ops) ∧ R s' (logFrom log ops)
  | [], s, log, hR, _ => ⟨s, rfl, hR⟩
  | .write p :: ops, s, log, hR, hW => by
    obtain ⟨s1, e1, h1⟩ := h.write s log p hR hW.1
    obtain ⟨s2, e2, h2⟩ := h.runFrom ops s1 _ h1 hW.2
    exact ⟨s2, by simp [GoHash.runFrom, step, e1, e2, expectFrom], h2⟩
  | .sum inp :: ops, s, log, hR, hW => by
    obtain ⟨s1, e1, h1⟩ := h.sum s log inp hR
    obtain ⟨s2, e2, h2⟩ := h.runFrom ops s1 _ h1 hW
    exact ⟨s2, by simp [GoHash.runFrom, step, e1, e2, expectFrom], h2⟩
  | .sumN :: ops, s, log, hR, hW => by
    obtain ⟨s2, e2, h2⟩ := h.runFrom ops s _ hR hW
    refine ⟨s2, ?_, h2⟩
    simp only [GoHash.runFrom, step, expectFrom, h.sumN s log hR]
    split <;> simp_all
  | .reset :: ops, s, log, hR, hW => by
    obtain ⟨s1, e1, h1⟩ := h.reset s log hR
    obtain ⟨s2, e2, h2⟩ := h.runFrom ops s1 _ h1 hW
    exact ⟨s2, by simp [GoHash.runFrom, step, e1, e2, expectFrom], h2⟩
  | .size :: ops, s, log, hR, hW => by
    obtain ⟨s2, e2, h2⟩ := h.runFrom ops s _ hR hW
    exact ⟨s2, by simp [GoHash.runFrom, step, e2, expectFrom, h.size s log hR], h2⟩
  | .blockSize :: ops, s, log, hR, hW => by
    obtain ⟨s2, e2, h2⟩ := h.runFrom ops s _ hR hW
    exact ⟨s2, by simp [GoHash.runFrom, step, e2, expectFrom, h.blockSize s log hR], h2⟩

theorem Refines.run (h : Refines I A W R) (ops : List Op) (hW : writesOk W [] ops) :
    GoHash.run I ops = .ok (expect A ops) := by
  obtain ⟨s, e, hR⟩ := h.new
  obtain ⟨s', e', _⟩ := h.runFrom ops s [] hR hW
  simp [GoHash.run, e, e', expect]

theorem Refines.contract (h : Refines I A W R) (hd : ∀ m, (A.digest m).length = A.size) : SizeContract I W := by
  intro ops s₀ s outs inp hW hn hr
  obtain ⟨t, e, hR⟩ := h.new
  rw [hn] at e
  cases e
  obtain ⟨s', e', hR'⟩ := h.runFrom ops s₀ [] hR hW
  rw [hr] at e'
  cases e'
  obtain ⟨s'', e'', _⟩ := h.sum s _ inp hR'
  exact ⟨⟨s'', _, e'', by rw [hd, h.size s _ hR']⟩, by rw [h.size s _ hR', h.size _ _ hR],
    by rw [h.blockSize s _ hR', h.blockSize _ _ hR]⟩

/-- Writing a message in chunks and taking the digest. -/
theorem expect_chunks (A : Algo) (cs : List (List U8)) (inp : List U8) :
    expect A (cs.map Op.write ++ [.sum inp]) = cs.map (fun c => Out.wrote c.length false) ++ [.bytes (inp ++ A.digest cs.flatten)] := by
  have : ∀ log, expectFrom A log (cs.map Op.write ++ [.sum inp]) =
      cs.map (fun c => Out.wrote c.length false) ++ [.bytes (inp ++ A.digest (log ++ cs.flatten))] := by
    induction cs with
    | nil => intro log; simp [expectFrom]
    | cons c cs ih => intro log; simp [expectFrom, ih]
  simpa [expect] using this []

end HashSpec

namespace GoHash

theorem runFrom_append {σ : Type} (I : Impl σ) : ∀ (ops ops' : List Op) (s : σ),
    runFrom I s (ops ++ ops') = (runFrom I s ops >>= fun (s', o) => runFrom I s' ops' >>= fun (s'', o') => .ok (s'', o ++ o'))
  | [], ops', s => by
    simp only [List.nil_append, runFrom, Res.ok_bind]
    cases runFrom I s ops' <;> rfl
  | op :: ops, ops', s => by
    simp only [List.cons_append, runFrom]
    cases h : step I s op with
    | panic => rfl
    | ok x =>
      simp only [Res.ok_bind, runFrom_append I ops ops']
      cases h2 : runFrom I x.1 ops with
      | panic => rfl
      | ok y =>
        simp only [Res.ok_bind, Res.pure_eq]
        cases h3 : runFrom I y.1 ops' with
        | panic => simp
        | ok z => simp

/-- If `Reset` gives back the new object, histories before it leave no trace. -/
theorem run_reset {σ : Type} (I : Impl σ) (hr : ∀ s, I.reset s = I.new) (ops ops' : List Op) (outs : List Out)
    (h : run I ops = .ok outs) :
    run I (ops ++ .reset :: ops') = (run I ops' >>= fun o => .ok (outs ++ .unit :: o)) := by
  unfold run at h ⊢
  cases hn : I.new with
  | panic => rw [hn] at h; cases h
  | ok s =>
    rw [hn] at h
    simp only [Res.ok_bind] at h ⊢
    rw [runFrom_append]
    cases h1 : runFrom I s ops with
    | panic => rw [h1] at h; cases h
    | ok x =>
      rw [h1] at h
      simp only [Res.ok_bind, Res.pure_eq, Res.ok.injEq] at h
      subst h
      simp only [Res.ok_bind, runFrom, step, hr, hn, Res.pure_eq]
      cases h2 : runFrom I s ops' with
      | panic => rfl
      | ok y => rfl

end GoHash
