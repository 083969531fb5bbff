import Verif.Model.Net

/-! # Calls on a tree have one result -/
namespace Net
variable {V : Type} {merge : V → V → V}

theorem shrink_into {s e : U32} : ∀ {n : Nat} {m r : U32}, shrink s e n m = some r → ∀ k, n ≤ k → shrink s e k m = some r
  | 0, m, r, h, k, _ => by
    rw [shrink] at h
    split at h
    · cases h
    · rename_i hn
      cases k <;> rw [shrink, if_neg hn, h]
  | n + 1, m, r, h, k + 1, hk => by
    rw [shrink] at h ⊢
    split at h
    · rename_i hp
      rw [if_pos hp]
      exact shrink_into h k (by omega)
    · rename_i hn
      rw [if_neg hn, h]

theorem rangeLoop_more {e : U32} {x : V} : ∀ {n : Nat} {s : U32} {t r : Node V}, rangeLoop merge e x n s t = some r →
    ∀ k, n ≤ k → rangeLoop merge e x k s t = some r
  | 0, s, t, r, h, k, _ => by
    rw [rangeLoop] at h
    split at h
    · cases h
    · rename_i hn
      cases k <;> rw [rangeLoop, if_neg hn, h]
  | n + 1, s, t, r, h, k + 1, hk => by
    rw [rangeLoop] at h ⊢
    split at h
    · rename_i hp
      rw [if_pos hp]
      split at h
      · cases h
      · rename_i m hm
        rw [shrink_into hm k (by omega)]
        exact rangeLoop_more h k (by omega)
    · rename_i hn
      rw [if_neg hn, h]

theorem Step_once {op : Op V} {t t₁ t₂ : Node V} (h₁ : Step merge t op t₁) (h₂ : Step merge t op t₂) : t₁ = t₂ := by
  cases op with
  | addIp ip v => exact Res.ok.inj (h₁.symm.trans h₂)
  | addCidr c v => exact Res.ok.inj (h₁.symm.trans h₂)
  | addRange s e v =>
    obtain ⟨n, h₁⟩ := h₁
    obtain ⟨m, h₂⟩ := h₂
    rw [AddRange] at h₁ h₂
    rcases hs : Ipv4ToUint s with us | _
    · rcases he : Ipv4ToUint e with ue | _
      · rw [hs, he] at h₁ h₂
        have e₁ : rangeLoop merge ue v n us t = some t₁ := Res.ok.inj h₁
        have e₂ : rangeLoop merge ue v m us t = some t₂ := Res.ok.inj h₂
        have := (rangeLoop_more e₁ (n + m) (by omega)).symm.trans (rangeLoop_more e₂ (n + m) (by omega))
        exact Option.some.inj this
      · rw [hs, he] at h₁; cases h₁
    · rw [hs] at h₁; cases h₁

theorem Runs_once : ∀ {ops : List (Op V)} {t t₁ t₂ : Node V}, Runs merge t ops t₁ → Runs merge t ops t₂ → t₁ = t₂
  | [], _, _, _, h₁, h₂ => h₁.trans h₂.symm
  | _ :: _, _, _, _, ⟨_, s₁, h₁⟩, ⟨_, s₂, h₂⟩ => by
    cases Step_once s₁ s₂
    exact Runs_once h₁ h₂

theorem Runs_split : ∀ {a b : List (Op V)} {t r : Node V}, Runs merge t (a ++ b) r → ∃ s, Runs merge t a s ∧ Runs merge s b r
  | [], _, t, _, h => ⟨t, rfl, h⟩
  | _ :: _, _, _, _, ⟨s, h₁, h₂⟩ => by
    obtain ⟨u, h₃, h₄⟩ := Runs_split h₂
    exact ⟨u, ⟨s, h₁, h₃⟩, h₄⟩

end Net
