import Verif.Lang.Claims
import Verif.Go.Hash

/-!
# Code of a hash object and its meaning as a state machine
-/
namespace GoLang

@[go] theorem res_bind_ok {α β : Type} (a : α) (f : α → Res β) : (Res.ok a >>= f) = f a := rfl
@[go] theorem res_bind_panic {α β : Type} (f : α → Res β) : (Res.panic >>= f) = Res.panic := rfl
@[go] theorem res_pure {α : Type} (a : α) : (pure a : Res α) = .ok a := rfl

/-- A pointer to an object of type `ty` of the package. -/
abbrev obj (path ty : Name) (a : Nat) : Val := .ptr path ty a []

/-- The functions of a package, when run, do what the state machine `I` does. `new` and `sumN` are the names of the functions that make
an object and that return the sum as a number (0 if there is none); `rep s` is the object in state `s`; `Inv` is what holds of all
states that an object can reach. The lengths of the arguments must be representable as `int`. A function may leave new objects in memory (`<+:`), but changes no old one except as said. -/
structure Implements (P : Prog) (path ty new sumN : Name) {σ : Type} (I : GoHash.Impl σ) (rep : σ → Val) (Inv : σ → Prop := fun _ => True) :
    Prop where
  /-- A new object is made in its initial state; nothing else in memory changes. -/
  new : ∀ h, ∃ s h', I.new = .ok s ∧ Inv s ∧ Returns P path 0 new [] h [obj path ty h.length] h' ∧ h ++ [rep s] <+: h'
  /-- `Write` returns the count and the error of the state machine and changes the object to the next state, or panics and changes nothing. -/
  write : ∀ h a s v b, Inv s → h[a]? = some (rep s) → IsBytes h v b → base v ≠ some a → (b.length : Int) < 2 ^ (P.W - 1) →
    match I.write s b with
    | .ok (s', k, e) => Inv s' ∧ e = false ∧ ∃ h', Returns P path ty (n! "Write") [obj path ty a, v] h [.int k, .nil] h' ∧ h.set a (rep s') <+: h'
    | .panic => ∃ h', Panics P path ty (n! "Write") [obj path ty a, v] h h' ∧ h <+: h'
  /-- `Sum` appends bytes to its argument (as Go's `append` does) and does not change the object. -/
  sum : ∀ h a s v b, Inv s → h[a]? = some (rep s) → IsBytes h v b → base v ≠ some a → ∃ w h₁ v' h', I.sum s b = .ok (s, b ++ w) ∧ h <+: h₁ ∧
    appendTo P.grow v (w.map .u8) ⟨h₁, []⟩ = .ok v' ⟨h', []⟩ ∧ Returns P path ty (n! "Sum") [obj path ty a, v] h [v'] h'
  /-- The sum as a number. -/
  sumN : ∀ h a s, Inv s → h[a]? = some (rep s) → sumN ≠ 0 →
    ∃ v k, I.sumN s = some k ∧ exact v = some (k : Int) ∧ Returns P path ty sumN [obj path ty a] h [v] h
  reset : ∀ h a s, Inv s → h[a]? = some (rep s) → ∃ s' h', I.reset s = .ok s' ∧ Inv s' ∧ Returns P path ty (n! "Reset") [obj path ty a] h [] h' ∧
    h.set a (rep s') <+: h'
  size : ∀ h a s, Inv s → h[a]? = some (rep s) → Returns P path ty (n! "Size") [obj path ty a] h [.int (I.size s)] h
  blockSize : ∀ h a s, Inv s → h[a]? = some (rep s) → Returns P path ty (n! "BlockSize") [obj path ty a] h [.int (I.blockSize s)] h

/-! ## Histories of calls -/

/-- The slice `[]byte{…}` with these bytes, made in memory `h`. -/
def litBytes (h : List Val) (b : List (BitVec 8)) : Val := .slice h.length [] 0 b.length b.length

/-- Memory after `[]byte{…}`. -/
def withBytes (h : List Val) (b : List (BitVec 8)) : List Val := h ++ [.arr (b.map .u8)]

theorem isBytes_lit (h : List Val) (b : List (BitVec 8)) : IsBytes (withBytes h b) (litBytes h b) b :=
  .inr ⟨h.length, [], 0, b.length, _, _, rfl, List.getElem?_concat_length .., rfl, by simp, by simp, by
    simp only [List.drop_zero]
    exact List.take_of_length_le (by simp)⟩

/-- The method call `op` on the object at address `a`, with a fresh slice for its argument, returns `o`; memory is then `h'`. -/
def CallReturns (P : Prog) (path ty sumN : Name) (a : Nat) (h : List Val) (op : GoHash.Op) (o : GoHash.Out) (h' : List Val) : Prop :=
  match op, o with
  | .write p, .wrote k e => ∃ v, Returns P path ty (n! "Write") [obj path ty a, litBytes h p] (withBytes h p) [.int k, v] h' ∧
    (e = false ↔ v = .nil)
  | .sum p, .bytes b => ∃ v, Returns P path ty (n! "Sum") [obj path ty a, litBytes h p] (withBytes h p) [v] h' ∧ IsBytes h' v b
  | .sumN, .num k => ∃ v, Returns P path ty sumN [obj path ty a] h [v] h' ∧ exact v = some (k : Int)
  | .reset, .unit => Returns P path ty (n! "Reset") [obj path ty a] h [] h'
  | .size, .num k => Returns P path ty (n! "Size") [obj path ty a] h [.int k] h'
  | .blockSize, .num k => Returns P path ty (n! "BlockSize") [obj path ty a] h [.int k] h'
  | _, _ => False

/-- The method call `op` panics. Only `Write` does. -/
def CallPanics (P : Prog) (path ty : Name) (a : Nat) (h : List Val) (op : GoHash.Op) : Prop :=
  match op with
  | .write p => ∃ h', Panics P path ty (n! "Write") [obj path ty a, litBytes h p] (withBytes h p) h'
  | _ => False

/-- The calls `ops` on the object at `a` are made one after another: all return, with these results, or one panics. -/
inductive Plays (P : Prog) (path ty sumN : Name) (a : Nat) : List Val → List GoHash.Op → Res (List GoHash.Out) → Prop
  | nil {h} : Plays P path ty sumN a h [] (.ok [])
  | cons {h op o h' ops os} : CallReturns P path ty sumN a h op o h' → Plays P path ty sumN a h' ops (.ok os) →
      Plays P path ty sumN a h (op :: ops) (.ok (o :: os))
  | later {h op o h' ops} : CallReturns P path ty sumN a h op o h' → Plays P path ty sumN a h' ops .panic →
      Plays P path ty sumN a h (op :: ops) .panic
  | panic {h op ops} : CallPanics P path ty a h op → Plays P path ty sumN a h (op :: ops) .panic

theorem CallReturns.unique {P : Prog} {path ty sumN : Name} {a : Nat} {h : List Val} {op : GoHash.Op} {o o₂ : GoHash.Out} {h₁ h₂ : List Val}
    (x : CallReturns P path ty sumN a h op o h₁) (y : CallReturns P path ty sumN a h op o₂ h₂) : o = o₂ ∧ h₁ = h₂ := by
  cases op <;> cases o <;> cases o₂ <;> simp only [CallReturns] at x y
  · obtain ⟨v, x, hv⟩ := x
    obtain ⟨w, y, hw⟩ := y
    have := x.unique y
    simp only [List.cons.injEq, Val.int.injEq, Int.ofNat_inj, and_true] at this
    obtain ⟨⟨rfl, rfl⟩, rfl⟩ := this
    have := hv.trans hw.symm
    rename_i e e'
    revert this
    cases e <;> cases e' <;> simp
  · obtain ⟨v, x, hv⟩ := x
    obtain ⟨w, y, hw⟩ := y
    have := x.unique y
    simp only [List.cons.injEq, and_true] at this
    obtain ⟨rfl, rfl⟩ := this
    simp [hv.has.unique hw.has]
  · obtain ⟨v, x, hv⟩ := x
    obtain ⟨w, y, hw⟩ := y
    have := x.unique y
    simp only [List.cons.injEq, and_true] at this
    obtain ⟨rfl, rfl⟩ := this
    have := hv.symm.trans hw
    simp only [Option.some.injEq, Int.ofNat_inj] at this
    simp [this]
  · exact ⟨rfl, (x.unique y).2⟩
  · have := x.unique y
    simp only [List.cons.injEq, Val.int.injEq, Int.ofNat_inj, and_true] at this
    simp [this]
  · have := x.unique y
    simp only [List.cons.injEq, Val.int.injEq, Int.ofNat_inj, and_true] at this
    simp [this]

theorem CallReturns.not_panics {P : Prog} {path ty sumN : Name} {a : Nat} {h : List Val} {op : GoHash.Op} {o : GoHash.Out} {h₁ : List Val}
    (x : CallReturns P path ty sumN a h op o h₁) : ¬ CallPanics P path ty a h op := by
  cases op <;> cases o <;> simp only [CallReturns, CallPanics, not_false_eq_true] at x ⊢
  rintro ⟨h', y⟩
  obtain ⟨v, x, _⟩ := x
  exact x.not_panics y

/-- A history has one outcome. -/
theorem Plays.unique {P : Prog} {path ty sumN : Name} {a : Nat} {h : List Val} {ops : List GoHash.Op} {r r' : Res (List GoHash.Out)}
    (x : Plays P path ty sumN a h ops r) (y : Plays P path ty sumN a h ops r') : r = r' := by
  induction x generalizing r' with
  | nil => cases y; rfl
  | cons c _ ih =>
    cases y with
    | cons c' y =>
      obtain ⟨rfl, rfl⟩ := c.unique c'
      cases ih y; rfl
    | later c' y =>
      obtain ⟨rfl, rfl⟩ := c.unique c'
      cases ih y
    | panic c' => exact absurd c' c.not_panics
  | later c _ ih =>
    cases y with
    | cons c' y =>
      obtain ⟨rfl, rfl⟩ := c.unique c'
      cases ih y
    | later c' y => rfl
    | panic c' => rfl
  | panic c =>
    cases y with
    | cons c' y => exact absurd c c'.not_panics
    | later c' y => rfl
    | panic c' => rfl

/-- The calls that can be made: slices of representable length, the sum as a number only if the type has such a method. -/
def Callable (W : Nat) (sumN : Name) (ops : List GoHash.Op) : Prop :=
  (∀ p, .write p ∈ ops → (p.length : Int) < 2 ^ (W - 1)) ∧ (.sumN ∈ ops → sumN ≠ 0)

theorem prefix_get {h h' : List Val} {a : Nat} {x : Val} (hp : h <+: h') (ha : h[a]? = some x) : h'[a]? = some x := by
  obtain ⟨t, rfl⟩ := hp
  rw [List.getElem?_append_left (lt_of_get ha), ha]

theorem get_withBytes {h : List Val} {a : Nat} {x : Val} (b : List (BitVec 8)) (ha : h[a]? = some x) : (withBytes h b)[a]? = some x :=
  prefix_get ⟨_, rfl⟩ ha

theorem base_lit {h : List Val} {a : Nat} {x : Val} (b : List (BitVec 8)) (ha : h[a]? = some x) : base (litBytes h b) ≠ some a := by
  have := lt_of_get ha
  simp only [litBytes, base, ne_eq, Option.some.injEq]
  omega

theorem Implements.playsFrom {P : Prog} {path ty new sumN : Name} {σ : Type} {I : GoHash.Impl σ} {rep : σ → Val} {Inv : σ → Prop}
    (hI : Implements P path ty new sumN I rep Inv) {a : Nat} {h : List Val} {s : σ} (hs : Inv s) (ha : h[a]? = some (rep s)) (ops : List GoHash.Op)
    (hops : Callable P.W sumN ops) : Plays P path ty sumN a h ops (GoHash.runFrom I s ops >>= fun r => .ok r.2) := by
  induction ops generalizing h s with
  | nil => exact .nil
  | cons op ops ih =>
    have hops' : Callable P.W sumN ops := ⟨fun p hp => hops.1 p (.tail _ hp), fun hp => hops.2 (.tail _ hp)⟩
    have next {s' : σ} {h' : List Val} {o : GoHash.Out} (hst : GoHash.step I s op = .ok (s', o)) (hc : CallReturns P path ty sumN a h op o h')
        (hs' : Inv s') (ha' : h'[a]? = some (rep s')) : Plays P path ty sumN a h (op :: ops) (GoHash.runFrom I s (op :: ops) >>= fun r => .ok r.2) := by
      have hr := ih hs' ha' hops'
      rw [GoHash.runFrom, hst]
      simp only [go]
      rcases hf : GoHash.runFrom I s' ops with ⟨s'', os⟩ | _
      · rw [hf] at hr
        exact .cons hc hr
      · rw [hf] at hr
        exact .later hc hr
    cases op with
    | write p =>
      have hw := hI.write _ a s _ p hs (get_withBytes p ha) (isBytes_lit h p) (base_lit p ha) (hops.1 p (.head _))
      rcases hr : I.write s p with ⟨s', k, e⟩ | _
      · simp only [hr] at hw
        obtain ⟨hi, rfl, h', hret, hpre⟩ := hw
        refine next (s' := s') (h' := h') (o := .wrote k false) (by simp [GoHash.step, hr]) ⟨.nil, hret, by simp⟩ hi (prefix_get hpre ?_)
        rw [List.getElem?_set_self (lt_of_get (get_withBytes p ha))]
      · simp only [hr] at hw
        obtain ⟨h', hp, _⟩ := hw
        rw [GoHash.runFrom]
        simp only [GoHash.step, hr, go]
        exact .panic ⟨h', hp⟩
    | sum p =>
      obtain ⟨w, h₁, v', h', hsum, hpre, hap, hret⟩ := hI.sum _ a s _ p hs (get_withBytes p ha) (isBytes_lit h p) (base_lit p ha)
      have hl := lt_of_get (get_withBytes p ha)
      have hb : IsBytes h₁ (litBytes h p) p := .inr ⟨h.length, [], 0, p.length, _, _, rfl,
        prefix_get hpre (List.getElem?_concat_length ..), rfl, by simp, by simp, by
          simp only [List.drop_zero]
          exact List.take_of_length_le (by simp)⟩
      obtain ⟨v₂, h₂, hap₂, hb₂, _, hfr⟩ := appendTo_bytes P.grow hb w
      have := hap.symm.trans (hap₂ [])
      simp only [Out.ok.injEq, St.mk.injEq, and_true] at this
      obtain ⟨rfl, rfl⟩ := this
      refine next (s' := s) (h' := h') (o := .bytes (p ++ w)) (by simp [GoHash.step, hsum]) ⟨v', hret, hb₂⟩ hs ?_
      have ha₁ := prefix_get hpre (get_withBytes p ha)
      rw [hfr a (lt_of_get ha₁) (base_lit p ha).symm, ha₁]
    | sumN =>
      obtain ⟨v, k, hk, hv, hret⟩ := hI.sumN h a s hs ha (hops.2 (.head _))
      exact next (s' := s) (h' := h) (o := .num k) (by simp [GoHash.step, hk]) ⟨v, hret, hv⟩ hs ha
    | reset =>
      obtain ⟨s', h', hr, hi, hret, hpre⟩ := hI.reset h a s hs ha
      refine next (s' := s') (h' := h') (o := .unit) (by simp [GoHash.step, hr]) hret hi (prefix_get hpre ?_)
      rw [List.getElem?_set_self (lt_of_get ha)]
    | size => exact next (s' := s) (h' := h) (o := .num (I.size s)) rfl (hI.size h a s hs ha) hs ha
    | blockSize => exact next (s' := s) (h' := h) (o := .num (I.blockSize s)) rfl (hI.blockSize h a s hs ha) hs ha

/-- Every history of calls on a new object has the outcome that the state machine gives. -/
theorem Implements.plays {P : Prog} {path ty new sumN : Name} {σ : Type} {I : GoHash.Impl σ} {rep : σ → Val} {Inv : σ → Prop}
    (hI : Implements P path ty new sumN I rep Inv) (h : List Val) : ∃ a h', Returns P path 0 new [] h [obj path ty a] h' ∧
      ∀ ops r, Callable P.W sumN ops → (Plays P path ty sumN a h' ops r ↔ GoHash.run I ops = r) := by
  obtain ⟨s, h', hs, hi, hret, hpre⟩ := hI.new h
  refine ⟨h.length, h', hret, fun ops r hops => ?_⟩
  have hp := hI.playsFrom (h := h') (s := s) (a := h.length) hi (prefix_get hpre (by simp)) ops hops
  have e : GoHash.run I ops = (GoHash.runFrom I s ops >>= fun r => .ok r.2) := by
    rw [GoHash.run, hs]
    rfl
  rw [← e] at hp
  exact ⟨fun x => hp.unique x, fun x => x ▸ hp⟩

end GoLang
