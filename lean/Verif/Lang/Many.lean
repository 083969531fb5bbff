import Verif.Lang.HashCode
import Verif.Model.Recover

/-!
# Many hash objects in one memory

A program makes objects, of any types, calls their methods in any order with any slices, recovers from panics, and does anything else with
the rest of memory.
-/
namespace GoLang
open GoHash

/-- The names that belong to a type of hash objects: its package, itself, the function that makes an object, and the method that returns the
sum as a number (0 if there is none). -/
structure HashType where
  path : Name
  ty : Name
  new : Name
  sumN : Name

/-- The name of the method. -/
def HashType.method (T : HashType) : Op → Name
  | .write _ => n! "Write"
  | .sum _ => n! "Sum"
  | .sumN => T.sumN
  | .reset => n! "Reset"
  | .size => n! "Size"
  | .blockSize => n! "BlockSize"

/-- The receiver, at address `a`, and the argument, `v`, if the method has one. -/
def HashType.args (T : HashType) (a : Nat) (v : Val) : Op → List Val
  | .write _ | .sum _ => [obj T.path T.ty a, v]
  | _ => [obj T.path T.ty a]

/-- The slice `v` holds the bytes with which `op` is called; its length is an `int`. -/
def Given (W : Nat) (h : List Val) (v : Val) : Op → Prop
  | .write p => IsBytes h v p ∧ (p.length : Int) < 2 ^ (W - 1)
  | .sum p => IsBytes h v p
  | _ => True

/-- The results `vs`, in memory `h`, mean `o`. -/
def Shows (h : List Val) (vs : List Val) (op : Op) (o : GoHash.Out) : Prop :=
  match op, o with
  | .write _, .wrote k e => ∃ w, vs = [.int k, w] ∧ (e = false ↔ w = .nil)
  | .sum _, .bytes b => ∃ w, vs = [w] ∧ IsBytes h w b
  | .sumN, .num k => ∃ w, vs = [w] ∧ exact w = some (k : Int)
  | .reset, .unit => vs = []
  | .size, .num k => vs = [.int k]
  | .blockSize, .num k => vs = [.int k]
  | _, _ => False

/-- The method call returns what means `o`, or panics (`none`). Memory is then `h'`. -/
def Call (P : Prog) (T : HashType) (a : Nat) (v : Val) (h : List Val) (op : Op) (o : Option GoHash.Out) (h' : List Val) : Prop :=
  match o with
  | some o => ∃ vs, Returns P T.path T.ty (T.method op) (T.args a v op) h vs h' ∧ Shows h' vs op o
  | none => Panics P T.path T.ty (T.method op) (T.args a v op) h h'

/-- The slices that the program may hand to methods: not into objects, whose fields it cannot name. -/
def Free {κ : Type} (objs : List (Nat × κ)) (v : Val) : Prop := ∀ o ∈ objs, base v ≠ some o.1

/-- What happens: an object is made, or a method called. -/
inductive Event (κ : Type) where
  | made (a : Nat) (k : κ)
  | called (a : Nat) (op : Op) (o : Option GoHash.Out)

/-- The calls of methods of the object at `a`. -/
def opsOf {κ : Type} (a : Nat) : List (Event κ) → List Op
  | [] => []
  | .called b op _ :: es => if b = a then op :: opsOf a es else opsOf a es
  | _ :: es => opsOf a es

/-- What they returned. -/
def outsOf {κ : Type} (a : Nat) : List (Event κ) → List (Option GoHash.Out)
  | [] => []
  | .called b _ o :: es => if b = a then o :: outsOf a es else outsOf a es
  | _ :: es => outsOf a es

/-- The addresses of the objects that were made. -/
def madeIn {κ : Type} : List (Event κ) → List Nat
  | [] => []
  | .made a _ :: es => a :: madeIn es
  | _ :: es => madeIn es

/-- A run of the program from memory `h`, with the objects `objs` there, to memory `h'` with `objs'`. It may make objects of the types that
`allowed` admits. `own` is anything else that the program does: it leaves the objects as they are. -/
inductive Uses (P : Prog) {κ : Type} (T : κ → HashType) (allowed : κ → Prop) :
    (h : List Val) → (objs : List (Nat × κ)) → List (Event κ) → (h' : List Val) → (objs' : List (Nat × κ)) → Prop
  | done {h objs} : Uses P T allowed h objs [] h objs
  | own {h h₁ h' objs objs' es} : (∀ o ∈ objs, h₁[o.1]? = h[o.1]?) → Uses P T allowed h₁ objs es h' objs' → Uses P T allowed h objs es h' objs'
  | new {h h₁ h' objs objs' es k a} : allowed k → Returns P (T k).path 0 (T k).new [] h [obj (T k).path (T k).ty a] h₁ →
      Uses P T allowed h₁ ((a, k) :: objs) es h' objs' → Uses P T allowed h objs (.made a k :: es) h' objs'
  | call {h h₁ h' objs objs' es a k v op o} : (a, k) ∈ objs → Free objs v → Given P.W h v op → (op = .sumN → (T k).sumN ≠ 0) →
      Call P (T k) a v h op o h₁ → Uses P T allowed h₁ objs es h' objs' → Uses P T allowed h objs (.called a op o :: es) h' objs'

/-! ## Proofs -/

theorem Shows.unique {h vs : List Val} {op : Op} {o o' : GoHash.Out} (x : Shows h vs op o) (y : Shows h vs op o') : o = o' := by
  cases op <;> cases o <;> cases o' <;> simp only [Shows] at x y
  · obtain ⟨v, rfl, hv⟩ := x
    obtain ⟨w, hw, hw'⟩ := y
    simp only [List.cons.injEq, Val.int.injEq, Int.ofNat_inj, and_true] at hw
    obtain ⟨rfl, rfl⟩ := hw
    have := hv.trans hw'.symm
    rename_i e e'
    revert this
    cases e <;> cases e' <;> simp
  · obtain ⟨v, rfl, hv⟩ := x
    obtain ⟨w, hw, hw'⟩ := y
    cases hw
    rw [hv.has.unique hw'.has]
  · obtain ⟨v, rfl, hv⟩ := x
    obtain ⟨w, hw, hw'⟩ := y
    cases hw
    have := hv.symm.trans hw'
    simp only [Option.some.injEq, Int.ofNat_inj] at this
    rw [this]
  · rfl
  · rw [x] at y
    simp only [List.cons.injEq, Val.int.injEq, Int.ofNat_inj, and_true] at y
    rw [y]
  · rw [x] at y
    simp only [List.cons.injEq, Val.int.injEq, Int.ofNat_inj, and_true] at y
    rw [y]

theorem Call.unique {P : Prog} {T : HashType} {a : Nat} {v : Val} {h : List Val} {op : Op} {o o' : Option GoHash.Out} {h₁ h₂ : List Val}
    (x : Call P T a v h op o h₁) (y : Call P T a v h op o' h₂) : o = o' ∧ h₁ = h₂ := by
  cases o <;> cases o' <;> simp only [Call] at x y
  · obtain ⟨N, x⟩ := x
    obtain ⟨M, y⟩ := y
    have := (x (N + M) (by omega)).symm.trans (y (N + M) (by omega))
    simp only [Out.panic.injEq] at this
    exact ⟨rfl, this⟩
  · obtain ⟨vs, y, _⟩ := y
    exact absurd x y.not_panics
  · obtain ⟨vs, x, _⟩ := x
    exact absurd y x.not_panics
  · obtain ⟨vs, x, hx⟩ := x
    obtain ⟨ws, y, hy⟩ := y
    obtain ⟨rfl, rfl⟩ := x.unique y
    exact ⟨by rw [hx.unique hy], rfl⟩

theorem mem_madeIn {κ : Type} {a : Nat} {k : κ} {es : List (Event κ)} (h : .made a k ∈ es) : a ∈ madeIn es := by
  induction es with
  | nil => cases h
  | cons e es ih =>
    rcases List.mem_cons.mp h with rfl | h'
    · exact .head _
    · cases e
      · exact .tail _ (ih h')
      · exact ih h'

/-- At address `a` there is an object that answers every history as `f` says. `Q` is true of the objects of this type. -/
def Live (P : Prog) (Q : Val → Prop) (T : HashType) (h : List Val) (a : Nat) (f : List Op → List (Option GoHash.Out)) : Prop :=
  ∃ (σ : Type) (I : Impl σ) (rep : σ → Val) (Inv : σ → Prop) (s : σ), Implements P T.path T.ty T.new T.sumN I rep Inv ∧ (∀ s, Q (rep s)) ∧ Inv s ∧
    h[a]? = some (rep s) ∧ f = runFromRec I s

theorem Live.looks {P : Prog} {Q : Val → Prop} {T : HashType} {h : List Val} {a : Nat} {f : List Op → List (Option GoHash.Out)} (hl : Live P Q T h a f) :
    ∃ x, h[a]? = some x ∧ Q x := by
  obtain ⟨_, _, _, _, s, _, hq, _, ha, _⟩ := hl
  exact ⟨_, ha, hq s⟩

theorem Live.lt {P : Prog} {Q : Val → Prop} {T : HashType} {h : List Val} {a : Nat} {f : List Op → List (Option GoHash.Out)} (hl : Live P Q T h a f) : a < h.length := by
  obtain ⟨_, _, _, _, _, _, _, _, ha, _⟩ := hl
  exact lt_of_get ha

theorem Live.keep {P : Prog} {Q : Val → Prop} {T : HashType} {h h' : List Val} {a : Nat} {f : List Op → List (Option GoHash.Out)} (hl : Live P Q T h a f)
    (hk : h'[a]? = h[a]?) : Live P Q T h' a f := by
  obtain ⟨σ, I, rep, Inv, s, hI, hq, hs, ha, hf⟩ := hl
  exact ⟨σ, I, rep, Inv, s, hI, hq, hs, by rw [hk, ha], hf⟩

/-- The address that a call may change besides that of the object: where `Sum` appends. -/
def target (v : Val) : Op → Option Nat
  | .sum _ => base v
  | _ => none

theorem prefix_keeps {h h' : List Val} (hp : h <+: h') {i : Nat} (hi : i < h.length) : h'[i]? = h[i]? := by
  obtain ⟨t, rfl⟩ := hp
  rw [List.getElem?_append_left hi]

theorem prefix_set {h h' : List Val} {a : Nat} {x : Val} (hp : h.set a x <+: h') {i : Nat} (hi : i < h.length) (hne : i ≠ a) : h'[i]? = h[i]? := by
  rw [prefix_keeps hp (by simpa using hi), List.getElem?_set_ne (by omega)]

theorem isBytes_keep {h h' : List Val} {v : Val} {b : List (BitVec 8)} (hb : IsBytes h v b) (hk : ∀ i, base v = some i → h'[i]? = h[i]?) :
    IsBytes h' v b := by
  rcases hb with hb | ⟨a, p, off, cap, o, l, rfl, ho, hr⟩
  · exact .inl hb
  · exact .inr ⟨a, p, off, cap, o, l, rfl, by rw [hk a rfl, ho], hr⟩

/-- `append` does not change the bytes of its argument, and returns the same array or a new one. -/
theorem appendTo_keeps (grow : Nat → Nat) {h h' : List Val} {v v' : Val} {b : List (BitVec 8)} (hb : IsBytes h v b) (w : List (BitVec 8))
    (ha : appendTo grow v (w.map .u8) ⟨h, []⟩ = .ok v' ⟨h', []⟩) :
    IsBytes h' v b ∧ ∀ i, i < h.length → base v' = some i → base v = some i := by
  rcases hb with ⟨rfl, rfl⟩ | ⟨a, p, off, cap, o, l, rfl, ho, hg, hc, hl, he⟩
  · refine ⟨.inl ⟨rfl, rfl⟩, fun i hi hv => ?_⟩
    cases w with
    | nil =>
      simp [go] at ha
      rw [← ha.1] at hv
      cases hv
    | cons x w =>
      simp [go] at ha
      rw [← ha.1] at hv
      simp only [base, Option.some.injEq] at hv
      omega
  · have hla := lt_of_get ho
    by_cases hcap : b.length + w.length ≤ cap
    · obtain ⟨o', h₁, h₂⟩ := getPath_setPath (w := .arr (splice l (off + b.length) (w.map .u8))) hg
      have : off + b.length + w.length ≤ l.length := by omega
      simp [go, hcap, ho, hg, h₁, this] at ha
      obtain ⟨rfl, rfl⟩ := ha
      refine ⟨.inr ⟨a, p, off, cap, o', splice l (off + b.length) (w.map .u8), rfl, by simp [hla], h₂, ?_, hl, ?_⟩, fun i _ hv => hv⟩
      · simp [splice]; omega
      · simp only [splice]
        rw [List.drop_append_of_le_length (by simp; omega), List.drop_append_of_le_length (by simp; omega), List.drop_take]
        simp only [Nat.add_sub_cancel_left]
        rw [he, List.append_assoc, List.take_append_of_le_length (by simp), List.take_of_length_le (by simp)]
    · have : off + b.length ≤ l.length := by omega
      simp [go, hcap, ho, hg, this, he] at ha
      obtain ⟨rfl, rfl⟩ := ha
      refine ⟨.inr ⟨a, p, off, cap, o, l, rfl, by rw [List.getElem?_append_left hla, ho], hg, hc, hl, he⟩, fun i hi hv => ?_⟩
      simp only [base, Option.some.injEq] at hv
      omega

/-- What a call leaves: nothing else in memory is changed, the argument holds the same bytes, no result is a slice of older memory
except the argument's. -/
structure Leaves (P : Prog) (T : HashType) (a : Nat) (v : Val) (h : List Val) (op : Op) (h' : List Val) : Prop where
  rest : ∀ i, i < h.length → i ≠ a → some i ≠ target v op → h'[i]? = h[i]?
  arg : Given P.W h' v op
  results : ∀ vs h'', Returns P T.path T.ty (T.method op) (T.args a v op) h vs h'' → ∀ w ∈ vs, ∀ i, i < h.length → base w = some i → base v = some i

/-- Any call that can be made has an outcome: the one that the history so far tells. It changes nothing but the object and, if it is `Sum`,
the array of its argument. -/
theorem Live.step {P : Prog} {Q : Val → Prop} {T : HashType} {h : List Val} {a : Nat} {f : List Op → List (Option GoHash.Out)} (hl : Live P Q T h a f) {v : Val} {op : Op}
    (hv : base v ≠ some a) (hg : Given P.W h v op) (hN : op = .sumN → T.sumN ≠ 0) :
    ∃ o h' g, Call P T a v h op o h' ∧ (∀ ops, f (op :: ops) = o :: g ops) ∧ Live P Q T h' a g ∧ Leaves P T a v h op h' := by
  obtain ⟨σ, I, rep, Inv, s, hI, hq, hs, ha, rfl⟩ := hl
  have next {s' : σ} {h' : List Val} {o : Option GoHash.Out} (hst : stepRec I s op = (s', o)) (hc : Call P T a v h op o h')
      (hs' : Inv s') (ha' : h'[a]? = some (rep s')) (hf : Leaves P T a v h op h') :
      ∃ o h' g, Call P T a v h op o h' ∧ (∀ ops, runFromRec I s (op :: ops) = o :: g ops) ∧ Live P Q T h' a g ∧ Leaves P T a v h op h' :=
    ⟨o, h', runFromRec I s', hc, fun ops => by rw [runFromRec, hst], ⟨σ, I, rep, Inv, s', hI, hq, hs', ha', rfl⟩, hf⟩
  have plain {vs h' : List Val} (hr : Returns P T.path T.ty (T.method op) (T.args a v op) h vs h') (hvs : ∀ w ∈ vs, base w = none) :
      ∀ vs h'', Returns P T.path T.ty (T.method op) (T.args a v op) h vs h'' → ∀ w ∈ vs, ∀ i, i < h.length → base w = some i → base v = some i := by
    intro ws h'' hr' w hw i _ hb
    rw [← (hr.unique hr').1] at hw
    rw [hvs w hw] at hb
    cases hb
  have basev {p : List (BitVec 8)} (hb : IsBytes h v p) {i : Nat} (hi : base v = some i) : i < h.length := by
    rcases hb with ⟨rfl, _⟩ | ⟨a, p, off, cap, o, l, rfl, ho, _⟩
    · cases hi
    · cases hi
      exact lt_of_get ho
  cases op with
  | write p =>
    have hw := hI.write h a s v p hs ha hg.1 hv hg.2
    rcases hr : I.write s p with ⟨s', k, e⟩ | _
    · simp only [hr] at hw
      obtain ⟨hi, rfl, h', hret, hpre⟩ := hw
      have hk : ∀ i, i < h.length → i ≠ a → h'[i]? = h[i]? := fun i hi hne => prefix_set hpre hi hne
      exact next (s' := s') (h' := h') (o := some (.wrote k false)) (by simp [stepRec, GoHash.step, hr]) ⟨_, hret, .nil, rfl, by simp⟩ hi
        (prefix_get hpre (List.getElem?_set_self (lt_of_get ha)))
        ⟨fun i hi hne _ => hk i hi hne, ⟨isBytes_keep hg.1 fun i hi => hk i (basev hg.1 hi) fun e => hv (e ▸ hi), hg.2⟩,
          plain hret (by simp [base])⟩
    · simp only [hr] at hw
      obtain ⟨h', hp, hpre⟩ := hw
      have hk : ∀ i, i < h.length → h'[i]? = h[i]? := fun i hi => prefix_keeps hpre hi
      exact next (s' := s) (h' := h') (o := none) (by simp [stepRec, GoHash.step, hr]) hp hs (prefix_get hpre ha)
        ⟨fun i hi _ _ => hk i hi, ⟨isBytes_keep hg.1 fun i hi => hk i (basev hg.1 hi), hg.2⟩, fun _ _ hr => absurd hp hr.not_panics⟩
  | sum p =>
    obtain ⟨w, h₁, v', h', hsum, hpre, hap, hret⟩ := hI.sum h a s v p hs ha hg hv
    obtain ⟨t, rfl⟩ := hpre
    obtain ⟨v₂, h₂, hap₂, hb₂, _, hfr⟩ := appendTo_bytes P.grow (IsBytes.append hg t) w
    have := hap.symm.trans (hap₂ [])
    simp only [Out.ok.injEq, St.mk.injEq, and_true] at this
    obtain ⟨rfl, rfl⟩ := this
    have hk : ∀ i, i < h.length → some i ≠ base v → h'[i]? = h[i]? := fun i hi hne => by
      rw [hfr i (by simp; omega) hne, List.getElem?_append_left hi]
    obtain ⟨hb, hbase⟩ := appendTo_keeps P.grow (IsBytes.append hg t) w hap
    refine next (s' := s) (h' := h') (o := some (.bytes (p ++ w))) (by simp [stepRec, GoHash.step, hsum]) ⟨_, hret, v', rfl, hb₂⟩ hs
      (by rw [hk a (lt_of_get ha) hv.symm, ha]) ⟨fun i hi _ hne => hk i hi hne, hb, fun ws h'' hr' x hx i hi => ?_⟩
    rw [← (Returns.unique hret hr').1] at hx
    cases List.mem_singleton.mp hx
    exact hbase i (by simp; omega)
  | sumN =>
    obtain ⟨w, k, hk, hw, hret⟩ := hI.sumN h a s hs ha (hN rfl)
    exact next (s' := s) (h' := h) (o := some (.num k)) (by simp [stepRec, GoHash.step, hk]) ⟨_, hret, w, rfl, hw⟩ hs ha
      ⟨fun _ _ _ _ => rfl, trivial, plain hret (by
        intro x hx
        cases List.mem_singleton.mp hx
        cases w <;> simp [exact] at hw <;> rfl)⟩
  | reset =>
    obtain ⟨s', h', hr, hi, hret, hpre⟩ := hI.reset h a s hs ha
    exact next (s' := s') (h' := h') (o := some .unit) (by simp [stepRec, GoHash.step, hr]) ⟨_, hret, rfl⟩ hi
      (prefix_get hpre (List.getElem?_set_self (lt_of_get ha))) ⟨fun i hi hne _ => prefix_set hpre hi hne, trivial, plain hret (by simp)⟩
  | size =>
    exact next (s' := s) (h' := h) (o := some (.num (I.size s))) rfl ⟨_, hI.size h a s hs ha, rfl⟩ hs ha
      ⟨fun _ _ _ _ => rfl, trivial, plain (hI.size h a s hs ha) (by simp [base])⟩
  | blockSize =>
    exact next (s' := s) (h' := h) (o := some (.num (I.blockSize s))) rfl ⟨_, hI.blockSize h a s hs ha, rfl⟩ hs ha
      ⟨fun _ _ _ _ => rfl, trivial, plain (hI.blockSize h a s hs ha) (by simp [base])⟩

/-- The code of the type makes objects that answer as `f` says, and of which `Q` is true. -/
def Makes (P : Prog) (Q : Val → Prop) (T : HashType) (f : List Op → List (Option GoHash.Out)) : Prop :=
  ∃ (σ : Type) (I : Impl σ) (rep : σ → Val) (Inv : σ → Prop), Implements P T.path T.ty T.new T.sumN I rep Inv ∧ (∀ s, Q (rep s)) ∧
    ∀ s, I.new = .ok s → ∀ ops, runFromRec I s ops = f ops

theorem Makes.new {P : Prog} {Q : Val → Prop} {T : HashType} {f : List Op → List (Option GoHash.Out)} (hm : Makes P Q T f) (h : List Val) :
    ∃ h', Returns P T.path 0 T.new [] h [obj T.path T.ty h.length] h' ∧ Live P Q T h' h.length f ∧ h <+: h' := by
  obtain ⟨σ, I, rep, Inv, hI, hq, hf⟩ := hm
  obtain ⟨s, h', hs, hi, hret, hpre⟩ := hI.new h
  exact ⟨h', hret, ⟨σ, I, rep, Inv, s, hI, hq, hi, prefix_get hpre (by simp), (funext (hf s hs)).symm⟩, (List.prefix_append h _).trans hpre⟩

variable {P : Prog} {Q : Val → Prop} {κ : Type} {T : κ → HashType} {allowed : κ → Prop}

/-- All objects are there; `F` tells for each address what the object answers. -/
def AllLive (P : Prog) (Q : Val → Prop) {κ : Type} (T : κ → HashType) (h : List Val) (objs : List (Nat × κ)) (F : Nat → List Op → List (Option GoHash.Out)) : Prop :=
  ∀ o ∈ objs, Live P Q (T o.2) h o.1 (F o.1)

theorem AllLive.new {h h₁ : List Val} {objs : List (Nat × κ)} {F : Nat → List Op → List (Option GoHash.Out)} (hl : AllLive P Q T h objs F) {k : κ}
    {f : List Op → List (Option GoHash.Out)} (hm : Makes P Q (T k) f) {a : Nat} (hr : Returns P (T k).path 0 (T k).new [] h [obj (T k).path (T k).ty a] h₁) :
    a = h.length ∧ AllLive P Q T h₁ ((a, k) :: objs) fun i => if i = a then f else F i := by
  obtain ⟨h₂, hr₂, hn, hpre⟩ := hm.new h
  obtain ⟨e, rfl⟩ := hr.unique hr₂
  simp only [List.cons.injEq, Val.ptr.injEq, true_and, and_true] at e
  refine ⟨e, fun o ho => ?_⟩
  rcases List.mem_cons.mp ho with rfl | ho
  · subst e
    simpa using hn
  · have := (hl o ho).lt
    have hne : o.1 ≠ a := by omega
    simp only [if_neg hne]
    exact (hl o ho).keep (prefix_keeps hpre this)

/-- Objects at the same address are the same. -/
def Distinct {κ : Type} (objs : List (Nat × κ)) : Prop := (objs.map Prod.fst).Nodup

theorem Distinct.eq {objs : List (Nat × κ)} (hd : Distinct objs) {a : Nat} {k k' : κ} (x : (a, k) ∈ objs) (y : (a, k') ∈ objs) : k = k' := by
  induction objs with
  | nil => cases x
  | cons o objs ih =>
    obtain ⟨h1, h2⟩ := List.nodup_cons.mp hd
    have no : ∀ {k : κ}, (o.1, k) ∉ objs := fun hk => h1 (List.mem_map.mpr ⟨_, hk, rfl⟩)
    rcases List.mem_cons.mp x with ex | x'
    · rcases List.mem_cons.mp y with ey | y'
      · exact (Prod.mk.inj (ex.trans ey.symm)).2
      · subst ex
        exact absurd y' no
    · rcases List.mem_cons.mp y with ey | y'
      · subst ey
        exact absurd x' no
      · exact ih h2 x' y'

theorem AllLive.call {h h₁ : List Val} {objs : List (Nat × κ)} {F : Nat → List Op → List (Option GoHash.Out)} (hl : AllLive P Q T h objs F)
    (hd : Distinct objs) {a : Nat} {k : κ} {v : Val} {op : Op} {o : Option GoHash.Out} (ha : (a, k) ∈ objs) (hv : Free objs v) (hg : Given P.W h v op)
    (hN : op = .sumN → (T k).sumN ≠ 0) (hc : Call P (T k) a v h op o h₁) : ∃ g, (∀ ops, F a (op :: ops) = o :: g ops) ∧
      AllLive P Q T h₁ objs fun i => if i = a then g else F i := by
  obtain ⟨o', h₂, g, hc₂, hF, hn, hk⟩ := (hl _ ha).step (hv _ ha) hg hN
  obtain ⟨rfl, rfl⟩ := hc.unique hc₂
  refine ⟨g, hF, fun x hx => ?_⟩
  by_cases hxa : x.1 = a
  · obtain ⟨b, k'⟩ := x
    dsimp only at hxa
    subst hxa
    simp only [if_true, ← hd.eq ha hx]
    exact hn
  · simp only [if_neg hxa]
    refine (hl x hx).keep (hk.rest _ (hl x hx).lt hxa ?_)
    cases op <;> simp only [target, ne_eq, reduceCtorEq, not_false_eq_true]
    exact (hv x hx).symm

theorem Live.nil {T : HashType} {h : List Val} {a : Nat} {f : List Op → List (Option GoHash.Out)} (hl : Live P Q T h a f) : f [] = [] := by
  obtain ⟨σ, I, rep, Inv, s, hI, hq, hs, ha, rfl⟩ := hl
  rfl

/-- Every object answers as it would alone, and no two have the same address. -/
theorem Uses.all {f : κ → List Op → List (Option GoHash.Out)} (hm : ∀ k, allowed k → Makes P Q (T k) (f k)) {h h' : List Val}
    {objs objs' : List (Nat × κ)} {es : List (Event κ)} (hu : Uses P T allowed h objs es h' objs') :
    ∀ F, AllLive P Q T h objs F → Distinct objs →
      (∀ o ∈ objs, outsOf o.1 es = F o.1 (opsOf o.1 es)) ∧ (∀ a k, .made a k ∈ es → outsOf a es = f k (opsOf a es)) ∧
      (madeIn es).Nodup ∧ (∀ a ∈ madeIn es, a ∉ objs.map Prod.fst) ∧ (objs'.map Prod.fst = (madeIn es).reverse ++ objs.map Prod.fst) ∧
      ∃ F', AllLive P Q T h' objs' F' ∧ Distinct objs' := by
  induction hu with
  | done =>
    intro F hl hd
    exact ⟨fun o ho => (hl o ho).nil.symm, fun a k hk => by simp at hk, .nil, fun a ha => by simp [madeIn] at ha, rfl, F, hl, hd⟩
  | own hk _ ih => exact fun F hl hd => ih F (fun o ho => (hl o ho).keep (hk o ho)) hd
  | @new h h₁ h' objs objs' es k a hk hr _ ih =>
    intro F hl hd
    obtain ⟨ea, hl'⟩ := hl.new (hm k hk) hr
    have hno : a ∉ objs.map Prod.fst := fun hx => by
      obtain ⟨o, ho, e⟩ := List.mem_map.mp hx
      have := (hl o ho).lt
      omega
    obtain ⟨h1, h2, h3, h4, h5, h6⟩ := ih _ hl' (List.nodup_cons.mpr ⟨hno, hd⟩)
    have hno' : a ∉ madeIn es := fun hx => h4 a hx (by simp)
    refine ⟨fun o ho => ?_, fun b k' hb => ?_, List.nodup_cons.mpr ⟨hno', h3⟩, ?_, ?_, h6⟩
    · have := h1 o (.tail _ ho)
      rwa [if_neg fun (e : o.1 = a) => hno (e ▸ List.mem_map_of_mem ho)] at this
    · rcases List.mem_cons.mp hb with e | hb
      · cases e
        have := h1 (a, k) (.head _)
        rwa [if_pos rfl] at this
      · exact h2 b k' hb
    · intro b hb
      rcases List.mem_cons.mp hb with rfl | hb
      · exact hno
      · exact fun hx => h4 b hb (.tail _ hx)
    · rw [h5, madeIn]
      simp
  | @call h h₁ h' objs objs' es a k v op o ha hv hg hN hc _ ih =>
    intro F hl hd
    obtain ⟨g, hF, hl'⟩ := hl.call hd ha hv hg hN hc
    obtain ⟨h1, h2, h3, h4, h5, h6⟩ := ih _ hl' hd
    refine ⟨fun x hx => ?_, fun b k' hb => ?_, h3, h4, h5, h6⟩
    · have := h1 x hx
      by_cases hxa : a = x.1
      · rw [outsOf, opsOf, if_pos hxa, if_pos hxa, ← hxa, hF]
        rw [← hxa, if_pos rfl] at this
        rw [this]
      · rw [outsOf, opsOf, if_neg hxa, if_neg hxa]
        rwa [if_neg (Ne.symm hxa)] at this
    · have hb : .made b k' ∈ es := by simpa using hb
      have hne : a ≠ b := fun e => h4 b (mem_madeIn hb) (e ▸ List.mem_map_of_mem ha)
      rw [outsOf, opsOf, if_neg hne, if_neg hne]
      exact h2 b k' hb

end GoLang
