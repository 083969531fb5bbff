import Verif.Lemmas.IpPartial
import Verif.Props.SourceNet

/-!
# Any number of trees in one program, run

C105: a program makes any number of trees with any callbacks, adds to them and lists them in any order, recovers from panics, and does what
it likes with the rest of memory. Each tree behaves as if it were alone.
-/
namespace Source
open GoLang NetSpec
open _root_.Net (Node Eff Op IPNet StepC)

/-- The objects in memory that only package net can change: trees, and the objects `none{}` in them. -/
def Ours (h : List Val) (i : Nat) : Prop := h[i]? = some Net.noneVal ∨ ∃ root f, h[i]? = some (Net.treeObj root f)

/-- They are as before. -/
def Untouched (h h' : List Val) : Prop := ∀ i, Ours h i → h'[i]? = h[i]?

/-- The callback `f` computes `merge`, where it returns (`some`), and otherwise panics. It may change the memory of the program, but does not
use trees. -/
def Merges (P : Prog) (f : Val) (merge : Val → Val → Option Val) : Prop :=
  (f = .nil ∧ ∀ a b, merge a b = none) ∨ ∃ i, f = .native i ∧ ∀ h a b, Plain a → Plain b → ∃ h', Untouched h h' ∧
    match merge a b with
    | some v => (∀ e, P.native i 0 [a, b] ⟨h, e⟩ = .ok v ⟨h', e⟩) ∧ Plain v
    | none => ∀ e, P.native i 0 [a, b] ⟨h, e⟩ = .panic h'

/-- What happens to one tree: a call that ends, or a list. -/
inductive TreeEvent where
  | added (op : Op Val) (o : Option Unit)
  | listed (l : List (IPNet × Val))

/-- What happens in the program: a tree is made, or something happens to one. -/
inductive ForestEvent where
  | planted (t : Nat) (f : Val)
  | on (t : Nat) (e : TreeEvent)

/-- What happened to the tree at `t`. -/
def historyOf (t : Nat) : List ForestEvent → List TreeEvent
  | [] => []
  | .on u e :: es => if u = t then e :: historyOf t es else historyOf t es
  | _ :: es => historyOf t es

/-- The addresses of the trees that were made. -/
def plantedIn : List ForestEvent → List Nat
  | [] => []
  | .planted t _ :: es => t :: plantedIn es
  | _ :: es => plantedIn es

/-- A run of the program from memory `h`, with trees at the addresses `trees`, to memory `h'` with `trees'`. The callback `f` computes
`merges f`. `own` is anything else that the program does. -/
inductive Forest (P : Prog) (merges : Val → Val → Val → Option Val) :
    (h : List Val) → (trees : List (Nat × Val)) → List ForestEvent → (h' : List Val) → (trees' : List (Nat × Val)) → Prop
  | done {h trees} : Forest P merges h trees [] h trees
  | own {h h₁ h' trees trees' es} : Untouched h h₁ → Forest P merges h₁ trees es h' trees' → Forest P merges h trees es h' trees'
  | new {h h₁ h' trees trees' es t f} : Merges P f (merges f) → Returns P Net.path 0 (n! "New") [f] h [.ptr Net.path (n! "Tree") t []] h₁ →
      Forest P merges h₁ ((t, f) :: trees) es h' trees' → Forest P merges h trees (.planted t f :: es) h' trees'
  | add {h h₁ h' trees trees' es t f op fn args o} : (t, f) ∈ trees → Makes h op fn args → Ended P t fn args h o h₁ →
      Forest P merges h₁ trees es h' trees' → Forest P merges h trees (.on t (.added op o) :: es) h' trees'
  | list {h h₁ h' trees trees' es t f v l} : (t, f) ∈ trees →
      Returns P Net.path (n! "Tree") (n! "ListCidr") [.ptr Net.path (n! "Tree") t []] h [v] h₁ → Net.IsList h₁ v l →
      Forest P merges h₁ trees es h' trees' → Forest P merges h trees (.on t (.listed l) :: es) h' trees'

/-- What one tree of the model tells. -/
def Tells (merge : Val → Val → Option Val) : Node Val → List TreeEvent → Prop
  | _, [] => True
  | r, .added op o :: es => ∃ r', StepC (_root_.Net.partialMerge merge) (r, ()) op o (r', ()) ∧ Tells merge r' es
  | r, .listed l :: es => l = _root_.Net.ListCidr r ∧ Tells merge r es

/-! ## Proofs -/

theorem Untouched.kept {h h' : List Val} (hu : Untouched h h') : Net.Kept h h' := fun a ha => by rw [hu a (.inl ha), ha]

theorem Merges.plain {P : Prog} {f : Val} {merge : Val → Val → Option Val} (hf : Merges P f merge) : Plain f := by
  rcases hf with ⟨rfl, _⟩ | ⟨i, rfl, _⟩ <;> trivial

/-- The tree at `t` has a root, and the other objects are as in `H`. -/
def Around (t : Nat) (f : Val) (H : List Val) (h : List Val) (_ : Unit) : Prop := Rooted t f h () ∧ ∀ i, i ≠ t → Ours H i → h[i]? = H[i]?

theorem Ours.lt {h : List Val} {i : Nat} (hi : Ours h i) : i < h.length := by
  rcases hi with hi | ⟨_, _, hi⟩ <;> exact lt_of_get hi

theorem around_apart (t : Nat) (f : Val) (H : List Val) : Net.Apart t f (Around t f H) where
  alloc := fun h x y ⟨h1, h2⟩ => ⟨(rooted_apart t f).alloc h x y h1, fun i hi ho => by
    rw [← h2 i hi ho, List.getElem?_append_left]
    have e := h2 i hi ho
    rcases ho with ho | ⟨_, _, ho⟩
    · rw [ho] at e
      exact lt_of_get e
    · rw [ho] at e
      exact lt_of_get e⟩
  root := fun h x v w hw ⟨h1, h2⟩ hr => ⟨(rooted_apart t f).root h x v w hw h1 hr, fun i hi ho => by
    rw [List.getElem?_set_ne (Ne.symm hi), h2 i hi ho]⟩

theorem Ours.of_eq {h h' : List Val} {i : Nat} (hi : Ours h i) (e : h'[i]? = h[i]?) : Ours h' i := by
  unfold Ours
  rw [e]
  exact hi

theorem merges_callback {P : Prog} {f : Val} {merge : Val → Val → Option Val} (hf : Merges P f merge) (t : Nat) (H : List Val) :
    Net.Callback P t f (Around t f H) (_root_.Net.partialMerge merge) where
  fn := by
    rcases hf with ⟨rfl, _⟩ | ⟨i, rfl, _⟩
    · exact .inl rfl
    · exact .inr ⟨i, rfl⟩
  call := by
    rintro h ⟨r, ⟨⟩⟩ a b ha hb hh
    have keep : ∀ {h' : List Val}, Untouched h h' → Net.Holds t f (Around t f H) h' (r, ()) := by
      intro h' hu
      obtain ⟨⟨root, hr, hi⟩, ⟨root', hr', hn⟩, hH⟩ := hh
      have ht : h'[t]? = h[t]? := hu t (.inr ⟨_, _, hr⟩)
      exact ⟨⟨root, ht ▸ hr, hi.kept hu.kept⟩, ⟨root', ht ▸ hr', hn⟩, fun i hi ho => by
        rw [← hH i hi ho]
        exact hu i (ho.of_eq (hH i hi ho))⟩
    rcases hf with ⟨rfl, hm⟩ | ⟨i, rfl, hm⟩
    · simp only [_root_.Net.partialMerge, hm]
      exact ⟨h, fun _ => rfl, hh⟩
    · obtain ⟨h', hu, hr⟩ := hm h a b ha hb
      simp only [_root_.Net.partialMerge]
      cases hv : merge a b with
      | some v =>
        rw [hv] at hr
        exact ⟨h', hr.1, keep hu, hu.kept, hr.2⟩
      | none =>
        rw [hv] at hr
        exact ⟨h', hr, keep hu⟩

theorem holds_around {t : Nat} {f : Val} {h : List Val} {r : Node Val} (hh : Net.Holds t f (Rooted t f) h (r, ())) :
    Net.Holds t f (Around t f h) h (r, ()) := ⟨hh.1, hh.2, fun _ _ _ => rfl⟩

section
variable {P : Prog} (hP : HostsNet P)
include hP

theorem forest_step {t : Nat} {f : Val} {merge : Val → Val → Option Val} (hf : Merges P f merge) {h : List Val} {r : Node Val}
    (hh : Net.Holds t f (Rooted t f) h (r, ())) {op : Op Val} {fn : Name} {args : List Val} (hm : Makes h op fn args) {o : Option Unit}
    {h' : List Val} (he : Ended P t fn args h o h') :
    ∃ r', StepC (_root_.Net.partialMerge merge) (r, ()) op o (r', ()) ∧ Net.Holds t f (Rooted t f) h' (r', ()) ∧ ∀ i, i ≠ t → Ours h i → h'[i]? = h[i]? := by
  obtain ⟨⟨r', ⟨⟩⟩, hs, h1, h2, h3⟩ := (C92_step hP (merges_callback hf t h) (around_apart t f h) (holds_around hh) hm o).2 h' he
  exact ⟨r', hs, ⟨h1, h2⟩, h3⟩

/-- All trees are there. -/
def AllHold (P : Prog) (merges : Val → Val → Val → Option Val) (h : List Val) (trees : List (Nat × Val)) (R : Nat → Node Val) : Prop :=
  ∀ x ∈ trees, Merges P x.2 (merges x.2) ∧ Net.Holds x.1 x.2 (Rooted x.1 x.2) h (R x.1, ())

omit hP in
theorem holds_keep {t : Nat} {f : Val} {h h' : List Val} {r : Node Val} (hh : Net.Holds t f (Rooted t f) h (r, ())) (ht : h'[t]? = h[t]?)
    (hk : Net.Kept h h') : Net.Holds t f (Rooted t f) h' (r, ()) := by
  obtain ⟨⟨root, hr, hi⟩, root', hr', hn⟩ := hh
  exact ⟨⟨root, ht ▸ hr, hi.kept hk⟩, root', ht ▸ hr', hn⟩

omit hP in
theorem holds_ours {t : Nat} {f : Val} {h : List Val} {r : Node Val} (hh : Net.Holds t f (Rooted t f) h (r, ())) : Ours h t :=
  .inr ⟨_, _, hh.1.choose_spec.1⟩

omit hP in
theorem holds_callback {t : Nat} {f g : Val} {h : List Val} {r s : Node Val} (hh : Net.Holds t f (Rooted t f) h (r, ()))
    (hg : Net.Holds t g (Rooted t g) h (s, ())) : f = g := by
  obtain ⟨⟨_, h1, _⟩, _⟩ := hh
  obtain ⟨⟨_, h2, _⟩, _⟩ := hg
  rw [h1] at h2
  simpa using (by simpa using h2 : _ ∧ f = g).2

omit hP in
theorem pair_eq {c d : IPNet × Val} (h1 : c.1.ip = d.1.ip) (h2 : c.1.mask = d.1.mask) (h3 : c.2 = d.2) : c = d := by
  obtain ⟨⟨_, _⟩, _⟩ := c
  obtain ⟨⟨_, _⟩, _⟩ := d
  dsimp only at h1 h2 h3
  rw [h1, h2, h3]

omit hP in
theorem isList_unique {h : List Val} {v : Val} {l l' : List (IPNet × Val)} (x : Net.IsList h v l) (y : Net.IsList h v l') : l = l' := by
  obtain ⟨a, vals, pad, rfl, ha, hl⟩ := x
  obtain ⟨a', vals', pad', e, ha', hl'⟩ := y
  simp only [Val.slice.injEq, true_and] at e
  obtain ⟨rfl, e, e'⟩ := e
  rw [ha] at ha'
  simp only [Option.some.injEq, Val.arr.injEq] at ha'
  obtain ⟨rfl, _⟩ := List.append_inj ha' e
  clear ha ha' e e'
  induction hl generalizing l' with
  | nil => cases hl'; rfl
  | cons hx _ ih =>
    cases hl' with
    | cons hy hl' =>
      obtain ⟨vn, vi, vm, rfl, ⟨k, t, a, p, z, rfl, hz, hzi, hzm⟩, hb, hc⟩ := hx
      obtain ⟨vn', vi', vm', e, ⟨k', t', a', p', z', rfl, hz', hzi', hzm'⟩, hb', hc'⟩ := hy
      simp only [Val.struct.injEq, List.cons.injEq, Prod.mk.injEq, true_and, and_true, Val.ptr.injEq] at e
      obtain ⟨⟨rfl, rfl, rfl, rfl⟩, e2⟩ := e
      rw [hz] at hz'
      cases hz'
      rw [hzi] at hzi'
      rw [hzm] at hzm'
      cases hzi'
      cases hzm'
      have e3 := hb.has.unique hb'.has
      have e4 := hc.has.unique hc'.has
      rw [pair_eq e3 e4 e2, ih hl']

/-- `ListCidr` of a tree in use returns what the model lists, and changes nothing that was there. -/
theorem forest_list {t : Nat} {f : Val} {h : List Val} {r : Node Val} (hh : Net.Holds t f (Rooted t f) h (r, ())) :
    ∃ v h', Returns P Net.path (n! "Tree") (n! "ListCidr") [.ptr Net.path (n! "Tree") t []] h [v] h' ∧ (∀ i, i < h.length → h'[i]? = h[i]?) ∧
      Net.IsList h' v (_root_.Net.ListCidr r) := by
  obtain ⟨⟨root, h1, hi⟩, root', h2, hn⟩ := hh
  rw [h1] at h2
  have hroot : root = root' := by simpa using h2
  subst hroot
  rcases hi with hi | ⟨rfl, _⟩
  · obtain ⟨v, h'', hl, ho, hil⟩ := Net.run_ListCidr (hP.text.find Net.text) hP.std hP.binary h1 hi (le_refl _)
    exact ⟨v, h'', .one hl, ho, hil⟩
  · exact absurd rfl hn

omit hP in
theorem mem_plantedIn {t : Nat} {f : Val} {es : List ForestEvent} (h : .planted t f ∈ es) : t ∈ plantedIn es := by
  induction es with
  | nil => cases h
  | cons e es ih =>
    rcases List.mem_cons.mp h with rfl | h'
    · exact .head _
    · cases e
      · exact .tail _ (ih h')
      · exact ih h'

theorem Forest.all {merges : Val → Val → Val → Option Val} {h h' : List Val} {trees trees' : List (Nat × Val)} {es : List ForestEvent}
    (hu : Forest P merges h trees es h' trees') : ∀ R, AllHold P merges h trees R →
      (∀ x ∈ trees, Tells (merges x.2) (R x.1) (historyOf x.1 es)) ∧
      (∀ t f, .planted t f ∈ es → Tells (merges f) _root_.Net.New (historyOf t es)) ∧
      (plantedIn es).Nodup ∧ (∀ t ∈ plantedIn es, t ∉ trees.map Prod.fst) ∧ trees'.map Prod.fst = (plantedIn es).reverse ++ trees.map Prod.fst ∧
      ∃ R', AllHold P merges h' trees' R' := by
  induction hu with
  | done =>
    intro R hl
    exact ⟨fun x _ => trivial, fun t f hk => by simp at hk, .nil, fun a ha => by simp [plantedIn] at ha, rfl, R, hl⟩
  | own hk _ ih =>
    exact fun R hl => ih R fun x hx => ⟨(hl x hx).1, holds_keep (hl x hx).2 (hk _ (holds_ours (hl x hx).2)) hk.kept⟩
  | @new h h₁ h' trees trees' es t f hf hr _ ih =>
    intro R hl
    obtain ⟨e, rfl⟩ := hr.unique (Returns.one (Net.run_New (hP.text.find Net.text) hf.plain 0 h))
    simp only [List.cons.injEq, Val.ptr.injEq, true_and, and_true] at e
    subst e
    have hlt : ∀ x ∈ trees, x.1 < h.length := fun x hx => (holds_ours (hl x hx).2).lt
    have hno : h.length ∉ trees.map Prod.fst := fun hx => by
      obtain ⟨x, hx, e⟩ := List.mem_map.mp hx
      have := hlt x hx
      omega
    have h0 : (h ++ [Net.treeObj Net.noneVal f])[h.length]? = some (Net.treeObj Net.noneVal f) := by simp
    have hl' : AllHold P merges (h ++ [Net.treeObj Net.noneVal f]) ((h.length, f) :: trees) fun i => if i = h.length then .none else R i := by
      intro x hx
      rcases List.mem_cons.mp hx with rfl | hx
      · simp only [if_true]
        exact ⟨hf, ⟨Net.noneVal, h0, .inl .none⟩, Net.noneVal, h0, by simp⟩
      · have hlx := hlt x hx
        simp only [if_neg (show x.1 ≠ h.length by omega)]
        exact ⟨(hl x hx).1, holds_keep (hl x hx).2 (List.getElem?_append_left hlx) (Net.kept_append _ _)⟩
    obtain ⟨h1, h2, h3, h4, h5, h6⟩ := ih _ hl'
    have hno' : h.length ∉ plantedIn es := fun hx => h4 _ hx (by simp)
    refine ⟨fun x hx => ?_, fun u g hu => ?_, List.nodup_cons.mpr ⟨hno', h3⟩, ?_, ?_, h6⟩
    · have := h1 x (.tail _ hx)
      have hlx := hlt x hx
      rwa [if_neg (show x.1 ≠ h.length by omega)] at this
    · rcases List.mem_cons.mp hu with e | hu
      · cases e
        have := h1 (h.length, f) (.head _)
        rwa [if_pos rfl] at this
      · exact h2 u g hu
    · intro u hu
      rcases List.mem_cons.mp hu with rfl | hu
      · exact hno
      · exact fun hx => h4 u hu (.tail _ hx)
    · rw [h5, plantedIn]
      simp
  | @add h h₁ h' trees trees' es t f op fn args o ht hm he _ ih =>
    intro R hl
    obtain ⟨r', hs, hh, hk⟩ := forest_step hP (hl _ ht).1 (hl _ ht).2 hm he
    have hkept : Net.Kept h h₁ := fun a ha => by
      rw [hk a ?_ (.inl ha), ha]
      rintro rfl
      obtain ⟨root, hr, _⟩ := (hl _ ht).2.1
      rw [hr] at ha
      simp [Net.treeObj, Net.noneVal] at ha
    have hl' : AllHold P merges h₁ trees fun i => if i = t then r' else R i := by
      intro x hx
      by_cases hxt : x.1 = t
      · obtain ⟨u, g⟩ := x
        dsimp only at hxt
        subst hxt
        simp only [if_true]
        have := holds_callback (hl _ ht).2 (hl _ hx).2
        dsimp only at this
        subst this
        exact ⟨(hl _ ht).1, hh⟩
      · simp only [if_neg hxt]
        exact ⟨(hl x hx).1, holds_keep (hl x hx).2 (hk _ hxt (holds_ours (hl x hx).2)) hkept⟩
    obtain ⟨h1, h2, h3, h4, h5, h6⟩ := ih _ hl'
    refine ⟨fun x hx => ?_, fun u g hu => ?_, h3, h4, h5, h6⟩
    · have := h1 x hx
      by_cases hxt : t = x.1
      · have hc := holds_callback (hl _ ht).2 (hxt ▸ (hl x hx).2)
        dsimp only at hc
        rw [historyOf, if_pos hxt]
        rw [if_pos hxt.symm] at this
        exact ⟨r', by rw [← hc, ← hxt]; exact hs, this⟩
      · rw [historyOf, if_neg hxt]
        rwa [if_neg (Ne.symm hxt)] at this
    · have hu : .planted u g ∈ es := by simpa using hu
      have hne : t ≠ u := fun e => h4 u (mem_plantedIn hu) (e ▸ List.mem_map_of_mem ht)
      rw [historyOf, if_neg hne]
      exact h2 u g hu
  | @list h h₁ h' trees trees' es t f v l ht hr hv _ ih =>
    intro R hl
    obtain ⟨v', h₂, hr', hk, hv'⟩ := forest_list hP (hl _ ht).2
    obtain ⟨e, rfl⟩ := hr.unique hr'
    cases e
    have hl' : AllHold P merges h₁ trees R := fun x hx => ⟨(hl x hx).1, holds_keep (hl x hx).2 (hk _ (holds_ours (hl x hx).2).lt) fun a ha => by
      rw [hk a (lt_of_get ha), ha]⟩
    obtain ⟨h1, h2, h3, h4, h5, h6⟩ := ih _ hl'
    refine ⟨fun x hx => ?_, fun u g hu => ?_, h3, h4, h5, h6⟩
    · have := h1 x hx
      by_cases hxt : t = x.1
      · rw [historyOf, if_pos hxt]
        exact ⟨by rw [← hxt]; exact isList_unique hv hv', this⟩
      · rwa [historyOf, if_neg hxt]
    · have hu : .planted u g ∈ es := by simpa using hu
      have hne : t ≠ u := fun e => h4 u (mem_plantedIn hu) (e ▸ List.mem_map_of_mem ht)
      rw [historyOf, if_neg hne]
      exact h2 u g hu


omit hP in
theorem tells_append {m : Val → Val → Option Val} {r : Node Val} {a b : List TreeEvent} (hn : _root_.Net.Norm r 32) (h : Tells m r (a ++ b)) :
    ∃ r', _root_.Net.Norm r' 32 ∧ Tells m r' b ∧ ((∀ op o, .added op o ∈ a → IPv4Args op) → ∀ x, x < 2 ^ 32 →
      (_root_.Net.mem r 32 x ∨ (∃ op, .added op (some ()) ∈ a ∧ Adds x op) → _root_.Net.mem r' 32 x) ∧
      (_root_.Net.mem r' 32 x → _root_.Net.mem r 32 x ∨ ∃ op o, .added op o ∈ a ∧ Adds x op ∧ (o = none → ∃ s e v, op = .addRange s e v))) := by
  induction a generalizing r with
  | nil =>
    refine ⟨r, hn, h, fun _ x _ => ⟨?_, .inl⟩⟩
    rintro (h | ⟨op, hm, _⟩)
    · exact h
    · cases hm
  | cons e a ih =>
    cases e with
    | listed l =>
      obtain ⟨r', h1, h2, h3⟩ := ih hn h.2
      refine ⟨r', h1, h2, fun h4 x hx => ?_⟩
      obtain ⟨k1, k2⟩ := h3 (fun op o hm => h4 op o (.tail _ hm)) x hx
      simpa using And.intro k1 k2
    | added op o =>
      obtain ⟨r₁, hs, h⟩ := h
      obtain ⟨n1, s2, s3⟩ := _root_.Net.StepC_partial hn hs
      obtain ⟨r', h1, h2, h3⟩ := ih n1 h
      refine ⟨r', h1, h2, fun h4 x hx => ?_⟩
      obtain ⟨k1, k2⟩ := h3 (fun op o hm => h4 op o (.tail _ hm)) x hx
      obtain ⟨j1, j2, j3⟩ := s3 (h4 op o (.head _)) x hx
      refine ⟨?_, fun hm => ?_⟩
      · rintro (hm | ⟨op', hm, hA⟩)
        · exact k1 (.inl (j1 hm))
        · rcases List.mem_cons.mp hm with e | hm
          · cases e
            exact k1 (.inl (j2 rfl hA))
          · exact k1 (.inr ⟨op', hm, hA⟩)
      · rcases k2 hm with hm | ⟨op', o', hm, hA⟩
        · by_cases hr : _root_.Net.mem r 32 x
          · exact .inl hr
          · refine .inr ⟨op, o, .head _, (j3 hm).resolve_left hr, fun ho => ?_⟩
            rcases s2 ho with h | rfl
            · exact h
            · exact absurd hm hr
        · exact .inr ⟨op', o', .tail _ hm, hA⟩

/-! ## Property C105 -/

/-- **C105** In any run of the program each tree behaves as the tree of the model alone would: calls on other trees and whatever else the program does make no difference. -/
theorem C105_each {merges : Val → Val → Val → Option Val} {h h' : List Val} {trees' : List (Nat × Val)} {es : List ForestEvent}
    (hu : Forest P merges h [] es h' trees') {t : Nat} {f : Val} (ht : .planted t f ∈ es) : Tells (merges f) _root_.Net.New (historyOf t es) :=
  (hu.all hP (fun _ => .none) fun _ hx => by cases hx).2.1 t f ht

/-- **C105** The trees made are at different addresses. -/
theorem C105_distinct {merges : Val → Val → Val → Option Val} {h h' : List Val} {trees' : List (Nat × Val)} {es : List ForestEvent}
    (hu : Forest P merges h [] es h' trees') : (plantedIn es).Nodup :=
  (hu.all hP (fun _ => .none) fun _ hx => by cases hx).2.2.1

/-- **C105** So every list taken from a tree is in ascending order, of well-formed networks, and as short as possible. With IPv4 arguments it has all
addresses of the calls on this tree that returned before, and no others than those of calls on this tree before, of which those that panicked were for a range. -/
theorem C105_list {merges : Val → Val → Val → Option Val} {h h' : List Val} {trees' : List (Nat × Val)} {es : List ForestEvent}
    (hu : Forest P merges h [] es h' trees') {t : Nat} {f : Val} (ht : .planted t f ∈ es) {before after : List TreeEvent} {l : List (IPNet × Val)}
    (hl : historyOf t es = before ++ .listed l :: after) :
    (l.Pairwise fun x y => ∀ a b, Contains x.1 a → Contains y.1 b → a < b) ∧ (∀ c ∈ l, CanonicalNet c.1) ∧
    (∀ C : List IPNet, (∀ c ∈ C, IPv4Net c) → (∀ a, (∃ c ∈ C, Contains c a) ↔ ∃ c ∈ l, Contains c.1 a) → l.length ≤ C.length) ∧
    ((∀ op o, .added op o ∈ before → IPv4Args op) → ∀ a,
      ((∃ op, .added op (some ()) ∈ before ∧ Adds a op) → ∃ c ∈ l, Contains c.1 a) ∧
      ((∃ c ∈ l, Contains c.1 a) → ∃ op o, .added op o ∈ before ∧ Adds a op ∧ (o = none → ∃ s e v, op = .addRange s e v))) := by
  have := C105_each hP hu ht
  rw [hl] at this
  obtain ⟨r, hn, ⟨rfl, _⟩, hm⟩ := tells_append (r := .none) trivial this
  obtain ⟨l1, l2, l3⟩ := _root_.Net.ListCidr_norm r hn
  refine ⟨l1, l2, l3, fun h4 a => ?_⟩
  rw [_root_.Net.ListCidr_contains r hn]
  refine ⟨?_, ?_⟩
  · rintro ⟨op, ho, hA⟩
    have ha := _root_.Net.Adds_lt hA
    exact ⟨ha, (hm h4 a ha).1 (.inr ⟨op, ho, hA⟩)⟩
  · rintro ⟨ha, hr⟩
    exact ((hm h4 a ha).2 hr).resolve_left id

/-- What was asked of a tree: a call to add, or a list. -/
def TreeEvent.asked : TreeEvent → Option (Op Val)
  | .added op _ => some op
  | .listed _ => none

omit hP in
theorem tells_unique {m : Val → Val → Option Val} {a b : List TreeEvent} : ∀ {r : Node Val}, Tells m r a → Tells m r b →
    a.map TreeEvent.asked = b.map TreeEvent.asked → a = b := by
  induction a generalizing b with
  | nil =>
    intro r _ _ e
    cases b with
    | nil => rfl
    | cons => cases e
  | cons x a ih =>
    intro r ha hb e
    cases b with
    | nil => cases e
    | cons y b =>
      rw [List.map_cons, List.map_cons, List.cons.injEq] at e
      cases x with
      | listed l =>
        cases y with
        | added op o => cases e.1
        | listed l' => rw [ha.1, hb.1, ih ha.2 hb.2 e.2]
      | added op o =>
        cases y with
        | listed l => cases e.1
        | added op' o' =>
          obtain ⟨r₁, ha, ha'⟩ := ha
          obtain ⟨r₂, hb, hb'⟩ := hb
          cases e.1
          obtain ⟨rfl, e'⟩ := _root_.Net.StepC_unique ha hb
          cases e'
          rw [ih ha' hb' e.2]

/-- **C105** Two trees, in one program or in two, whose callbacks compute the same and that are asked the same answer the same: the same calls panic, and the
lists have the same networks and values. -/
theorem C105_same {Q : Prog} (hQ : HostsNet Q) {merges merges' : Val → Val → Val → Option Val} {h h' g g' : List Val} {trees' trees'' : List (Nat × Val)}
    {es fs : List ForestEvent} (hu : Forest P merges h [] es h' trees') (hv : Forest Q merges' g [] fs g' trees'') {t u : Nat} {f f' : Val}
    (ht : .planted t f ∈ es) (hu' : .planted u f' ∈ fs) (hm : merges f = merges' f')
    (he : (historyOf t es).map TreeEvent.asked = (historyOf u fs).map TreeEvent.asked) : historyOf t es = historyOf u fs :=
  tells_unique (C105_each hP hu ht) (hm ▸ C105_each hQ hv hu') he

/-- **C105** The run can always go on: a tree can be made with any callback, and a list taken from any tree. Every call of a method to add ends, unless it
is for a range that ends at 255.255.255.255, which can only panic; and it changes no tree but its own. -/
theorem C105_goes {merges : Val → Val → Val → Option Val} {h h' : List Val} {trees' : List (Nat × Val)} {es : List ForestEvent}
    (hu : Forest P merges h [] es h' trees') :
    (∀ f, Merges P f (merges f) → ∃ t h₁, Returns P Net.path 0 (n! "New") [f] h' [.ptr Net.path (n! "Tree") t []] h₁ ∧ ∀ i, i < h'.length → h₁[i]? = h'[i]?) ∧
    ∀ t f, (t, f) ∈ trees' →
      (∃ v h₁ l, Returns P Net.path (n! "Tree") (n! "ListCidr") [.ptr Net.path (n! "Tree") t []] h' [v] h₁ ∧ Net.IsList h₁ v l ∧ ∀ i, i < h'.length → h₁[i]? = h'[i]?) ∧
      ∀ op fn args, Makes h' op fn args →
        ((∀ a e x, op = .addRange a e x → ¬ IPv4 e 0xffffffff) → ∃ o h₁, Ended P t fn args h' o h₁) ∧
        (∀ o h₁, Ended P t fn args h' o h₁ → (∀ i, i ≠ t → Ours h' i → h₁[i]? = h'[i]?) ∧
          ∀ a e x, op = .addRange a e x → (∃ u, IPv4 a u) → IPv4 e 0xffffffff → o = none) := by
  obtain ⟨R, hR⟩ := (hu.all hP (fun _ => .none) fun _ hx => by cases hx).2.2.2.2.2
  refine ⟨fun f hf => ⟨_, _, .one (Net.run_New (hP.text.find Net.text) hf.plain 0 h'), fun i hi => List.getElem?_append_left hi⟩, fun t f ht => ?_⟩
  obtain ⟨hf, hh⟩ := hR _ ht
  obtain ⟨v, h₁, hl, hk, hi⟩ := forest_list hP hh
  refine ⟨⟨v, h₁, _, hl, hi, hk⟩, fun op fn args hm => ⟨fun hop => ?_, fun o h₁ he => ?_⟩⟩
  · obtain ⟨o, s', hs⟩ := _root_.Net.StepC_ends (_root_.Net.partialMerge (merges f)) (R t, ()) hop
    obtain ⟨h₁, he, _⟩ := (C92_step hP (merges_callback hf t h') (around_apart t f h') (holds_around hh) hm o).1 s' hs
    exact ⟨o, h₁, he⟩
  · obtain ⟨r', hs, _, hk⟩ := forest_step hP hf hh hm he
    refine ⟨hk, ?_⟩
    rintro a e x rfl ⟨u, ha⟩ hlast
    exact _root_.Net.C72_range_last ha hlast o hs

end

/-! ## Examples -/

/-- A callback that adds numbers, and panics for other values. -/
def sumOrPanic : Val → Val → Option Val
  | .int a, .int b => some (.int (a + b))
  | _, _ => none

/-- A program with the package, whose function number 0 is that callback. -/
def forestProg : Prog :=
  { W := 64, pkgs := [Net.pkg], other := fun _ _ => none, std := stdlib,
    native := fun _ _ args => match args with
      | [a, b] => match sumOrPanic a b with
        | some v => pure v
        | none => panic
      | _ => stuck
    grow := fun n => n }

theorem forestProg_hosts : HostsNet forestProg := ⟨⟨Net.pkg, Net.text, by kernel_rfl⟩, rfl, by kernel_rfl, by kernel_rfl⟩

/-- What the callbacks of the examples compute: function 0 adds, nil always panics. -/
def forestMerges : Val → Val → Val → Option Val
  | .nil, _, _ => none
  | _, a, b => sumOrPanic a b

example : Merges forestProg .nil (forestMerges .nil) := .inl ⟨rfl, fun _ _ => rfl⟩

theorem forest_merges : Merges forestProg (.native 0) (forestMerges (.native 0)) := by
  refine .inr ⟨0, rfl, fun h a b _ _ => ⟨h, fun _ _ => rfl, ?_⟩⟩
  have e : forestMerges (.native 0) a b = sumOrPanic a b := rfl
  have e' : forestProg.native 0 0 [a, b] = (match sumOrPanic a b with | some v => pure v | none => panic) := rfl
  rw [e, e']
  cases hs : sumOrPanic a b with
  | none => exact fun _ => rfl
  | some v =>
    refine ⟨fun _ => rfl, ?_⟩
    unfold sumOrPanic at hs
    split at hs
    · cases hs
      trivial
    · cases hs

/-- Two trees, one with each callback; 10.0.0.4 and 10.0.0.5 are added to the second, where the latter panics, and then to the first. -/
def forestMem : List Val := netMem ++ [Net.treeObj Net.noneVal (.native 0)] ++ [Net.treeObj Net.noneVal .nil]
def forestAdd (t : Nat) (ip x : Val) (h : List Val) : List Val :=
  heapOf (run forestProg 40 Net.path (n! "Tree") (n! "AddIp") [.ptr Net.path (n! "Tree") t [], ip, x] h)
def forestMem₁ : List Val := forestAdd 2 (.slice 0 [] 0 4 8) (.int 1) forestMem
def forestMem₂ : List Val := forestAdd 2 (.slice 0 [] 4 4 4) (.int 2) forestMem₁
def forestMem₃ : List Val := forestAdd 1 (.slice 0 [] 0 4 8) (.int 1) forestMem₂
def forestMem₄ : List Val := forestAdd 1 (.slice 0 [] 4 4 4) (.int 2) forestMem₃

def forestList (t : Nat) (h : List Val) : List Val :=
  heapOf (run forestProg 40 Net.path (n! "Tree") (n! "ListCidr") [.ptr Net.path (n! "Tree") t []] h)
def forestMem₅ : List Val := forestList 1 forestMem₄
def forestMem₆ : List Val := forestList 2 forestMem₅

/-- The list of the first tree is 10.0.0.4/31 with the sum of the values, that of the second 10.0.0.4/32 with the first value. -/
def forestEvents : List ForestEvent :=
  [.planted 1 (.native 0), .planted 2 .nil, .on 2 (.added (.addIp [10, 0, 0, 4] (.int 1)) (some ())), .on 2 (.added (.addIp [10, 0, 0, 5] (.int 2)) none),
    .on 1 (.added (.addIp [10, 0, 0, 4] (.int 1)) (some ())), .on 1 (.added (.addIp [10, 0, 0, 5] (.int 2)) (some ())),
    .on 1 (.listed [(⟨[10, 0, 0, 4], [255, 255, 255, 254]⟩, .int 3)]), .on 2 (.listed [(⟨[10, 0, 0, 4], [255, 255, 255, 255]⟩, .int 1)])]

theorem forestArgs {h : List Val} (hh : h[0]? = netMem[0]?) (x : Int) : Makes h (.addIp [10, 0, 0, 4] (.int x)) (n! "AddIp") [.slice 0 [] 0 4 8, .int x] ∧
    Makes h (.addIp [10, 0, 0, 5] (.int x)) (n! "AddIp") [.slice 0 [] 4 4 4, .int x] :=
  ⟨⟨_, rfl, rfl, .inr ⟨0, [], 0, 8, .arr ([10, 0, 0, 4, 10, 0, 0, 5].map .u8), _, rfl, hh, rfl, by decide, by decide, rfl⟩, trivial⟩,
    ⟨_, rfl, rfl, .inr ⟨0, [], 4, 4, .arr ([10, 0, 0, 4, 10, 0, 0, 5].map .u8), _, rfl, hh, rfl, by decide, by decide, rfl⟩, trivial⟩⟩

theorem forest_add₁ : Ended forestProg 2 (n! "AddIp") [.slice 0 [] 0 4 8, .int 1] forestMem (some ()) forestMem₁ := Returns.one (n := 40) (by kernel_rfl)
theorem forest_add₂ : Ended forestProg 2 (n! "AddIp") [.slice 0 [] 4 4 4, .int 2] forestMem₁ none forestMem₂ := Panics.one (n := 40) (by kernel_rfl)
theorem forest_add₃ : Ended forestProg 1 (n! "AddIp") [.slice 0 [] 0 4 8, .int 1] forestMem₂ (some ()) forestMem₃ := Returns.one (n := 40) (by kernel_rfl)
theorem forest_add₄ : Ended forestProg 1 (n! "AddIp") [.slice 0 [] 4 4 4, .int 2] forestMem₃ (some ()) forestMem₄ := Returns.one (n := 40) (by kernel_rfl)
theorem forest_list₁ : Returns forestProg Net.path (n! "Tree") (n! "ListCidr") [.ptr Net.path (n! "Tree") 1 []] forestMem₄ [.slice 136 [] 0 1 2] forestMem₅ :=
  Returns.one (n := 40) (by kernel_rfl)
theorem forest_list₂ : Returns forestProg Net.path (n! "Tree") (n! "ListCidr") [.ptr Net.path (n! "Tree") 2 []] forestMem₅ [.slice 142 [] 0 1 2] forestMem₆ :=
  Returns.one (n := 40) (by kernel_rfl)
theorem forest_args₁ : forestMem₁[0]? = netMem[0]? := by kernel_rfl
theorem forest_args₂ : forestMem₂[0]? = netMem[0]? := by kernel_rfl
theorem forest_args₃ : forestMem₃[0]? = netMem[0]? := by kernel_rfl
theorem forest_got₁ : Net.IsList forestMem₅ (.slice 136 [] 0 1 2) [(⟨[10, 0, 0, 4], [255, 255, 255, 254]⟩, .int 3)] :=
  ⟨136, [Net.cidrVal 135 (.int 3)], [zeroLike [Net.cidrVal 135 (.int 3)]], rfl, by kernel_rfl, .cons ⟨_, .slice 133 [] 0 4 4, .slice 134 [] 0 4 4, rfl,
    ⟨_, _, _, _, Net.netObj 133 134, rfl, by kernel_rfl, rfl, rfl⟩, isBytes_all (l := [10, 0, 0, 4]) (by kernel_rfl), isBytes_all (l := [255, 255, 255, 254]) (by kernel_rfl)⟩ .nil⟩
theorem forest_got₂ : Net.IsList forestMem₆ (.slice 142 [] 0 1 2) [(⟨[10, 0, 0, 4], [255, 255, 255, 255]⟩, .int 1)] :=
  ⟨142, [Net.cidrVal 141 (.int 1)], [zeroLike [Net.cidrVal 141 (.int 1)]], rfl, by kernel_rfl, .cons ⟨_, .slice 139 [] 0 4 4, .slice 140 [] 0 4 4, rfl,
    ⟨_, _, _, _, Net.netObj 139 140, rfl, by kernel_rfl, rfl, rfl⟩, isBytes_all (l := [10, 0, 0, 4]) (by kernel_rfl), isBytes_all (l := [255, 255, 255, 255]) (by kernel_rfl)⟩ .nil⟩

theorem exampleForest : Forest forestProg forestMerges netMem [] forestEvents forestMem₆ [(2, .nil), (1, .native 0)] :=
  .new (h₁ := netMem ++ [Net.treeObj Net.noneVal (.native 0)]) forest_merges (Returns.one (n := 40) (by kernel_rfl)) <|
  .new (h₁ := forestMem) (.inl ⟨rfl, fun _ _ => rfl⟩) (Returns.one (n := 40) (by kernel_rfl)) <|
  .add (.head _) (forestArgs (h := forestMem) rfl 1).1 forest_add₁ <|
  .add (.head _) (forestArgs forest_args₁ 2).2 forest_add₂ <|
  .add (.tail _ (.head _)) (forestArgs forest_args₂ 1).1 forest_add₃ <|
  .add (.tail _ (.head _)) (forestArgs forest_args₃ 2).2 forest_add₄ <|
  .list (.tail _ (.head _)) forest_list₁ forest_got₁ <| .list (.head _) forest_list₂ forest_got₂ .done

/-- The premises of `C105_list`, for the list of the second tree. -/
example : .planted 2 .nil ∈ forestEvents ∧ historyOf 2 forestEvents = [.added (.addIp [10, 0, 0, 4] (.int 1)) (some ()), .added (.addIp [10, 0, 0, 5] (.int 2)) none] ++
    .listed [(⟨[10, 0, 0, 4], [255, 255, 255, 255]⟩, .int 1)] :: [] := ⟨by simp [forestEvents], rfl⟩

end Source
