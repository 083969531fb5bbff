import Verif.Props.SourceCodegen
import Verif.Props.SourceEndian
import Verif.Props.SourceForest
import Verif.Props.SourceMany
import Verif.Props.SourceTest

/-!
# Hash objects and trees in one program, run

C106: a program makes any number of hash and checksum objects of the ten types and any number of trees, uses them in any order, recovers
from panics, and does what it likes with the rest of memory. The hash objects behave as in a program without trees, and the trees as in a
program without hash objects.
-/
namespace Source
open GoLang NetSpec ChunkSpec
open _root_.Net (Node Op IPNet StepC)

/-- What happens in the program: something with a hash object, or something with a tree. -/
inductive LibEvent where
  | hash (e : Event Kind)
  | tree (e : ForestEvent)

def hashEvents : List LibEvent → List (Event Kind)
  | [] => []
  | .hash e :: es => e :: hashEvents es
  | _ :: es => hashEvents es

def treeEvents : List LibEvent → List ForestEvent
  | [] => []
  | .tree e :: es => e :: treeEvents es
  | _ :: es => treeEvents es

/-- The callback `f` does not use these hash objects. -/
def Quiet (P : Prog) (f : Val) (objs : List (Nat × Kind)) : Prop :=
  ∀ i, f = .native i → ∀ h a b, Plain a → Plain b → ∀ e v s h', P.native i 0 [a, b] ⟨h, e⟩ = .ok v s ∧ s.heap = h' ∨ P.native i 0 [a, b] ⟨h, e⟩ = .panic h' →
    ∀ o ∈ objs, o.1 < h.length → h'[o.1]? = h[o.1]?

/-- A run of the program, from memory `h` with hash objects `objs` and trees `trees` to memory `h'` with `objs'` and `trees'`. The slices
that the program hands to methods of hash objects are not into hash objects or trees, whose fields it cannot name. `own` is anything else
that the program does: it leaves hash objects and trees as they are. -/
inductive Library (P : Prog) (merges : Val → Val → Val → Option Val) : (h : List Val) → (objs : List (Nat × Kind)) → (trees : List (Nat × Val)) →
    List LibEvent → (h' : List Val) → (objs' : List (Nat × Kind)) → (trees' : List (Nat × Val)) → Prop
  | done {h objs trees} : Library P merges h objs trees [] h objs trees
  | own {h h₁ h' objs objs' trees trees' es} : (∀ o ∈ objs, h₁[o.1]? = h[o.1]?) → Untouched h h₁ →
      Library P merges h₁ objs trees es h' objs' trees' → Library P merges h objs trees es h' objs' trees'
  | make {h h₁ h' objs objs' trees trees' es} {k : Kind} {a : Nat} : k.In P →
      Returns P k.names.path 0 k.names.new [] h [obj k.names.path k.names.ty a] h₁ →
      Library P merges h₁ ((a, k) :: objs) trees es h' objs' trees' → Library P merges h objs trees (.hash (.made a k) :: es) h' objs' trees'
  | call {h h₁ h' objs objs' trees trees' es} {k : Kind} {a : Nat} {v op o} : (a, k) ∈ objs → Free objs v → (∀ i, Ours h i → base v ≠ some i) →
      Given P.W h v op → (op = .sumN → k.names.sumN ≠ 0) → Call P k.names a v h op o h₁ →
      Library P merges h₁ objs trees es h' objs' trees' → Library P merges h objs trees (.hash (.called a op o) :: es) h' objs' trees'
  | plant {h h₁ h' objs objs' trees trees' es t f} : Merges P f (merges f) → Returns P Net.path 0 (n! "New") [f] h [.ptr Net.path (n! "Tree") t []] h₁ →
      Library P merges h₁ objs ((t, f) :: trees) es h' objs' trees' → Library P merges h objs trees (.tree (.planted t f) :: es) h' objs' trees'
  | add {h h₁ h' objs objs' trees trees' es t f op fn args o} : (t, f) ∈ trees → Quiet P f objs → Makes h op fn args → Ended P t fn args h o h₁ →
      Library P merges h₁ objs trees es h' objs' trees' → Library P merges h objs trees (.tree (.on t (.added op o)) :: es) h' objs' trees'
  | list {h h₁ h' objs objs' trees trees' es t f v l} : (t, f) ∈ trees →
      Returns P Net.path (n! "Tree") (n! "ListCidr") [.ptr Net.path (n! "Tree") t []] h [v] h₁ → Net.IsList h₁ v l →
      Library P merges h₁ objs trees es h' objs' trees' → Library P merges h objs trees (.tree (.on t (.listed l)) :: es) h' objs' trees'

/-! ## Proofs -/

theorem HashVal.not_ours {h : List Val} {i : Nat} {x : Val} (hx : HashVal x) (hi : h[i]? = some x) : ¬ Ours h i := by
  have ne : Net.path ∉ [Fletcher.path, Ripemd.path, Whirlpool.path] := by decide
  rintro (e | ⟨r, f, e⟩) <;> rw [hi] at e
  · rcases hx with ⟨y, rfl⟩ | ⟨p, t, fs, rfl, hp⟩
    · simp at e
    · simp only [Net.noneVal, Option.some.injEq, Val.struct.injEq] at e
      exact ne (e.1 ▸ hp)
  · rcases hx with ⟨y, rfl⟩ | ⟨p, t, fs, rfl, hp⟩
    · simp [Net.treeObj] at e
    · simp only [Net.treeObj, Option.some.injEq, Val.struct.injEq] at e
      exact ne (e.1 ▸ hp)

/-- As `Around`, and the objects of `objs` are as in `H`, too. -/
def Beside (t : Nat) (f : Val) (H : List Val) (objs : List (Nat × Kind)) (h : List Val) (x : Unit) : Prop :=
  Around t f H h x ∧ ∀ o ∈ objs, h[o.1]? = H[o.1]?

theorem beside_apart {t : Nat} {f : Val} {H : List Val} {objs : List (Nat × Kind)} (hlt : ∀ o ∈ objs, o.1 < H.length) (hne : ∀ o ∈ objs, o.1 ≠ t) :
    Net.Apart t f (Beside t f H objs) where
  alloc := fun h x y ⟨h1, h2⟩ => ⟨(around_apart t f H).alloc h x y h1, fun o ho => by
    rw [← h2 o ho, List.getElem?_append_left]
    have e := h2 o ho
    rw [List.getElem?_eq_getElem (hlt o ho)] at e
    exact lt_of_get e⟩
  root := fun h x v w hw ⟨h1, h2⟩ hr => ⟨(around_apart t f H).root h x v w hw h1 hr, fun o ho => by
    rw [List.getElem?_set_ne (Ne.symm (hne o ho)), h2 o ho]⟩

theorem beside_callback {P : Prog} {f : Val} {merge : Val → Val → Option Val} (hf : Merges P f merge) (t : Nat) (H : List Val)
    {objs : List (Nat × Kind)} (hlt : ∀ o ∈ objs, o.1 < H.length) (hq : Quiet P f objs) :
    Net.Callback P t f (Beside t f H objs) (_root_.Net.partialMerge merge) where
  fn := (merges_callback hf t H).fn
  call := by
    rintro h ⟨r, ⟨⟩⟩ a b ha hb ⟨hh, hw, ho⟩
    have hc := (merges_callback hf t H).call h (r, ()) a b ha hb ⟨hh, hw⟩
    have keep : ∀ {h' : List Val}, (∃ v, ∀ e, Net.invoke P f [a, b] ⟨h, e⟩ = .ok v ⟨h', e⟩) ∨ (∀ e, Net.invoke P f [a, b] ⟨h, e⟩ = .panic h') → ∀ o ∈ objs, h'[o.1]? = H[o.1]? := by
      intro h' hi o hob
      rw [← ho o hob]
      have hl : o.1 < h.length := by
        have e := ho o hob
        rw [List.getElem?_eq_getElem (hlt o hob)] at e
        exact lt_of_get e
      rcases (merges_callback hf t H).fn with rfl | ⟨i, rfl⟩
      · rcases hi with ⟨v, hi⟩ | hi
        · cases hi []
        · have := hi []
          simp [Net.invoke, go] at this
          rw [this]
      · rcases hi with ⟨v, hi⟩ | hi
        · exact hq i rfl h a b ha hb [] v _ h' (.inl ⟨hi [], rfl⟩) o hob hl
        · exact hq i rfl h a b ha hb [] .nil ⟨h, []⟩ h' (.inr (hi [])) o hob hl
    cases hm : _root_.Net.partialMerge merge a b (r, ()) with
    | mk v s' =>
      rw [hm] at hc
      cases v with
      | some v =>
        obtain ⟨h', h1, h2, h3, h4⟩ := hc
        exact ⟨h', h1, ⟨h2.1, h2.2, keep (.inl ⟨v, h1⟩)⟩, h3, h4⟩
      | none =>
        obtain ⟨h', h1, h2⟩ := hc
        exact ⟨h', h1, h2.1, h2.2, keep (.inr h1)⟩

section
variable {P : Prog} (hP : HostsNet P)
include hP

/-- A call to add leaves the hash objects as they are. -/
theorem add_beside {t : Nat} {f : Val} {merge : Val → Val → Option Val} (hf : Merges P f merge) {h : List Val} {r : Node Val}
    (hh : Net.Holds t f (Rooted t f) h (r, ())) {objs : List (Nat × Kind)} (hlt : ∀ o ∈ objs, o.1 < h.length) (hne : ∀ o ∈ objs, o.1 ≠ t)
    (hq : Quiet P f objs) {op : Op Val} {fn : Name} {args : List Val} (hm : Makes h op fn args) {o : Option Unit}
    {h' : List Val} (he : Ended P t fn args h o h') : ∀ o ∈ objs, h'[o.1]? = h[o.1]? := by
  have hb : Net.Holds t f (Beside t f h objs) h (r, ()) := ⟨hh.1, (holds_around hh).2, fun _ _ => rfl⟩
  obtain ⟨s', _, _, _, h3⟩ := (C92_step hP (beside_callback hf t h hlt hq) (beside_apart hlt hne) hb hm o).2 h' he
  exact h3

/-- A run with hash objects and trees is a run with hash objects, in which whatever happens to the trees is the program's own business, and
a run with trees, in which whatever happens to the hash objects is. -/
theorem Library.split {merges : Val → Val → Val → Option Val} {h h' : List Val} {objs objs' : List (Nat × Kind)} {trees trees' : List (Nat × Val)}
    {es : List LibEvent} (hu : Library P merges h objs trees es h' objs' trees') : ∀ F R, AllLive P HashVal Kind.names h objs F → Distinct objs →
      AllHold P merges h trees R → Uses P Kind.names (Kind.In P) h objs (hashEvents es) h' objs' ∧ Forest P merges h trees (treeEvents es) h' trees' ∧
        ∃ F' R', AllLive P HashVal Kind.names h' objs' F' ∧ Distinct objs' ∧ AllHold P merges h' trees' R' := by
  induction hu with
  | done => exact fun F R hl hd ht => ⟨.done, .done, F, R, hl, hd, ht⟩
  | own hk hn _ ih =>
    intro F R hl hd ht
    obtain ⟨h1, h2, h3⟩ := ih F R (fun o ho => (hl o ho).keep (hk o ho)) hd
      fun x hx => ⟨(ht x hx).1, holds_keep (ht x hx).2 (hn _ (holds_ours (ht x hx).2)) hn.kept⟩
    exact ⟨.own hk h1, .own hn h2, h3⟩
  | @make h h₁ h' objs objs' trees trees' es k a hk hr _ ih =>
    intro F R hl hd ht
    obtain ⟨ea, hl'⟩ := hl.new (makes P k hk) hr
    obtain ⟨h₂, hr₂, _, hp⟩ := (makes P k hk).new h
    obtain ⟨_, rfl⟩ := hr.unique hr₂
    have hn : Untouched h h₁ := fun i hi => prefix_keeps hp hi.lt
    have hno : a ∉ objs.map Prod.fst := fun hx => by
      obtain ⟨o, ho, e⟩ := List.mem_map.mp hx
      have := (hl o ho).lt
      omega
    obtain ⟨h1, h2, h3⟩ := ih _ R hl' (List.nodup_cons.mpr ⟨hno, hd⟩)
      fun x hx => ⟨(ht x hx).1, holds_keep (ht x hx).2 (hn _ (holds_ours (ht x hx).2)) hn.kept⟩
    exact ⟨.new hk hr h1, .own hn h2, h3⟩
  | @call h h₁ h' objs objs' trees trees' es k a v op o ha hv hv' hg hN hc _ ih =>
    intro F R hl hd ht
    obtain ⟨g, _, hl'⟩ := hl.call hd ha hv hg hN hc
    obtain ⟨o', h₂, _, hc₂, _, _, hk⟩ := (hl _ ha).step (hv _ ha) hg hN
    obtain ⟨rfl, rfl⟩ := hc.unique hc₂
    have hn : Untouched h h₁ := fun i hi => by
      refine hk.rest i hi.lt ?_ ?_
      · rintro rfl
        obtain ⟨x, hx, hx'⟩ := (hl _ ha).looks
        exact hx'.not_ours hx hi
      · cases op <;> simp only [target, ne_eq, reduceCtorEq, not_false_eq_true]
        exact (hv' i hi).symm
    obtain ⟨h1, h2, h3⟩ := ih _ R hl' hd fun x hx => ⟨(ht x hx).1, holds_keep (ht x hx).2 (hn _ (holds_ours (ht x hx).2)) hn.kept⟩
    exact ⟨.call ha hv hg hN hc h1, .own hn h2, h3⟩
  | @plant h h₁ h' objs objs' trees trees' es t f hf hr _ ih =>
    intro F R hl hd ht
    obtain ⟨_, _, _, _, _, R', hR⟩ := Forest.all hP (Forest.new hf hr .done) R ht
    obtain ⟨_, rfl⟩ := hr.unique (Returns.one (Net.run_New (hP.text.find Net.text) hf.plain 0 h))
    have hk : ∀ o ∈ objs, (h ++ [Net.treeObj Net.noneVal f])[o.1]? = h[o.1]? := fun o ho => List.getElem?_append_left (hl o ho).lt
    obtain ⟨h1, h2, h3⟩ := ih F R' (fun o ho => (hl o ho).keep (hk o ho)) hd hR
    exact ⟨.own hk h1, .new hf hr h2, h3⟩
  | @add h h₁ h' objs objs' trees trees' es t f op fn args o hm hq hmk he _ ih =>
    intro F R hl hd ht
    obtain ⟨_, _, _, _, _, R', hR⟩ := Forest.all hP (Forest.add hm hmk he .done) R ht
    have hk : ∀ o ∈ objs, h₁[o.1]? = h[o.1]? := by
      refine add_beside hP (ht _ hm).1 (ht _ hm).2 (fun o ho => (hl o ho).lt) (fun o ho e => ?_) hq hmk he
      obtain ⟨x, hx, hx'⟩ := (hl o ho).looks
      exact hx'.not_ours hx (e ▸ holds_ours (ht _ hm).2)
    obtain ⟨h1, h2, h3⟩ := ih F R' (fun o ho => (hl o ho).keep (hk o ho)) hd hR
    exact ⟨.own hk h1, .add hm hmk he h2, h3⟩
  | @list h h₁ h' objs objs' trees trees' es t f v l hm hr hv _ ih =>
    intro F R hl hd ht
    obtain ⟨_, _, _, _, _, R', hR⟩ := Forest.all hP (Forest.list hm hr hv .done) R ht
    obtain ⟨v', h₂, hr', hkeep, _⟩ := forest_list hP (ht _ hm).2
    obtain ⟨_, rfl⟩ := hr.unique hr'
    have hk : ∀ o ∈ objs, h₁[o.1]? = h[o.1]? := fun o ho => hkeep _ (hl o ho).lt
    obtain ⟨h1, h2, h3⟩ := ih F R' (fun o ho => (hl o ho).keep (hk o ho)) hd hR
    exact ⟨.own hk h1, .list hm hr hv h2, h3⟩

/-! ## Property C106 -/

section
variable {merges : Val → Val → Val → Option Val} {h h' : List Val} {objs : List (Nat × Kind)} {trees : List (Nat × Val)} {es : List LibEvent}
  (hu : Library P merges h [] [] es h' objs trees)
include hu

/-- **C106** A run that starts without hash objects and trees is, if one looks at the hash objects only, a run as in C104, and, if one looks at the trees only, a run as in C105. -/
theorem C106_split : Uses P Kind.names (Kind.In P) h [] (hashEvents es) h' objs ∧ Forest P merges h [] (treeEvents es) h' trees := by
  obtain ⟨h1, h2, _⟩ := hu.split hP (fun _ _ => []) (fun _ => .none) (fun _ ho => by cases ho) .nil fun _ hx => by cases hx
  exact ⟨h1, h2⟩

/-- **C106** So every hash object answers its calls as its own history tells, whatever happens to trees and other objects. -/
theorem C106_hash {a : Nat} {k : Kind} (hk : .hash (.made a k) ∈ es) : outsOf a (hashEvents es) = said k.spec (opsOf a (hashEvents es)) := by
  refine C104_each (C106_split hP hu).1 ?_
  clear hu
  induction es with
  | nil => cases hk
  | cons e es ih =>
    rcases List.mem_cons.mp hk with rfl | hk'
    · exact .head _
    · cases e
      · exact .tail _ (ih hk')
      · exact ih hk'

omit hP hu in
theorem mem_treeEvents {e : ForestEvent} (he : .tree e ∈ es) : e ∈ treeEvents es := by
  induction es with
  | nil => cases he
  | cons x es ih =>
    rcases List.mem_cons.mp he with rfl | he'
    · exact .head _
    · cases x
      · exact ih he'
      · exact .tail _ (ih he')

/-- **C106** And every tree behaves as the tree of the model alone would, whatever happens to hash objects and other trees. -/
theorem C106_tree {t : Nat} {f : Val} (ht : .tree (.planted t f) ∈ es) : Tells (merges f) _root_.Net.New (historyOf t (treeEvents es)) :=
  C105_each hP (C106_split hP hu).2 (mem_treeEvents ht)

/-- **C106** All hash objects and trees are at different addresses. -/
theorem C106_distinct : (madeIn (hashEvents es) ++ plantedIn (treeEvents es)).Nodup ∧ objs.map Prod.fst = (madeIn (hashEvents es)).reverse ∧
    trees.map Prod.fst = (plantedIn (treeEvents es)).reverse := by
  obtain ⟨h1, h2, F, R, hF, _, hR⟩ := hu.split hP (fun _ _ => []) (fun _ => .none) (fun _ ho => by cases ho) .nil fun _ hx => by cases hx
  obtain ⟨d1, d2⟩ := C104_distinct h1
  have d3 := C105_distinct hP h2
  have d4 : trees.map Prod.fst = (plantedIn (treeEvents es)).reverse := by
    simpa using (h2.all hP (fun _ => .none) fun _ hx => by cases hx).2.2.2.2.1
  refine ⟨List.nodup_append.mpr ⟨d1, d3, fun a ha b hb e => ?_⟩, d2, d4⟩
  subst e
  rw [← List.mem_reverse, ← d2] at ha
  rw [← List.mem_reverse, ← d4] at hb
  obtain ⟨o, ho, rfl⟩ := List.mem_map.mp ha
  obtain ⟨x, hx, e⟩ := List.mem_map.mp hb
  obtain ⟨v, hv, hv'⟩ := (hF o ho).looks
  exact hv'.not_ours hv (e ▸ holds_ours (hR x hx).2)

/-- **C106** The run can always go on. A call of a hash object has exactly one outcome, and leaves all trees and the other hash objects as they are. A tree can
be listed, and added to unless the range ends at 255.255.255.255; that leaves all hash objects and the other trees as they are. -/
theorem C106_goes :
    (∀ a k v op, (a, k) ∈ objs → Free objs v → (∀ i, Ours h' i → base v ≠ some i) → Given P.W h' v op → (op = .sumN → k.names.sumN ≠ 0) →
      ∃ o h₁, Call P k.names a v h' op o h₁ ∧ (∀ o' h₂, Call P k.names a v h' op o' h₂ → o' = o ∧ h₂ = h₁) ∧ Untouched h' h₁ ∧
        ∀ o ∈ objs, o.1 ≠ a → h₁[o.1]? = h'[o.1]?) ∧
    ∀ t f, (t, f) ∈ trees →
      (∃ v h₁ l, Returns P Net.path (n! "Tree") (n! "ListCidr") [.ptr Net.path (n! "Tree") t []] h' [v] h₁ ∧ Net.IsList h₁ v l ∧ ∀ i, i < h'.length → h₁[i]? = h'[i]?) ∧
      ∀ op fn args, Makes h' op fn args → Quiet P f objs →
        ((∀ a e x, op = .addRange a e x → ¬ IPv4 e 0xffffffff) → ∃ o h₁, Ended P t fn args h' o h₁) ∧
        ∀ o h₁, Ended P t fn args h' o h₁ → (∀ i, i ≠ t → Ours h' i → h₁[i]? = h'[i]?) ∧ ∀ o ∈ objs, h₁[o.1]? = h'[o.1]? := by
  obtain ⟨h1, h2, F, R, hF, _, hR⟩ := hu.split hP (fun _ _ => []) (fun _ => .none) (fun _ ho => by cases ho) .nil fun _ hx => by cases hx
  refine ⟨fun a k v op ha hv hv' hg hN => ?_, fun t f ht => ?_⟩
  · obtain ⟨o, h₁, hc, hc', hk, _⟩ := C104_goes h1 ha hv hg hN
    refine ⟨o, h₁, hc, hc', fun i hi => hk i hi.lt ?_ fun _ _ => hv' i hi, fun x hx hne => hk _ (hF x hx).lt hne fun _ _ => hv x hx⟩
    rintro rfl
    obtain ⟨x, hx, hx'⟩ := (hF _ ha).looks
    exact hx'.not_ours hx hi
  · obtain ⟨hl, ha⟩ := (C105_goes hP h2).2 t f ht
    refine ⟨hl, fun op fn args hm hq => ⟨(ha op fn args hm).1, fun o h₁ he => ⟨((ha op fn args hm).2 o h₁ he).1, ?_⟩⟩⟩
    refine add_beside hP (hR _ ht).1 (hR _ ht).2 (fun o ho => (hF o ho).lt) (fun o ho e => ?_) hq hm he
    obtain ⟨x, hx, hx'⟩ := (hF o ho).looks
    exact hx'.not_ours hx (e ▸ holds_ours (hR _ ht).2)

end

omit hP in
/-- **C106** A call of a function that only makes new objects, as those of packages hex, codegen and luhn and the functions of package net that convert, is a step of the program's own. -/
theorem C106_own {h h₁ : List Val} (hp : h <+: h₁) {objs : List (Nat × Kind)} (hl : ∀ o ∈ objs, o.1 < h.length) :
    (∀ o ∈ objs, h₁[o.1]? = h[o.1]?) ∧ Untouched h h₁ := ⟨fun o ho => prefix_keeps hp (hl o ho), fun _ hi => prefix_keeps hp hi.lt⟩

end

/-! ## The repository as one program -/

/-- All packages of the repository, with either file of package hex. -/
def repoPkgs (bd : _root_.Hex.Build) : List Pkg :=
  [Bcc.pkg, Fletcher.pkg, Lrc.pkg, Luhn.pkg, Codegen.pkg, Hex.pkg bd, Endian.pkg, Bytes.pkg, Ripemd.pkg, Whirlpool.pkg, Net.pkg, Test.pkg]

/-- A program with the repository, after the start, on a machine with that byte order and that size of `int`. -/
def repository (bd : _root_.Hex.Build) (little : Bool) (W : Nat) (native : Nat → Name → List Val → M Val) (grow : Nat → Nat) : Prog :=
  { W := W, pkgs := repoPkgs bd, other := fun p x => bif Nat.beq p Endian.path && Nat.beq x (n! "Platform") then some (Bytes.order little) else none, std := stdlib,
    native := native, grow := grow }

/-- The same program at the start, when `init` of package endian is called, on a machine that stores 16 bits like this. -/
def starting (bd : _root_.Hex.Build) (st : U16 → U8 × U8) (W : Nat) (native : Nat → Name → List Val → M Val) (grow : Nat → Nat) : Prog :=
  { W := W, pkgs := repoPkgs bd, other := fun _ _ => none, std := machineStd st, native := native, grow := grow }

section
variable (bd : _root_.Hex.Build) (little : Bool) {W : Nat} (native : Nat → Name → List Val → M Val) (grow : Nat → Nat)

/-- **C106** The repository as one program meets the assumptions of all properties from C87 on about programs: there is one program of which all hold. -/
theorem C106_program (h1 : 32 ≤ W) (h2 : W ≤ 64) :
    (∀ k : Kind, k.In (repository bd little W native grow)) ∧ (repository bd little W native grow).Has Luhn.path [Luhn.src] [] ∧
    (repository bd little W native grow).Has Hex.path (Hex.texts bd) [] ∧ Codegen.In (repository bd little W native grow) bd ∧
    Hosts (repository bd little W native grow) ∧ Platform (repository bd little W native grow) little ∧
    HostsNet (repository bd little W native grow) ∧ RipemdHosts (repository bd little W native grow) ∧
    WhirlpoolHosts (repository bd little W native grow) ∧ TestHosts (repository bd little W native grow) bd := by
  have hx : (repository bd little W native grow).Has Hex.path (Hex.texts bd) [] := ⟨_, Hex.text bd, by cases bd <;> kernel_rfl⟩
  have by_ : (repository bd little W native grow).Has Bytes.path Bytes.texts [] := ⟨_, Bytes.text, by cases bd <;> kernel_rfl⟩
  have bin : elemN (n! "encoding/binary") ((repository bd little W native grow).pkgs.map Pkg.path) = false := by cases bd <;> kernel_rfl
  have r : RipemdHosts (repository bd little W native grow) := ⟨⟨_, Ripemd.text, by cases bd <;> kernel_rfl⟩, by_, rfl, bin, by cases bd <;> kernel_rfl, h1⟩
  have w : WhirlpoolHosts (repository bd little W native grow) := ⟨⟨_, Whirlpool.text, by cases bd <;> kernel_rfl⟩, by_, rfl, bin, h1⟩
  have f : (repository bd little W native grow).Has Fletcher.path fletcherTexts [] := ⟨_, Fletcher.text, by cases bd <;> kernel_rfl⟩
  refine ⟨fun k => ?_, ⟨_, Luhn.text, by cases bd <;> kernel_rfl⟩, hx, ⟨⟨_, Codegen.text, by cases bd <;> kernel_rfl⟩, hx, h1, h2⟩,
    ⟨by_, rfl, by cases bd <;> kernel_rfl, bin, h1⟩, ⟨by cases bd <;> kernel_rfl, by kernel_rfl⟩,
    ⟨⟨_, Net.text, by cases bd <;> kernel_rfl⟩, rfl, bin, by cases bd <;> kernel_rfl⟩, r, w,
    ⟨⟨_, Test.text, by cases bd <;> kernel_rfl⟩, hx, rfl, by cases bd <;> kernel_rfl, h1⟩⟩
  cases k with
  | bcc => exact ⟨⟨_, Bcc.text, by cases bd <;> kernel_rfl⟩, h1⟩
  | lrc => exact ⟨⟨_, Lrc.text, by cases bd <;> kernel_rfl⟩, h1⟩
  | fletcher16 | fletcher32 | fletcher64 => exact ⟨f, h1⟩
  | ripemd128 | ripemd160 | ripemd256 | ripemd320 => exact r
  | whirlpool => exact w

/-- **C106** On a machine of either byte order, the program at its start runs `init` of package endian and has then the `Platform` of `repository` for that byte order. -/
theorem C106_start : ∃ h', Returns (starting bd (if little then _root_.Endian.lowFirst else _root_.Endian.highFirst) W native grow) Endian.path 0 (n! "init") []
    [.nil, .nil, .nil] [] h' ∧ h'[0]? = (repository bd little W native grow).other Endian.path (n! "Platform") := by
  have hs (st : U16 → U8 × U8) : EndianHosts (starting bd st W native grow) st [.nil, .nil, .nil] := by
    refine ⟨⟨_, Endian.text, by cases bd <;> kernel_rfl⟩, fun k t a i p s => ?_, by cases bd <;> kernel_rfl, by cases bd <;> kernel_rfl⟩
    rw [show (starting bd st W native grow).std = machineStd st from rfl]
    simp [machineStd, go]
  cases little with
  | true =>
    obtain ⟨o, ho⟩ := (C102_detects (hs _root_.Endian.lowFirst) []).1 rfl
    exact ⟨_, ho, by kernel_rfl⟩
  | false =>
    obtain ⟨o, ho⟩ := (C102_detects (hs _root_.Endian.highFirst) []).2 rfl
    exact ⟨_, ho, by kernel_rfl⟩

end

/-! ## Examples -/

/-- The repository with the callback of the examples of C105. -/
def libProg : Prog := repository .table true 64 forestProg.native id

theorem libProg_hosts : HostsNet libProg := (C106_program .table true _ id (by decide) (by decide)).2.2.2.2.2.2.1

theorem lib_merges : Merges libProg (.native 0) (forestMerges (.native 0)) := by
  obtain ⟨⟨⟩, _⟩ | h := forest_merges
  exact .inr h

theorem lib_quiet (objs : List (Nat × Kind)) : Quiet libProg (.native 0) objs := by
  rintro i e h a b _ _ env v s h' hr o _ _
  cases e
  have e' : libProg.native 0 0 [a, b] = (match sumOrPanic a b with | some v => pure v | none => panic) := rfl
  rw [e'] at hr
  cases hs : sumOrPanic a b with
  | none =>
    rw [hs] at hr
    rcases hr with ⟨hr, _⟩ | hr
    · cases hr
    · cases hr
      rfl
  | some w =>
    rw [hs] at hr
    rcases hr with ⟨hr, rfl⟩ | hr
    · cases hr
      rfl
    · cases hr

/-- A tree at 1 and a BCC object at 2; the four bytes of an address are written to the object, the address is added to the tree, the sum and the list are taken. -/
def libMem : List Val := netMem ++ [Net.treeObj Net.noneVal (.native 0)] ++ [.u8 0]
def libMem₁ : List Val := netMem ++ [Net.treeObj Net.noneVal (.native 0)] ++ [.u8 14]
def libMem₂ : List Val := heapOf (run libProg 40 Net.path (n! "Tree") (n! "AddIp") [.ptr Net.path (n! "Tree") 1 [], .slice 0 [] 0 4 8, .int 1] libMem₁)
def libMem₃ : List Val := heapOf (run libProg 40 Net.path (n! "Tree") (n! "ListCidr") [.ptr Net.path (n! "Tree") 1 []] libMem₂)

def libEvents : List LibEvent :=
  [.tree (.planted 1 (.native 0)), .hash (.made 2 .bcc), .hash (.called 2 (.write [10, 0, 0, 4]) (some (.wrote 4 false))),
    .tree (.on 1 (.added (.addIp [10, 0, 0, 4] (.int 1)) (some ()))), .hash (.called 2 .sumN (some (.num 14))),
    .tree (.on 1 (.listed [(⟨[10, 0, 0, 4], [255, 255, 255, 255]⟩, .int 1)]))]

theorem lib_add : Ended libProg 1 (n! "AddIp") [.slice 0 [] 0 4 8, .int 1] libMem₁ (some ()) libMem₂ := Returns.one (n := 40) (by kernel_rfl)
theorem lib_list : Returns libProg Net.path (n! "Tree") (n! "ListCidr") [.ptr Net.path (n! "Tree") 1 []] libMem₂ [.slice 72 [] 0 1 2] libMem₃ :=
  Returns.one (n := 40) (by kernel_rfl)
theorem lib_sum : Call libProg Kind.bcc.names 2 .nil libMem₂ .sumN (some (.num 14)) libMem₂ := ⟨[.u8 14], Returns.one (n := 40) (by kernel_rfl), .u8 14, rfl, rfl⟩
theorem lib_got : Net.IsList libMem₃ (.slice 72 [] 0 1 2) [(⟨[10, 0, 0, 4], [255, 255, 255, 255]⟩, .int 1)] :=
  ⟨72, [Net.cidrVal 71 (.int 1)], [zeroLike [Net.cidrVal 71 (.int 1)]], rfl, by kernel_rfl, .cons ⟨_, .slice 69 [] 0 4 4, .slice 70 [] 0 4 4, rfl,
    ⟨_, _, _, _, Net.netObj 69 70, rfl, by kernel_rfl, rfl, rfl⟩, isBytes_all (l := [10, 0, 0, 4]) (by kernel_rfl), isBytes_all (l := [255, 255, 255, 255]) (by kernel_rfl)⟩ .nil⟩

theorem exampleLibrary : Library libProg forestMerges netMem [] [] libEvents libMem₃ [(2, .bcc)] [(1, .native 0)] := by
  have hB := (C106_program .table true forestProg.native id (W := 64) (by decide) (by decide)).1 .bcc
  have free (v : Val) (hv : base v = none ∨ base v = some 0) : Free [(2, Kind.bcc)] v := by
    intro o ho
    cases List.mem_singleton.mp ho
    rcases hv with hv | hv <;> simp [hv]
  refine .plant (h₁ := netMem ++ [Net.treeObj Net.noneVal (.native 0)]) lib_merges (Returns.one (n := 40) (by kernel_rfl)) ?_
  refine .make (k := .bcc) (h₁ := libMem) hB (.one (n := 40) (by kernel_rfl)) ?_
  refine .call (k := .bcc) (h₁ := libMem₁) (v := .slice 0 [] 0 4 8) (.head _) (free _ (.inr rfl)) (fun i hi e => ?_)
    ⟨.inr ⟨0, [], 0, 8, _, _, rfl, rfl, rfl, by decide, by decide, rfl⟩, by decide⟩ (by simp) ⟨[.int 4, .nil], .one (n := 40) (by kernel_rfl), .nil, rfl, by simp⟩ ?_
  · cases e
    rcases hi with hi | ⟨_, _, hi⟩ <;> simp [libMem, netMem] at hi
  refine .add (.head _) (lib_quiet _) (forestArgs (h := libMem₁) rfl 1).1 lib_add ?_
  refine .call (k := .bcc) (v := .nil) (.head _) (free _ (.inl rfl)) (fun i hi e => by cases e) trivial (by decide) lib_sum ?_
  exact .list (.head _) lib_list lib_got .done

end Source
