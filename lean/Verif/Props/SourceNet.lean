import Verif.Code.NetRange
import Verif.Code.NetList
import Verif.Props.Net
import Verif.Props.NetCallback

/-!
# The source text of package `net`, run

C92: the text of the four files of the package, read by the parser and run by the interpreter of `Verif/Lang`, does what the model of the
package does on every memory and for every callback; and from that, what a program gets from `ListCidr` after any calls on a tree.
-/
namespace Source
open GoLang NetSpec
open _root_.Net (Node Eff Op IPNet StepC)

/-- The program has the package with that text, and the functions it calls are those of the standard library. -/
structure HostsNet (P : Prog) : Prop where
  text : P.Has Net.path Net.texts Net.boxed
  std : P.std = stdlib
  binary : elemN (n! "encoding/binary") (P.pkgs.map Pkg.path) = false
  bytes : elemN (n! "bytes") (P.pkgs.map Pkg.path) = false

/-- In memory `h`, `v` is a pointer to a `net.IPNet` with these bytes. -/
def NetAt (h : List Val) (v : Val) (n : IPNet) : Prop := ∃ vi vm, Net.IsNet h v vi vm ∧ IsBytes h vi n.ip ∧ IsBytes h vm n.mask

/-- The call returns a slice of new memory with these bytes, and changes nothing else. -/
def ReturnsNew (P : Prog) (f : Name) (args h : List Val) (b : List (BitVec 8)) : Prop :=
  Returns P Net.path 0 f args h [.slice h.length [] 0 b.length b.length] (h ++ [.arr (b.map .u8)])

theorem last_length {n : IPNet} {l : List (BitVec 8)} (h : _root_.Net.LastIpv4 n = .ok l) : l.length = 4 := by
  obtain ⟨ip, mask⟩ := n
  rcases ip with _ | ⟨a, _ | ⟨b, _ | ⟨c, _ | ⟨d, ip⟩⟩⟩⟩ <;>
  rcases mask with _ | ⟨m0, _ | ⟨m1, _ | ⟨m2, _ | ⟨m3, mask⟩⟩⟩⟩ <;> cases h
  rfl

section
variable {P : Prog} (hP : HostsNet P) (h : List Val)
include hP

/-- **C92** The functions on addresses and masks do what the model does. -/
theorem C92_functions (v : Val) (b : List (BitVec 8)) (hb : IsBytes h v b) (u : BitVec 32) (k : BitVec 8) :
    (∃ x, _root_.Net.Ipv4ToUint b = .ok x ∧ Returns P Net.path 0 (n! "Ipv4ToUint") [v] h [.u32 x] h) ∧
    ReturnsNew P (n! "Ipv4FromUint") [.u32 u] h (_root_.Net.Ipv4FromUint u) ∧
    ReturnsNew P (n! "MaskFromByte") [.u8 k] h (_root_.Net.MaskFromByte k) ∧
    Returns P Net.path 0 (n! "MaskToByte") [v] h [.u8 (_root_.Net.MaskToByte b)] h := by
  have hp := hP.text.find Net.text
  obtain ⟨x, hx, r⟩ := Net.run_Ipv4ToUint hp hP.std hP.binary hb 0
  exact ⟨⟨x, hx, .one r⟩, .one (Net.run_Ipv4FromUint hp hP.std hP.binary u 0), .one (Net.run_MaskFromByte hp hP.std hP.binary k 0),
    .one (Net.run_MaskToByte hp hP.std hb 0)⟩

/-- **C92** The functions on networks do what the model does. `FirstIpv4` returns the slice in the network itself. -/
theorem C92_networks (v w : Val) (m n : IPNet) (hv : NetAt h v m) (hw : NetAt h w n) :
    Returns P Net.path 0 (n! "CidrEqual") [v, w] h [.bool (_root_.Net.CidrEqual m n)] h ∧
    (∃ vi vm, Net.IsNet h v vi vm ∧ Returns P Net.path 0 (n! "FirstIpv4") [v] h [vi] h ∧ IsBytes h vi (_root_.Net.FirstIpv4 m)) ∧
    (match _root_.Net.LastIpv4 m with
      | .ok r => ReturnsNew P (n! "LastIpv4") [v] h r
      | .panic => ∃ x, Panics P Net.path 0 (n! "LastIpv4") [v] h (h ++ [x])) := by
  have hp := hP.text.find Net.text
  obtain ⟨vi, vm, hn, hi, hm⟩ := hv
  obtain ⟨wi, wm, hn', hi', hm'⟩ := hw
  refine ⟨.one (Net.run_CidrEqual hp hP.std hP.bytes hn hn' hi hm hi' hm' 0), ⟨vi, vm, hn, .one (Net.run_FirstIpv4 hp hn hi.has.plain 0), hi⟩, ?_⟩
  have r := Net.run_LastIpv4 hp hn hi hm 0
  cases hl : _root_.Net.LastIpv4 m with
  | panic =>
    rw [hl] at r
    obtain ⟨x, r⟩ := r
    exact ⟨x, .one r⟩
  | ok l =>
    rw [hl] at r
    have h4 := last_length hl
    dsimp only
    rw [ReturnsNew, h4]
    exact .one r

end

/-! ## Calls on a tree -/

/-- The call `op`, with arguments in memory `h`. -/
def Makes (h : List Val) : Op Val → Name → List Val → Prop
  | .addIp ip x, f, args => ∃ v, f = n! "AddIp" ∧ args = [v, x] ∧ IsBytes h v ip ∧ Plain x
  | .addRange a e x, f, args => ∃ v w, f = n! "AddRange" ∧ args = [v, w, x] ∧ IsBytes h v a ∧ IsBytes h w e ∧ Plain x
  | .addCidr n x, f, args => ∃ v, f = n! "AddCidr" ∧ args = [v, x] ∧ NetAt h v n ∧ Plain x

/-- The method called on the tree at address `t` ends: it returns (`some ()`) or panics (`none`), and memory is then `h'`. -/
def Ended (P : Prog) (t : Nat) (f : Name) (args h : List Val) (o : Option Unit) (h' : List Val) : Prop :=
  match o with
  | some () => Returns P Net.path (n! "Tree") f (.ptr Net.path (n! "Tree") t [] :: args) h [] h'
  | none => Panics P Net.path (n! "Tree") f (.ptr Net.path (n! "Tree") t [] :: args) h h'

theorem Ended.unique {P : Prog} {t : Nat} {f : Name} {args h h₁ h₂ : List Val} {o₁ o₂ : Option Unit} (a : Ended P t f args h o₁ h₁)
    (b : Ended P t f args h o₂ h₂) : o₁ = o₂ ∧ h₁ = h₂ := by
  rcases o₁ with _ | ⟨⟩ <;> rcases o₂ with _ | ⟨⟩
  · obtain ⟨N, a⟩ := a
    obtain ⟨M, b⟩ := b
    have := (a (N + M) (by omega)).symm.trans (b (N + M) (by omega))
    simpa using this
  · exact absurd a (Returns.not_panics b)
  · exact absurd b (Returns.not_panics a)
  · exact ⟨rfl, (Returns.unique a b).2⟩

section
variable {P : Prog} (hP : HostsNet P) {σ : Type} {t : Nat} {f : Val} {World : List Val → σ → Prop} {merge : Val → Val → Eff (Node Val × σ) Val}
  (hf : Net.Callback P t f World merge) (hA : Net.Apart t f World)
include hP hf hA

omit hf hA in
theorem ended_of {s' : Node Val × σ} {o : Option Unit} {fn : Name} {args h : List Val} {n : Nat}
    (e : Net.Ends t f World (o, s') (run P n Net.path (n! "Tree") fn (.ptr Net.path (n! "Tree") t [] :: args) h)) :
    ∃ h', Ended P t fn args h o h' ∧ Net.Holds t f World h' s' := by
  rcases o with _ | ⟨⟩
  · obtain ⟨h', e, hh⟩ := e
    exact ⟨h', .one e, hh⟩
  · obtain ⟨h', e, hh⟩ := e
    exact ⟨h', .one e, hh⟩

/-- **C92** Whatever the callback does, a call on a tree does what the model does: it ends if and only if it does so in the model, with
the same outcome, and memory is then as the state of the model says. -/
theorem C92_step {h : List Val} {s : Node Val × σ} (hs : Net.Holds t f World h s) {op : Op Val} {fn : Name} {args : List Val}
    (hm : Makes h op fn args) (o : Option Unit) :
    (∀ s', StepC merge s op o s' → ∃ h', Ended P t fn args h o h' ∧ Net.Holds t f World h' s') ∧
    (∀ h', Ended P t fn args h o h' → ∃ s', StepC merge s op o s' ∧ Net.Holds t f World h' s') := by
  have hp := hP.text.find Net.text
  have total : ∀ r : Option Unit × (Node Val × σ), (∃ h', Ended P t fn args h r.1 h' ∧ Net.Holds t f World h' r.2) → (∀ o s', StepC merge s op o s' ↔ r = (o, s')) →
      (∀ s', StepC merge s op o s' → ∃ h', Ended P t fn args h o h' ∧ Net.Holds t f World h' s') ∧
      (∀ h', Ended P t fn args h o h' → ∃ s', StepC merge s op o s' ∧ Net.Holds t f World h' s') := by
    rintro ⟨o₁, s₁⟩ ⟨h₁, e₁, hh⟩ hr
    refine ⟨fun s' hs' => ?_, fun h' he => ?_⟩
    · obtain ⟨rfl, rfl⟩ := Prod.mk.inj ((hr _ _).mp hs')
      exact ⟨h₁, e₁, hh⟩
    · obtain ⟨rfl, rfl⟩ := Ended.unique e₁ he
      exact ⟨s₁, (hr _ _).mpr rfl, hh⟩
  cases op with
  | addIp ip x =>
    obtain ⟨v, rfl, rfl, hv, hx⟩ := hm
    exact total _ (ended_of hP (n := 34 + 2) (Net.run_AddIp hp hP.std hP.binary hf hA hx (le_refl _) hs hv)) fun _ _ => Iff.rfl
  | addCidr n x =>
    obtain ⟨v, rfl, rfl, ⟨vi, vm, hn, hi, hmm⟩, hx⟩ := hm
    exact total _ (ended_of hP (n := 34 + 2) (Net.run_AddCidr hp hP.std hP.binary hf hA hx (le_refl _) hs hn hi hmm)) fun _ _ => Iff.rfl
  | addRange a e x =>
    obtain ⟨v, w, rfl, rfl, hv, hw, hx⟩ := hm
    have key := fun {n : Nat} (hn : 34 ≤ n) => Net.run_AddRange hp hP.std hP.binary hf hA hx hn hs hv hw
    obtain ⟨ua, ue, ha, he, _⟩ := key (le_refl 34)
    have key : ∀ n, 34 ≤ n → match Net.outer merge ue x (n + 1) ua s with
        | some r => Net.Ends t f World r (run P (n + 2) Net.path (n! "Tree") (n! "AddRange") [.ptr Net.path (n! "Tree") t [], v, w, x] h)
        | none => run P (n + 2) Net.path (n! "Tree") (n! "AddRange") [.ptr Net.path (n! "Tree") t [], v, w, x] h = .stuck := by
      intro n hn
      obtain ⟨ua', ue', ha', he', k⟩ := key hn
      rw [ha] at ha'
      rw [he] at he'
      cases ha'
      cases he'
      exact k
    have hstep : ∀ o s', StepC merge s (.addRange a e x) o s' ↔ ∃ fuel, _root_.Net.rangeLoopC merge ue x fuel ua s = some (o, s') := by
      intro o s'
      simp only [StepC, _root_.Net.AddRangeC, ha, he]
    by_cases hr : ∃ n r, 34 ≤ n ∧ Net.outer merge ue x (n + 1) ua s = some r
    · obtain ⟨n, r, hn, hr⟩ := hr
      have k := key n hn
      rw [hr] at k
      obtain ⟨F, hF⟩ := Net.model_of_outer hr
      refine total r (ended_of hP k) fun o s' => (hstep o s').trans ⟨?_, fun e => ⟨F, e ▸ hF F (le_refl _)⟩⟩
      rintro ⟨fuel, hfu⟩
      have h1 := Net.outer_mono hr (Nat.le_max_left (n + 1) (fuel + 1))
      have h2 := Net.outer_mono (Net.outer_of_model hfu) (Nat.le_max_right (n + 1) (fuel + 1))
      rw [h1] at h2
      exact Option.some.inj h2
    · have none_ : ∀ n, 34 ≤ n → Net.outer merge ue x (n + 1) ua s = none := fun n hn => by
        cases hq : Net.outer merge ue x (n + 1) ua s with
        | none => rfl
        | some r => exact absurd ⟨n, r, hn, hq⟩ hr
      refine ⟨fun s' hs' => ?_, fun h' hE => ?_⟩
      · obtain ⟨fuel, hfu⟩ := (hstep _ _).mp hs'
        have := Net.outer_mono (Net.outer_of_model hfu) (show fuel + 1 ≤ (34 + fuel) + 1 by omega)
        rw [none_ _ (by omega)] at this
        cases this
      · have stuck : ∀ n, 34 ≤ n → run P (n + 2) Net.path (n! "Tree") (n! "AddRange") [.ptr Net.path (n! "Tree") t [], v, w, x] h = .stuck := by
          intro n hn
          have k := key n hn
          rw [none_ n hn] at k
          exact k
        rcases o with _ | ⟨⟩ <;> obtain ⟨M, hE⟩ := hE
        all_goals
          have := hE (34 + M + 2) (by omega)
          rw [stuck (34 + M) (by omega)] at this
          cases this

end

/-! ## A program that uses one tree -/

/-- The callback of the tree at `t` is a function of the program that computes `merge`. It may change the memory of the program, but it leaves
the tree alone (and the objects `none{}` of the package, as it must). -/
structure Computes (P : Prog) (t : Nat) (f : Val) (merge : Val → Val → Val) : Prop where
  fn : ∃ i, f = .native i ∧ ∀ h a b, Plain a → Plain b → ∃ h', (∀ e, P.native i 0 [a, b] ⟨h, e⟩ = .ok (merge a b) ⟨h', e⟩) ∧ h'[t]? = h[t]? ∧ Net.Kept h h'
  plain : ∀ a b, Plain a → Plain b → Plain (merge a b)

/-- What the program does with the tree at `t`, from memory `h` to memory `h'`: it makes calls on the tree, which return; in between it does anything with its own memory.
(It cannot reach the fields of the tree, which are not exported, and not the objects `none{}`.) -/
inductive Session (P : Prog) (t : Nat) : List Val → List (Op Val) → List Val → Prop
  | done {h : List Val} : Session P t h [] h
  | own {h h₁ h' : List Val} {ops : List (Op Val)} : h₁[t]? = h[t]? → Net.Kept h h₁ → Session P t h₁ ops h' → Session P t h ops h'
  | call {h h₁ h' : List Val} {op : Op Val} {ops : List (Op Val)} {fn : Name} {args : List Val} : Makes h op fn args → Ended P t fn args h (some ()) h₁ →
      Session P t h₁ ops h' → Session P t h (op :: ops) h'

/-- The tree has a root. -/
def Rooted (t : Nat) (f : Val) (h : List Val) (_ : Unit) : Prop := ∃ root, h[t]? = some (Net.treeObj root f) ∧ root ≠ .nil

theorem rooted_apart (t : Nat) (f : Val) : Net.Apart t f (Rooted t f) where
  alloc := fun h _ y ⟨root, hr, hn⟩ => ⟨root, by rw [List.getElem?_append_left (lt_of_get hr), hr], hn⟩
  root := fun h _ v w hw _ hr => ⟨w, by rw [List.getElem?_set_self (lt_of_get hr)], hw.1⟩

theorem computes_callback {P : Prog} {t : Nat} {f : Val} {merge : Val → Val → Val} (hf : Computes P t f merge) :
    Net.Callback P t f (Rooted t f) (_root_.Net.pureMerge merge) where
  fn := by
    obtain ⟨i, rfl, _⟩ := hf.fn
    exact .inr ⟨i, rfl⟩
  call := by
    obtain ⟨i, rfl, hc⟩ := hf.fn
    rintro h s a b ha hb ⟨⟨root, hr, hi⟩, root', hr', hn⟩
    obtain ⟨h', e, ht, hk⟩ := hc h a b ha hb
    exact ⟨h', e, ⟨⟨root, ht ▸ hr, hi.kept hk⟩, root', ht ▸ hr', hn⟩, hk, hf.plain a b ha hb⟩

section
variable {P : Prog} (hP : HostsNet P) {t : Nat} {f : Val} {merge : Val → Val → Val} (hf : Computes P t f merge)
include hP hf

theorem Session.runs {h h' : List Val} {ops : List (Op Val)} (hs : Session P t h ops h') :
    ∀ {r : Node Val}, Net.Holds t f (Rooted t f) h (r, ()) → ∃ r', _root_.Net.Runs merge r ops r' ∧ Net.Holds t f (Rooted t f) h' (r', ()) := by
  induction hs with
  | done => exact fun {r} hh => ⟨r, rfl, hh⟩
  | own ht hk _ ih =>
    rintro r ⟨⟨root, hr, hi⟩, root', hr', hn⟩
    exact ih ⟨⟨root, ht ▸ hr, hi.kept hk⟩, root', ht ▸ hr', hn⟩
  | call hm he _ ih =>
    intro r hh
    obtain ⟨⟨r₁, ⟨⟩⟩, hstep, hh₁⟩ := (C92_step hP (computes_callback hf) (rooted_apart t f) hh hm (some ())).2 _ he
    obtain ⟨r', hr, hh'⟩ := ih hh₁
    exact ⟨r', ⟨r₁, ((_root_.Net.C72_pure ..).mp hstep).2.2, hr⟩, hh'⟩

/-- **C92** A program that makes a tree and uses it in any way gets from `ListCidr` a slice of networks. -/
theorem C92_session {h h' : List Val} {ops : List (Op Val)} (ht : t = h.length) (hs : Session P t (h ++ [Net.treeObj Net.noneVal f]) ops h') :
    Returns P Net.path 0 (n! "New") [f] h [.ptr Net.path (n! "Tree") t []] (h ++ [Net.treeObj Net.noneVal f]) ∧
    ∃ r v h'', _root_.Net.Runs merge _root_.Net.New ops r ∧
      Returns P Net.path (n! "Tree") (n! "ListCidr") [.ptr Net.path (n! "Tree") t []] h' [v] h'' ∧ (∀ i, i < h'.length → h''[i]? = h'[i]?) ∧
      Net.IsList h'' v (_root_.Net.ListCidr r) := by
  have hp := hP.text.find Net.text
  subst ht
  have hpl := (computes_callback hf).plain
  have h0 : (h ++ [Net.treeObj Net.noneVal f])[h.length]? = some (Net.treeObj Net.noneVal f) := by simp
  obtain ⟨r, hr, ⟨root, h1, hi⟩, root', h2, hn⟩ := hs.runs hP hf (r := .none) ⟨⟨Net.noneVal, h0, .inl .none⟩, Net.noneVal, h0, by simp⟩
  refine ⟨.one (Net.run_New hp hpl 0 h), r, ?_⟩
  rw [h1] at h2
  have hroot : root = root' := by simpa using h2
  subst hroot
  rcases hi with hi | ⟨rfl, _⟩
  · obtain ⟨v, h'', hl, ho, hil⟩ := Net.run_ListCidr hp hP.std hP.binary h1 hi (le_refl _)
    exact ⟨v, h'', hr, .one hl, ho, hil⟩
  · exact absurd rfl hn

/-- **C92** So, if the arguments of the calls were IPv4 when the calls were made: the networks listed contain exactly the addresses added, in ascending order, each
with a 4-byte address without host bits and a contiguous 4-byte mask, and no other such list of networks is shorter. -/
theorem C92_list {h h' : List Val} {ops : List (Op Val)} (ht : t = h.length) (hs : Session P t (h ++ [Net.treeObj Net.noneVal f]) ops h')
    (h4 : ∀ op ∈ ops, IPv4Args op) :
    ∃ v h'' l, Returns P Net.path (n! "Tree") (n! "ListCidr") [.ptr Net.path (n! "Tree") t []] h' [v] h'' ∧ (∀ i, i < h'.length → h''[i]? = h'[i]?) ∧
      Net.IsList h'' v l ∧ (∀ a, (∃ c ∈ l, Contains c.1 a) ↔ ∃ op ∈ ops, Adds a op) ∧
      (l.Pairwise fun x y => ∀ a b, Contains x.1 a → Contains y.1 b → a < b) ∧ (∀ c ∈ l, CanonicalNet c.1) ∧
      ∀ C : List IPNet, (∀ c ∈ C, IPv4Net c) → (∀ a, (∃ c ∈ C, Contains c a) ↔ ∃ op ∈ ops, Adds a op) → l.length ≤ C.length := by
  obtain ⟨_, r, v, h'', hr, hl, ho, hil⟩ := C92_session hP hf ht hs
  exact ⟨v, h'', _, hl, ho, hil, _root_.Net.C16_exact ops h4 hr, _root_.Net.C17_sorted ops hr, _root_.Net.C20_wellformed ops hr,
    fun C hC hs => _root_.Net.C18_shortest_added ops h4 hr C hC hs⟩

/-- **C92** On a tree in use, every call returns, except a range that ends at 255.255.255.255; that one runs forever. -/
theorem C92_returns {h h' : List Val} {ops : List (Op Val)} (ht : t = h.length) (hs : Session P t (h ++ [Net.treeObj Net.noneVal f]) ops h')
    {op : Op Val} {fn : Name} {args : List Val} (hm : Makes h' op fn args) :
    ((∀ a e x, op = .addRange a e x → ¬ IPv4 e 0xffffffff) → ∃ h'', Ended P t fn args h' (some ()) h'') ∧
    ∀ a e x, op = .addRange a e x → IPv4 e 0xffffffff → ∀ n, run P n Net.path (n! "Tree") fn (.ptr Net.path (n! "Tree") t [] :: args) h' = .stuck := by
  subst ht
  have h0 : (h ++ [Net.treeObj Net.noneVal f])[h.length]? = some (Net.treeObj Net.noneVal f) := by simp
  obtain ⟨r, hr, hh⟩ := hs.runs hP hf (r := .none) ⟨⟨Net.noneVal, h0, .inl .none⟩, Net.noneVal, h0, by simp⟩
  have step := C92_step hP (computes_callback hf) (rooted_apart _ f) hh hm
  refine ⟨fun hop => ?_, ?_⟩
  · obtain ⟨r', r₁, hst, _⟩ := _root_.Net.C16_runs merge [op] (by rintro _ (_ | ⟨_, ⟨⟩⟩); exact hop) r
    obtain ⟨h'', he, _⟩ := (step (some ())).1 (r₁, ()) ((_root_.Net.C72_pure ..).mpr ⟨rfl, rfl, hst⟩)
    exact ⟨h'', he⟩
  · rintro a e x rfl hlast n
    obtain ⟨v, w, rfl, rfl, hv, hw, hx⟩ := hm
    by_contra hne
    have hbig := run_mono (show n ≤ (n + 34) + 2 by omega) hne rfl
    obtain ⟨ua, ue, _, _, k⟩ := Net.run_AddRange (hP.text.find Net.text) hP.std hP.binary (computes_callback hf) (rooted_apart _ f) hx (show 34 ≤ n + 34 by omega) hh hv hw
    split at k
    · rename_i res hres
      obtain ⟨o, s'⟩ := res
      obtain ⟨h₁, he, _⟩ := ended_of hP k
      obtain ⟨⟨r₁, ⟨⟩⟩, hst, _⟩ := (step o).2 h₁ he
      exact (_root_.Net.C21_diverges r a x hlast).2 ⟨r₁, ((_root_.Net.C72_pure ..).mp hst).2.2⟩
    · rw [k] at hbig
      exact hne hbig.symm

end

/-! ## What the functions do, without the model -/

section
variable {P : Prog} (hP : HostsNet P) (h : List Val)
include hP

/-- **C92** `Ipv4ToUint` of an IPv4 address is its number, of anything else 0; `Ipv4FromUint` gives new memory with the four bytes of the number. -/
theorem C92_numbers {v : Val} {b : List (BitVec 8)} (hb : IsBytes h v b) (u : BitVec 32) :
    (∀ a, IPv4 b a → ∃ x, Returns P Net.path 0 (n! "Ipv4ToUint") [v] h [.u32 x] h ∧ x.toNat = a) ∧
    ((¬ ∃ a, IPv4 b a) → Returns P Net.path 0 (n! "Ipv4ToUint") [v] h [.u32 0#32] h) ∧
    ∃ w, IPv4 w u.toNat ∧ w.length = 4 ∧ ReturnsNew P (n! "Ipv4FromUint") [.u32 u] h w := by
  obtain ⟨⟨x, hx, r⟩, r₂, _⟩ := C92_functions hP h v b hb u 0
  refine ⟨fun a ha => ?_, fun hn => ?_, _, ?_, rfl, r₂⟩
  · obtain ⟨y, hy, e⟩ := _root_.Net.C10_value ha
    rw [hx] at hy
    cases hy
    exact ⟨x, r, e⟩
  · have := (_root_.Net.C11_total b).2 hn
    rw [hx] at this
    cases this
    exact r
  · have e := _root_.Net.C10_fromTo u
    obtain ⟨y, hy, e'⟩ := _root_.Net.C10_value (_root_.Net.IPv4_of_len4 (ip := _root_.Net.Ipv4FromUint u) rfl)
    rw [e] at hy
    cases hy
    rw [e']
    exact _root_.Net.IPv4_of_len4 rfl

/-- **C92** `MaskToByte` counts the ones of a contiguous mask of up to 16 bytes, and is 0 for any other mask that is not ones followed by zeros;
`MaskFromByte` of at most 32 gives new memory with the contiguous mask of that many ones. -/
theorem C92_masks {v : Val} {m : List (BitVec 8)} (hm : IsBytes h v m) (k : BitVec 8) (hk : k.toNat ≤ 32) :
    (∀ ones, m.length ≤ 16 → Contiguous m ones → ∃ x : BitVec 8, Returns P Net.path 0 (n! "MaskToByte") [v] h [.u8 x] h ∧ x.toNat = ones) ∧
    ((¬ ∃ ones, Contiguous m ones) → Returns P Net.path 0 (n! "MaskToByte") [v] h [.u8 0#8] h) ∧
    ∃ w, Contiguous w k.toNat ∧ w.length = 4 ∧ ReturnsNew P (n! "MaskFromByte") [.u8 k] h w := by
  obtain ⟨_, _, r₁, r₂⟩ := C92_functions hP h v m hm 0 k
  refine ⟨fun ones hl hc => ⟨_, r₂, ?_⟩, fun hn => ?_, _, ?_, rfl, r₁⟩
  · exact _root_.Net.C13_contiguous hl hc
  · rw [_root_.Net.C13_rejects hn] at r₂
    exact r₂
  · have := _root_.Net.MaskFromByte_contiguous k.toNat hk
    rwa [BitVec.ofNat_toNat, BitVec.setWidth_eq] at this

/-- **C92** `CidrEqual` of two IPv4 networks tells whether they have the same mask and the same address. -/
theorem C92_equal {v w : Val} {m n : IPNet} (hv : NetAt h v m) (hw : NetAt h w n) {a b : Nat} (ha : IPv4 m.ip a) (hb : IPv4 n.ip b) :
    ∃ x, Returns P Net.path 0 (n! "CidrEqual") [v, w] h [.bool x] h ∧ (x = true ↔ m.mask = n.mask ∧ a = b) :=
  ⟨_, (C92_networks hP h v w m n hv hw).1, _root_.Net.C14_decides_partial ha hb⟩

/-- **C92** Of a network as `net.ParseCIDR` makes it, `FirstIpv4` and `LastIpv4` are the first and the last address it contains. -/
theorem C92_bounds {v : Val} {m : IPNet} (hv : NetAt h v m) (hc : CanonicalNet m) :
    ∃ vi first last lo hi, Returns P Net.path 0 (n! "FirstIpv4") [v] h [vi] h ∧ IsBytes h vi first ∧ ReturnsNew P (n! "LastIpv4") [v] h last ∧
      IPv4 first lo ∧ IPv4 last hi ∧ ∀ a, Contains m a ↔ lo ≤ a ∧ a ≤ hi := by
  obtain ⟨_, ⟨vi, vm, _, r₁, hb⟩, r₂⟩ := C92_networks hP h v v m m hv hv
  obtain ⟨last, lo, hi, hl, h1, h2, h3⟩ := _root_.Net.C15_bounds_partial m hc
  rw [hl] at r₂
  exact ⟨vi, _, last, lo, hi, r₁, hb, r₂, h1, h2, h3⟩

end

/-! ## Examples -/

/-- The sum of two numbers, as callback. -/
def sumVals : Val → Val → Val
  | .int a, .int b => .int (a + b)
  | _, _ => .nil

/-- A program with the package, whose function number 0 is that callback. -/
def netProg : Prog :=
  { W := 64, pkgs := [Net.pkg], other := fun _ _ => none, std := stdlib,
    native := fun _ _ args => match args with
      | [a, b] => pure (sumVals a b)
      | _ => stuck
    grow := fun n => n }

theorem netProg_hosts : HostsNet netProg := ⟨⟨Net.pkg, Net.text, by kernel_rfl⟩, rfl, by kernel_rfl, by kernel_rfl⟩

theorem netProg_computes (t : Nat) : Computes netProg t (.native 0) sumVals where
  fn := ⟨0, rfl, fun h _ _ _ _ => ⟨h, fun _ => rfl, rfl, .refl h⟩⟩
  plain := fun a b _ _ => by unfold sumVals; split <;> trivial

/-- The memory before: the addresses 10.0.0.4 and 10.0.0.5 in one array. -/
def netMem : List Val := [.arr ([10, 0, 0, 4, 10, 0, 0, 5].map .u8)]

/-- Memory after a call. -/
def heapOf : Out (List Val) → List Val
  | .ok _ s => s.heap
  | .panic h => h
  | .stuck => []

/-- Memory after the program has added the two addresses, one with the value 1, the other with the value 2. -/
def netMem₁ : List Val := heapOf (run netProg 40 Net.path (n! "Tree") (n! "AddIp") [.ptr Net.path (n! "Tree") 1 [], .slice 0 [] 0 4 8, .int 1]
  (netMem ++ [Net.treeObj Net.noneVal (.native 0)]))
def netMem₂ : List Val := heapOf (run netProg 40 Net.path (n! "Tree") (n! "AddIp") [.ptr Net.path (n! "Tree") 1 [], .slice 0 [] 4 4 4, .int 2] netMem₁)

theorem exampleSession : Session netProg 1 (netMem ++ [Net.treeObj Net.noneVal (.native 0)])
    [.addIp [10, 0, 0, 4] (.int 1), .addIp [10, 0, 0, 5] (.int 2)] netMem₂ := by
  refine .call (h₁ := netMem₁) (fn := n! "AddIp") (args := [.slice 0 [] 0 4 8, .int 1]) ⟨_, rfl, rfl, ?_, trivial⟩ (Returns.one (n := 40) (by kernel_rfl)) ?_
  · exact .inr ⟨0, [], 0, 8, _, _, rfl, rfl, rfl, by decide, by decide, rfl⟩
  refine .call (h₁ := netMem₂) (fn := n! "AddIp") (args := [.slice 0 [] 4 4 4, .int 2]) ⟨_, rfl, rfl, ?_, trivial⟩ (Returns.one (n := 40) (by kernel_rfl)) .done
  · exact .inr ⟨0, [], 4, 4, .arr ([10, 0, 0, 4, 10, 0, 0, 5].map .u8), _, rfl, by kernel_rfl, rfl, by decide, by decide, rfl⟩

/-- The list of the example: 10.0.0.4/31 with the value 3. -/
example : ∃ h z, run netProg 40 Net.path (n! "Tree") (n! "ListCidr") [.ptr Net.path (n! "Tree") 1 []] netMem₂ = .ok [.slice 71 [] 0 1 2] ⟨h, []⟩ ∧
    h[71]? = some (.arr [Net.cidrVal 70 (.int 3), z]) ∧ h[70]? = some (Net.netObj 68 69) ∧ h[68]? = some (.arr ([10, 0, 0, 4].map .u8)) ∧
    h[69]? = some (.arr ([255, 255, 255, 254].map .u8)) :=
  ⟨heapOf (run netProg 40 Net.path (n! "Tree") (n! "ListCidr") [.ptr Net.path (n! "Tree") 1 []] netMem₂), zeroLike [Net.cidrVal 70 (.int 3)],
    by kernel_rfl, by kernel_rfl, by kernel_rfl, by kernel_rfl, by kernel_rfl⟩

example : ∀ op ∈ [Op.addIp [10, 0, 0, 4] (Val.int 1), .addIp [10, 0, 0, 5] (.int 2)], IPv4Args op := by
  rintro op (_ | ⟨_, _ | ⟨_, ⟨⟩⟩⟩) <;> exact ⟨_, _root_.Net.IPv4_of_len4 rfl⟩

/-- A nil callback is like one that always panics: the second call panics, and the first address stays in the tree. -/
example : (∃ h, run netProg 40 Net.path (n! "Tree") (n! "AddIp") [.ptr Net.path (n! "Tree") 1 [], .slice 0 [] 0 4 8, .int 1]
      (netMem ++ [Net.treeObj Net.noneVal .nil]) = .ok [] ⟨h, []⟩ ∧
    ∃ h', run netProg 40 Net.path (n! "Tree") (n! "AddIp") [.ptr Net.path (n! "Tree") 1 [], .slice 0 [] 4 4 4, .int 2] h = .panic h') :=
  ⟨heapOf (run netProg 40 Net.path (n! "Tree") (n! "AddIp") [.ptr Net.path (n! "Tree") 1 [], .slice 0 [] 0 4 8, .int 1] (netMem ++ [Net.treeObj Net.noneVal .nil])),
    by kernel_rfl, heapOf (run netProg 40 Net.path (n! "Tree") (n! "AddIp") [.ptr Net.path (n! "Tree") 1 [], .slice 0 [] 4 4 4, .int 2]
      (heapOf (run netProg 40 Net.path (n! "Tree") (n! "AddIp") [.ptr Net.path (n! "Tree") 1 [], .slice 0 [] 0 4 8, .int 1] (netMem ++ [Net.treeObj Net.noneVal .nil])))), by kernel_rfl⟩

/-- The premises of `C92_bounds` and `C92_equal`: the network 192.168.16.0/20. -/
example : NetAt [.arr ([192, 168, 16, 0].map .u8), .arr ([255, 255, 0xf0, 0].map .u8), Net.netObj 0 1] (.ptr (n! "net") (n! "IPNet") 2 [])
    ⟨[192, 168, 16, 0], [255, 255, 0xf0, 0]⟩ :=
  ⟨_, _, ⟨_, _, _, _, _, rfl, rfl, rfl, rfl⟩, isBytes_all (l := [192, 168, 16, 0]) rfl, isBytes_all (l := [255, 255, 0xf0, 0]) rfl⟩

end Source
