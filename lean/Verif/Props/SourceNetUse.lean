import Verif.Lemmas.IpOnce
import Verif.Props.SourceNet
import Verif.Props.NetOrder
import Verif.Props.NetValues

/-!
# C110: what programs that run the text of package `net` list

`Gives P f ops l`: some use of a tree of the program `P`, made with the callback `f`, on which the calls `ops` were made from the text of the
package, with anything done to other memory in between, ends with `ListCidr` returning `l`. The theorems relate such uses, which may be uses in
different programs and memories.
-/
namespace Source
open GoLang NetSpec
open _root_.Net (Op IPNet)

/-- In memory `h`, `ListCidr` of the tree at `t` returns, with nothing changed, a slice with these networks and values. -/
def Lists (P : Prog) (t : Nat) (h : List Val) (l : List (IPNet × Val)) : Prop :=
  ∃ v h', Returns P Net.path (n! "Tree") (n! "ListCidr") [.ptr Net.path (n! "Tree") t []] h [v] h' ∧ (∀ i, i < h.length → h'[i]? = h[i]?) ∧
    Net.IsList h' v l

/-- A use of a tree with the callback `f`, from `New` to `ListCidr`, in which the calls `ops` are made and `l` is listed. -/
def Gives (P : Prog) (f : Val) (ops : List (Op Val)) (l : List (IPNet × Val)) : Prop :=
  ∃ h h', Returns P Net.path 0 (n! "New") [f] h [.ptr Net.path (n! "Tree") h.length []] (h ++ [Net.treeObj Net.noneVal f]) ∧
    Session P h.length (h ++ [Net.treeObj Net.noneVal f]) ops h' ∧ Lists P h.length h' l

theorem isBytes_once {h : List Val} {v : Val} {b c : List (BitVec 8)} (hb : IsBytes h v b) (hc : IsBytes h v c) : b = c := by
  have := hb.has.symm.trans hc.has
  simpa [HasBytes] using this

theorem isList_once {h : List Val} {v : Val} {l m : List (IPNet × Val)} (hl : Net.IsList h v l) (hm : Net.IsList h v m) : l = m := by
  obtain ⟨a, vals, pad, rfl, ha, hl⟩ := hl
  obtain ⟨a', vals', pad', e, ha', hm⟩ := hm
  injection e with e1 _ _ e2 e3
  subst e1
  rw [ha] at ha'
  have e4 : vals ++ pad = vals' ++ pad' := by simpa using ha'
  have e5 := (List.append_inj e4 e2).1
  subst e5
  clear ha ha' e4 e2 e3
  induction hl generalizing m with
  | nil => cases hm; rfl
  | @cons w x vals l hx _ ih =>
    cases hm with
    | @cons _ y _ m hy hm =>
      rw [ih hm]
      obtain ⟨vn, vi, vm, e, ⟨k, t, b, p, z, rfl, hz, hi, hm⟩, bi, bm⟩ := hx
      obtain ⟨vn', vi', vm', rfl, ⟨k', t', b', p', z', rfl, hz', hi', hm'⟩, bi', bm'⟩ := hy
      simp only [Val.struct.injEq, List.cons.injEq, Prod.mk.injEq, Val.ptr.injEq, and_true, true_and] at e
      obtain ⟨⟨rfl, rfl, rfl, rfl⟩, ex⟩ := e
      rw [hz] at hz'
      cases hz'
      rw [hi] at hi'
      rw [hm] at hm'
      cases hi'
      cases hm'
      obtain ⟨⟨xi, xm⟩, xv⟩ := x
      obtain ⟨⟨yi, ym⟩, yv⟩ := y
      cases isBytes_once bi bi'
      cases isBytes_once bm bm'
      cases ex
      rfl

theorem Lists.once {P : Prog} {t : Nat} {h : List Val} {l m : List (IPNet × Val)} (hl : Lists P t h l) (hm : Lists P t h m) : l = m := by
  obtain ⟨v, h', r, _, hl⟩ := hl
  obtain ⟨w, h'', r', _, hm⟩ := hm
  obtain ⟨e, rfl⟩ := r.unique r'
  cases e
  exact isList_once hl hm

section
variable {P : Prog} (hP : HostsNet P) {f : Val} {merge : Val → Val → Val} (hf : ∀ t, Computes P t f merge)
include hP hf

/-- **C110** Every use of a tree lists one list, and one only. -/
theorem C110_once {h h' : List Val} {ops : List (Op Val)} (hs : Session P h.length (h ++ [Net.treeObj Net.noneVal f]) ops h') :
    (∃ l, Gives P f ops l ∧ Lists P h.length h' l) ∧ ∀ l m, Lists P h.length h' l → Lists P h.length h' m → l = m := by
  obtain ⟨hn, r, v, h'', _, hl⟩ := C92_session hP (hf _) rfl hs
  exact ⟨⟨_, ⟨h, h', hn, hs, v, h'', hl⟩, v, h'', hl⟩, fun _ _ => Lists.once⟩

theorem Gives.runs {ops : List (Op Val)} {l : List (IPNet × Val)} (hg : Gives P f ops l) :
    ∃ r, _root_.Net.Runs merge _root_.Net.New ops r ∧ l = _root_.Net.ListCidr r := by
  obtain ⟨h, h', _, hs, hl⟩ := hg
  obtain ⟨_, r, v, h'', hr, hl'⟩ := C92_session hP (hf _) rfl hs
  exact ⟨r, hr, hl.once ⟨v, h'', hl'⟩⟩

/-- **C110** What is listed depends on the calls and on what the callback computes only: not on the program, the memory, the way the arguments lie
in it, or anything the program did in between. -/
theorem C110_function {Q : Prog} (hQ : HostsNet Q) {g : Val} (hg : ∀ t, Computes Q t g merge) {ops : List (Op Val)} {l m : List (IPNet × Val)}
    (hl : Gives P f ops l) (hm : Gives Q g ops m) : l = m := by
  obtain ⟨r, hr, rfl⟩ := hl.runs hP hf
  obtain ⟨s, hs, rfl⟩ := hm.runs hQ hg
  rw [_root_.Net.Runs_once hr hs]

/-- **C110** Uses that add the same addresses list the same networks, whatever their order, repetitions, forms, values and callbacks. -/
theorem C110_canonical {Q : Prog} (hQ : HostsNet Q) {g : Val} {merge' : Val → Val → Val} (hg : ∀ t, Computes Q t g merge')
    {ops ops' : List (Op Val)} {l m : List (IPNet × Val)} (hl : Gives P f ops l) (hm : Gives Q g ops' m)
    (h4 : ∀ op ∈ ops, IPv4Args op) (h4' : ∀ op ∈ ops', IPv4Args op) (hs : ∀ a, (∃ op ∈ ops, Adds a op) ↔ ∃ op ∈ ops', Adds a op) :
    l.map Prod.fst = m.map Prod.fst := by
  obtain ⟨r, hr, rfl⟩ := hl.runs hP hf
  obtain ⟨s, hs', rfl⟩ := hm.runs hQ hg
  exact _root_.Net.C19_canonical ops ops' h4 h4' hr hs' hs

/-- **C110** Uses that make the same calls, no two of which add one address, list the same networks and values in whatever order the calls were made. -/
theorem C110_order {Q : Prog} (hQ : HostsNet Q) {g : Val} (hg : ∀ t, Computes Q t g merge) {ops ops' : List (Op Val)} {l m : List (IPNet × Val)}
    (hl : Gives P f ops l) (hm : Gives Q g ops' m) (hp : ops.Perm ops') (h4 : ∀ op ∈ ops, IPv4Args op)
    (hd : ops.Pairwise fun p q => ∀ a, Adds a p → ¬ Adds a q) : l = m := by
  obtain ⟨r, hr, rfl⟩ := hl.runs hP hf
  obtain ⟨s, hs, rfl⟩ := hm.runs hQ hg
  exact _root_.Net.C73_order hp h4 hd hr hs

/-- **C110** Whatever the arguments: the networks are ascending and disjoint, in canonical form, no two can be joined, and every value is made with the
callback from values that were passed; if all values passed are one that merges with itself to itself, it is the value of all networks. -/
theorem C110_any {ops : List (Op Val)} {l : List (IPNet × Val)} (hl : Gives P f ops l) :
    (l.Pairwise fun x y => ∀ a b, Contains x.1 a → Contains y.1 b → a < b) ∧ (∀ c ∈ l, CanonicalNet c.1) ∧
    (l.Pairwise fun x y => ¬ ∃ d, IPv4Net d ∧ ∀ a, Contains d a ↔ Contains x.1 a ∨ Contains y.1 a) ∧
    (∀ c ∈ l, Generated merge (fun v => ∃ op ∈ ops, valueOf op = v) c.2) ∧
    ∀ v, merge v v = v → (∀ op ∈ ops, valueOf op = v) → ∀ c ∈ l, c.2 = v := by
  obtain ⟨r, hr, rfl⟩ := hl.runs hP hf
  exact ⟨_root_.Net.C17_sorted ops hr, _root_.Net.C20_wellformed ops hr, _root_.Net.C18_unjoinable ops hr, _root_.Net.C22_values ops hr,
    fun v hv ho => _root_.Net.C22_constant v hv ops ho hr⟩

/-- **C110** The list is not longer than the number of calls, with 62 for every `AddRange`. -/
theorem C110_length {ops : List (Op Val)} {l : List (IPNet × Val)} (hl : Gives P f ops l) (h4 : ∀ op ∈ ops, IPv4Args op) :
    l.length ≤ (ops.map mostAdded).sum := by
  obtain ⟨r, hr, rfl⟩ := hl.runs hP hf
  exact _root_.Net.C74_length ops h4 hr

section
variable {Q : Prog} (hQ : HostsNet Q) {g : Val} (hg : ∀ t, Computes Q t g merge)
include hQ hg

theorem Gives.step {ops : List (Op Val)} {op : Op Val} {l m : List (IPNet × Val)} (hl : Gives P f ops l) (hm : Gives Q g (ops ++ [op]) m) :
    ∃ r s, _root_.Net.Runs merge _root_.Net.New ops r ∧ _root_.Net.Step merge r op s ∧ l = _root_.Net.ListCidr r ∧ m = _root_.Net.ListCidr s := by
  obtain ⟨r, hr, rfl⟩ := hl.runs hP hf
  obtain ⟨s, hs, rfl⟩ := hm.runs hQ hg
  obtain ⟨r', h₁, s', h₂, rfl⟩ := _root_.Net.Runs_split hs
  cases _root_.Net.Runs_once hr h₁
  exact ⟨r, _, hr, h₂, rfl, rfl⟩

/-- **C110** One more call takes nothing away from the addresses listed, whatever its arguments; and changes nothing, not even a value, if all it adds
was listed. -/
theorem C110_more {ops : List (Op Val)} {op : Op Val} {l m : List (IPNet × Val)} (hl : Gives P f ops l) (hm : Gives Q g (ops ++ [op]) m) :
    (∀ a, (∃ c ∈ l, Contains c.1 a) → ∃ c ∈ m, Contains c.1 a) ∧
    (IPv4Args op → (∀ a, Adds a op → ∃ c ∈ l, Contains c.1 a) → m = l) := by
  obtain ⟨r, s, hr, hs, rfl, rfl⟩ := hl.step hP hf hQ hg hm
  exact ⟨fun a => _root_.Net.C24_monotone ops hr op hs a, fun h4 hc => _root_.Net.C24_covered ops hr op h4 hs hc⟩

/-- **C110** What one more `AddIp` or `AddCidr` does to the list: nothing if the network lies within one listed; otherwise it is joined with listed
buddies, the values merged in address order, and takes the place of what lies within the result. -/
theorem C110_values {ops : List (Op Val)} {op : Op Val} {l m : List (IPNet × Val)} (hl : Gives P f ops l) (hm : Gives Q g (ops ++ [op]) m)
    {c : Cidr} (hc : Target op c) :
    ((∃ d ∈ listed l, c.Within d.1) → m = l) ∧
    ((¬ ∃ d ∈ listed l, c.Within d.1) → ∃ d u, Grows merge (listed l) c (valueOf op) d u ∧
      ∀ b, b ∈ listed m ↔ (b ∈ listed l ∧ ¬ b.1.Within d) ∨ b = (d, u)) := by
  obtain ⟨r, s, hr, hs, rfl, rfl⟩ := hl.step hP hf hQ hg hm
  exact ⟨_root_.Net.C65_within ops hr op hc hs, _root_.Net.C65_step ops hr op hc hs⟩

/-- **C110** `AddIp` of something that is not an IPv4 address adds 0.0.0.0. -/
theorem C110_not_ipv4 {ops : List (Op Val)} {ip : List (BitVec 8)} {x : Val} {l m : List (IPNet × Val)} (hl : Gives P f ops l)
    (hm : Gives Q g (ops ++ [.addIp ip x]) m) (hip : ¬ ∃ u, IPv4 ip u) (a : Nat) :
    (∃ c ∈ m, Contains c.1 a) ↔ (∃ c ∈ l, Contains c.1 a) ∨ a = 0 := by
  obtain ⟨r, s, hr, hs, rfl, rfl⟩ := hl.step hP hf hQ hg hm
  obtain ⟨s', h₁, h₂⟩ := _root_.Net.C58_false ops hr hip x
  cases _root_.Net.Step_once (op := .addIp ip x) hs h₁
  exact h₂ a

/-- **C110** Instead of `AddRange` a program may call `AddCidr` for the networks of the greedy split of the range, of which there are at most 62. -/
theorem C110_range {ops : List (Op Val)} {s e : List (BitVec 8)} {us ue : Nat} (hs : IPv4 s us) (he : IPv4 e ue) {x : Val} {l : List (IPNet × Val)}
    (hl : Gives P f (ops ++ [.addRange s e x]) l) :
    ∃ ns : List IPNet, (∀ n ∈ ns, CanonicalNet n) ∧ Greedy ue us (ns.map cidrOf) ∧ ns.length ≤ 62 ∧
      ∀ m, Gives Q g (ops ++ ns.map fun n => .addCidr n x) m → m = l := by
  obtain ⟨t, ht, rfl⟩ := hl.runs hP hf
  obtain ⟨r, h₁, t', h₂, rfl⟩ := _root_.Net.Runs_split ht
  obtain ⟨ns, n1, n2, n3, n4⟩ := _root_.Net.C66_greedy x hs he h₂
  refine ⟨ns, n1, n2, n3, fun m hm => ?_⟩
  obtain ⟨u, hu, rfl⟩ := hm.runs hQ hg
  obtain ⟨r', h₃, h₄⟩ := _root_.Net.Runs_split hu
  cases _root_.Net.Runs_once h₁ h₃
  rw [_root_.Net.Runs_once n4 h₄]

end
end

/-! ## Examples -/

/-- The program of `exampleSession` lists one network. -/
example : Gives netProg (.native 0) [.addIp [10, 0, 0, 4] (.int 1), .addIp [10, 0, 0, 5] (.int 2)]
    [(⟨[10, 0, 0, 4], [255, 255, 255, 254]⟩, .int 3)] := by
  obtain ⟨l, hl, _⟩ := (C110_once netProg_hosts netProg_computes (h := netMem) exampleSession).1
  obtain ⟨r, ⟨r₁, h₁, r₂, h₂, rfl⟩, rfl⟩ := hl.runs netProg_hosts netProg_computes
  cases Res.ok.inj h₁
  cases Res.ok.inj h₂
  refine Eq.mp (congrArg _ ?_) hl
  kernel_rfl

end Source
