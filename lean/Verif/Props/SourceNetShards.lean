import Verif.Lemmas.IpShards
import Verif.Props.SourceNetCopy

/-!
# C129: trees of several programs put together, run from the text

Calls that add no address twice can be dealt out to any number of programs, each with a tree of its own. What the trees list, added to one more tree,
gives what a single tree lists on which all calls were made.
-/
namespace Source
open GoLang NetSpec
open _root_.Net (IPNet Op copyOf)

/-- Programs, each with a tree whose callback computes `merge`: the calls of each, and what its tree lists. -/
def Shards (merge : Val → Val → Val) : List (List (Op Val)) → List (List (IPNet × Val)) → Prop :=
  List.Forall₂ fun ops l => ∃ P f, HostsNet P ∧ (∀ t, Computes P t f merge) ∧ Gives P f ops l

/-- What a tree lists has the addresses of its calls, each once. -/
theorem shard_alike {P : Prog} (hP : HostsNet P) {f : Val} {merge : Val → Val → Val} (hf : ∀ t, Computes P t f merge) {ops : List (Op Val)}
    {l : List (IPNet × Val)} (hl : Gives P f ops l) (h4 : ∀ op ∈ ops, IPv4Args op) : _root_.Net.Alike merge (copyOf l) ops := by
  obtain ⟨t, ht, rfl⟩ := hl.runs hP hf
  have hc := _root_.Net.C20_wellformed ops ht
  obtain ⟨u, hu⟩ := _root_.Net.C16_runs merge (copyOf (_root_.Net.ListCidr t)) (by
    intro op hop s e v he
    obtain ⟨n, -, rfl⟩ := List.mem_map.mp hop
    cases he) _root_.Net.New
  refine ⟨⟨t, ?_, ht⟩, fun op ho => ?_, h4, ?_, fun a => ?_⟩
  · obtain rfl := _root_.Net.Runs_copy_perm ops ht (.refl _) hu
    exact hu
  · obtain ⟨n, hn, rfl⟩ := List.mem_map.mp ho
    exact _root_.Net.canonical_ipv4 (hc n hn)
  · rw [copyOf, List.pairwise_map]
    exact (_root_.Net.C17_sorted ops ht).imp fun hxy a h1 h2 => Nat.lt_irrefl a (hxy a a h1 h2)
  · rw [← _root_.Net.C16_exact ops h4 ht a]
    constructor
    · rintro ⟨op, ho, h⟩
      obtain ⟨n, hn, rfl⟩ := List.mem_map.mp ho
      exact ⟨n, hn, h⟩
    · rintro ⟨n, hn, h⟩
      exact ⟨_, List.mem_map_of_mem hn, h⟩

section
variable {merge : Val → Val → Val} {Q : Prog} (hQ : HostsNet Q) {g : Val} (hg : ∀ t, Computes Q t g merge)
variable {R : Prog} (hR : HostsNet R) {k : Val} (hk : ∀ t, Computes R t k merge)
include hQ hg hR hk

/-- **C129** The entries of the lists of all programs, added in any order to a tree, make it list what a tree lists on which all calls are made, in any
order: the same networks in the same order with the same values. -/
theorem C129_shards {opss : List (List (Op Val))} {ls : List (List (IPNet × Val))} (hS : Shards merge opss ls) {ops : List (Op Val)}
    (hp : ops.Perm opss.flatten) (h4 : ∀ op ∈ ops, IPv4Args op) (hd : ops.Pairwise fun p q => ∀ a, Adds a p → ¬ Adds a q) {L : List (IPNet × Val)}
    (hL : L.Perm ls.flatten) {m l : List (IPNet × Val)} (hm : Gives Q g (copyOf L) m) (hl : Gives R k ops l) : m = l := by
  have h4 : ∀ op ∈ opss.flatten, IPv4Args op := fun op ho => h4 op (hp.mem_iff.mpr ho)
  have hd' : opss.flatten.Pairwise fun p q => ∀ a, Adds a p → ¬ Adds a q := (hp.pairwise_iff fun h a h1 h2 => h a h2 h1).mp hd
  have hA : List.Forall₂ (_root_.Net.Alike merge) (ls.map copyOf) opss := by
    rw [List.forall₂_map_left_iff]
    clear hp hL hd'
    induction hS with
    | nil => exact .nil
    | cons h _ ih =>
      obtain ⟨P, f, hP, hf, hl⟩ := h
      simp only [List.flatten_cons, List.mem_append] at h4
      exact .cons (shard_alike hP hf hl fun op ho => h4 op (.inl ho)) (ih fun op ho => h4 op (.inr ho))
  obtain ⟨r, hr, rfl⟩ := hm.runs hQ hg
  obtain ⟨s, hs, rfl⟩ := hl.runs hR hk
  obtain ⟨i1, i2, i3, i4, i5⟩ := _root_.Net.Alike.flatten hA hd'
  have e : copyOf ls.flatten = (ls.map copyOf).flatten := by rw [copyOf, List.map_flatten]; rfl
  obtain ⟨u, hu⟩ := _root_.Net.Runs_of_steps (merge := merge) (fun op ho => i5 op (List.mem_append_left _ ho)) _root_.Net.New
  obtain ⟨v, hv⟩ := _root_.Net.Runs_of_steps (merge := merge) (fun op ho => i5 op (List.mem_append_right _ ho)) _root_.Net.New
  have h1 := _root_.Net.Runs_perm merge (e ▸ (hL.map _).symm) i1 i3 hu hr
  have h2 := _root_.Net.Runs_perm merge hp.symm i2 hd' hv hs
  rw [← h1, ← h2, _root_.Net.Runs_exchange hA hd' hu hv]

/-- **C129** And the program with that tree can do so. -/
theorem C129_made {opss : List (List (Op Val))} {ls : List (List (IPNet × Val))} (hS : Shards merge opss ls) {ops : List (Op Val)}
    (hp : ops.Perm opss.flatten) (h4 : ∀ op ∈ ops, IPv4Args op) (hd : ops.Pairwise fun p q => ∀ a, Adds a p → ¬ Adds a q) {L : List (IPNet × Val)}
    (hL : L.Perm ls.flatten) {l : List (IPNet × Val)} (hl : Gives R k ops l) : Gives Q g (copyOf L) l := by
  obtain ⟨m, hm⟩ := C123_any hQ hg (copyOf L) (by
    intro op hop
    obtain ⟨n, hn, rfl⟩ := List.mem_map.mp hop
    obtain ⟨l', hl', hn⟩ := List.mem_flatten.mp (hL.mem_iff.mp hn)
    clear hp hd hL hl hop
    induction hS with
    | nil => cases hl'
    | cons h _ ih =>
      rcases List.mem_cons.mp hl' with rfl | hl'
      · obtain ⟨P, f, hP, hf, hl⟩ := h
        have hv := (C110_any hP hf hl).2.2.2.1 n hn
        obtain ⟨h, h', _, hs, _⟩ := hl
        show Plain n.2
        generalize n.2 = v at hv
        induction hv with
        | base hb => obtain ⟨op, ho, rfl⟩ := hb; exact hs.plain op ho
        | merge _ _ ha hb => exact (hf 0).plain _ _ ha hb
      · exact ih hl') (by
    intro a e x hop
    obtain ⟨n, _, h⟩ := List.mem_map.mp hop
    cases h)
  exact C129_shards hQ hg hR hk hS hp h4 hd hL hm hl ▸ hm

end

/-! ## Examples -/

/-- One program adds 10.0.0.4 and 9.9.9.9, the other 10.0.0.5; the third puts their lists together. -/
example : Gives netProg (.native 0) (copyOf [(⟨[10, 0, 0, 5], [255, 255, 255, 255]⟩, .int 2), (⟨[9, 9, 9, 9], [255, 255, 255, 255]⟩, .int 7),
      (⟨[10, 0, 0, 4], [255, 255, 255, 255]⟩, .int 1)])
    [(⟨[9, 9, 9, 9], [255, 255, 255, 255]⟩, .int 7), (⟨[10, 0, 0, 4], [255, 255, 255, 254]⟩, .int 3)] := by
  have i4 : IPv4 [10, 0, 0, 4] 0x0a000004 := _root_.Net.IPv4_of_len4 rfl
  have i5 : IPv4 [10, 0, 0, 5] 0x0a000005 := _root_.Net.IPv4_of_len4 rfl
  have i9 : IPv4 [9, 9, 9, 9] 0x09090909 := _root_.Net.IPv4_of_len4 rfl
  have ne : ∀ {s t : List U8} {u v : Nat} {x y : Val}, IPv4 s u → IPv4 t v → u ≠ v → ∀ a, Adds a (.addIp s x) → ¬ Adds a (.addIp t y) :=
    fun hs ht hne a h1 h2 => hne ((_root_.Net.IPv4_unique hs h1).trans (_root_.Net.IPv4_unique h2 ht))
  have one : Gives netProg (.native 0) [.addIp [10, 0, 0, 4] (.int 1), .addIp [9, 9, 9, 9] (.int 7)]
      [(⟨[9, 9, 9, 9], [255, 255, 255, 255]⟩, .int 7), (⟨[10, 0, 0, 4], [255, 255, 255, 255]⟩, .int 1)] := by
    obtain ⟨l, hl⟩ := C123_any netProg_hosts netProg_computes [.addIp [10, 0, 0, 4] (.int 1), .addIp [9, 9, 9, 9] (.int 7)]
      (by rintro op (_ | ⟨_, _ | ⟨_, ⟨⟩⟩⟩) <;> trivial) (by intro a e x h; simp at h)
    obtain ⟨r, ⟨r₁, h₁, r₂, h₂, rfl⟩, rfl⟩ := hl.runs netProg_hosts netProg_computes
    cases Res.ok.inj h₁
    cases Res.ok.inj h₂
    refine Eq.mp (congrArg _ ?_) hl
    kernel_rfl
  have two : Gives netProg (.native 0) [.addIp [10, 0, 0, 5] (.int 2)] [(⟨[10, 0, 0, 5], [255, 255, 255, 255]⟩, .int 2)] := by
    obtain ⟨l, hl⟩ := C123_any netProg_hosts netProg_computes [.addIp [10, 0, 0, 5] (.int 2)]
      (by rintro op (_ | ⟨_, ⟨⟩⟩) <;> trivial) (by intro a e x h; simp at h)
    obtain ⟨r, ⟨r₁, h₁, rfl⟩, rfl⟩ := hl.runs netProg_hosts netProg_computes
    cases Res.ok.inj h₁
    refine Eq.mp (congrArg _ ?_) hl
    kernel_rfl
  refine C129_made netProg_hosts netProg_computes netProg_hosts netProg_computes
    (.cons ⟨_, _, netProg_hosts, netProg_computes, one⟩ (.cons ⟨_, _, netProg_hosts, netProg_computes, two⟩ .nil))
    (.cons _ (.swap _ _ _)) ?_ ?_ List.perm_append_comm copy_list
  · rintro op (_ | ⟨_, _ | ⟨_, _ | ⟨_, ⟨⟩⟩⟩⟩) <;> exact ⟨_, _root_.Net.IPv4_of_len4 rfl⟩
  · refine .cons ?_ (.cons ?_ (.cons ?_ .nil))
    · rintro q (_ | ⟨_, _ | ⟨_, ⟨⟩⟩⟩)
      · exact ne i4 i5 (by decide)
      · exact ne i4 i9 (by decide)
    · rintro q (_ | ⟨_, ⟨⟩⟩)
      exact ne i5 i9 (by decide)
    · rintro q ⟨⟩

/-- What the tree lists after calls that return at once. -/
theorem gives_of {ops : List (Op Val)} {t : _root_.Net.Node Val} (ht : _root_.Net.Runs sumVals _root_.Net.New ops t) (hv : ∀ op ∈ ops, Plain (valueOf op))
    (hr : ∀ a e x, .addRange a e x ∉ ops) : Gives netProg (.native 0) ops (_root_.Net.ListCidr t) := by
  obtain ⟨l, hl⟩ := C123_any netProg_hosts netProg_computes ops hv fun a e x h => absurd h (hr a e x)
  obtain ⟨s, hs, rfl⟩ := hl.runs netProg_hosts netProg_computes
  rwa [_root_.Net.Runs_once ht hs]

/-- It matters that no address is added twice: with two values of one address, the tree keeps the one it is given first. -/
example : Gives netProg (.native 0) [.addIp [10, 0, 0, 4] (.int 1)] [(⟨[10, 0, 0, 4], [255, 255, 255, 255]⟩, .int 1)] ∧
    Gives netProg (.native 0) [.addIp [10, 0, 0, 4] (.int 2)] [(⟨[10, 0, 0, 4], [255, 255, 255, 255]⟩, .int 2)] ∧
    Gives netProg (.native 0) [.addIp [10, 0, 0, 4] (.int 1), .addIp [10, 0, 0, 4] (.int 2)] [(⟨[10, 0, 0, 4], [255, 255, 255, 255]⟩, .int 1)] ∧
    Gives netProg (.native 0) (copyOf [(⟨[10, 0, 0, 4], [255, 255, 255, 255]⟩, .int 2), (⟨[10, 0, 0, 4], [255, 255, 255, 255]⟩, .int 1)])
      [(⟨[10, 0, 0, 4], [255, 255, 255, 255]⟩, .int 2)] := by
  refine ⟨?_, ?_, ?_, ?_⟩
  · refine Eq.mp (congrArg _ ?_) (gives_of ⟨_, rfl, rfl⟩ (by rintro op (_ | ⟨_, ⟨⟩⟩) <;> trivial) (by simp))
    kernel_rfl
  · refine Eq.mp (congrArg _ ?_) (gives_of ⟨_, rfl, rfl⟩ (by rintro op (_ | ⟨_, ⟨⟩⟩) <;> trivial) (by simp))
    kernel_rfl
  · refine Eq.mp (congrArg _ ?_) (gives_of ⟨_, rfl, _, rfl, rfl⟩ (by rintro op (_ | ⟨_, _ | ⟨_, ⟨⟩⟩⟩) <;> trivial) (by simp))
    kernel_rfl
  · refine Eq.mp (congrArg _ ?_) (gives_of ⟨_, rfl, _, rfl, rfl⟩ (by rintro op (_ | ⟨_, _ | ⟨_, ⟨⟩⟩⟩) <;> trivial) (by simp [copyOf]))
    kernel_rfl

end Source
