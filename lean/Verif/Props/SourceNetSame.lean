import Verif.Lemmas.IpSame
import Verif.Props.SourceNetCopy

/-!
# C127: one call for another, run from the text

Which method of a tree is called, and in which form its arguments are, does not matter: only which addresses are added, and with which value.
-/
namespace Source
open GoLang NetSpec
open _root_.Net (IPNet Op)

/-- Two calls with IPv4 arguments that are asked to add the same addresses with the same value. -/
def SameCall (op op' : Op Val) : Prop := IPv4Args op ∧ IPv4Args op' ∧ valueOf op = valueOf op' ∧ ∀ a, Adds a op ↔ Adds a op'

section
variable {P : Prog} (hP : HostsNet P) {f : Val} {merge : Val → Val → Val} (hf : ∀ t, Computes P t f merge)
variable {Q : Prog} (hQ : HostsNet Q) {g : Val} (hg : ∀ t, Computes Q t g merge)
include hP hf hQ hg

/-- **C127** If of two trees every call on the one adds the same addresses with the same value as the call at that place on the other, they list the same
networks with the same values. -/
theorem C127_same {ops ops' : List (Op Val)} {l m : List (IPNet × Val)} (hs : List.Forall₂ SameCall ops ops') (hl : Gives P f ops l) (hm : Gives Q g ops' m) :
    l = m := by
  obtain ⟨r, hr, rfl⟩ := hl.runs hP hf
  obtain ⟨s, hs', rfl⟩ := hm.runs hQ hg
  rw [_root_.Net.Runs_same hs hr hs']

/-- **C127** After the same calls, one address added by `AddIp`, by `AddCidr` with all bits in the mask, and by `AddRange` from it to itself, in any of the two forms
of an IPv4 address: the lists are the same. -/
theorem C127_one {ops : List (Op Val)} {ip ip' s e : List U8} {u : Nat} (h1 : IPv4 ip u) (h2 : IPv4 ip' u) (h3 : IPv4 s u) (h4 : IPv4 e u) {x : Val}
    (ho : ∀ op ∈ ops, IPv4Args op) {op op' : Op Val}
    (hop : op = .addIp ip x ∨ op = .addCidr ⟨ip', [255, 255, 255, 255]⟩ x ∨ op = .addRange s e x)
    (hop' : op' = .addIp ip x ∨ op' = .addCidr ⟨ip', [255, 255, 255, 255]⟩ x ∨ op' = .addRange s e x)
    {l m : List (IPNet × Val)} (hl : Gives P f (ops ++ [op]) l) (hm : Gives Q g (ops ++ [op']) m) : l = m := by
  have c : Contiguous [255, 255, 255, 255] 32 := ⟨0, by decide⟩
  have adds : ∀ op : Op Val, op = .addIp ip x ∨ op = .addCidr ⟨ip', [255, 255, 255, 255]⟩ x ∨ op = .addRange s e x →
      IPv4Args op ∧ valueOf op = x ∧ ∀ a, Adds a op ↔ a = u := by
    rintro op (rfl | rfl | rfl)
    · exact ⟨⟨u, h1⟩, rfl, fun a => ⟨fun ha => _root_.Net.IPv4_unique ha h1, fun ha => ha ▸ h1⟩⟩
    · refine ⟨⟨⟨u, h2⟩, rfl, 32, c⟩, rfl, fun a => ?_⟩
      have hu := _root_.Net.IPv4_lt h1
      show Contains _ a ↔ _
      rw [_root_.Net.contains_iff h2 rfl c]
      simp only [Nat.sub_self, Nat.pow_zero, Nat.div_one]
      omega
    · refine ⟨⟨⟨u, h3⟩, u, h4⟩, rfl, fun a => ⟨?_, fun ha => ⟨u, u, h3, h4, by omega, by omega⟩⟩⟩
      rintro ⟨us, ue, hs, he, k1, k2⟩
      have := _root_.Net.IPv4_unique hs h3
      have := _root_.Net.IPv4_unique he h4
      omega
  obtain ⟨a1, a2, a3⟩ := adds op hop
  obtain ⟨b1, b2, b3⟩ := adds op' hop'
  refine C127_same hP hf hQ hg (List.rel_append ?_ (.cons ⟨a1, b1, a2.trans b2.symm, fun a => (a3 a).trans (b3 a).symm⟩ .nil)) hl hm
  exact List.forall₂_same.mpr fun o h => ⟨ho o h, ho o h, rfl, fun _ => Iff.rfl⟩

/-- **C127** A range that ends before it starts adds nothing. -/
theorem C127_empty {ops : List (Op Val)} {s e : List U8} {us ue : Nat} (hs : IPv4 s us) (he : IPv4 e ue) (hlt : ue < us) {x : Val}
    {l m : List (IPNet × Val)} (hl : Gives P f ops l) (hm : Gives Q g (ops ++ [.addRange s e x]) m) : m = l := by
  obtain ⟨r, t, hr, ht, rfl, rfl⟩ := hl.step hP hf hQ hg hm
  obtain ⟨ns, -, h2, -, h3⟩ := _root_.Net.C66_greedy x hs he ht
  have : ns = [] := by
    cases ns with
    | nil => rfl
    | cons n ns =>
      exfalso
      rw [List.map_cons] at h2
      generalize cidrOf n = c at h2
      cases h2 with
      | @next _ k _ _ _ h =>
        have : 0 < 2 ^ k := Nat.pow_pos (by omega)
        omega
  subst this
  rw [show t = r from h3]

end

/-! ## Examples -/

/-- 10.0.0.4 and 10.0.0.5 as a network with a bit set behind the mask, in the long form, and as a range; then 9.9.9.9 as an address and as a range. -/
theorem same_calls : List.Forall₂ SameCall
    [.addCidr ⟨[0, 0, 0, 0, 0, 0, 0, 0, 0, 0, 0xff, 0xff, 10, 0, 0, 5], [255, 255, 255, 254]⟩ (.int 1), .addIp [9, 9, 9, 9] (.int 2)]
    [.addRange [10, 0, 0, 4] [10, 0, 0, 5] (.int 1), .addRange [9, 9, 9, 9] [9, 9, 9, 9] (.int 2)] := by
  have i4 : IPv4 [10, 0, 0, 4] 0x0a000004 := _root_.Net.IPv4_of_len4 rfl
  have i5 : IPv4 [10, 0, 0, 5] 0x0a000005 := _root_.Net.IPv4_of_len4 rfl
  have i5' : IPv4 [0, 0, 0, 0, 0, 0, 0, 0, 0, 0, 0xff, 0xff, 10, 0, 0, 5] 0x0a000005 := ⟨10, 0, 0, 5, .inr rfl, by decide⟩
  have i9 : IPv4 [9, 9, 9, 9] 0x09090909 := _root_.Net.IPv4_of_len4 rfl
  have c : Contiguous [255, 255, 255, 254] 31 := ⟨1, by decide⟩
  refine .cons ⟨⟨⟨_, i5'⟩, rfl, 31, c⟩, ⟨⟨_, i4⟩, _, i5⟩, rfl, fun a => ?_⟩ (.cons ⟨⟨_, i9⟩, ⟨⟨_, i9⟩, _, i9⟩, rfl, fun a => ?_⟩ .nil)
  · show Contains _ a ↔ _
    rw [_root_.Net.contains_iff i5' rfl c]
    constructor
    · rintro ⟨-, h⟩
      exact ⟨_, _, i4, i5, by omega, by omega⟩
    · rintro ⟨us, ue, h1, h2, h3, h4⟩
      have := _root_.Net.IPv4_unique h1 i4
      have := _root_.Net.IPv4_unique h2 i5
      omega
  · constructor
    · intro h
      have := _root_.Net.IPv4_unique h i9
      exact ⟨_, _, i9, i9, by omega, by omega⟩
    · rintro ⟨us, ue, h1, h2, h3, h4⟩
      have := _root_.Net.IPv4_unique h1 i9
      have := _root_.Net.IPv4_unique h2 i9
      rw [show a = 0x09090909 by omega]
      exact i9

/-- Both uses are possible, and they list the same. -/
example : ∃ l, Gives netProg (.native 0) [.addCidr ⟨[0, 0, 0, 0, 0, 0, 0, 0, 0, 0, 0xff, 0xff, 10, 0, 0, 5], [255, 255, 255, 254]⟩ (.int 1), .addIp [9, 9, 9, 9] (.int 2)] l ∧
    Gives netProg (.native 0) [.addRange [10, 0, 0, 4] [10, 0, 0, 5] (.int 1), .addRange [9, 9, 9, 9] [9, 9, 9, 9] (.int 2)] l := by
  obtain ⟨l, hl⟩ := C123_any netProg_hosts netProg_computes [.addCidr ⟨[0, 0, 0, 0, 0, 0, 0, 0, 0, 0, 0xff, 0xff, 10, 0, 0, 5], [255, 255, 255, 254]⟩ (.int 1),
    .addIp [9, 9, 9, 9] (.int 2)] (by rintro op (_ | ⟨_, _ | ⟨_, ⟨⟩⟩⟩) <;> trivial) (by intro a e x h; simp at h)
  obtain ⟨m, hm⟩ := C123_any netProg_hosts netProg_computes [.addRange [10, 0, 0, 4] [10, 0, 0, 5] (.int 1), .addRange [9, 9, 9, 9] [9, 9, 9, 9] (.int 2)]
    (by rintro op (_ | ⟨_, _ | ⟨_, ⟨⟩⟩⟩) <;> trivial) (by
      intro a e x h h4
      simp only [List.mem_cons, List.not_mem_nil, or_false, Op.addRange.injEq] at h
      rcases h with ⟨-, rfl, -⟩ | ⟨-, rfl, -⟩
      · have := _root_.Net.IPv4_unique h4 (_root_.Net.IPv4_of_len4 (ip := [10, 0, 0, 5]) rfl)
        revert this
        decide
      · have := _root_.Net.IPv4_unique h4 (_root_.Net.IPv4_of_len4 (ip := [9, 9, 9, 9]) rfl)
        revert this
        decide)
  cases C127_same netProg_hosts netProg_computes netProg_hosts netProg_computes same_calls hl hm
  exact ⟨l, hl, hm⟩

/-- One address in two of the three ways. -/
example (l m : List (IPNet × Val)) (hl : Gives netProg (.native 0) ([.addIp [10, 0, 0, 4] (.int 1)] ++ [.addIp [10, 0, 0, 5] (.int 2)]) l)
    (hm : Gives netProg (.native 0) ([.addIp [10, 0, 0, 4] (.int 1)] ++
      [.addCidr ⟨[0, 0, 0, 0, 0, 0, 0, 0, 0, 0, 0xff, 0xff, 10, 0, 0, 5], [255, 255, 255, 255]⟩ (.int 2)]) m) : l = m :=
  C127_one netProg_hosts netProg_computes netProg_hosts netProg_computes (u := 0x0a000005) (ip := [10, 0, 0, 5]) (s := [10, 0, 0, 5]) (e := [10, 0, 0, 5])
    (_root_.Net.IPv4_of_len4 rfl) ⟨10, 0, 0, 5, .inr rfl, by decide⟩ (_root_.Net.IPv4_of_len4 rfl) (_root_.Net.IPv4_of_len4 rfl)
    (by rintro op (_ | ⟨_, ⟨⟩⟩); exact ⟨_, _root_.Net.IPv4_of_len4 rfl⟩) (.inl rfl) (.inr (.inl rfl)) hl hm

/-- From 10.0.0.5 to 10.0.0.4 is nothing. -/
example (m : List (IPNet × Val)) (hm : Gives netProg (.native 0) ([.addIp [10, 0, 0, 4] (.int 1), .addIp [10, 0, 0, 5] (.int 2), .addIp [9, 9, 9, 9] (.int 7)] ++
    [.addRange [10, 0, 0, 5] [10, 0, 0, 4] (.int 9)]) m) :
    m = [(⟨[9, 9, 9, 9], [255, 255, 255, 255]⟩, .int 7), (⟨[10, 0, 0, 4], [255, 255, 255, 254]⟩, .int 3)] :=
  C127_empty netProg_hosts netProg_computes netProg_hosts netProg_computes (us := 0x0a000005) (ue := 0x0a000004) (_root_.Net.IPv4_of_len4 rfl)
    (_root_.Net.IPv4_of_len4 rfl) (by decide) copy_list hm

end Source
