import Verif.Lemmas.IpCopy
import Verif.Props.SourceNetUse

/-!
# C123: a list of networks carried from one tree to another, run from the text

The lists are written down by one program and read by another, which may differ in everything but the text of package net.
-/
namespace Net
open NetSpec
variable {V : Type} {merge merge' : V → V → V}

/-- The calls that add the entries of a list. -/
def copyOf (L : List (IPNet × V)) : List (Op V) := L.map fun n => .addCidr n.1 n.2

theorem canonical_ipv4 {n : IPNet} (h : CanonicalNet n) : IPv4Net n := ⟨⟨_, IPv4_of_len4 h.1⟩, h.2.1, h.2.2.1⟩

theorem Runs_copy_perm (ops : List (Op V)) {t t' : Node V} (h : Runs merge New ops t) {L : List (IPNet × V)} (hp : L.Perm (ListCidr t))
    (h' : Runs merge' New (copyOf L) t') : t' = t := by
  have hc := C20_wellformed ops h
  have hs := C17_sorted ops h
  obtain ⟨u, hu⟩ := C16_runs merge' (copyOf (ListCidr t)) (by
    intro op hop s e v he
    obtain ⟨n, -, rfl⟩ := List.mem_map.mp hop
    cases he) New
  have := Runs_copy merge' (Runs_norm ops (t := New) trivial h) hc hu
  subst this
  refine (Runs_perm merge' (hp.symm.map _) ?_ ?_ hu h').symm
  · intro op hop
    obtain ⟨n, hn, rfl⟩ := List.mem_map.mp hop
    exact canonical_ipv4 (hc n hn)
  · rw [List.pairwise_map]
    exact hs.imp fun hxy a h1 h2 => Nat.lt_irrefl a (hxy a a h1 h2)

end Net

namespace Source
open GoLang NetSpec
open _root_.Net (IPNet Op copyOf)

/-! ## Every list of calls can be made -/

theorem Session.append {P : Prog} {t : Nat} {h h₁ h' : List Val} {ops ops' : List (Op Val)} (a : Session P t h ops h₁) (b : Session P t h₁ ops' h') :
    Session P t h (ops ++ ops') h' := by
  induction a with
  | done => exact b
  | own e k _ ih => exact .own e k (ih b)
  | call m e _ ih => exact .call m e (ih b)

theorem Session.plain {P : Prog} {t : Nat} {h h' : List Val} {ops : List (Op Val)} (s : Session P t h ops h') : ∀ op ∈ ops, Plain (valueOf op) := by
  induction s with
  | done => exact fun _ h => nomatch h
  | own _ _ _ ih => exact ih
  | @call _ _ _ op _ _ _ m _ _ ih =>
    intro o ho
    rcases List.mem_cons.mp ho with rfl | ho
    · cases o with
      | addIp => obtain ⟨_, _, _, _, h⟩ := m; exact h
      | addRange => obtain ⟨_, _, _, _, _, _, h⟩ := m; exact h
      | addCidr => obtain ⟨_, _, _, _, h⟩ := m; exact h
    · exact ih o ho

/-- The program can write the arguments of any call to new memory. -/
theorem makes_new (h : List Val) (op : Op Val) (hv : Plain (valueOf op)) : ∃ new fn args, Makes (h ++ new) op fn args := by
  cases op with
  | addIp ip x => exact ⟨[.arr (ip.map .u8)], _, _, _, rfl, rfl, isBytes_all (a := h.length) (by simp), hv⟩
  | addRange a e x =>
    exact ⟨[.arr (a.map .u8), .arr (e.map .u8)], _, _, _, _, rfl, rfl, isBytes_all (a := h.length) (by simp),
      isBytes_all (a := h.length + 1) (by simp [List.getElem?_append_right]), hv⟩
  | addCidr n x =>
    let z : Val := .struct (n! "net") (n! "IPNet") [(n! "IP", .slice h.length [] 0 n.ip.length n.ip.length),
      (n! "Mask", .slice (h.length + 1) [] 0 n.mask.length n.mask.length)]
    refine ⟨[.arr (n.ip.map .u8), .arr (n.mask.map .u8), z], _, _, .ptr (n! "net") (n! "IPNet") (h.length + 2) [], rfl, rfl,
      ⟨_, _, ⟨_, _, _, _, z, rfl, ?_, rfl, rfl⟩, isBytes_all (a := h.length) (by simp), isBytes_all (a := h.length + 1) (by simp [List.getElem?_append_right])⟩, hv⟩
    simp [List.getElem?_append_right]

/-- **C123** Whatever the calls, as long as no range ends at 255.255.255.255: a program can make them, and the tree lists something. -/
theorem C123_any {P : Prog} (hP : HostsNet P) {f : Val} {merge : Val → Val → Val} (hf : ∀ t, Computes P t f merge) (ops : List (Op Val))
    (hv : ∀ op ∈ ops, Plain (valueOf op)) (hr : ∀ a e x, .addRange a e x ∈ ops → ¬ IPv4 e 0xffffffff) : ∃ l, Gives P f ops l := by
  have sess : ∀ (ops pre : List (Op Val)) (h' : List Val), Session P 0 [Net.treeObj Net.noneVal f] pre h' → (∀ op ∈ ops, Plain (valueOf op)) →
      (∀ a e x, .addRange a e x ∈ ops → ¬ IPv4 e 0xffffffff) → ∃ h'', Session P 0 [Net.treeObj Net.noneVal f] (pre ++ ops) h'' := by
    intro ops
    induction ops with
    | nil => exact fun pre h' s _ _ => ⟨h', by rwa [List.append_nil]⟩
    | cons op ops ih =>
      intro pre h' s hv hr
      obtain ⟨new, fn, args, hm⟩ := makes_new h' op (hv op List.mem_cons_self)
      have len : 0 < h'.length := by
        obtain ⟨r, _, ⟨_, h1, _⟩, _⟩ := s.runs hP (hf 0) (r := .none) ⟨⟨Net.noneVal, rfl, .inl .none⟩, Net.noneVal, rfl, by simp⟩
        exact lt_of_get h1
      have s' := s.append (.own (h₁ := h' ++ new) (List.getElem?_append_left len) (Net.kept_append _ _) .done)
      rw [List.append_nil] at s'
      obtain ⟨h'', he⟩ := (C92_returns hP (hf 0) (h := []) rfl s' hm).1 fun a e x ho => hr a e x (ho ▸ List.mem_cons_self)
      obtain ⟨h₃, s₃⟩ := ih (pre ++ [op]) h'' (s'.append (.call hm he .done)) (fun o ho => hv o (List.mem_cons_of_mem _ ho))
        fun a e x ho => hr a e x (List.mem_cons_of_mem _ ho)
      exact ⟨h₃, by rwa [List.append_assoc] at s₃⟩
  obtain ⟨h', s⟩ := sess ops [] _ .done hv hr
  obtain ⟨⟨l, hl, _⟩, _⟩ := C110_once hP hf (h := []) s
  exact ⟨l, hl⟩

/-! ## Copies -/

section
variable {P : Prog} (hP : HostsNet P) {f : Val} {merge : Val → Val → Val} (hf : ∀ t, Computes P t f merge)
variable {Q : Prog} (hQ : HostsNet Q) {g : Val} {merge' : Val → Val → Val} (hg : ∀ t, Computes Q t g merge')
include hP hf hQ hg

/-- **C123** What a tree lists, added entry by entry and in any order to a new tree of another program, is listed by that tree: the same networks in
the same order with the same values, although the callback of the new tree may compute anything. -/
theorem C123_copy {ops : List (Op Val)} {l l' m : List (IPNet × Val)} (hl : Gives P f ops l) (hp : l'.Perm l) (hm : Gives Q g (copyOf l') m) : m = l := by
  obtain ⟨r, hr, rfl⟩ := hl.runs hP hf
  obtain ⟨s, hs, rfl⟩ := hm.runs hQ hg
  rw [_root_.Net.Runs_copy_perm ops hr hp hs]

/-- **C123** And another program can do so. -/
theorem C123_copies {ops : List (Op Val)} {l l' : List (IPNet × Val)} (hl : Gives P f ops l) (hp : l'.Perm l) : Gives Q g (copyOf l') l := by
  obtain ⟨m, hm⟩ := C123_any hQ hg (copyOf l') (by
    intro op hop
    obtain ⟨n, hn, rfl⟩ := List.mem_map.mp hop
    have hv := (C110_any hP hf hl).2.2.2.1 n (hp.mem_iff.mp hn)
    obtain ⟨h, h', _, hs, _⟩ := hl
    show Plain n.2
    generalize n.2 = v at hv
    induction hv with
    | base hb => obtain ⟨op, ho, rfl⟩ := hb; exact hs.plain op ho
    | merge _ _ ha hb => exact (hf 0).plain _ _ ha hb) (by
    intro a e x hop
    obtain ⟨n, _, h⟩ := List.mem_map.mp hop
    cases h)
  exact C123_copy hP hf hQ hg hl hp hm ▸ hm

/-- **C123** Added to a tree in use, it adds its addresses to those of that tree. -/
theorem C123_into {ops ops' : List (Op Val)} {l l' m : List (IPNet × Val)} (hl : Gives P f ops l) (hp : l'.Perm l) (hm : Gives Q g (ops' ++ copyOf l') m)
    (h4 : ∀ op ∈ ops', IPv4Args op) (a : Nat) : (∃ c ∈ m, Contains c.1 a) ↔ (∃ op ∈ ops', Adds a op) ∨ ∃ c ∈ l, Contains c.1 a := by
  obtain ⟨r, hr, rfl⟩ := hl.runs hP hf
  obtain ⟨s, hs, rfl⟩ := hm.runs hQ hg
  rw [_root_.Net.C16_exact _ _ hs a]
  · simp only [List.mem_append, or_and_right, exists_or]
    refine or_congr_right ⟨?_, ?_⟩
    · rintro ⟨op, hop, ha⟩
      obtain ⟨n, hn, rfl⟩ := List.mem_map.mp hop
      exact ⟨n, hp.mem_iff.mp hn, ha⟩
    · rintro ⟨n, hn, ha⟩
      exact ⟨_, List.mem_map.mpr ⟨n, hp.mem_iff.mpr hn, rfl⟩, ha⟩
  · intro op hop
    rcases List.mem_append.mp hop with hop | hop
    · exact h4 op hop
    · obtain ⟨n, hn, rfl⟩ := List.mem_map.mp hop
      exact _root_.Net.canonical_ipv4 (_root_.Net.C20_wellformed ops hr n (hp.mem_iff.mp hn))

end

/-! ## Examples -/

/-- The list of the calls of `exampleSession`, and of one more address. -/
theorem copy_list : Gives netProg (.native 0) [.addIp [10, 0, 0, 4] (.int 1), .addIp [10, 0, 0, 5] (.int 2), .addIp [9, 9, 9, 9] (.int 7)]
    [(⟨[9, 9, 9, 9], [255, 255, 255, 255]⟩, .int 7), (⟨[10, 0, 0, 4], [255, 255, 255, 254]⟩, .int 3)] := by
  obtain ⟨l, hl⟩ := C123_any netProg_hosts netProg_computes [.addIp [10, 0, 0, 4] (.int 1), .addIp [10, 0, 0, 5] (.int 2), .addIp [9, 9, 9, 9] (.int 7)]
    (by rintro op (_ | ⟨_, _ | ⟨_, _ | ⟨_, ⟨⟩⟩⟩⟩) <;> trivial) (by intro a e x h; simp at h)
  obtain ⟨r, ⟨r₁, h₁, r₂, h₂, r₃, h₃, rfl⟩, rfl⟩ := hl.runs netProg_hosts netProg_computes
  cases Res.ok.inj h₁
  cases Res.ok.inj h₂
  cases Res.ok.inj h₃
  refine Eq.mp (congrArg _ ?_) hl
  kernel_rfl

/-- A program that copies it, last entry first. -/
example : Gives netProg (.native 0) (copyOf [(⟨[10, 0, 0, 4], [255, 255, 255, 254]⟩, .int 3), (⟨[9, 9, 9, 9], [255, 255, 255, 255]⟩, .int 7)])
    [(⟨[9, 9, 9, 9], [255, 255, 255, 255]⟩, .int 7), (⟨[10, 0, 0, 4], [255, 255, 255, 254]⟩, .int 3)] :=
  C123_copies netProg_hosts netProg_computes netProg_hosts netProg_computes copy_list (.swap _ _ _)

/-- And one that adds it to a tree with the address 10.0.0.6, which stays listed. -/
example : ∃ m, Gives netProg (.native 0) ([.addIp [10, 0, 0, 6] (.int 1)] ++
      copyOf [(⟨[9, 9, 9, 9], [255, 255, 255, 255]⟩, .int 7), (⟨[10, 0, 0, 4], [255, 255, 255, 254]⟩, .int 3)]) m ∧ ∃ c ∈ m, Contains c.1 0x0a000006 := by
  obtain ⟨m, hm⟩ := C123_any netProg_hosts netProg_computes ([.addIp [10, 0, 0, 6] (.int 1)] ++
      copyOf [(⟨[9, 9, 9, 9], [255, 255, 255, 255]⟩, .int 7), (⟨[10, 0, 0, 4], [255, 255, 255, 254]⟩, .int 3)])
    (by rintro op (_ | ⟨_, _ | ⟨_, _ | ⟨_, ⟨⟩⟩⟩⟩) <;> trivial) (by intro a e x h; simp [copyOf] at h)
  refine ⟨m, hm, (C123_into netProg_hosts netProg_computes netProg_hosts netProg_computes copy_list (.refl _) hm ?_ 0x0a000006).mpr (.inl ⟨_, .head _, ?_⟩)⟩
  · rintro op (_ | ⟨_, ⟨⟩⟩)
    exact ⟨_, _root_.Net.IPv4_of_len4 rfl⟩
  · exact _root_.Net.IPv4_of_len4 (ip := [10, 0, 0, 6]) rfl

/-- The premises of `C123_any`: two calls whose networks are buddies, and a range. -/
example : ∃ l, Gives netProg (.native 0) [.addCidr ⟨[10, 0, 0, 0], [255, 0, 0, 0]⟩ (.int 1), .addCidr ⟨[11, 0, 0, 0], [255, 0, 0, 0]⟩ (.int 2),
    .addRange [1, 2, 3, 4] [1, 2, 3, 9] (.int 3)] l := by
  refine C123_any netProg_hosts netProg_computes _ ?_ ?_
  · rintro op (_ | ⟨_, _ | ⟨_, _ | ⟨_, ⟨⟩⟩⟩⟩) <;> trivial
  · intro a e x h h4
    simp only [List.mem_cons, List.not_mem_nil, or_false, reduceCtorEq, false_or, Op.addRange.injEq] at h
    obtain ⟨-, rfl, -⟩ := h
    have := _root_.Net.IPv4_unique h4 (_root_.Net.IPv4_of_len4 (ip := [1, 2, 3, 9]) rfl)
    revert this
    decide

/-! ## The premises of C110 can be met -/

theorem use_ips (ips : List (List (BitVec 8))) : ∃ l, Gives netProg (.native 0) (ips.map fun ip => .addIp ip (.int 1)) l := by
  refine C123_any netProg_hosts netProg_computes _ ?_ ?_
  · intro op h
    obtain ⟨ip, -, rfl⟩ := List.mem_map.mp h
    trivial
  · intro a e x h
    obtain ⟨ip, -, h⟩ := List.mem_map.mp h
    cases h

/-- `C110_canonical`: the two addresses of one use are the range of the other. -/
example : ∃ l m, Gives netProg (.native 0) [.addIp [10, 0, 0, 4] (.int 1), .addIp [10, 0, 0, 5] (.int 1)] l ∧
    Gives netProg (.native 0) [.addRange [10, 0, 0, 4] [10, 0, 0, 5] (.int 9)] m ∧ l.map Prod.fst = m.map Prod.fst := by
  have h4 : IPv4 [10, 0, 0, 4] 0x0a000004 := _root_.Net.IPv4_of_len4 rfl
  have h5 : IPv4 [10, 0, 0, 5] 0x0a000005 := _root_.Net.IPv4_of_len4 rfl
  obtain ⟨l, hl⟩ := use_ips [[10, 0, 0, 4], [10, 0, 0, 5]]
  obtain ⟨m, hm⟩ := C123_any netProg_hosts netProg_computes [.addRange [10, 0, 0, 4] [10, 0, 0, 5] (.int 9)]
    (by rintro op (_ | ⟨_, ⟨⟩⟩); trivial) (by
      intro a e x h h'
      simp only [List.mem_singleton, Op.addRange.injEq] at h
      obtain ⟨-, rfl, -⟩ := h
      cases _root_.Net.IPv4_unique h' h5)
  refine ⟨l, m, hl, hm, C110_canonical netProg_hosts netProg_computes netProg_hosts netProg_computes hl hm ?_ ?_ fun a => ⟨?_, ?_⟩⟩
  · rintro op (_ | ⟨_, _ | ⟨_, ⟨⟩⟩⟩)
    · exact ⟨_, h4⟩
    · exact ⟨_, h5⟩
  · rintro op (_ | ⟨_, ⟨⟩⟩)
    exact ⟨⟨_, h4⟩, _, h5⟩
  · rintro ⟨op, (_ | ⟨_, _ | ⟨_, ⟨⟩⟩⟩), ha⟩
    · cases _root_.Net.IPv4_unique ha h4
      exact ⟨_, .head _, _, _, h4, h5, by decide, by decide⟩
    · cases _root_.Net.IPv4_unique ha h5
      exact ⟨_, .head _, _, _, h4, h5, by decide, by decide⟩
  · rintro ⟨op, (_ | ⟨_, ⟨⟩⟩), us, ue, hs, he, h1, h2⟩
    cases _root_.Net.IPv4_unique hs h4
    cases _root_.Net.IPv4_unique he h5
    rcases (by omega : a = 0x0a000004 ∨ a = 0x0a000005) with rfl | rfl
    · exact ⟨_, .head _, h4⟩
    · exact ⟨_, .tail _ (.head _), h5⟩

/-- `C110_order`: two addresses, one after the other. -/
example : ∃ l, Gives netProg (.native 0) [.addIp [10, 0, 0, 4] (.int 1), .addIp [10, 0, 0, 7] (.int 1)] l ∧
    Gives netProg (.native 0) [.addIp [10, 0, 0, 7] (.int 1), .addIp [10, 0, 0, 4] (.int 1)] l := by
  have h4 : IPv4 [10, 0, 0, 4] 0x0a000004 := _root_.Net.IPv4_of_len4 rfl
  have h7 : IPv4 [10, 0, 0, 7] 0x0a000007 := _root_.Net.IPv4_of_len4 rfl
  obtain ⟨l, hl⟩ := use_ips [[10, 0, 0, 4], [10, 0, 0, 7]]
  obtain ⟨m, hm⟩ := use_ips [[10, 0, 0, 7], [10, 0, 0, 4]]
  have := C110_order netProg_hosts netProg_computes netProg_hosts netProg_computes hl hm (.swap _ _ _) (by
    rintro op (_ | ⟨_, _ | ⟨_, ⟨⟩⟩⟩)
    · exact ⟨_, h4⟩
    · exact ⟨_, h7⟩) (.cons (by
      rintro op (_ | ⟨_, ⟨⟩⟩) a h h'
      cases _root_.Net.IPv4_unique h h4
      cases _root_.Net.IPv4_unique h' h7) (.cons (by simp) .nil))
  exact ⟨l, hl, this ▸ hm⟩

/-- `C110_more`: an address added again. -/
example : ∃ l, Gives netProg (.native 0) [.addIp [10, 0, 0, 4] (.int 1), .addIp [10, 0, 0, 7] (.int 1)] l ∧
    Gives netProg (.native 0) [.addIp [10, 0, 0, 4] (.int 1), .addIp [10, 0, 0, 7] (.int 1), .addIp [10, 0, 0, 4] (.int 1)] l := by
  have h4 : IPv4 [10, 0, 0, 4] 0x0a000004 := _root_.Net.IPv4_of_len4 rfl
  have h7 : IPv4 [10, 0, 0, 7] 0x0a000007 := _root_.Net.IPv4_of_len4 rfl
  obtain ⟨l, hl⟩ := use_ips [[10, 0, 0, 4], [10, 0, 0, 7]]
  obtain ⟨m, hm⟩ := use_ips [[10, 0, 0, 4], [10, 0, 0, 7], [10, 0, 0, 4]]
  have he : ∃ c ∈ l, Contains c.1 0x0a000004 := by
    obtain ⟨r, hr, rfl⟩ := hl.runs netProg_hosts netProg_computes
    refine (_root_.Net.C16_exact _ ?_ hr _).mpr ⟨_, .head _, h4⟩
    rintro op (_ | ⟨_, _ | ⟨_, ⟨⟩⟩⟩)
    · exact ⟨_, h4⟩
    · exact ⟨_, h7⟩
  have := (C110_more netProg_hosts netProg_computes netProg_hosts netProg_computes (op := .addIp [10, 0, 0, 4] (.int 1)) hl hm).2 ⟨_, h4⟩ (by
    intro a ha
    cases _root_.Net.IPv4_unique ha h4
    exact he)
  exact ⟨l, hl, this ▸ hm⟩

/-- `C110_values`: an address beside another; `C110_not_ipv4`: five bytes. -/
example : Target (.addIp [10, 0, 0, 5] (Val.int 1)) ⟨0x0a000005, 32⟩ ∧ ¬ ∃ u, IPv4 [1, 2, 3, 4, 5] u := by
  refine ⟨⟨_, _root_.Net.IPv4_of_len4 rfl, rfl⟩, ?_⟩
  rintro ⟨u, a, b, c, d, h | h, -⟩ <;> simp at h

/-- `C110_not_ipv4`: five bytes after an address. The list then has 0.0.0.0 and no other new address. -/
example : ∃ l m, Gives netProg (.native 0) [.addIp [10, 0, 0, 4] (.int 1)] l ∧ Gives netProg (.native 0) [.addIp [10, 0, 0, 4] (.int 1), .addIp [1, 2, 3, 4, 5] (.int 1)] m ∧
    ∀ a, (∃ c ∈ m, Contains c.1 a) ↔ (∃ c ∈ l, Contains c.1 a) ∨ a = 0 := by
  obtain ⟨l, hl⟩ := use_ips [[10, 0, 0, 4]]
  obtain ⟨m, hm⟩ := use_ips [[10, 0, 0, 4], [1, 2, 3, 4, 5]]
  refine ⟨l, m, hl, hm, C110_not_ipv4 netProg_hosts netProg_computes netProg_hosts netProg_computes hl (ip := [1, 2, 3, 4, 5]) (x := .int 1) hm ?_⟩
  rintro ⟨u, a, b, c, d, h | h, -⟩ <;> simp at h

/-- `C110_length`: a range and an address, so at most 63 entries. -/
example : ∃ l, Gives netProg (.native 0) [.addRange [10, 0, 0, 1] [10, 0, 1, 9] (.int 1), .addIp [9, 9, 9, 9] (.int 7)] l ∧ l.length ≤ 63 := by
  obtain ⟨l, hl⟩ := C123_any netProg_hosts netProg_computes [.addRange [10, 0, 0, 1] [10, 0, 1, 9] (.int 1), .addIp [9, 9, 9, 9] (.int 7)]
    (by rintro op (_ | ⟨_, _ | ⟨_, ⟨⟩⟩⟩) <;> trivial) (by
      intro a e x h h'
      simp only [List.mem_cons, Op.addRange.injEq, reduceCtorEq, List.not_mem_nil, or_false] at h
      obtain ⟨rfl, rfl, rfl⟩ := h
      exact absurd (_root_.Net.IPv4_unique h' (_root_.Net.IPv4_of_len4 rfl)) (by decide))
  refine ⟨l, hl, C110_length netProg_hosts netProg_computes hl ?_⟩
  rintro op (_ | ⟨_, _ | ⟨_, ⟨⟩⟩⟩)
  · exact ⟨⟨_, _root_.Net.IPv4_of_len4 rfl⟩, ⟨_, _root_.Net.IPv4_of_len4 rfl⟩⟩
  · exact ⟨_, _root_.Net.IPv4_of_len4 rfl⟩

end Source
