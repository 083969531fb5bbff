import Verif.Model.Net

/-!
# Specification of IPv4 addresses, masks and networks

Only the data types (`IPNet`, `Op`) are shared with the model.
-/
namespace NetSpec
open Net

/-- Value of bytes, most significant first. -/
def beVal (l : List U8) : Nat := l.foldl (fun n b => 256 * n + b.toNat) 0

/-- `ip` is the IPv4 address a.b.c.d, as 4 bytes or as `::ffff:a.b.c.d` in 16 bytes, and `u` is its number. -/
def IPv4 (ip : List U8) (u : Nat) : Prop := ∃ a b c d : U8,
  (ip = [a, b, c, d] ∨ ip = [0, 0, 0, 0, 0, 0, 0, 0, 0, 0, 0xff, 0xff, a, b, c, d]) ∧
  u = a.toNat * 2 ^ 24 + b.toNat * 2 ^ 16 + c.toNat * 2 ^ 8 + d.toNat

/-- The bits of a byte string, most significant first. -/
def bits (m : List U8) : List Bool := m.flatMap fun b => (List.range 8).map fun i => b.toNat.testBit (7 - i)

/-- `m` is a mask of `ones` one bits followed only by zero bits. -/
def Contiguous (m : List U8) (ones : Nat) : Prop :=
  ∃ zeros, bits m = List.replicate ones true ++ List.replicate zeros false

/-- The network `n` (IPv4 address in either form, 4-byte mask) contains the address with number `a`: they agree wherever
the mask has a one. This is `net.IPNet.Contains` for such networks. -/
def Contains (n : IPNet) (a : Nat) : Prop :=
  ∃ u, IPv4 n.ip u ∧ n.mask.length = 4 ∧ a < 2 ^ 32 ∧ a &&& beVal n.mask = u &&& beVal n.mask

/-- An IPv4 network: IPv4 address in either form, contiguous 4-byte mask. -/
def IPv4Net (n : IPNet) : Prop := (∃ u, IPv4 n.ip u) ∧ n.mask.length = 4 ∧ ∃ ones, Contiguous n.mask ones

/-- An IPv4 network as `net.ParseCIDR` returns it: 4-byte address, contiguous 4-byte mask, no host bits. -/
def CanonicalNet (n : IPNet) : Prop :=
  n.ip.length = 4 ∧ n.mask.length = 4 ∧ (∃ ones, Contiguous n.mask ones) ∧ beVal n.ip &&& beVal n.mask = beVal n.ip

/-- The arguments of a call are IPv4. -/
def IPv4Args {V : Type} : Op V → Prop
  | .addIp ip _ => ∃ u, IPv4 ip u
  | .addRange s e _ => (∃ u, IPv4 s u) ∧ ∃ u, IPv4 e u
  | .addCidr c _ => IPv4Net c

/-- The address with number `a` is one of those a call is asked to add. -/
def Adds {V : Type} (a : Nat) : Op V → Prop
  | .addIp ip _ => IPv4 ip a
  | .addRange s e _ => ∃ us ue, IPv4 s us ∧ IPv4 e ue ∧ us ≤ a ∧ a ≤ ue
  | .addCidr c _ => Contains c a

/-- The value passed to a call. -/
def valueOf {V : Type} : Op V → V
  | .addIp _ v => v
  | .addRange _ _ v => v
  | .addCidr _ v => v

/-- The values obtained from `base` values by `merge`. -/
inductive Generated {V : Type} (merge : V → V → V) (base : V → Prop) : V → Prop
  | base {v : V} : base v → Generated merge base v
  | merge {a b : V} : Generated merge base a → Generated merge base b → Generated merge base (merge a b)

/-- A CIDR as a pair of a number and a prefix length; host bits are ignored. -/
structure Cidr where
  base : Nat
  len : Nat
  deriving DecidableEq

/-- The addresses of a CIDR: those with the same `len` leading bits. -/
def Cidr.Has (c : Cidr) (a : Nat) : Prop := a / 2 ^ (32 - c.len) = c.base / 2 ^ (32 - c.len)

/-- Every address of `c` is an address of `d`. -/
def Cidr.Within (c d : Cidr) : Prop := ∀ a, c.Has a → d.Has a

/-- The other half of the block that has `c` as one half. -/
def Cidr.buddy (c : Cidr) : Cidr :=
  ⟨if c.base / 2 ^ (32 - c.len) % 2 = 0 then c.base + 2 ^ (32 - c.len) else c.base - 2 ^ (32 - c.len), c.len⟩

/-- The block that has `c` as one half. -/
def Cidr.parent (c : Cidr) : Cidr := ⟨min c.base c.buddy.base, c.len - 1⟩

/-- The CIDR of a network: its address and the number of one bits in its mask. -/
def cidrOf (n : IPNet) : Cidr := ⟨beVal n.ip, ((bits n.mask).filter id).length⟩

/-- A list of networks with values, as CIDRs with values. -/
def listed {V : Type} (L : List (IPNet × V)) : List (Cidr × V) := L.map fun c => (cidrOf c.1, c.2)

/-- What becomes of the block `c` with value `v` beside the blocks of `L`: while its buddy is in `L`, the two are replaced
by the block they form, with the values merged in address order; `d` and `u` are the block and value in the end. -/
inductive Grows {V : Type} (merge : V → V → V) (L : List (Cidr × V)) : Cidr → V → Cidr → V → Prop
  | stop {c : Cidr} {v : V} : (c.len = 0 ∨ ∀ w, (c.buddy, w) ∉ L) → Grows merge L c v c v
  | low {c d : Cidr} {v w u : V} : c.len ≠ 0 → (c.buddy, w) ∈ L → c.base < c.buddy.base →
      Grows merge L c.parent (merge v w) d u → Grows merge L c v d u
  | high {c d : Cidr} {v w u : V} : c.len ≠ 0 → (c.buddy, w) ∈ L → c.buddy.base < c.base →
      Grows merge L c.parent (merge w v) d u → Grows merge L c v d u

/-- The canonical CIDR that a call is asked to add: the given address or network with host bits cleared. -/
def Target {V : Type} : Op V → Cidr → Prop
  | .addIp ip _, c => ∃ u, IPv4 ip u ∧ c = ⟨u, 32⟩
  | .addCidr n _, c => ∃ u ones, IPv4 n.ip u ∧ n.mask.length = 4 ∧ Contiguous n.mask ones ∧
      c = ⟨2 ^ (32 - ones) * (u / 2 ^ (32 - ones)), ones⟩
  | .addRange .., _ => False

/-- The CIDRs that split the addresses from `s` to `e` greedily: each is the largest that begins where the one before
ended and does not pass the end. -/
inductive Greedy (e : Nat) : Nat → List Cidr → Prop
  | done {s : Nat} : e < s → Greedy e s []
  | next {s k : Nat} {cs : List Cidr} : k ≤ 32 → 2 ^ k ∣ s → s + 2 ^ k ≤ e + 1 →
      (∀ j, j ≤ 32 → 2 ^ j ∣ s → s + 2 ^ j ≤ e + 1 → j ≤ k) → Greedy e (s + 2 ^ k) cs → Greedy e s (⟨s, 32 - k⟩ :: cs)

/-- How many CIDRs a call can add to the list. -/
def mostAdded {V : Type} : Op V → Nat
  | .addIp _ _ => 1
  | .addCidr _ _ => 1
  | .addRange _ _ _ => 62

end NetSpec
