import Verif.Lemmas.IpRange

/-! # Properties of package `net` (C10-C24, C58) -/
namespace Net
open NetSpec

/-! ## Addresses -/

/-- **C10** The value of an IPv4 address, in either form, is its number in network byte order. -/
theorem C10_value {ip : List U8} {u : Nat} (h : IPv4 ip u) : ∃ v : U32, Ipv4ToUint ip = .ok v ∧ v.toNat = u :=
  Ipv4ToUint_of h

example : IPv4 [192, 168, 1, 2] 0xc0a80102 ∧ IPv4 [0, 0, 0, 0, 0, 0, 0, 0, 0, 0, 0xff, 0xff, 192, 168, 1, 2] 0xc0a80102 :=
  ⟨⟨192, 168, 1, 2, .inl rfl, rfl⟩, ⟨192, 168, 1, 2, .inr rfl, rfl⟩⟩

/-- **C10** To bytes and back. -/
theorem C10_fromTo (u : U32) : Ipv4ToUint (Ipv4FromUint u) = .ok u := by
  have hl : (Ipv4FromUint u).length = 4 := rfl
  obtain ⟨v, hv, e⟩ := Ipv4ToUint_of (IPv4_of_len4 hl)
  rw [hv, BitVec.eq_of_toNat_eq (e.trans (bePut_val u))]

/-- **C10** To a number and back gives the four address bytes. -/
theorem C10_toFrom (a b c d : U8) (ip : List U8)
    (h : ip = [a, b, c, d] ∨ ip = [0, 0, 0, 0, 0, 0, 0, 0, 0, 0, 0xff, 0xff, a, b, c, d]) :
    ∃ u, Ipv4ToUint ip = .ok u ∧ Ipv4FromUint u = [a, b, c, d] := by
  obtain ⟨v, hv, e⟩ := Ipv4ToUint_of (⟨a, b, c, d, h, rfl⟩ : IPv4 ip _)
  refine ⟨v, hv, beVal_inj4 rfl rfl ?_⟩
  show beVal (bePutUint32 v) = _
  rw [bePut_val, e, beVal4]

example : Ipv4ToUint [0, 0, 0, 0, 0, 0, 0, 0, 0, 0, 0xff, 0xff, 10, 0, 0, 1] = .ok 0x0a000001#32 := by decide

/-- **C11** Anything that is not an IPv4 address gives 0; no input panics. -/
theorem C11_total (ip : List U8) :
    (∃ u, Ipv4ToUint ip = .ok u) ∧ ((¬ ∃ u, IPv4 ip u) → Ipv4ToUint ip = .ok 0#32) :=
  ⟨Ipv4ToUint_total ip, Ipv4ToUint_not⟩

example : ¬ ∃ u, IPv4 [1, 2, 3] u := by rintro ⟨u, a, b, c, d, h | h, _⟩ <;> simp at h

/-- **C11** Numeric order is the lexicographic order of the octets. -/
theorem C11_order {x y : List U8} {u v : Nat} (hx : x.length = 4) (hy : y.length = 4) (hu : IPv4 x u) (hv : IPv4 y v) :
    u < v ↔ x.map BitVec.toNat < y.map BitVec.toNat := by
  obtain ⟨a, b, c, d, rfl⟩ := exists4 hx
  obtain ⟨a', b', c', d', rfl⟩ := exists4 hy
  rw [IPv4_unique hu (IPv4_of_len4 rfl), IPv4_unique hv (IPv4_of_len4 rfl), beVal4, beVal4]
  have := a.isLt
  have := b.isLt
  have := c.isLt
  have := d.isLt
  have := a'.isLt
  have := b'.isLt
  have := c'.isLt
  have := d'.isLt
  simp only [List.map_cons, List.map_nil, List.cons_lt_cons_iff, List.lt_irrefl, List.not_lt_nil]
  generalize a.toNat = a at *
  generalize b.toNat = b at *
  generalize c.toNat = c at *
  generalize d.toNat = d at *
  generalize a'.toNat = a' at *
  generalize b'.toNat = b' at *
  generalize c'.toNat = c' at *
  generalize d'.toNat = d' at *
  simp only [and_false, or_false]
  constructor
  · intro h
    by_cases ha : a = a'
    · by_cases hb : b = b'
      · by_cases hc : c = c'
        · exact .inr ⟨ha, .inr ⟨hb, .inr ⟨hc, by omega⟩⟩⟩
        · exact .inr ⟨ha, .inr ⟨hb, .inl (by omega)⟩⟩
      · exact .inr ⟨ha, .inl (by omega)⟩
    · exact .inl (by omega)
  · rintro (h | ⟨rfl, h | ⟨rfl, h | ⟨rfl, h⟩⟩⟩) <;> omega

example : IPv4 [9, 255, 0, 0] 0x09ff0000 ∧ IPv4 [10, 0, 0, 0] 0x0a000000 :=
  ⟨⟨9, 255, 0, 0, .inl rfl, rfl⟩, ⟨10, 0, 0, 0, .inl rfl, rfl⟩⟩

/-! ## Masks -/

/-- **C12** The bits of every mask `MaskFromByte` can return. -/
theorem C12_bits (b : U8) : bits (MaskFromByte b) =
    if b.toNat ≤ 32 then List.replicate b.toNat true ++ List.replicate (32 - b.toNat) false else List.replicate 32 false :=
  MaskFromByte_bits_all b.toFin

/-- **C12** The mask has four bytes. -/
theorem C12_length (b : U8) : (MaskFromByte b).length = 4 := rfl

example : MaskFromByte 20 = [255, 255, 0xf0, 0] ∧ MaskFromByte 33 = [0, 0, 0, 0] := by decide

/-- **C13** The number of ones of a contiguous mask of up to 16 bytes. -/
theorem C13_contiguous {m : List U8} {ones : Nat} (hl : m.length ≤ 16) (h : Contiguous m ones) :
    (MaskToByte m).toNat = ones := by
  have := Contiguous_le h
  rw [MaskToByte_of h, BitVec.toNat_ofNat]; omega

example : Contiguous [255, 255, 0xf0, 0] 20 := ⟨12, by decide⟩

/-- **C13** A mask that is not ones followed by zeros gives 0. -/
theorem C13_rejects {m : List U8} (h : ¬ ∃ ones, Contiguous m ones) : MaskToByte m = 0#8 := MaskToByte_not h

example : ¬ ∃ ones, Contiguous [255, 0, 255, 0] ones := by
  rintro ⟨k, h⟩
  have := (simpleMaskLength_eq _ k).mpr h
  revert this
  rw [show simpleMaskLength [255, 0, 255, 0] = none by decide]
  simp

/-- **C13** Masks of any length: the number of ones modulo 256 when contiguous. -/
theorem C13_any_length {m : List U8} {ones : Nat} (h : Contiguous m ones) : (MaskToByte m).toNat = ones % 256 := by
  rw [MaskToByte_of h, BitVec.toNat_ofNat]

/-- 256 ones wrap to 0. -/
example : Contiguous (List.replicate 32 255#8) 256 ∧ MaskToByte (List.replicate 32 255#8) = 0#8 :=
  ⟨⟨0, by decide +kernel⟩, by decide +kernel⟩

/-- **C13** `MaskToByte` inverts `MaskFromByte`. -/
theorem C13_inverse (b : U8) (h : b.toNat ≤ 32) : MaskToByte (MaskFromByte b) = b := by
  have hc := MaskFromByte_contiguous b.toNat h
  rw [BitVec.ofNat_toNat, BitVec.setWidth_eq] at hc
  rw [MaskToByte_of hc, BitVec.ofNat_toNat, BitVec.setWidth_eq]

example : (24#8).toNat ≤ 32 := by decide

/-! ## CIDRs -/

/-- **C14** (partial) For IPv4 networks `CidrEqual` is equality of mask bytes and address number.
Missing for the full claim: networks with other addresses, where it is false (below). -/
theorem C14_decides_partial {a b : IPNet} {u v : Nat} (ha : IPv4 a.ip u) (hb : IPv4 b.ip v) :
    CidrEqual a b = true ↔ a.mask = b.mask ∧ u = v := by
  obtain ⟨r, hr, hl, e⟩ := IPv4_To4 ha
  obtain ⟨r', hr', hl', e'⟩ := IPv4_To4 hb
  rw [CidrEqual, hr, hr']
  by_cases hm : a.mask = b.mask
  · simp only [hm, ne_eq, not_true, if_false, Option.getD_some, decide_eq_true_eq, true_and]
    constructor
    · rintro rfl; omega
    · intro h; exact beVal_inj4 hl hl' (by omega)
  · simp [hm]

example : CidrEqual ⟨[10, 0, 0, 0], [255, 0, 0, 0]⟩
    ⟨[0, 0, 0, 0, 0, 0, 0, 0, 0, 0, 0xff, 0xff, 10, 0, 0, 0], [255, 0, 0, 0]⟩ = true := by decide

/-- **C14** An IPv4 network never equals one with another kind of address. -/
theorem C14_mixed {a b : IPNet} (ha : ∃ u, IPv4 a.ip u) (hb : ¬ ∃ u, IPv4 b.ip u) :
    CidrEqual a b = false ∧ CidrEqual b a = false := by
  obtain ⟨u, ha⟩ := ha
  obtain ⟨r, hr, hl, e⟩ := IPv4_To4 ha
  have hb' : To4 b.ip = none := by
    rw [← To4_isSome_iff] at hb
    cases h : To4 b.ip with
    | none => rfl
    | some _ => rw [h] at hb; simp at hb
  have hne : r ≠ [] := by rintro rfl; simp at hl
  constructor
  · rw [CidrEqual, hr, hb']; simp [hne]
  · rw [CidrEqual, hr, hb']; simp [hne, Ne.symm hne]

/-- **C14** `CidrEqual` is an equivalence relation on all networks. -/
theorem C14_equivalence : Equivalence fun a b : IPNet => CidrEqual a b = true := by
  have key : ∀ a b : IPNet, CidrEqual a b = true ↔ a.mask = b.mask ∧ (To4 a.ip).getD [] = (To4 b.ip).getD [] := by
    intro a b
    rw [CidrEqual]
    by_cases hm : a.mask = b.mask <;> simp [hm]
  constructor
  · intro a; rw [key]; exact ⟨rfl, rfl⟩
  · intro a b h; rw [key] at h ⊢; exact ⟨h.1.symm, h.2.symm⟩
  · intro a b c h h'; rw [key] at h h' ⊢; exact ⟨h.1.trans h'.1, h.2.trans h'.2⟩

/-- **C14** (negation of the full claim) Two IPv6 networks with one mask are "equal" whatever their addresses. -/
theorem C14_false : ∃ a b : IPNet, a.ip.length = 16 ∧ b.ip.length = 16 ∧ a.ip ≠ b.ip ∧ CidrEqual a b = true :=
  ⟨⟨[0x20, 1, 0, 0, 0, 0, 0, 0, 0, 0, 0, 0, 0, 0, 0, 0], List.replicate 2 255 ++ List.replicate 14 0⟩,
   ⟨[0xfe, 0x80, 0, 0, 0, 0, 0, 0, 0, 0, 0, 0, 0, 0, 0, 0], List.replicate 2 255 ++ List.replicate 14 0⟩,
   by decide, by decide, by decide, by decide⟩

/-- **C14** (the defect in general) All networks with non-IPv4 addresses and the same mask are "equal". -/
theorem C14_ipv6_equal {a b : IPNet} (ha : ¬ ∃ u, IPv4 a.ip u) (hb : ¬ ∃ u, IPv4 b.ip u) :
    CidrEqual a b = true ↔ a.mask = b.mask := by
  have h4 : ∀ {c : IPNet}, (¬ ∃ u, IPv4 c.ip u) → To4 c.ip = none := by
    intro c hc
    rw [← To4_isSome_iff] at hc
    cases h : To4 c.ip with
    | none => rfl
    | some _ => rw [h] at hc; simp at hc
  rw [CidrEqual, h4 ha, h4 hb]
  by_cases hm : a.mask = b.mask <;> simp [hm]

/-- Addresses that are not IPv4: too short, and IPv6. -/
example : (¬ ∃ u, IPv4 [10, 0, 0] u) ∧ (¬ ∃ u, IPv4 [0x20, 1, 0, 0, 0, 0, 0, 0, 0, 0, 0, 0, 0, 0, 0, 0] u) ∧
    (∃ u, IPv4 [10, 0, 0, 0] u) := by
  refine ⟨?_, ?_, ⟨_, 10, 0, 0, 0, .inl rfl, rfl⟩⟩ <;> (rintro ⟨u, a, b, c, d, h | h, _⟩ <;> simp at h)

theorem or_not_val (a b c d m0 m1 m2 m3 : U8) : beVal [a ||| ~~~m0, b ||| ~~~m1, c ||| ~~~m2, d ||| ~~~m3] =
    beVal [a, b, c, d] ||| (2 ^ 32 - 1 - beVal [m0, m1, m2, m3]) := by
  have hv : ∀ w x y z : U8, beVal [w, x, y, z] = (w ++ x ++ y ++ z : BitVec 32).toNat := by
    intro w x y z
    rw [beVal4]
    have := w.isLt
    have := x.isLt
    have := y.isLt
    have := z.isLt
    simp only [BitVec.toNat_append, Nat.shiftLeft_eq]
    have h1 : w.toNat * 2 ^ 8 ||| x.toNat = w.toNat * 2 ^ 8 + x.toNat := by
      rw [Nat.mul_comm]; exact (Nat.two_pow_add_eq_or_of_lt (by omega) _).symm
    have h2 : (w.toNat * 2 ^ 8 + x.toNat) * 2 ^ 8 ||| y.toNat = (w.toNat * 2 ^ 8 + x.toNat) * 2 ^ 8 + y.toNat := by
      rw [Nat.mul_comm]; exact (Nat.two_pow_add_eq_or_of_lt (by omega) _).symm
    have h3 : ((w.toNat * 2 ^ 8 + x.toNat) * 2 ^ 8 + y.toNat) * 2 ^ 8 ||| z.toNat =
        ((w.toNat * 2 ^ 8 + x.toNat) * 2 ^ 8 + y.toNat) * 2 ^ 8 + z.toNat := by
      rw [Nat.mul_comm]; exact (Nat.two_pow_add_eq_or_of_lt (by omega) _).symm
    rw [h1, h2, h3]; omega
  rw [hv, hv, hv, show 2 ^ 32 - 1 - (m0 ++ m1 ++ m2 ++ m3 : BitVec 32).toNat = (~~~(m0 ++ m1 ++ m2 ++ m3 : BitVec 32)).toNat from
    BitVec.toNat_not.symm, ← BitVec.toNat_or]
  congr 1
  apply BitVec.eq_of_getLsbD_eq
  intro i hi
  simp only [BitVec.getLsbD_or, BitVec.getLsbD_not, BitVec.getLsbD_append]
  simp only [hi, decide_true, Bool.true_and]
  split
  · rename_i h; simp [h]
  · split
    · rename_i h h'; simp [h']
    · split
      · rename_i h h' h''; simp [h'']
      · rename_i h h' h''; simp [show i - 8 - 8 - 8 < 8 by omega]

/-- **C15** (partial) For a network as `ParseCIDR` returns it, containment is lying between `FirstIpv4` and `LastIpv4`.
Missing for the full claim: 16-byte addresses, for which it is false (below). -/
theorem C15_bounds_partial (n : IPNet) (h : CanonicalNet n) : ∃ last lo hi, LastIpv4 n = .ok last ∧
    IPv4 (FirstIpv4 n) lo ∧ IPv4 last hi ∧ ∀ a, Contains n a ↔ lo ≤ a ∧ a ≤ hi := by
  obtain ⟨hl, hm, ⟨ones, hc⟩, hh⟩ := h
  obtain ⟨h32, hmv⟩ := mask_val_of_contiguous hm hc
  have hi := IPv4_of_len4 hl
  have hlt := IPv4_lt hi
  obtain ⟨ip, mask⟩ := n
  dsimp only at *
  obtain ⟨a, b, c, d, rfl⟩ := exists4 hl
  obtain ⟨m0, m1, m2, m3, rfl⟩ := exists4 hm
  refine ⟨_, _, _, rfl, hi, IPv4_of_len4 rfl, ?_⟩
  intro x
  rw [contains_iff hi rfl hc]
  rw [hmv, and_maskVal _ _ hlt h32] at hh
  have hp : 0 < 2 ^ (32 - ones) := Nat.pow_pos (by omega)
  have hle : 2 ^ (32 - ones) ≤ 2 ^ 32 := Nat.pow_le_pow_right (by omega) (by omega)
  have hroom := dvd_room (k := 32 - ones) (u := beVal [a, b, c, d]) (by omega) ⟨_, by rw [Nat.mul_comm]; exact hh.symm⟩ hlt
  have hlast : beVal [a ||| ~~~m0, b ||| ~~~m1, c ||| ~~~m2, d ||| ~~~m3] = beVal [a, b, c, d] + (2 ^ (32 - ones) - 1) := by
    rw [or_not_val, hmv, show 2 ^ 32 - 1 - maskVal ones = 2 ^ (32 - ones) - 1 by unfold maskVal; omega]
    conv => lhs; rw [← hh]
    conv => rhs; rw [← hh]
    rw [Nat.mul_comm]
    exact (Nat.two_pow_add_eq_or_of_lt (by omega) _).symm
  rw [hlast]
  generalize hq : beVal [a, b, c, d] / 2 ^ (32 - ones) = q at *
  generalize beVal [a, b, c, d] = ip at *
  rw [Nat.div_eq_iff hp]
  omega

example : CanonicalNet ⟨[192, 168, 16, 0], [255, 255, 0xf0, 0]⟩ := ⟨rfl, rfl, ⟨20, 12, by decide⟩, by decide⟩

/-- **C15** (negation of the full claim) With the address 10.0.0.0 in 16-byte form, `LastIpv4` is 0.255.255.255. -/
theorem C15_false : ∃ n : IPNet, IPv4Net n ∧ LastIpv4 n = .ok [0, 255, 255, 255] ∧ Contains n 0x0affffff ∧
    ¬ Contains n 0x00ffffff := by
  have hi : IPv4 [0, 0, 0, 0, 0, 0, 0, 0, 0, 0, 0xff, 0xff, 10, 0, 0, 0] 0x0a000000 := ⟨10, 0, 0, 0, .inr rfl, rfl⟩
  have hc : Contiguous [255, 0, 0, 0] 8 := ⟨24, by decide⟩
  refine ⟨⟨[0, 0, 0, 0, 0, 0, 0, 0, 0, 0, 0xff, 0xff, 10, 0, 0, 0], [255, 0, 0, 0]⟩, ⟨⟨_, hi⟩, rfl, 8, hc⟩, by decide, ?_, ?_⟩
  · rw [contains_iff hi rfl hc]; decide
  · rw [contains_iff hi rfl hc]; decide

/-- **C15** `LastIpv4` panics exactly when the address or the mask has fewer than four bytes. -/
theorem C15_panics (n : IPNet) : LastIpv4 n = .panic ↔ n.ip.length < 4 ∨ n.mask.length < 4 := by
  obtain ⟨ip, mask⟩ := n
  rcases ip with _ | ⟨a, _ | ⟨b, _ | ⟨c, _ | ⟨d, ip⟩⟩⟩⟩ <;>
  rcases mask with _ | ⟨m0, _ | ⟨m1, _ | ⟨m2, _ | ⟨m3, mask⟩⟩⟩⟩ <;>
  simp [LastIpv4, goIdx] <;> rfl

/-! ## The tree -/
section Tree
variable {V : Type} {merge : V → V → V}

/-- **C16** After any calls with IPv4 arguments the listed CIDRs contain exactly the addresses added. -/
theorem C16_exact (ops : List (Op V)) (h4 : ∀ op ∈ ops, IPv4Args op) {t : Node V} (h : Runs merge New ops t) (a : Nat) :
    (∃ c ∈ ListCidr t, Contains c.1 a) ↔ ∃ op ∈ ops, Adds a op := by
  have hn : Norm t 32 := Runs_norm ops (t := New) trivial h
  rw [ListCidr_contains t hn]
  constructor
  · rintro ⟨ha, hm⟩
    rcases (Runs_mem ops (t := New) trivial h4 h a ha).mp hm with h | h
    · exact h.elim
    · exact h
  · rintro ⟨op, ho, hA⟩
    have ha := Adds_lt hA
    exact ⟨ha, (Runs_mem ops (t := New) trivial h4 h a ha).mpr (.inr ⟨op, ho, hA⟩)⟩

/-- **C16** Every sequence of calls returns, provided no range ends at 255.255.255.255; so `Runs` is not empty. -/
theorem C16_runs (merge : V → V → V) (ops : List (Op V))
    (h : ∀ op ∈ ops, ∀ s e v, op = .addRange s e v → ¬ IPv4 e 0xffffffff) (t : Node V) : ∃ t', Runs merge t ops t' := by
  induction ops generalizing t with
  | nil => exact ⟨t, rfl⟩
  | cons op ops ih =>
    have step : ∃ t1, Step merge t op t1 := by
      cases op with
      | addIp ip x => obtain ⟨v, hv⟩ := Ipv4ToUint_total ip; exact ⟨_, by rw [Step, AddIp, hv]; rfl⟩
      | addCidr c x => obtain ⟨v, hv⟩ := Ipv4ToUint_total c.ip; exact ⟨_, by rw [Step, AddCidr, hv]; rfl⟩
      | addRange s e x =>
        obtain ⟨v, hv⟩ := Ipv4ToUint_total s
        obtain ⟨w, hw⟩ := Ipv4ToUint_total e
        have hne : w ≠ 0xffffffff#32 := by
          rintro rfl
          by_cases he : ∃ u, IPv4 e u
          · obtain ⟨u, hu⟩ := he
            obtain ⟨w, hw', e'⟩ := Ipv4ToUint_of hu
            rw [hw'] at hw; cases hw
            rw [← e'] at hu
            exact h _ List.mem_cons_self s e x rfl hu
          · rw [Ipv4ToUint_not he] at hw; cases hw
        obtain ⟨t', ht⟩ := rangeLoop_ends merge w hne x _ v t (le_refl _)
        exact ⟨t', _, by rw [AddRange, hv, hw]; show Res.ok _ = _; rw [ht]⟩
    obtain ⟨t1, h1⟩ := step
    obtain ⟨t2, h2⟩ := ih (fun op ho => h op (List.mem_cons_of_mem _ ho)) t1
    exact ⟨t2, t1, h1, h2⟩

/-- Three calls used as example: an address, a range and a network. -/
def exampleOps : List (Op Nat) := [.addIp [10, 0, 0, 4] 1, .addRange [10, 0, 0, 0] [10, 0, 0, 3] 2,
  .addCidr ⟨[10, 0, 0, 5], [255, 255, 255, 255]⟩ 3]

theorem exampleRun : ∃ t, Runs (· + ·) New exampleOps t ∧ ListCidr t =
    [(⟨[10, 0, 0, 0], [255, 255, 255, 252]⟩, 2), (⟨[10, 0, 0, 4], [255, 255, 255, 254]⟩, 4)] := by
  refine ⟨_, ⟨_, rfl, _, ⟨35, rfl⟩, _, rfl, rfl⟩, ?_⟩
  decide +kernel

theorem exampleArgs : ∀ op ∈ exampleOps, IPv4Args op := by
  intro op h
  simp only [exampleOps, List.mem_cons, List.not_mem_nil, or_false] at h
  rcases h with rfl | rfl | rfl
  · exact ⟨_, IPv4_of_len4 rfl⟩
  · exact ⟨⟨_, IPv4_of_len4 rfl⟩, ⟨_, IPv4_of_len4 rfl⟩⟩
  · exact ⟨⟨_, IPv4_of_len4 rfl⟩, rfl, 32, 0, by decide⟩

/-- **C17** After any calls (with any arguments) the listed CIDRs are ascending: every address of an earlier one is
below every address of a later one; in particular they are disjoint. -/
theorem C17_sorted (ops : List (Op V)) {t : Node V} (h : Runs merge New ops t) :
    (ListCidr t).Pairwise fun x y => ∀ a b, Contains x.1 a → Contains y.1 b → a < b := by
  have hn : Norm t 32 := Runs_norm ops (t := New) trivial h
  rw [ListCidr_blocks t hn, List.pairwise_map]
  have hs := blocks_sorted 32 t 0 (by simp)
  refine List.Pairwise.imp_of_mem ?_ hs
  intro x y hx hy hxy a b ha hb
  obtain ⟨x1, x2, x3, x4⟩ := block_ok hx
  obtain ⟨y1, y2, y3, y4⟩ := block_ok hy
  rw [blockNet_contains _ _ _ x3 x1 x2] at ha
  rw [blockNet_contains _ _ _ y3 y1 y2] at hb
  omega

/-- **C18** After any calls no list of IPv4 networks with the same addresses is shorter. -/
theorem C18_shortest (ops : List (Op V)) {t : Node V} (h : Runs merge New ops t) (C : List IPNet)
    (hC : ∀ c ∈ C, IPv4Net c) (hs : ∀ a, (∃ c ∈ C, Contains c a) ↔ ∃ c ∈ ListCidr t, Contains c.1 a) :
    (ListCidr t).length ≤ C.length := by
  have hn : Norm t 32 := Runs_norm ops (t := New) trivial h
  apply ListCidr_minimal t hn C hC
  intro a ha
  rw [hs a, ListCidr_contains t hn]
  simp only [ha, true_and]

/-- **C18** With IPv4 arguments: no list of IPv4 networks containing exactly the addresses added is shorter. -/
theorem C18_shortest_added (ops : List (Op V)) (h4 : ∀ op ∈ ops, IPv4Args op) {t : Node V} (h : Runs merge New ops t)
    (C : List IPNet) (hC : ∀ c ∈ C, IPv4Net c) (hs : ∀ a, (∃ c ∈ C, Contains c a) ↔ ∃ op ∈ ops, Adds a op) :
    (ListCidr t).length ≤ C.length :=
  C18_shortest ops h C hC fun a => (hs a).trans (C16_exact ops h4 h a).symm

/-- For the calls of `exampleOps`: one network for each address is such a list, and longer. -/
example : ∃ (t : Node Nat) (C : List IPNet), Runs (· + ·) New exampleOps t ∧ (∀ c ∈ C, IPv4Net c) ∧
    (∀ a, (∃ c ∈ C, Contains c a) ↔ ∃ op ∈ exampleOps, Adds a op) := by
  obtain ⟨t, hr, hl⟩ := exampleRun
  refine ⟨t, (ListCidr t).map Prod.fst ++ (ListCidr t).map Prod.fst, hr, ?_, fun a => ?_⟩
  · have hw : ∀ c ∈ (ListCidr t).map Prod.fst, IPv4Net c := by
      rw [hl]
      intro c hc
      simp only [List.map_cons, List.map_nil, List.mem_cons, List.not_mem_nil, or_false] at hc
      rcases hc with rfl | rfl
      · exact ⟨⟨_, IPv4_of_len4 rfl⟩, rfl, 30, 2, by decide⟩
      · exact ⟨⟨_, IPv4_of_len4 rfl⟩, rfl, 31, 1, by decide⟩
    intro c hc
    rcases List.mem_append.mp hc with h | h <;> exact hw c h
  · rw [← C16_exact exampleOps exampleArgs hr a]
    simp only [List.mem_append, or_self, List.mem_map, exists_exists_and_eq_and]

/-- **C20** Every listed network is canonical: 4-byte address, contiguous 4-byte mask, no host bits. -/
theorem C20_wellformed (ops : List (Op V)) {t : Node V} (h : Runs merge New ops t) :
    ∀ c ∈ ListCidr t, CanonicalNet c.1 := by
  have hn : Norm t 32 := Runs_norm ops (t := New) trivial h
  intro c hc
  rw [ListCidr_blocks t hn] at hc
  obtain ⟨b, hb, rfl⟩ := List.mem_map.mp hc
  obtain ⟨h1, h2, h3, h4⟩ := block_ok hb
  obtain ⟨hl, hv⟩ := blockNet_ip b.1 b.2.1 h3
  have hcont := MaskFromByte_contiguous (32 - b.2.1) (by omega)
  refine ⟨hl, rfl, ⟨_, hcont⟩, ?_⟩
  show beVal (blockNet b.1 b.2.1).ip &&& beVal (MaskFromByte (BitVec.ofNat 8 (32 - b.2.1))) = _
  rw [(mask_val_of_contiguous rfl hcont).2, hv, and_maskVal _ _ h3 (by omega), show 32 - (32 - b.2.1) = b.2.1 by omega,
    Nat.div_mul_cancel h2]

/-- **C18** No two listed networks can be replaced by one. -/
theorem C18_unjoinable (ops : List (Op V)) {t : Node V} (h : Runs merge New ops t) :
    (ListCidr t).Pairwise fun x y => ¬ ∃ d, IPv4Net d ∧ ∀ a, Contains d a ↔ Contains x.1 a ∨ Contains y.1 a := by
  rw [List.pairwise_iff_forall_sublist]
  rintro x y hxy ⟨d, hd, hda⟩
  obtain ⟨rest, hp⟩ := hxy.exists_perm_append
  have hw : ∀ c ∈ ListCidr t, IPv4Net c.1 := by
    intro c hc
    obtain ⟨h1, h2, h3, _⟩ := C20_wellformed ops h c hc
    exact ⟨⟨_, IPv4_of_len4 h1⟩, h2, h3⟩
  have := C18_shortest ops h (d :: rest.map Prod.fst) (by
    intro c hc
    rcases List.mem_cons.mp hc with rfl | hc
    · exact hd
    · obtain ⟨c', hc', rfl⟩ := List.mem_map.mp hc
      exact hw c' (hp.mem_iff.mpr (List.mem_append_right _ hc'))) (by
    intro a
    simp only [hp.mem_iff]
    simp [hda, or_assoc])
  rw [hp.length_eq] at this
  simp at this

/-- **C19** Calls (with any merge functions and values) that add the same addresses give the same list of networks. -/
theorem C19_canonical {W : Type} {merge' : W → W → W} (ops : List (Op V)) (ops' : List (Op W))
    (h4 : ∀ op ∈ ops, IPv4Args op) (h4' : ∀ op ∈ ops', IPv4Args op) {t : Node V} {t' : Node W}
    (h : Runs merge New ops t) (h' : Runs merge' New ops' t')
    (hs : ∀ a, (∃ op ∈ ops, Adds a op) ↔ ∃ op ∈ ops', Adds a op) :
    (ListCidr t).map Prod.fst = (ListCidr t').map Prod.fst := by
  have hn : Norm t 32 := Runs_norm ops (t := New) trivial h
  have hn' : Norm t' 32 := Runs_norm ops' (t := New) trivial h'
  apply ListCidr_shape t t' hn hn'
  intro a ha
  have e := hs a
  rw [← C16_exact ops h4 h a, ← C16_exact ops' h4' h' a, ListCidr_contains t hn, ListCidr_contains t' hn'] at e
  simpa only [ha, true_and] using e

example : Adds 0x0a000004 (.addIp [10, 0, 0, 4] 1 : Op Nat) := ⟨10, 0, 0, 4, .inl rfl, rfl⟩

/-- **C21** (partial) On a tree built by any calls, `AddRange` with an end below 255.255.255.255 returns, and adds exactly
the addresses from start to end. Missing for the full claim: end 255.255.255.255 (below). -/
theorem C21_exact_partial (ops : List (Op V)) {t : Node V} (h : Runs merge New ops t) {s e : List U8} {us ue : Nat}
    (hs : IPv4 s us) (he : IPv4 e ue) (hne : ue ≠ 0xffffffff) (x : V) :
    ∃ t', Step merge t (.addRange s e x) t' ∧
      ∀ a, (∃ c ∈ ListCidr t', Contains c.1 a) ↔ (∃ c ∈ ListCidr t, Contains c.1 a) ∨ (us ≤ a ∧ a ≤ ue) := by
  have hn : Norm t 32 := Runs_norm ops (t := New) trivial h
  obtain ⟨ps, pe, hps, hpe, eq⟩ := AddRange_eq merge t hs he
  have hpne : pe ≠ 0xffffffff#32 := by rintro rfl; exact hne hpe.symm
  obtain ⟨t', ht⟩ := rangeLoop_ends merge pe hpne x _ ps t (le_refl _)
  obtain ⟨hn', hm⟩ := rangeLoop_spec merge pe hpne x _ ps t t' hn ht
  refine ⟨t', ⟨_, by rw [eq]; rw [ht]⟩, fun a => ?_⟩
  rw [ListCidr_contains t' hn', ListCidr_contains t hn]
  have hlt := IPv4_lt he
  constructor
  · rintro ⟨ha, h⟩
    rcases (hm a ha).mp h with h | h
    · exact .inl ⟨ha, h⟩
    · exact .inr (by omega)
  · rintro (⟨ha, h⟩ | h)
    · exact ⟨ha, (hm a ha).mpr (.inl h)⟩
    · exact ⟨by omega, (hm a (by omega)).mpr (.inr (by omega))⟩

example : IPv4 [10, 0, 0, 1] 0x0a000001 ∧ IPv4 [10, 0, 1, 0] 0x0a000100 ∧ (0x0a000100 : Nat) ≠ 0xffffffff :=
  ⟨⟨10, 0, 0, 1, .inl rfl, rfl⟩, ⟨10, 0, 1, 0, .inl rfl, rfl⟩, by decide⟩

/-- **C21** (negation of the full claim) With end 255.255.255.255 `AddRange` never returns: from any tree and any start,
after any number of steps it is still running. -/
theorem C21_diverges (t : Node V) (s : List U8) (x : V) {e : List U8} (he : IPv4 e 0xffffffff) :
    (∀ fuel, AddRange merge fuel t s e x = .ok none) ∧ ¬ ∃ t', Step merge t (.addRange s e x) t' := by
  have key : ∀ fuel, AddRange merge fuel t s e x = .ok none := by
    intro fuel
    obtain ⟨v, hv⟩ := Ipv4ToUint_total s
    obtain ⟨w, hw, ew⟩ := Ipv4ToUint_of he
    have : w = 0xffffffff#32 := BitVec.eq_of_toNat_eq ew
    subst this
    rw [AddRange, hv, hw]
    show Res.ok _ = _
    rw [rangeLoop_forever]
  refine ⟨key, ?_⟩
  rintro ⟨t', fuel, h⟩
  rw [key] at h
  cases h

example : IPv4 [255, 255, 255, 255] 0xffffffff := ⟨255, 255, 255, 255, .inl rfl, rfl⟩

/-- **C22** After any calls every listed value is generated by `merge` from values passed to the calls. -/
theorem C22_values (ops : List (Op V)) {t : Node V} (h : Runs merge New ops t) :
    ∀ c ∈ ListCidr t, Generated merge (fun v => ∃ op ∈ ops, valueOf op = v) c.2 := by
  have hn : Norm t 32 := Runs_norm ops (t := New) trivial h
  intro c hc
  rw [ListCidr_blocks t hn] at hc
  obtain ⟨b, hb, rfl⟩ := List.mem_map.mp hc
  exact Runs_vals (Generated merge fun v => ∃ op ∈ ops, valueOf op = v) (fun _ _ => .merge) ops (t := New)
    (fun _ h => h.elim) (fun op ho => .base ⟨op, ho, rfl⟩) h _ (blocks_vals 32 t 0 b hb)

/-- **C22** If every call passes `v` and `merge v v = v`, every listed value is `v`. -/
theorem C22_constant (v : V) (hv : merge v v = v) (ops : List (Op V)) (ho : ∀ op ∈ ops, valueOf op = v) {t : Node V}
    (h : Runs merge New ops t) : ∀ c ∈ ListCidr t, c.2 = v := by
  have hn : Norm t 32 := Runs_norm ops (t := New) trivial h
  intro c hc
  rw [ListCidr_blocks t hn] at hc
  obtain ⟨b, hb, rfl⟩ := List.mem_map.mp hc
  exact Runs_vals (· = v) (fun a b ha hb => by rw [ha, hb, hv]) ops (t := New) (fun _ h => h.elim) ho h _
    (blocks_vals 32 t 0 b hb)

example : max 3 3 = 3 := rfl

/-- **C23** (partial) On a tree built by any calls, `AddCidr` of an IPv4 network with a contiguous 4-byte mask returns and
adds exactly its addresses. Missing for the full claim: other masks and addresses (below). -/
theorem C23_exact_partial (ops : List (Op V)) {t : Node V} (h : Runs merge New ops t) (n : IPNet) (h4 : IPv4Net n) (x : V) :
    ∃ t', AddCidr merge t n x = .ok t' ∧
      ∀ a, (∃ c ∈ ListCidr t', Contains c.1 a) ↔ (∃ c ∈ ListCidr t, Contains c.1 a) ∨ Contains n a := by
  have hn : Norm t 32 := Runs_norm ops (t := New) trivial h
  obtain ⟨v, hv⟩ := Ipv4ToUint_total n.ip
  refine ⟨add merge t v 32#8 (32#8 - MaskToByte n.mask) x, by rw [AddCidr, hv]; rfl, fun a => ?_⟩
  have hstep : Step merge t (.addCidr n x) (add merge t v 32#8 (32#8 - MaskToByte n.mask) x) := by
    rw [Step, AddCidr, hv]; rfl
  rw [ListCidr_contains _ (Step_norm hn hstep), ListCidr_contains t hn]
  constructor
  · rintro ⟨ha, h⟩
    rcases (Step_mem hn (op := .addCidr n x) h4 hstep a ha).mp h with h | h
    · exact .inl ⟨ha, h⟩
    · exact .inr h
  · rintro (⟨ha, h⟩ | h)
    · exact ⟨ha, (Step_mem hn (op := .addCidr n x) h4 hstep a ha).mpr (.inl h)⟩
    · have ha : a < 2 ^ 32 := Adds_lt (op := (.addCidr n x : Op V)) h
      exact ⟨ha, (Step_mem hn (op := .addCidr n x) h4 hstep a ha).mpr (.inr h)⟩

example : IPv4Net ⟨[192, 168, 17, 3], [255, 255, 0xf0, 0]⟩ := ⟨⟨_, IPv4_of_len4 rfl⟩, rfl, 20, 12, by decide⟩

/-- **C23** What `AddCidr` adds for any argument: the block of the address (0 if not IPv4) of height `32 - ones` in byte
arithmetic, where a block of height 32 or more is everything. -/
theorem C23_any (ops : List (Op V)) {t : Node V} (h : Runs merge New ops t) (n : IPNet) (x : V) :
    ∃ u : U32, ∃ t', Ipv4ToUint n.ip = .ok u ∧ AddCidr merge t n x = .ok t' ∧ ∀ a, (∃ c ∈ ListCidr t', Contains c.1 a) ↔
      (∃ c ∈ ListCidr t, Contains c.1 a) ∨
        (a < 2 ^ 32 ∧ a / 2 ^ ((288 - (MaskToByte n.mask).toNat) % 256) = u.toNat / 2 ^ ((288 - (MaskToByte n.mask).toNat) % 256)) := by
  have hn : Norm t 32 := Runs_norm ops (t := New) trivial h
  obtain ⟨v, hv⟩ := Ipv4ToUint_total n.ip
  refine ⟨v, add merge t v 32#8 (32#8 - MaskToByte n.mask) x, hv, by rw [AddCidr, hv]; rfl, fun a => ?_⟩
  rw [ListCidr_contains _ (add_norm merge t hn _ _ _), ListCidr_contains t hn]
  have he : (32#8 - MaskToByte n.mask).toNat = (288 - (MaskToByte n.mask).toNat) % 256 := by
    have := (MaskToByte n.mask).isLt
    rw [BitVec.toNat_sub]
    show (256 - _ + 32) % 256 = _
    omega
  rw [← he]
  by_cases ha : a < 2 ^ 32
  · rw [add_mem merge t hn _ _ _ a ha]; simp only [ha, true_and]
  · simp only [ha, false_and, or_false]

/-- **C23** (negation of the full claim) The network 10.0.0.0/8 with its mask in 16-byte form (104 ones), which contains
only 10.x.x.x, makes the tree list 0.0.0.0/0. -/
theorem C23_false_mask16 (x : V) : ∃ t', AddCidr merge New
      ⟨[10, 0, 0, 0], [255, 255, 255, 255, 255, 255, 255, 255, 255, 255, 255, 255, 255, 0, 0, 0]⟩ x = .ok t' ∧
    ListCidr t' = [(⟨[0, 0, 0, 0], [0, 0, 0, 0]⟩, x)] := by
  have e : MaskToByte [255, 255, 255, 255, 255, 255, 255, 255, 255, 255, 255, 255, 255, 0, 0, 0] = 104#8 := by decide +kernel
  refine ⟨.all x, ?_, rfl⟩
  rw [AddCidr, e]
  show Res.ok (add merge New _ 32#8 (32#8 - 104#8) x) = _
  rw [add.eq_def]
  simp only [New]
  rw [dif_pos (by decide)]

/-- **C23** (negation of the full claim) An IPv6 network, 2001:db8::/32, puts 0.0.0.0/32 in the tree. -/
theorem C23_false_ipv6 (x : V) : ∃ t', AddCidr merge New
      ⟨[0x20, 0x01, 0x0d, 0xb8, 0, 0, 0, 0, 0, 0, 0, 0, 0, 0, 0, 0],
       [255, 255, 255, 255, 0, 0, 0, 0, 0, 0, 0, 0, 0, 0, 0, 0]⟩ x = .ok t' ∧
    ∃ c ∈ ListCidr t', Contains c.1 0 := by
  obtain ⟨u, t', hu, ht, h⟩ := C23_any (merge := merge) [] (t := New) rfl
    ⟨[0x20, 0x01, 0x0d, 0xb8, 0, 0, 0, 0, 0, 0, 0, 0, 0, 0, 0, 0],
       [255, 255, 255, 255, 0, 0, 0, 0, 0, 0, 0, 0, 0, 0, 0, 0]⟩ x
  have hu0 : u = 0#32 := by
    have : Ipv4ToUint [0x20, 0x01, 0x0d, 0xb8, 0, 0, 0, 0, 0, 0, 0, 0, 0, 0, 0, 0] = .ok 0#32 := by decide
    rw [this] at hu; cases hu; rfl
  subst hu0
  exact ⟨t', ht, (h 0).mpr (.inr ⟨by omega, by simp⟩)⟩

/-- **C23** (negation of the full claim) A 4-byte mask that is not contiguous makes the tree list everything, whatever the
address. -/
theorem C23_false_noncontiguous (n : IPNet) (hc : ¬ ∃ ones, Contiguous n.mask ones) (x : V) :
    ∃ t', AddCidr merge New n x = .ok t' ∧ ListCidr t' = [(⟨[0, 0, 0, 0], [0, 0, 0, 0]⟩, x)] := by
  obtain ⟨v, hv⟩ := Ipv4ToUint_total n.ip
  refine ⟨.all x, ?_, rfl⟩
  rw [AddCidr, hv, MaskToByte_not hc]
  show Res.ok (add merge New v 32#8 (32#8 - 0#8) x) = _
  rw [add.eq_def]
  simp only [New]
  rw [dif_pos (by decide)]

/-- **C24** No call (with any arguments) removes an address. -/
theorem C24_monotone (ops : List (Op V)) {t t' : Node V} (h : Runs merge New ops t) (op : Op V)
    (hs : Step merge t op t') (a : Nat) : (∃ c ∈ ListCidr t, Contains c.1 a) → ∃ c ∈ ListCidr t', Contains c.1 a := by
  have hn : Norm t 32 := Runs_norm ops (t := New) trivial h
  rw [ListCidr_contains t hn, ListCidr_contains t' (Step_norm hn hs)]
  rintro ⟨ha, hm⟩
  refine ⟨ha, ?_⟩
  cases op with
  | addIp ip x =>
    obtain ⟨v, hv⟩ := Ipv4ToUint_total ip
    have hs : AddIp merge t ip x = .ok t' := hs
    rw [AddIp, hv] at hs
    cases hs; exact (add_mem merge t hn _ _ _ a ha).mpr (.inl hm)
  | addCidr c x =>
    obtain ⟨v, hv⟩ := Ipv4ToUint_total c.ip
    have hs : AddCidr merge t c x = .ok t' := hs
    rw [AddCidr, hv] at hs
    cases hs; exact (add_mem merge t hn _ _ _ a ha).mpr (.inl hm)
  | addRange s e x =>
    obtain ⟨v, hv⟩ := Ipv4ToUint_total s
    obtain ⟨w, hw⟩ := Ipv4ToUint_total e
    obtain ⟨fuel, hs⟩ := hs
    rw [AddRange, hv, hw] at hs
    have hs : rangeLoop merge w x fuel v t = some t' := by injection hs
    by_cases hne : w = 0xffffffff#32
    · rw [hne, rangeLoop_forever] at hs; cases hs
    · exact ((rangeLoop_spec merge w hne x fuel v t t' hn hs).2 a ha).mpr (.inl hm)

/-- **C24** A call with IPv4 arguments that only adds addresses already listed leaves the list, values included, unchanged.
(The property asks this for blocks within one listed CIDR; it holds for any call covered by the whole list.) -/
theorem C24_covered (ops : List (Op V)) {t t' : Node V} (h : Runs merge New ops t) (op : Op V) (h4 : IPv4Args op)
    (hs : Step merge t op t') (hc : ∀ a, Adds a op → ∃ c ∈ ListCidr t, Contains c.1 a) : ListCidr t' = ListCidr t := by
  have hn : Norm t 32 := Runs_norm ops (t := New) trivial h
  have hc : ∀ a, Adds a op → mem t 32 a := fun a ha => ((ListCidr_contains t hn a).mp (hc a ha)).2
  suffices t' = t by rw [this]
  cases op with
  | addIp ip x =>
    obtain ⟨u, hu⟩ := h4
    obtain ⟨pos, hp, e⟩ := AddIp_eq merge t hu x
    have hs : AddIp merge t ip x = .ok t' := hs
    rw [e] at hs; cases hs
    apply add_covered merge t hn
    intro a ha hab
    simp only [BitVec.toNat_ofNat, Nat.zero_mod, Nat.pow_zero, Nat.div_one, hp] at hab
    subst hab
    exact hc _ hu
  | addCidr c x =>
    obtain ⟨⟨u, hu⟩, hl, ones, ho⟩ := h4
    obtain ⟨pos, e, hp, he, eq⟩ := AddCidr_eq merge t hu hl ho x
    have hs : AddCidr merge t c x = .ok t' := hs
    rw [eq] at hs; cases hs
    apply add_covered merge t hn
    intro a ha hab
    rw [hp, he] at hab
    exact hc a ((contains_iff hu hl ho a).mpr ⟨ha, hab⟩)
  | addRange s e x =>
    obtain ⟨⟨us, hus⟩, ue, hue⟩ := h4
    obtain ⟨ps, pe, hps, hpe, eq⟩ := AddRange_eq merge t hus hue
    obtain ⟨fuel, hs⟩ := hs
    rw [eq] at hs
    have hs : rangeLoop merge pe x fuel ps t = some t' := by injection hs
    exact rangeLoop_covered merge pe x fuel ps t t' hn
      (fun a h1 h2 => hc a ⟨us, ue, hus, hue, by omega, by omega⟩) hs

/-- 10.0.0.1 is within what `exampleOps` adds. -/
example : ∃ t : Node Nat, Runs (· + ·) New exampleOps t ∧ IPv4Args (.addIp [10, 0, 0, 1] 9 : Op Nat) ∧
    ∀ a, Adds a (.addIp [10, 0, 0, 1] 9 : Op Nat) → ∃ c ∈ ListCidr t, Contains c.1 a := by
  obtain ⟨t, hr, _⟩ := exampleRun
  refine ⟨t, hr, ⟨_, IPv4_of_len4 rfl⟩, fun a ha => (C16_exact exampleOps exampleArgs hr a).mpr ?_⟩
  refine ⟨.addRange [10, 0, 0, 0] [10, 0, 0, 3] 2, by simp [exampleOps], 0x0a000000, 0x0a000003,
    ⟨10, 0, 0, 0, .inl rfl, rfl⟩, ⟨10, 0, 0, 3, .inl rfl, rfl⟩, ?_⟩
  obtain ⟨a', b, c, d, h | h, rfl⟩ := ha
  · simp only [List.cons.injEq, and_true] at h
    obtain ⟨rfl, rfl, rfl, rfl⟩ := h
    decide
  · simp at h

/-- **C58** (negation) `AddIp` of an address that is not IPv4 does not leave the tree alone: 0.0.0.0 is listed. -/
theorem C58_false (ops : List (Op V)) {t : Node V} (h : Runs merge New ops t) {ip : List U8} (hip : ¬ ∃ u, IPv4 ip u) (x : V) :
    ∃ t', AddIp merge t ip x = .ok t' ∧ ∀ a, (∃ c ∈ ListCidr t', Contains c.1 a) ↔
      (∃ c ∈ ListCidr t, Contains c.1 a) ∨ a = 0 := by
  have hn : Norm t 32 := Runs_norm ops (t := New) trivial h
  refine ⟨add merge t 0#32 32#8 0#8 x, by rw [AddIp, Ipv4ToUint_not hip]; rfl, fun a => ?_⟩
  rw [ListCidr_contains _ (add_norm merge t hn _ _ _), ListCidr_contains t hn]
  by_cases ha : a < 2 ^ 32
  · rw [add_mem merge t hn _ _ _ a ha]; simp only [ha, true_and]; simp
  · simp only [ha, false_and, false_or, false_iff]; omega

example : ¬ ∃ u, IPv4 [0x20, 0x01, 0, 0, 0, 0, 0, 0, 0, 0, 0, 0, 0, 0, 0, 1] u := by
  rintro ⟨u, a, b, c, d, h | h, _⟩ <;> simp at h

end Tree
end Net
