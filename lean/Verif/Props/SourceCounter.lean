import Verif.Props.SourceBytes
import Verif.Props.BytesDoc
import Verif.Props.BytesAlias

/-!
# C115: running totals and counters kept with package `bytes`, run from the text

A program keeps a number in a slice of bytes and adds to it again and again with `AddN(sum, sum, b)` of package bytes, doing anything else
in between that leaves the bytes of the slice alone. The specification is the number that a list of bytes denotes (`leVal`, `beVal`).
-/
namespace Source
open GoLang BytesSpec

/-- `f` is the function for `w` bits with that byte order: one with an explicit order, or `AddN` on a platform with it. -/
inductive Adder (P : Prog) (w : Width) : Bool → Name → Prop
  | le : Adder P w false (nameLE w)
  | be : Adder P w true (nameBE w)
  | platform {big : Bool} : Platform P (!big) → Adder P w big (nameAdd w)

/-- The number that the bytes denote. -/
def number (big : Bool) (l : List U8) : Nat := if big then beVal l else leVal l

/-- The program may change anything but the bytes of the slice. -/
def LeavesAlone (v : Val) (h h' : List Val) : Prop := ∀ s, ByteSlice h v → HasBytes h v s → ByteSlice h' v ∧ HasBytes h' v s

/-- From memory `h` to `h'` the program called `f(v, v, b)` for the summands `bs` in turn, of at most N/8 bytes each and outside `v`, with the
carries `cs` as results; in between it did anything else. -/
inductive Sums (P : Prog) (w : Width) (f : Name) (v : Val) (h : List Val) : List (List U8) → List U8 → List Val → Prop
  | start : Sums P w f v h [] [] h
  | own {bs : List (List U8)} {cs : List U8} {h₁ h₂ : List Val} : Sums P w f v h bs cs h₁ → LeavesAlone v h₁ h₂ → Sums P w f v h bs cs h₂
  | add {bs : List (List U8)} {cs : List U8} {h₁ h₂ : List Val} {vb : Val} {b : List U8} {c : U8} : Sums P w f v h bs cs h₁ →
      ByteSlice h₁ vb → HasBytes h₁ vb b → b.length ≤ w.bytes → NoOverlap v (sliceLen v) vb b.length →
      Returns P Bytes.path 0 f [v, v, vb] h₁ [.u8 c, .nil] h₂ → Sums P w f v h (bs ++ [b]) (cs ++ [c]) h₂

/-- Sum of the summands. -/
def total (big : Bool) (bs : List (List U8)) : Nat := (bs.map (number big)).sum

theorem number_lt (big : Bool) (l : List U8) : number big l < 256 ^ l.length := by
  cases big
  · have := _root_.Bytes.beVal_lt l.reverse
    rw [_root_.Bytes.beVal_eq, List.reverse_reverse, List.length_reverse] at this
    exact this
  · exact _root_.Bytes.beVal_lt l

theorem number_inj (big : Bool) {l l' : List U8} (hl : l.length = l'.length) (h : number big l = number big l') : l = l' := by
  cases big
  · exact _root_.Bytes.leVal_inj hl h
  · exact _root_.Bytes.beVal_inj hl h

theorem number_reverse (l : List U8) : number true l = number false l.reverse := _root_.Bytes.beVal_eq l

theorem byteSlice_kept {h h' : List Val} {v : Val} {T : Nat → List Sel → Nat → Prop} (hv : ByteSlice h v) (hk : Keeps T h h') : ByteSlice h' v := by
  rcases hv with rfl | ⟨a, p, off, len, cap, l, rfl, hp, h1, h2⟩
  · exact .inl rfl
  · obtain ⟨l', hp', hl, -⟩ := hk.bytes a p l hp
    exact .inr ⟨a, p, off, len, cap, l', rfl, hp', h1, by omega⟩

theorem noOverlap_le {v w : Val} {k j k' j' : Nat} (h : NoOverlap v k w j) (hk : min k' (sliceLen v) ≤ k) (hj : min j' (sliceLen w) ≤ j) :
    NoOverlap v k' w j' := by
  rintro a p i ⟨⟨off, len, cap, rfl, h1, h2⟩, ⟨off', len', cap', rfl, h3, h4⟩⟩
  simp only [sliceLen] at hk hj
  exact h a p i ⟨⟨off, len, cap, rfl, h1, by omega⟩, ⟨off', len', cap', rfl, h3, by omega⟩⟩

theorem adds_place {P : Prog} {w : Width} {big : Bool} {f : Name} {h : List Val} {v vb : Val} {s b : List U8} {k : Nat} (hv : ByteSlice h v)
    (hs : HasBytes h v s) (hk : k ≤ s.length)
    (e : Adds P f h v v vb w.bytes k (number big) (number big (s.take w.bytes)) (number big b)) :
    ∃ h' c r, Returns P Bytes.path 0 f [v, v, vb] h [.u8 c, .nil] h' ∧ ByteSlice h' v ∧ HasBytes h' v r ∧ r.length = s.length ∧
      number big (r.take w.bytes) + 2 ^ (8 * w.bytes) * c.toNat = number big (s.take w.bytes) + number big b ∧
      Keeps (Covers v s.length) h h' := by
  obtain ⟨h', c, r, e, hr, h1, h2, hk'⟩ := e
  have hk'' : Keeps (Covers v s.length) h h' := ⟨hk'.length, fun a p l e => by
    obtain ⟨l', e', hl', h⟩ := hk'.bytes a p l e
    refine ⟨l', e', hl', fun i hi => h i fun hc => hi ?_⟩
    obtain ⟨off, len, cap, rfl, h1, h2⟩ := hc
    exact ⟨off, len, cap, rfl, h1, by omega⟩, hk'.others⟩
  have hv' := byteSlice_kept hv hk'
  refine ⟨h', c, r, e, hv', hr, ?_, ?_, hk''⟩
  · rw [← hv'.length hr, ← hv.length hs, sliceLen_eq, sliceLen_eq]
  · rw [h1, h2]; exact Nat.mod_add_div _ _

section
variable {P : Prog} (hP : Hosts P) {w : Width} {big : Bool} {f : Name} (hf : Adder P w big f) {h : List Val} {v : Val} {s : List U8}
include hP hf

/-- **C115** Every such call returns: with no error, the low N bits of the sum in the slice and the rest as carry. -/
theorem C115_step (hv : ByteSlice h v) (hs : HasBytes h v s) (hl : w.bytes ≤ s.length) {vb : Val} {b : List U8} (hb : ByteSlice h vb)
    (hbb : HasBytes h vb b) (hbl : b.length ≤ w.bytes) (ho : NoOverlap v (sliceLen v) vb b.length) :
    ∃ h' c r, Returns P Bytes.path 0 f [v, v, vb] h [.u8 c, .nil] h' ∧ ByteSlice h' v ∧ HasBytes h' v r ∧ r.length = s.length ∧
      number big (r.take w.bytes) + 2 ^ (8 * w.bytes) * c.toNat = number big (s.take w.bytes) + number big b ∧
      Keeps (Covers v s.length) h h' := by
  have hpos := _root_.Bytes.bytes_pos w
  have hw : w.bytes ≤ 64 := by cases w <;> decide
  have hp31 := Bytes.pow31 hP.word
  have hvl : sliceLen v = s.length := by rw [← sliceLen_eq h, hv.length hs]
  have hbl' : sliceLen vb = b.length := by rw [← sliceLen_eq h, hb.length hbb]
  have fin := fun k (hk : k ≤ s.length) (e : Adds P f h v v vb w.bytes k (number big) (number big (s.take w.bytes)) (number big b)) =>
    adds_place hv hs hk e
  have tk : b.take w.bytes = b := List.take_of_length_le hbl
  have le := fun hN => C91_add_le hP w hv hv hb hs hs hbb (by unfold Fits; omega) hl (.inr (.inl hl)) (noOverlap_le ho hN (by omega))
  have be := C91_add_be hP w hv hv hb hs hs hbb hl hbl (fun a p i hc => by
    obtain ⟨⟨off, len, cap, e, h1, h2⟩, -⟩ := hc
    omega) (noOverlap_le ho (by omega) (by omega))
  have le := le (by omega)
  rw [tk] at le
  have hmax : max w.bytes s.length = s.length := by omega
  rw [hmax] at be
  cases hf with
  | le => exact fin _ hl le.1
  | be => exact fin _ (Nat.le_refl _) be.1
  | platform hO =>
    cases big
    · exact fin _ hl (le.2 hO)
    · exact fin _ (Nat.le_refl _) (be.2 hO)

/-- **C115** Nothing is lost: what the slice holds at the end and the carries, each worth 2^N, make up what it held at the start and all that
was added. -/
theorem C115_sum (hv : ByteSlice h v) (hs : HasBytes h v s) (hl : w.bytes ≤ s.length) {bs : List (List U8)} {cs : List U8} {h' : List Val}
    (r : Sums P w f v h bs cs h') :
    ∃ s', ByteSlice h' v ∧ HasBytes h' v s' ∧ s'.length = s.length ∧
      number big (s'.take w.bytes) + 2 ^ (8 * w.bytes) * (cs.map BitVec.toNat).sum = number big (s.take w.bytes) + total big bs := by
  induction r with
  | start => exact ⟨s, hv, hs, rfl, by simp [total]⟩
  | own _ ha ih =>
    obtain ⟨s', h1, h2, h3, h4⟩ := ih
    obtain ⟨h5, h6⟩ := ha s' h1 h2
    exact ⟨s', h5, h6, h3, h4⟩
  | add _ hb hbb hbl ho e ih =>
    obtain ⟨s', h1, h2, h3, h4⟩ := ih
    obtain ⟨h'', c, r, e', k1, k2, k3, k4, -⟩ := C115_step hP hf h1 h2 (by omega) hb hbb hbl ho
    obtain ⟨e1, rfl⟩ := e.unique e'
    cases e1
    refine ⟨r, k1, k2, by omega, ?_⟩
    simp only [total, List.map_append, List.sum_append, List.map_cons, List.map_nil, List.sum_cons, List.sum_nil, Nat.mul_add, Nat.add_zero] at h4 ⊢
    omega

/-- **C115** A counter: after additions of one, any number of them, the slice holds the number at the start and their number, modulo 2^N. -/
theorem C115_counter (hv : ByteSlice h v) (hs : HasBytes h v s) (hl : w.bytes ≤ s.length) {bs : List (List U8)} {cs : List U8} {h' : List Val}
    (r : Sums P w f v h bs cs h') (one : ∀ b ∈ bs, number big b = 1) :
    ∃ s', HasBytes h' v s' ∧ number big (s'.take w.bytes) = (number big (s.take w.bytes) + bs.length) % 2 ^ (8 * w.bytes) := by
  obtain ⟨s', -, h1, h2, h3⟩ := C115_sum hP hf hv hs hl r
  have ht : total big bs = bs.length := by
    unfold total
    rw [List.map_congr_left (g := fun _ => 1) one]
    simp
  have hlt := number_lt big (s'.take w.bytes)
  rw [List.length_take, show min w.bytes s'.length = w.bytes by omega, ← _root_.Bytes.pow256] at hlt
  refine ⟨s', h1, ?_⟩
  rw [← ht, ← h3, Nat.add_mul_mod_self_left, Nat.mod_eq_of_lt hlt]

/-- **C115** The counter takes all its values before it repeats one: between two moments with fewer than 2^N additions of one in between, but at
least one, its first N/8 bytes differ; with 2^N they are the same again. -/
theorem C115_period (hv : ByteSlice h v) (hs : HasBytes h v s) (hl : w.bytes ≤ s.length) {bs : List (List U8)} {cs : List U8} {h' : List Val}
    (r : Sums P w f v h bs cs h') (one : ∀ b ∈ bs, number big b = 1) :
    ∃ s', HasBytes h' v s' ∧ (s'.take w.bytes = s.take w.bytes ↔ 2 ^ (8 * w.bytes) ∣ bs.length) := by
  obtain ⟨s', h1, h2⟩ := C115_counter hP hf hv hs hl r one
  obtain ⟨s'', -, k1, k2, -⟩ := C115_sum hP hf hv hs hl r
  cases h1.unique k1
  have hlt := number_lt big (s.take w.bytes)
  rw [List.length_take, show min w.bytes s.length = w.bytes by omega, ← _root_.Bytes.pow256] at hlt
  refine ⟨s', h1, fun e => ?_, fun hd => number_inj big (by simp [k2]) ?_⟩
  · rw [e] at h2
    have h3 : (number big (s.take w.bytes) + bs.length) % 2 ^ (8 * w.bytes) = (number big (s.take w.bytes) + 0) % 2 ^ (8 * w.bytes) := by
      rw [← h2, Nat.add_zero, Nat.mod_eq_of_lt hlt]
    exact Nat.modEq_zero_iff_dvd.mp (Nat.ModEq.add_left_cancel' (n := 2 ^ (8 * w.bytes)) _ h3)
  · obtain ⟨q, hq⟩ := hd
    rw [h2, hq, Nat.add_mul_mod_self_left, Nat.mod_eq_of_lt hlt]

end

/-- **C115** On any two machines: if the slices hold the same number at the start and the same summands are added, in any order, they hold the
same bytes at the end, and the carries are as many. -/
theorem C115_order {P Q : Prog} (hP : Hosts P) (hQ : Hosts Q) {w : Width} {big : Bool} {f g : Name} (hf : Adder P w big f) (hg : Adder Q w big g)
    {h k : List Val} {v u : Val} {s t : List U8} (hv : ByteSlice h v) (hs : HasBytes h v s) (hl : w.bytes ≤ s.length) (hu : ByteSlice k u)
    (ht : HasBytes k u t) (hlt : w.bytes ≤ t.length) (e : s.take w.bytes = t.take w.bytes) {as bs : List (List U8)} (hp : as.Perm bs)
    {cs ds : List U8} {h' k' : List Val} (r : Sums P w f v h as cs h') (q : Sums Q w g u k bs ds k') :
    ∃ s' t', HasBytes h' v s' ∧ HasBytes k' u t' ∧ s'.take w.bytes = t'.take w.bytes ∧
      (cs.map BitVec.toNat).sum = (ds.map BitVec.toNat).sum := by
  obtain ⟨s', -, h1, h2, h3⟩ := C115_sum hP hf hv hs hl r
  obtain ⟨t', -, k1, k2, k3⟩ := C115_sum hQ hg hu ht hlt q
  have l1 := number_lt big (s'.take w.bytes)
  rw [List.length_take, show min w.bytes s'.length = w.bytes by omega, ← _root_.Bytes.pow256] at l1
  have l2 := number_lt big (t'.take w.bytes)
  rw [List.length_take, show min w.bytes t'.length = w.bytes by omega, ← _root_.Bytes.pow256] at l2
  have hsum : total big as = total big bs := (hp.map _).sum_nat
  rw [e, hsum, ← k3] at h3
  have hm := congrArg (· % 2 ^ (8 * w.bytes)) h3
  have hd := congrArg (· / 2 ^ (8 * w.bytes)) h3
  simp only [Nat.add_mul_mod_self_left, Nat.mod_eq_of_lt l1, Nat.mod_eq_of_lt l2] at hm
  have hpos : 0 < 2 ^ (8 * w.bytes) := Nat.pow_pos (by omega)
  simp only [Nat.add_mul_div_left _ _ hpos, Nat.div_eq_of_lt l1, Nat.div_eq_of_lt l2, Nat.zero_add] at hd
  exact ⟨s', t', h1, k1, number_inj big (by simp; omega) hm, hd⟩

/-- **C115** The byte order is a matter of reading: if one program adds little-endian and another, on any machine, adds the reversed bytes
big-endian, the one holds the bytes of the other in reverse, and the carries are as many. -/
theorem C115_endian {P Q : Prog} (hP : Hosts P) (hQ : Hosts Q) {w : Width} {f g : Name} (hf : Adder P w false f) (hg : Adder Q w true g)
    {h k : List Val} {v u : Val} {s t : List U8} (hv : ByteSlice h v) (hs : HasBytes h v s) (hl : w.bytes ≤ s.length) (hu : ByteSlice k u)
    (ht : HasBytes k u t) (hlt : w.bytes ≤ t.length) (e : t.take w.bytes = (s.take w.bytes).reverse) {bs : List (List U8)}
    {cs ds : List U8} {h' k' : List Val} (r : Sums P w f v h bs cs h') (q : Sums Q w g u k (bs.map List.reverse) ds k') :
    ∃ s' t', HasBytes h' v s' ∧ HasBytes k' u t' ∧ t'.take w.bytes = (s'.take w.bytes).reverse ∧
      (cs.map BitVec.toNat).sum = (ds.map BitVec.toNat).sum := by
  obtain ⟨s', -, h1, h2, h3⟩ := C115_sum hP hf hv hs hl r
  obtain ⟨t', -, k1, k2, k3⟩ := C115_sum hQ hg hu ht hlt q
  have l1 := number_lt false (s'.take w.bytes)
  rw [List.length_take, show min w.bytes s'.length = w.bytes by omega, ← _root_.Bytes.pow256] at l1
  have l2 := number_lt true (t'.take w.bytes)
  rw [List.length_take, show min w.bytes t'.length = w.bytes by omega, ← _root_.Bytes.pow256] at l2
  have hsum : total true (bs.map List.reverse) = total false bs := by
    unfold total
    rw [List.map_map]
    congr 1
    apply List.map_congr_left
    intro b _
    simp only [Function.comp, number_reverse, List.reverse_reverse]
  rw [e, hsum, number_reverse, number_reverse, List.reverse_reverse, ← h3] at k3
  rw [number_reverse] at l2
  have hm := congrArg (· % 2 ^ (8 * w.bytes)) k3
  have hd := congrArg (· / 2 ^ (8 * w.bytes)) k3
  simp only [Nat.add_mul_mod_self_left, Nat.mod_eq_of_lt l1, Nat.mod_eq_of_lt l2] at hm
  have hpos : 0 < 2 ^ (8 * w.bytes) := Nat.pow_pos (by omega)
  simp only [Nat.add_mul_div_left _ _ hpos, Nat.div_eq_of_lt l1, Nat.div_eq_of_lt l2, Nat.zero_add] at hd
  refine ⟨s', t', h1, k1, ?_, hd.symm⟩
  have := number_inj false (by simp; omega) hm
  rw [← this, List.reverse_reverse]

/-! ## Examples -/

/-- A counter of 16 bits at its last value, and the number one. -/
def counterHeap (n : U8) : List Val := [.arr ([0xff, n].map .u8), .arr ([1].map .u8)]

theorem counter_here (n : U8) : ByteSlice (counterHeap n) (.slice 0 [] 0 2 2) ∧ HasBytes (counterHeap n) (.slice 0 [] 0 2 2) [0xff, n] ∧
    ByteSlice (counterHeap n) (.slice 1 [] 0 1 1) ∧ HasBytes (counterHeap n) (.slice 1 [] 0 1 1) [1] :=
  ⟨.inr ⟨0, [], 0, 2, 2, [0xff, n], rfl, rfl, by decide, Nat.le_refl 2⟩, rfl,
    .inr ⟨1, [], 0, 1, 1, [1], rfl, rfl, by decide, by decide⟩, rfl⟩

/-- One addition, after which the program changes another object: a run as in the theorems, from 0xfeff to 0xff00. -/
example (little : Bool) : ∃ h', Sums (bytesProg little) .w16 (nameLE .w16) (.slice 0 [] 0 2 2) (counterHeap 0xfe) [[1]] [0] h' ∧
    HasBytes h' (.slice 0 [] 0 2 2) [0, 0xff] := by
  have h1 : ∃ h', Returns (bytesProg little) Bytes.path 0 (nameLE .w16) [.slice 0 [] 0 2 2, .slice 0 [] 0 2 2, .slice 1 [] 0 1 1] (counterHeap 0xfe)
      [.u8 0, .nil] h' ∧ HasBytes h' (.slice 0 [] 0 2 2) [0, 0xff] := by
    refine ⟨[.arr ([0, 0xff].map .u8), .arr ([1].map .u8)], .one (n := 20) ?_, rfl⟩
    cases little <;> kernel_rfl
  obtain ⟨h', r, hb⟩ := h1
  obtain ⟨-, -, c, d⟩ := counter_here 0xfe
  refine ⟨h', .own (.add (bs := []) (cs := []) .start c d (by decide) ?_ r) fun s a b => ⟨a, b⟩, hb⟩
  rintro a p i ⟨⟨_, _, _, h1, _⟩, ⟨_, _, _, h2, _⟩⟩
  cases h1
  cases h2

theorem counter_apart (n m b : Nat) : NoOverlap (.slice 0 [] 0 n n) n (.slice 1 [] 0 m m) b := by
  rintro a p i ⟨⟨_, _, _, h1, _⟩, ⟨_, _, _, h2, _⟩⟩
  cases h1
  cases h2

/-- The counter at its last value, one added: it is zero again and there is a carry. -/
theorem counter_over (little : Bool) : ∃ h', Sums (bytesProg little) .w16 (nameLE .w16) (.slice 0 [] 0 2 2) (counterHeap 0xff) [[1]] [1] h' := by
  obtain ⟨-, -, c, d⟩ := counter_here 0xff
  refine ⟨[.arr ([0, 0].map .u8), .arr ([1].map .u8)], .add (bs := []) (cs := []) .start c d (by decide) (counter_apart 2 1 1) (.one (n := 20) ?_)⟩
  cases little <;> kernel_rfl

/-- The same big-endian, on any machine. -/
theorem counter_over_be (little : Bool) : ∃ h', Sums (bytesProg little) .w16 (nameBE .w16) (.slice 0 [] 0 2 2) (counterHeap 0xff) [[1]] [1] h' := by
  obtain ⟨-, -, c, d⟩ := counter_here 0xff
  refine ⟨[.arr ([0, 0].map .u8), .arr ([1].map .u8)], .add (bs := []) (cs := []) .start c d (by decide) (counter_apart 2 1 1) (.one (n := 20) ?_)⟩
  cases little <;> kernel_rfl

example (little : Bool) : ∃ h' c r, Returns (bytesProg little) Bytes.path 0 (nameAdd .w16) [.slice 0 [] 0 2 2, .slice 0 [] 0 2 2, .slice 1 [] 0 1 1] (counterHeap 0xff)
    [.u8 c, .nil] h' ∧ HasBytes h' (.slice 0 [] 0 2 2) r ∧ number (!little) (r.take 2) + 65536 * c.toNat = 65536 := by
  obtain ⟨a, b, c, d⟩ := counter_here 0xff
  obtain ⟨h', k, r, h1, -, h2, -, h3, -⟩ := C115_step (bytesProg_hosts little) (big := !little) (.platform (w := .w16) (by rw [Bool.not_not]; exact bytesProg_platform little))
    a b (by decide) c d (by decide) (counter_apart 2 1 1)
  exact ⟨h', k, r, h1, h2, by cases little <;> exact h3⟩

/-- What the theorems say of these runs: nothing is lost, the counter is one further, it does not repeat itself, and the byte order only turns
the bytes around. -/
example (little : Bool) (h' k' : List Val) (r : Sums (bytesProg little) .w16 (nameLE .w16) (.slice 0 [] 0 2 2) (counterHeap 0xff) [[1]] [1] h')
    (q : Sums (bytesProg (!little)) .w16 (nameBE .w16) (.slice 0 [] 0 2 2) (counterHeap 0xff) [[1]] [1] k') :
    (∃ s', HasBytes h' (.slice 0 [] 0 2 2) s' ∧ number false (s'.take 2) + 65536 * 1 = 65536) ∧
    (∃ s', HasBytes h' (.slice 0 [] 0 2 2) s' ∧ number false (s'.take 2) = 0) ∧
    (∃ s', HasBytes k' (.slice 0 [] 0 2 2) s' ∧ s'.take 2 ≠ [0xff, 0xff]) ∧
    (∃ s' t', HasBytes h' (.slice 0 [] 0 2 2) s' ∧ HasBytes k' (.slice 0 [] 0 2 2) t' ∧ t'.take 2 = (s'.take 2).reverse) ∧
    ∃ s' t', HasBytes h' (.slice 0 [] 0 2 2) s' ∧ HasBytes h' (.slice 0 [] 0 2 2) t' ∧ s'.take 2 = t'.take 2 := by
  obtain ⟨a, b, -, -⟩ := counter_here 0xff
  refine ⟨?_, ?_, ?_, ?_, ?_⟩
  · obtain ⟨s', -, h1, -, h2⟩ := C115_sum (bytesProg_hosts little) .le a b (by decide) r
    exact ⟨s', h1, h2⟩
  · obtain ⟨s', h1, h2⟩ := C115_counter (bytesProg_hosts little) .le a b (by decide) r (by decide)
    exact ⟨s', h1, h2⟩
  · obtain ⟨s', h1, h2⟩ := C115_period (bytesProg_hosts (!little)) .be a b (by decide) q (by decide)
    exact ⟨s', h1, fun e => absurd (h2.mp e) (by decide)⟩
  · obtain ⟨s', t', h1, h2, h3, -⟩ := C115_endian (bytesProg_hosts little) (bytesProg_hosts (!little)) .le .be a b (by decide) a b (by decide) rfl r q
    exact ⟨s', t', h1, h2, h3⟩
  · obtain ⟨s', t', h1, h2, h3, -⟩ := C115_order (bytesProg_hosts little) (bytesProg_hosts little) .le .le a b (by decide) a b (by decide) rfl (.refl _) r r
    exact ⟨s', t', h1, h2, h3⟩

end Source
