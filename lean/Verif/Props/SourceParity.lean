import Verif.Props.SourceCounter
import Verif.Props.SourceErrors

/-!
# C125: parity and masks kept with `XorEq` of package `bytes`, run from the text

A program xors byte strings into a slice with `XorEq`, again and again, doing anything else in between that leaves the bytes of the slice alone.
-/
namespace Source
open GoLang hiding leNat
open ChecksumSpec BytesSpec

/-- From memory `h` to `h'` the program called `XorEq(v, o)` for the strings `bs` in turn, which lie outside `v`; in between it did anything else. -/
inductive Xors (P : Prog) (v : Val) (h : List Val) : List (List U8) → List Val → Prop
  | start : Xors P v h [] h
  | own {bs : List (List U8)} {h₁ h₂ : List Val} : Xors P v h bs h₁ → LeavesAlone v h₁ h₂ → Xors P v h bs h₂
  | xor {bs : List (List U8)} {h₁ h₂ : List Val} {vo : Val} {b : List U8} {n : Val} : Xors P v h bs h₁ → ByteSlice h₁ vo → HasBytes h₁ vo b →
      NoOverlap v (sliceLen v) vo b.length → Returns P Bytes.path 0 (n! "XorEq") [v, vo] h₁ [n] h₂ → Xors P v h (bs ++ [b]) h₂

/-- Byte `i` of a string, 0 behind its end. -/
def byteAt (b : List U8) (i : Nat) : U8 := b.getD i 0

def xorInto (d o : List U8) : List U8 := List.zipWith (· ^^^ ·) d o ++ d.drop o.length

theorem xorInto_length (d o : List U8) : (xorInto d o).length = d.length := by
  simp [xorInto]; omega

theorem xorInto_at (d o : List U8) (i : Nat) (hi : i < d.length) : byteAt (xorInto d o) i = byteAt d i ^^^ byteAt o i := by
  simp only [byteAt, xorInto, List.getD_eq_getElem?_getD]
  by_cases ho : i < o.length
  · rw [List.getElem?_append_left (by simp; omega), List.getElem?_zipWith, List.getElem?_eq_getElem hi, List.getElem?_eq_getElem ho]
    rfl
  · rw [List.getElem?_append_right (by simp; omega), List.getElem?_drop, List.getElem?_eq_none (l := o) (by omega),
      show o.length + (i - (List.zipWith (· ^^^ ·) d o).length) = i by simp; omega]
    simp

theorem foldl_length : ∀ (bs : List (List U8)) (s : List U8), (bs.foldl xorInto s).length = s.length
  | [], _ => rfl
  | b :: bs, s => by rw [List.foldl_cons, foldl_length bs, xorInto_length]

theorem foldl_at : ∀ (bs : List (List U8)) (s : List U8) (i : Nat), i < s.length →
    byteAt (bs.foldl xorInto s) i = byteAt s i ^^^ xorAll (bs.map (byteAt · i))
  | [], s, i, _ => by simp [xorAll]
  | b :: bs, s, i, hi => by
    rw [List.foldl_cons, foldl_at bs _ i (by rw [xorInto_length]; exact hi), xorInto_at s b i hi, List.map_cons, xorAll, BitVec.xor_assoc]

theorem xorAll_into : ∀ (d o : List U8), o.length ≤ d.length → xorAll (xorInto d o) = xorAll d ^^^ xorAll o
  | d, [], _ => by simp [xorInto, xorAll]
  | [], _ :: _, h => by simp at h
  | x :: d, y :: o, h => by
    have ih := xorAll_into d o (by simpa using h)
    simp only [xorInto, List.zipWith_cons_cons, List.cons_append, List.length_cons, List.drop_succ_cons, xorAll] at ih ⊢
    rw [ih]
    ac_rfl

theorem same_bytes {s t : List U8} (hl : s.length = t.length) (h : ∀ i, i < s.length → byteAt s i = byteAt t i) : s = t := by
  apply List.ext_getElem hl
  intro i h1 h2
  have := h i h1
  simpa [byteAt, List.getD_eq_getElem?_getD, h1, h2] using this

theorem xorAll_reorder {l m : List U8} (h : l.Perm m) : xorAll l = xorAll m := by
  induction h with
  | nil => rfl
  | cons x _ ih => rw [xorAll, xorAll, ih]
  | swap x y l => simp only [xorAll]; ac_rfl
  | trans _ _ ih ih' => exact ih.trans ih'

section
variable {P : Prog} (hP : Hosts P) {h : List Val} {v : Val} {s : List U8} (hv : ByteSlice h v) (hs : HasBytes h v s) (hl : Fits P s.length)
include hP hv hs hl

/-- **C125** Every such call returns the number of bytes it changed, and changes nothing else. -/
theorem C125_step {vo : Val} {b : List U8} (hb : ByteSlice h vo) (hbb : HasBytes h vo b) (ho : NoOverlap v (sliceLen v) vo b.length) :
    ∃ h' t, Returns P Bytes.path 0 (n! "XorEq") [v, vo] h [.int (min s.length b.length : Nat)] h' ∧ ByteSlice h' v ∧ HasBytes h' v t ∧
      t.length = s.length ∧ (∀ i, i < s.length → byteAt t i = byteAt s i ^^^ byteAt b i) ∧ Keeps (Covers v b.length) h h' := by
  have hvl : sliceLen v = s.length := by rw [← sliceLen_eq h, hv.length hs]
  obtain ⟨h', r, hb', hk⟩ := C91_xor hP hv hb hs hbb hl (.inl (hvl ▸ ho))
  exact ⟨h', xorInto s b, r, byteSlice_kept hv hk, hb', xorInto_length s b, fun i hi => xorInto_at s b i hi, hk⟩

theorem xors_fold {bs : List (List U8)} {h' : List Val} (r : Xors P v h bs h') : ByteSlice h' v ∧ HasBytes h' v (bs.foldl xorInto s) := by
  induction r with
  | start => exact ⟨hv, hs⟩
  | own _ ha ih => exact ha _ ih.1 ih.2
  | @xor bs h₁ h₂ vo b n _ hb hbb ho e ih =>
    obtain ⟨h1, h2⟩ := ih
    have hvl : sliceLen v = (bs.foldl xorInto s).length := by rw [← sliceLen_eq h₁, h1.length h2]
    obtain ⟨h', r, hb', hk⟩ := C91_xor hP h1 hb h2 hbb (by rw [foldl_length]; exact hl) (.inl (hvl ▸ ho))
    obtain ⟨-, rfl⟩ := e.unique r
    rw [List.foldl_append]
    exact ⟨byteSlice_kept h1 hk, hb'⟩

/-- **C125** At the end every byte of the slice is the exclusive or of what it was and of the bytes at its place in all strings. -/
theorem C125_value {bs : List (List U8)} {h' : List Val} (r : Xors P v h bs h') :
    ∃ t, HasBytes h' v t ∧ t.length = s.length ∧ ∀ i, i < s.length → byteAt t i = byteAt s i ^^^ xorAll (bs.map (byteAt · i)) :=
  ⟨_, (xors_fold hP hv hs hl r).2, foldl_length bs s, fun i hi => foldl_at bs s i hi⟩

/-- **C125** A mask: strings of which each was xored in twice, in whatever order, leave the slice as it was. -/
theorem C125_mask {ks bs : List (List U8)} {h' : List Val} (r : Xors P v h bs h') (hp : bs.Perm (ks ++ ks)) : HasBytes h' v s := by
  obtain ⟨t, h1, h2, h3⟩ := C125_value hP hv hs hl r
  have e : t = s := same_bytes h2 fun i hi => by
    rw [h3 i (h2 ▸ hi), xorAll_reorder (hp.map _), List.map_append]
    rw [_root_.Checksum.xorAll_append, BitVec.xor_self, BitVec.xor_zero]
  exact e ▸ h1

/-- **C125** The block check character of the slice, computed by the text of package bcc on any machine, is that of the slice at the start and of the
strings that were xored in, if none of them is longer than the slice. -/
theorem C125_bcc {bs : List (List U8)} {h' : List Val} (r : Xors P v h bs h') (hb : ∀ b ∈ bs, b.length ≤ s.length) {Q : Prog}
    (hQ : Q.Has Bcc.path [Bcc.src] []) (hW : 32 ≤ Q.W) (hf : FitsWord Q (s :: bs)) :
    ∃ t, HasBytes h' v t ∧ ∀ n m, BccOf Q [t] n → BccOf Q (s :: bs) m → n = m := by
  refine ⟨_, (xors_fold hP hv hs hl r).2, fun n m hn hm => ?_⟩
  have ft : FitsWord Q [bs.foldl xorInto s] := fun x hx => by
    rw [List.mem_singleton.mp hx, foldl_length]
    exact hf s (by simp)
  rw [(C112_bcc_value hQ hW _ ft n).mp hn, (C112_bcc_value hQ hW _ hf m).mp hm]
  congr 1
  simp only [List.flatten_cons, List.flatten_nil, List.append_nil]
  clear r hn hm ft hf hs hl hv
  induction bs generalizing s with
  | nil => simp
  | cons b bs ih =>
    rw [List.foldl_cons, ih (s := xorInto s b) fun c hc => by rw [xorInto_length]; exact hb c (List.mem_cons_of_mem _ hc)]
    rw [_root_.Checksum.xorAll_append, xorAll_into s b (hb b (by simp)), _root_.Checksum.xorAll_append, List.flatten_cons, _root_.Checksum.xorAll_append, BitVec.xor_assoc]

end

/-- **C125** On any two machines, if the slices are equal at the start and the same strings are xored in, in any order, they are equal at the end. -/
theorem C125_order {P Q : Prog} (hP : Hosts P) (hQ : Hosts Q) {h k : List Val} {v u : Val} {s : List U8} (hv : ByteSlice h v) (hs : HasBytes h v s)
    (hl : Fits P s.length) (hu : ByteSlice k u) (ht : HasBytes k u s) (hm : Fits Q s.length) {as bs : List (List U8)} (hp : as.Perm bs) {h' k' : List Val}
    (r : Xors P v h as h') (q : Xors Q u k bs k') : ∃ t, HasBytes h' v t ∧ HasBytes k' u t := by
  obtain ⟨a, h1, h2, h3⟩ := C125_value hP hv hs hl r
  obtain ⟨b, k1, k2, k3⟩ := C125_value hQ hu ht hm q
  have e : a = b := same_bytes (h2.trans k2.symm) fun i hi => by
    rw [h3 i (h2 ▸ hi), k3 i (h2 ▸ hi), xorAll_reorder (hp.map _)]
  exact ⟨a, h1, e ▸ k1⟩

/-- **C125** Parity: one machine xors strings into a slice of zeros; one of the strings, `b`, is lost. Another machine xors what the first holds and all
strings but `b`, in any order, into a slice of zeros, and gets `b` back (with zeros behind it, if it was shorter than the slice). -/
theorem C125_parity {P Q : Prog} (hP : Hosts P) (hQ : Hosts Q) {h k : List Val} {v u : Val} {n : Nat} (hv : ByteSlice h v)
    (hs : HasBytes h v (List.replicate n 0#8)) (hl : Fits P n) (hu : ByteSlice k u) (ht : HasBytes k u (List.replicate n 0#8)) (hm : Fits Q n)
    {as bs rest : List (List U8)} {b p : List U8} {h' k' : List Val} (r : Xors P v h as h') (ha : as.Perm (b :: rest)) (hpar : HasBytes h' v p)
    (q : Xors Q u k bs k') (hb : bs.Perm (p :: rest)) (hbl : b.length ≤ n) : HasBytes k' u (b ++ List.replicate (n - b.length) 0#8) := by
  have len : (List.replicate n (0#8)).length = n := List.length_replicate
  obtain ⟨x, h1, h2, h3⟩ := C125_value hP hv hs (by rw [len]; exact hl) r
  obtain ⟨y, k1, k2, k3⟩ := C125_value hQ hu ht (by rw [len]; exact hm) q
  cases hpar.unique h1
  rw [len] at h2 h3 k2 k3
  have z : ∀ m i, byteAt (List.replicate m (0#8)) i = 0#8 := by
    intro m i
    simp only [byteAt, List.getD_eq_getElem?_getD, List.getElem?_replicate]
    split <;> rfl
  have e : y = b ++ List.replicate (n - b.length) 0#8 := same_bytes (by simp; omega) fun i hi => by
    rw [k3 i (k2 ▸ hi), z, xorAll_reorder (hb.map _), List.map_cons, xorAll, h3 i (k2 ▸ hi), z, xorAll_reorder (ha.map _), List.map_cons, xorAll]
    simp only [BitVec.zero_xor]
    rw [BitVec.xor_assoc, BitVec.xor_self, BitVec.xor_zero]
    by_cases hib : i < b.length
    · simp only [byteAt, List.getD_eq_getElem?_getD, List.getElem?_append_left hib]
    · have := z (n - b.length) (i - b.length)
      simp only [byteAt, List.getD_eq_getElem?_getD, List.getElem?_append_right (Nat.le_of_not_lt hib)] at this ⊢
      rw [this, List.getElem?_eq_none (by omega)]
      rfl
  exact e ▸ k1

/-- A slice of three bytes, and two strings. -/
def parityHeap (s x y : List U8) : List Val := [.arr (s.map .u8), .arr (x.map .u8), .arr (y.map .u8)]

theorem parity_apart (n b c m : Nat) (hb : b ≠ 0) : NoOverlap (.slice 0 [] 0 n n) n (.slice b [] 0 m m) c := by
  rintro a p i ⟨⟨_, _, _, h1, _⟩, ⟨_, _, _, h2, _⟩⟩
  cases h1
  cases h2
  exact hb rfl

theorem parity_slice (s x y : List U8) : ByteSlice (parityHeap s x y) (.slice 0 [] 0 s.length s.length) ∧ ByteSlice (parityHeap s x y) (.slice 1 [] 0 x.length x.length) ∧
    ByteSlice (parityHeap s x y) (.slice 2 [] 0 y.length y.length) :=
  ⟨.inr ⟨0, [], 0, _, _, s, rfl, rfl, by simp, by omega⟩, .inr ⟨1, [], 0, _, _, x, rfl, rfl, by simp, by omega⟩, .inr ⟨2, [], 0, _, _, y, rfl, rfl, by simp, by omega⟩⟩

/-- Two strings, the second shorter than the slice, and their parity. -/
theorem parity_run (little : Bool) : Xors (bytesProg little) (.slice 0 [] 0 3 3) (parityHeap [0, 0, 0] [1, 2, 3] [4, 6]) [[1, 2, 3], [4, 6]]
    (parityHeap [5, 4, 3] [1, 2, 3] [4, 6]) := by
  refine .xor (bs := [[1, 2, 3]]) (h₁ := parityHeap [1, 2, 3] [1, 2, 3] [4, 6]) (vo := .slice 2 [] 0 2 2) (n := .int 2)
    (.xor (bs := []) (vo := .slice 1 [] 0 3 3) (n := .int 3) .start (parity_slice _ _ _).2.1 rfl (parity_apart 3 1 3 3 (by decide)) (.one (n := 20) ?_))
    (parity_slice _ _ _).2.2 rfl (parity_apart 3 2 2 2 (by decide)) (.one (n := 20) ?_)
  · cases little <;> kernel_rfl
  · cases little <;> kernel_rfl

/-- The parity and the first string, in another memory. -/
theorem parity_back (little : Bool) : Xors (bytesProg little) (.slice 0 [] 0 3 3) (parityHeap [0, 0, 0] [1, 2, 3] [5, 4, 3]) [[1, 2, 3], [5, 4, 3]]
    (parityHeap [4, 6, 0] [1, 2, 3] [5, 4, 3]) := by
  refine .xor (bs := [[1, 2, 3]]) (h₁ := parityHeap [1, 2, 3] [1, 2, 3] [5, 4, 3]) (vo := .slice 2 [] 0 3 3) (n := .int 3)
    (.xor (bs := []) (vo := .slice 1 [] 0 3 3) (n := .int 3) .start (parity_slice _ _ _).2.1 rfl (parity_apart 3 1 3 3 (by decide)) (.one (n := 20) ?_))
    (parity_slice _ _ _).2.2 rfl (parity_apart 3 2 3 3 (by decide)) (.one (n := 20) ?_)
  · cases little <;> kernel_rfl
  · cases little <;> kernel_rfl

/-- One call: `C125_step` says what it does. -/
example (little : Bool) : ∃ h' t, Returns (bytesProg little) Bytes.path 0 (n! "XorEq") [.slice 0 [] 0 3 3, .slice 2 [] 0 2 2] (parityHeap [9, 9, 9] [] [4, 6])
    [.int 2] h' ∧ HasBytes h' (.slice 0 [] 0 3 3) t ∧ byteAt t 1 = 15 ∧ byteAt t 2 = 9 := by
  obtain ⟨h', t, r, -, hb, -, hi, -⟩ := C125_step (bytesProg_hosts little) (s := [9, 9, 9]) (b := [4, 6]) (parity_slice [9, 9, 9] [] [4, 6]).1 rfl
    (by simp [Fits, bytesProg]) (parity_slice [9, 9, 9] [] [4, 6]).2.2 rfl (parity_apart 3 2 2 2 (by decide))
  exact ⟨h', t, r, hb, (hi 1 (by decide)).trans (by decide), (hi 2 (by decide)).trans (by decide)⟩

/-- The second string was lost: a machine of the other byte order finds it again, with a zero behind it. -/
example (little : Bool) : HasBytes (parityHeap [4, 6, 0] [1, 2, 3] [5, 4, 3]) (.slice 0 [] 0 3 3) ([4, 6] ++ [0]) :=
  C125_parity (bytesProg_hosts little) (bytesProg_hosts (!little)) (n := 3) (parity_slice [0, 0, 0] [1, 2, 3] [4, 6]).1 rfl (by simp [Fits, bytesProg])
    (parity_slice [0, 0, 0] [1, 2, 3] [5, 4, 3]).1 rfl (by simp [Fits, bytesProg]) (b := [4, 6]) (p := [5, 4, 3]) (rest := [[1, 2, 3]])
    (parity_run little) (List.Perm.swap _ _ _) rfl (parity_back (!little)) (List.Perm.swap _ _ _) (by decide)

/-- The bytes that the program finds are those of `C125_value`; the order does not matter. -/
example (little : Bool) : (∃ t, HasBytes (parityHeap [5, 4, 3] [1, 2, 3] [4, 6]) (.slice 0 [] 0 3 3) t ∧ byteAt t 1 = 4) ∧
    ∀ k', Xors (bytesProg (!little)) (.slice 0 [] 0 3 3) (parityHeap [0, 0, 0] [] []) [[4, 6], [1, 2, 3]] k' → HasBytes k' (.slice 0 [] 0 3 3) [5, 4, 3] := by
  obtain ⟨t, hb, -, hi⟩ := C125_value (bytesProg_hosts little) (parity_slice [0, 0, 0] [1, 2, 3] [4, 6]).1 (s := [0, 0, 0]) rfl (by simp [Fits, bytesProg]) (parity_run little)
  refine ⟨⟨t, hb, (hi 1 (by decide)).trans (by decide)⟩, fun k' q => ?_⟩
  obtain ⟨t, h1, h2⟩ := C125_order (bytesProg_hosts little) (bytesProg_hosts (!little)) (s := [0, 0, 0]) (parity_slice [0, 0, 0] [1, 2, 3] [4, 6]).1 rfl
    (by simp [Fits, bytesProg]) (parity_slice [0, 0, 0] [] []).1 rfl (by simp [Fits, bytesProg]) (List.Perm.swap _ _ _) (parity_run little) q
  have : HasBytes (parityHeap [5, 4, 3] [1, 2, 3] [4, 6]) (.slice 0 [] 0 3 3) [5, 4, 3] := rfl
  exact this.unique h1 ▸ h2

/-- A mask put on and taken off. -/
example (little : Bool) (h' : List Val) (r : Xors (bytesProg little) (.slice 0 [] 0 3 3) (parityHeap [7, 8, 9] [1, 2, 3] [4, 6]) [[1, 2, 3], [4, 6], [4, 6], [1, 2, 3]] h') :
    HasBytes h' (.slice 0 [] 0 3 3) [7, 8, 9] :=
  C125_mask (bytesProg_hosts little) (parity_slice [7, 8, 9] [1, 2, 3] [4, 6]).1 rfl (by simp [Fits, bytesProg]) (ks := [[1, 2, 3], [4, 6]]) r (by decide)

/-- The block check character of the parity, and of all there was. -/
example : ∀ n m, BccOf checksums [[5, 4, 3]] n → BccOf checksums [[0, 0, 0], [1, 2, 3], [4, 6]] m → n = m := by
  obtain ⟨t, hb, e⟩ := C125_bcc (bytesProg_hosts true) (parity_slice [0, 0, 0] [1, 2, 3] [4, 6]).1 (s := [0, 0, 0]) rfl (by simp [Fits, bytesProg]) (parity_run true)
    (by decide) (Q := checksums) checksums_has.1 (by decide) (fits_small _ (by decide) _ (by decide))
  have : HasBytes (parityHeap [5, 4, 3] [1, 2, 3] [4, 6]) (.slice 0 [] 0 3 3) [5, 4, 3] := rfl
  exact this.unique hb ▸ e

end Source
