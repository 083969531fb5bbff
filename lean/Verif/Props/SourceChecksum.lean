import Verif.Code.Bcc
import Verif.Code.Lrc
import Verif.Code.Fletcher16
import Verif.Code.Fletcher32
import Verif.Code.Fletcher64
import Verif.Code.Luhn
import Verif.Props.Checksum
import Verif.Props.Fletcher16

/-!
# The source text of the checksum packages, run

C87: the text of each file, read by the parser and run by the interpreter of `Verif/Lang`, does what the hand-written model does, for
every memory, argument and state. C88: so the text keeps the promises proved of the models, for every history of calls.
-/
namespace Source
open GoLang HashSpec ChecksumSpec Checksum

theorem wrap_lit {W : Nat} (hW : 32 ≤ W) (i : Nat) (hi : i < 2 ^ 31) : wrap W (i : Int) = i := by
  apply wrap_nat _ (by omega)
  have : (2 : Int) ^ 31 ≤ 2 ^ (W - 1) := by
    exact_mod_cast Nat.pow_le_pow_right (n := 2) (by decide) (by omega : 31 ≤ W - 1)
  omega

/-- **C87** checksum/bcc/bcc.go -/
theorem C87_bcc (P : Prog) (hP : P.Has Bcc.path [Bcc.src] []) (hW : 32 ≤ P.W) :
    Implements P Bcc.path (n! "digest") (n! "New") (n! "Sum8") _root_.Bcc.impl .u8 := by
  have hP := hP.find Bcc.text
  constructor
  · exact fun h => ⟨0, _, rfl, trivial, .add 2 0 fun n _ => Bcc.run_New hP n, List.prefix_refl _⟩
  · intro h a s v b _ ha hb _ hl
    exact ⟨trivial, rfl, _, .add 2 (b.length + 1) fun n hn => Bcc.run_Write hP (by omega) ha hb.has hl (by omega), List.prefix_refl _⟩
  · intro h a s v b _ ha hb _
    obtain ⟨v', h', hap, _, hv', _⟩ := appendTo_bytes P.grow hb [s]
    exact ⟨[s], h, v', h', rfl, List.prefix_refl _, hap [], .add 1 0 fun n _ => Bcc.run_Sum hP ha hb.has.plain hv' hap n⟩
  · exact fun h a s _ ha _ => ⟨.u8 s, s.toNat, rfl, rfl, .add 1 0 fun n _ => Bcc.run_Sum8 hP ha n⟩
  · exact fun h a s _ ha => ⟨0, _, rfl, trivial, .add 1 0 fun n _ => Bcc.run_Reset hP ha n, List.prefix_refl _⟩
  · intro h a s _ ha
    rw [← wrap_lit hW _ (by simp [_root_.Bcc.impl])]
    exact .add 1 0 fun n _ => Bcc.run_Size hP n
  · intro h a s _ ha
    rw [← wrap_lit hW _ (by simp [_root_.Bcc.impl])]
    exact .add 1 0 fun n _ => Bcc.run_BlockSize hP n

/-- **C87** checksum/lrc/lrc.go -/
theorem C87_lrc (P : Prog) (hP : P.Has Lrc.path [Lrc.src] []) (hW : 32 ≤ P.W) :
    Implements P Lrc.path (n! "digest") (n! "New") (n! "Sum8") _root_.Lrc.impl .u8 := by
  have hP := hP.find Lrc.text
  constructor
  · exact fun h => ⟨0, _, rfl, trivial, .add 2 0 fun n _ => Lrc.run_New hP n, List.prefix_refl _⟩
  · intro h a s v b _ ha hb _ hl
    exact ⟨trivial, rfl, _, .add 2 (b.length + 1) fun n hn => Lrc.run_Write hP (by omega) ha hb.has hl (by omega), List.prefix_refl _⟩
  · intro h a s v b _ ha hb _
    obtain ⟨v', h', hap, _, hv', _⟩ := appendTo_bytes P.grow hb [s]
    exact ⟨[s], h, v', h', rfl, List.prefix_refl _, hap [], .add 1 0 fun n _ => Lrc.run_Sum hP ha hb.has.plain hv' hap n⟩
  · exact fun h a s _ ha _ => ⟨.u8 s, s.toNat, rfl, rfl, .add 1 0 fun n _ => Lrc.run_Sum8 hP ha n⟩
  · exact fun h a s _ ha => ⟨0, _, rfl, trivial, .add 1 0 fun n _ => Lrc.run_Reset hP ha n, List.prefix_refl _⟩
  · intro h a s _ ha
    rw [← wrap_lit hW _ (by simp [_root_.Lrc.impl])]
    exact .add 1 0 fun n _ => Lrc.run_Size hP n
  · intro h a s _ ha
    rw [← wrap_lit hW _ (by simp [_root_.Lrc.impl])]
    exact .add 1 0 fun n _ => Lrc.run_BlockSize hP n

/-- The texts of package `fletcher`. -/
abbrev fletcherTexts : List (List String) := [Fletcher16.src, Fletcher32.src, Fletcher64.src]

/-- **C87** checksum/fletcher/fletcher16.go -/
theorem C87_fletcher16 (P : Prog) (hP : P.Has Fletcher.path fletcherTexts []) (hW : 32 ≤ P.W) :
    Implements P Fletcher.path (n! "digest16") (n! "New16") (n! "Sum16") _root_.Fletcher.impl16 Fletcher16.rep := by
  have hP := hP.find Fletcher.text
  constructor
  · exact fun h => ⟨⟨0, 0⟩, _, rfl, trivial, .add 2 0 fun n _ => Fletcher16.run_New hP n, List.prefix_refl _⟩
  · intro h a s v b _ ha hb _ hl
    have hr := fun n hn => Fletcher16.run_Write hP hW ha hb.has hl (n := n) hn
    unfold _root_.Fletcher.impl16
    rcases he : _root_.Fletcher.update16 s b with s' | _
    · simp only [he, go]
      simp only [he] at hr
      exact ⟨_, .add 2 (b.length + 2) fun n hn => hr n (by omega), List.prefix_refl _⟩
    · simp only [he, go]
      simp only [he] at hr
      exact ⟨_, .add 2 (b.length + 2) fun n hn => hr n (by omega), List.prefix_refl _⟩
  · intro h a s v b _ ha hb _
    obtain ⟨v', h', hap, _, hv', _⟩ := appendTo_bytes P.grow hb [s.b, s.a]
    exact ⟨_, h, v', h', rfl, List.prefix_refl _, hap [], .add 1 0 fun n _ => Fletcher16.run_Sum hP ha hb.has.plain hv' hap n⟩
  · exact fun h a s _ ha _ => ⟨.u16 (_root_.Fletcher.sum16 s), _, rfl, rfl, .add 1 0 fun n _ => Fletcher16.run_Sum16 hP ha n⟩
  · exact fun h a s _ ha => ⟨⟨0, 0⟩, _, rfl, trivial, .add 1 0 fun n _ => Fletcher16.run_Reset hP ha n, List.prefix_refl _⟩
  · intro h a s _ ha
    rw [← wrap_lit hW _ (by simp [_root_.Fletcher.impl16])]
    exact .add 1 0 fun n _ => Fletcher16.run_Size hP n
  · intro h a s _ ha
    rw [← wrap_lit hW _ (by simp [_root_.Fletcher.impl16])]
    exact .add 1 0 fun n _ => Fletcher16.run_BlockSize hP n

/-- **C87** checksum/fletcher/fletcher32.go -/
theorem C87_fletcher32 (P : Prog) (hP : P.Has Fletcher.path fletcherTexts []) (hW : 32 ≤ P.W) :
    Implements P Fletcher.path (n! "digest32") (n! "New32") (n! "Sum32") _root_.Fletcher.impl32 Fletcher32.rep := by
  have hP := hP.find Fletcher.text
  constructor
  · exact fun h => ⟨⟨0, 0⟩, _, rfl, trivial, .add 2 0 fun n _ => Fletcher32.run_New hP n, List.prefix_refl _⟩
  · intro h a s v b _ ha hb _ hl
    have hr := fun n hn => Fletcher32.run_Write hP hW ha hb.has hl (n := n) hn
    unfold _root_.Fletcher.impl32
    rcases he : _root_.Fletcher.update32 s b with s' | _
    · simp only [he, go]
      simp only [he] at hr
      exact ⟨_, .add 2 (b.length + 2) fun n hn => hr n (by omega), List.prefix_refl _⟩
    · simp only [he, go]
      simp only [he] at hr
      exact ⟨_, .add 2 (b.length + 2) fun n hn => hr n (by omega), List.prefix_refl _⟩
  · intro h a s v b _ ha hb _
    obtain ⟨v', h', hap, _, hv', _⟩ := appendTo_bytes P.grow hb [(s.b >>> 8).setWidth 8, s.b.setWidth 8, (s.a >>> 8).setWidth 8, s.a.setWidth 8]
    exact ⟨_, h, v', h', rfl, List.prefix_refl _, hap [], .add 1 0 fun n _ => Fletcher32.run_Sum hP ha hb.has.plain hv' hap n⟩
  · exact fun h a s _ ha _ => ⟨.u32 (_root_.Fletcher.sum32 s), _, rfl, rfl, .add 1 0 fun n _ => Fletcher32.run_Sum32 hP ha n⟩
  · exact fun h a s _ ha => ⟨⟨0, 0⟩, _, rfl, trivial, .add 1 0 fun n _ => Fletcher32.run_Reset hP ha n, List.prefix_refl _⟩
  · intro h a s _ ha
    rw [← wrap_lit hW _ (by simp [_root_.Fletcher.impl32])]
    exact .add 1 0 fun n _ => Fletcher32.run_Size hP n
  · intro h a s _ ha
    rw [← wrap_lit hW _ (by simp [_root_.Fletcher.impl32])]
    exact .add 1 0 fun n _ => Fletcher32.run_BlockSize hP n

/-- **C87** checksum/fletcher/fletcher64.go -/
theorem C87_fletcher64 (P : Prog) (hP : P.Has Fletcher.path fletcherTexts []) (hW : 32 ≤ P.W) :
    Implements P Fletcher.path (n! "digest64") (n! "New64") (n! "Sum64") _root_.Fletcher.impl64 Fletcher64.rep := by
  have hP := hP.find Fletcher.text
  constructor
  · exact fun h => ⟨⟨0, 0⟩, _, rfl, trivial, .add 2 0 fun n _ => Fletcher64.run_New hP n, List.prefix_refl _⟩
  · intro h a s v b _ ha hb _ hl
    have hr := fun n hn => Fletcher64.run_Write hP hW ha hb.has hl (n := n) hn
    unfold _root_.Fletcher.impl64
    rcases he : _root_.Fletcher.update64 s b with s' | _
    · simp only [he, go]
      simp only [he] at hr
      exact ⟨_, .add 2 (b.length + 2) fun n hn => hr n (by omega), List.prefix_refl _⟩
    · simp only [he, go]
      simp only [he] at hr
      exact ⟨_, .add 2 (b.length + 2) fun n hn => hr n (by omega), List.prefix_refl _⟩
  · intro h a s v b _ ha hb _
    obtain ⟨v', h', hap, _, hv', _⟩ := appendTo_bytes P.grow hb [(s.b >>> 24).setWidth 8, (s.b >>> 16).setWidth 8, (s.b >>> 8).setWidth 8, s.b.setWidth 8,
      (s.a >>> 24).setWidth 8, (s.a >>> 16).setWidth 8, (s.a >>> 8).setWidth 8, s.a.setWidth 8]
    exact ⟨_, h, v', h', rfl, List.prefix_refl _, hap [], .add 1 0 fun n _ => Fletcher64.run_Sum hP ha hb.has.plain hv' hap n⟩
  · exact fun h a s _ ha _ => ⟨.u64 (_root_.Fletcher.sum64 s), _, rfl, rfl, .add 1 0 fun n _ => Fletcher64.run_Sum64 hP ha n⟩
  · exact fun h a s _ ha => ⟨⟨0, 0⟩, _, rfl, trivial, .add 1 0 fun n _ => Fletcher64.run_Reset hP ha n, List.prefix_refl _⟩
  · intro h a s _ ha
    rw [← wrap_lit hW _ (by simp [_root_.Fletcher.impl64])]
    exact .add 1 0 fun n _ => Fletcher64.run_Size hP n
  · intro h a s _ ha
    rw [← wrap_lit hW _ (by simp [_root_.Fletcher.impl64])]
    exact .add 1 0 fun n _ => Fletcher64.run_BlockSize hP n

/-- **C87** checksum/luhn/luhn.go -/
theorem C87_luhn (P : Prog) (hP : P.Has Luhn.path [Luhn.src] []) (h : List Val) (i : BitVec 64) :
    Returns P Luhn.path 0 (n! "Checksum") [.u64 i] h [.u8 (_root_.Luhn.Checksum i)] h :=
  .add 1 21 fun _ hn => Luhn.run_Checksum (hP.find Luhn.text) h i hn

/-- A program with the packages of this file, for a 64-bit machine. Slices grow to twice the length. -/
def checksums : Prog :=
  { W := 64, pkgs := [Bcc.pkg, Lrc.pkg, Fletcher.pkg, Luhn.pkg], other := fun _ _ => none, std := stdlib, native := fun _ _ _ => stuck,
    grow := id }

example : checksums.Has Bcc.path [Bcc.src] [] ∧ checksums.Has Lrc.path [Lrc.src] [] ∧ checksums.Has Fletcher.path fletcherTexts [] ∧
    checksums.Has Luhn.path [Luhn.src] [] :=
  ⟨⟨_, Bcc.text, by kernel_rfl⟩, ⟨_, Lrc.text, by kernel_rfl⟩, ⟨_, Fletcher.text, by kernel_rfl⟩, ⟨_, Luhn.text, by kernel_rfl⟩⟩

/-- `luhn.Checksum(7992739871)` is 3. -/
example : run checksums 20 Luhn.path 0 (n! "Checksum") [.u64 7992739871] [] = .ok [.u8 3] ⟨[], []⟩ := by kernel_rfl

/-- The bytes of "abcde" in an array, a Fletcher-32 object, and a `Write` of them. -/
example : run checksums 20 Fletcher.path (n! "digest32") (n! "Write") [obj Fletcher.path (n! "digest32") 1, .slice 0 [] 0 5 5]
    [.arr [.u8 97, .u8 98, .u8 99, .u8 100, .u8 101], Fletcher32.rep ⟨0, 0⟩] =
    .ok [.int 5, .nil] ⟨[.arr [.u8 97, .u8 98, .u8 99, .u8 100, .u8 101], Fletcher32.rep ⟨0xc729, 0xf04f⟩], []⟩ := by kernel_rfl

/-! ## What follows for the text -/

/-- New objects of the package answer every history of calls (in `W`) as `f` says: this is the outcome, and no other is. -/
def Answers (P : Prog) (path ty new sumN : Name) (W : List GoHash.Op → Prop) (f : List GoHash.Op → Res (List GoHash.Out)) : Prop :=
  ∀ h, ∃ a h', Returns P path 0 new [] h [obj path ty a] h' ∧
    ∀ ops, Callable P.W sumN ops → W ops → ∀ r, Plays P path ty sumN a h' ops r ↔ r = f ops

theorem Implements.answers {P : Prog} {path ty new sumN : Name} {σ : Type} {I : GoHash.Impl σ} {rep : σ → Val}
    {Inv : σ → Prop} (hI : Implements P path ty new sumN I rep Inv) {W : List GoHash.Op → Prop} {f : List GoHash.Op → Res (List GoHash.Out)}
    (hf : ∀ ops, W ops → GoHash.run I ops = f ops) : Answers P path ty new sumN W f := by
  intro h
  obtain ⟨a, h', hret, hp⟩ := hI.plays h
  refine ⟨a, h', hret, fun ops hops hw r => ?_⟩
  rw [hp ops r hops, hf ops hw]
  exact eq_comm

/-- **C88** The text of bcc.go keeps the contract of `hash.Hash`, with the exclusive or of all bytes as checksum. -/
theorem C88_bcc (P : Prog) (hP : P.Has Bcc.path [Bcc.src] []) (hW : 32 ≤ P.W) :
    Answers P Bcc.path (n! "digest") (n! "New") (n! "Sum8") (fun _ => True) fun ops => .ok (expect bcc ops) :=
  Implements.answers (C87_bcc P hP hW) fun ops _ => C34_bcc_stream ops

/-- **C88** The text of lrc.go keeps it where all bytes since `Reset` are written at once. -/
theorem C88_lrc (P : Prog) (hP : P.Has Lrc.path [Lrc.src] []) (hW : 32 ≤ P.W) :
    Answers P Lrc.path (n! "digest") (n! "New") (n! "Sum8") (fun ops => writesOk (fun log _ => log = []) [] ops)
      fun ops => .ok (expect lrc ops) :=
  Implements.answers (C87_lrc P hP hW) fun ops h => C37_lrc_stream_partial ops h

/-- **C88** The text of fletcher16.go keeps it for short writes, and panics for lengths above 5803 that are no multiples of it. -/
theorem C88_fletcher16 (P : Prog) (hP : P.Has Fletcher.path fletcherTexts []) (hW : 32 ≤ P.W) :
    Answers P Fletcher.path (n! "digest16") (n! "New16") (n! "Sum16") (fun ops => writesOk Ok16 [] ops)
      (fun ops => .ok (expect (fletcherAlgo 1) ops)) ∧
    Answers P Fletcher.path (n! "digest16") (n! "New16") (n! "Sum16") (fun ops => ∃ p, ops = [.write p] ∧ 5803 < p.length ∧ p.length % 5803 ≠ 0)
      (fun _ => .panic) :=
  ⟨Implements.answers (C87_fletcher16 P hP hW) fun ops h => C38_fletcher16_partial ops h,
   Implements.answers (C87_fletcher16 P hP hW) fun ops ⟨p, hp, h₁, h₂⟩ => by
    subst hp
    rw [GoHash.run]
    simp only [_root_.Fletcher.impl16, GoHash.runFrom, GoHash.step, go]
    have := C38_fletcher16_panics ⟨0, 0⟩ p h₁ h₂
    simp only [_root_.Fletcher.impl16, go] at this
    rw [show (⟨0#8, 0#8⟩ : Fletcher.Digest16) = ⟨0, 0⟩ from rfl, this]
    rfl⟩

/-- **C88** The texts of fletcher32.go and fletcher64.go keep it where all writes but the last are of whole words. -/
theorem C88_fletcher (P : Prog) (hP : P.Has Fletcher.path fletcherTexts []) (hW : 32 ≤ P.W) :
    Answers P Fletcher.path (n! "digest32") (n! "New32") (n! "Sum32") (fun ops => writesOk (Aligned 2) [] ops)
      (fun ops => .ok (expect (fletcherAlgo 2) ops)) ∧
    Answers P Fletcher.path (n! "digest64") (n! "New64") (n! "Sum64") (fun ops => writesOk (Aligned 4) [] ops)
      (fun ops => .ok (expect (fletcherAlgo 4) ops)) :=
  ⟨Implements.answers (C87_fletcher32 P hP hW) fun ops h => (C41_fletcher_stream_partial ops).1 h,
   Implements.answers (C87_fletcher64 P hP hW) fun ops h => (C41_fletcher_stream_partial ops).2 h⟩

/-- **C88** The text of luhn.go returns the one digit that makes the number valid. -/
theorem C88_luhn (P : Prog) (hP : P.Has Luhn.path [Luhn.src] []) (h : List Val) (i : BitVec 64) :
    ∃ c : BitVec 8, Returns P Luhn.path 0 (n! "Checksum") [.u64 i] h [.u8 c] h ∧ c.toNat < 10 ∧
      ∀ d, d < 10 → (luhnValid (10 * i.toNat + d) ↔ d = c.toNat) :=
  ⟨_, C87_luhn P hP h i, C43_luhn_valid i⟩

/-- The histories of these theorems are many: a history with two writes. -/
example : Callable 64 (n! "Sum32") [.write [1, 2], .sumN, .write [3], .sum [7], .reset, .size] ∧
    writesOk (Aligned 2) [] [.write [1, 2], .sumN, .write [3], .sum [7], .reset, .size] := by
  refine ⟨⟨?_, by decide⟩, ?_⟩
  · intro p hp
    simp at hp
    rcases hp with rfl | rfl <;> decide
  · exact ⟨.inl ⟨0, rfl⟩, .inl ⟨1, rfl⟩, trivial⟩

end Source
