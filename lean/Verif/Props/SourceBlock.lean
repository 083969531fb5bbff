import Verif.Props.SourceDigests

/-!
# C122: writing one block, run from the text

What `Write` of 64 bytes does to an object whose buffer is empty. In RIPEMD-256 and RIPEMD-320 every block has exactly one state that it
changes in a given way, and so exactly one that it does not change at all; however often the block is then written, the state stays. In
Whirlpool every state has exactly one block for which the cipher gives a given value.
-/
namespace Source
open GoLang HashSpec BlockHash

/-- Wherever in memory the object `x` is, `Write` of the bytes `b` makes it `y`. -/
def Becomes (P : Prog) (path ty : Name) (b : List U8) (x y : Val) : Prop :=
  ∀ h a, h[a]? = some x → ∃ h', CallReturns P path ty 0 a h (.write b) (.wrote b.length false) h' ∧ h'[a]? = some y

theorem Becomes.unique {P : Prog} {path ty : Name} {b : List U8} {x y z : Val} (hy : Becomes P path ty b x y) (hz : Becomes P path ty b x z) : y = z := by
  obtain ⟨h₁, c₁, e₁⟩ := hy [x] 0 rfl
  obtain ⟨h₂, c₂, e₂⟩ := hz [x] 0 rfl
  obtain ⟨-, rfl⟩ := c₁.unique c₂
  exact Option.some.inj (e₁.symm.trans e₂)

/-- The memories that calls of `Write` on the object at `a` with these bytes lead to. -/
inductive Written (P : Prog) (path ty : Name) (a : Nat) : List (List U8) → List Val → List Val → Prop
  | nil {h} : Written P path ty a [] h h
  | cons {b bs h h₁ h₂} : CallReturns P path ty 0 a h (.write b) (.wrote b.length false) h₁ → Written P path ty a bs h₁ h₂ → Written P path ty a (b :: bs) h h₂

section
variable {α : Type} {P : Prog} {path ty new : Name} {I : GoHash.Impl (Ctx α)} {rep : Ctx α → Val} {Inv : Ctx α → Prop} {hash : Ctx α → Res (Ctx α)}

theorem write_block {st st' : List α} {len : U64} {block b : List U8} (hl : block.length = 64) (hb : b.length = 64)
    (hh : hash ⟨st, len + 64, b, 64⟩ = .ok ⟨st', len + 64, b, 0⟩) :
    BlockHash.write hash ⟨st, len, block, 0⟩ b = .ok (⟨st', len + 64, b, 0⟩, 64, false) := by
  have e : goSlice b 0 64 = .ok b := by
    rw [goSlice, if_pos (by omega), List.drop_zero, List.take_of_length_le (by omega)]
  have e' : goCopyAt block 0 b = .ok b := by
    rw [goCopyAt_ok (by omega), List.drop_of_length_le (by omega)]
    simp
  have e'' : goSlice b 64 64 = .ok [] := by
    rw [goSlice, if_pos (by omega), List.drop_of_length_le (by simp)]
  have l : ∀ c p, writeLoop hash 64 c p 0 64 = .ok c := fun _ _ => rfl
  have r : writeLoop hash 65 ⟨st, len + 64, block, 0⟩ b 64 64 = .ok ⟨st', len + 64, b, 0⟩ := by
    unfold writeLoop
    rw [if_pos (by decide), if_neg (by decide), e]
    show (goCopyAt block 0 b >>= fun block => _) = _
    rw [e']
    show (hash ⟨st, len + 64, b, 64⟩ >>= fun c => _) = _
    rw [hh, hb]
    show (goSlice b 64 64 >>= fun p => _) = _
    rw [e'']
    exact l _ []
  rw [BlockHash.write, hb]
  show (writeLoop hash 65 ⟨st, len + 64, block, 0⟩ b 64 64 >>= fun c => _) = _
  rw [r]
  rfl

theorem becomes_of (hI : Implements P path ty new 0 I rep Inv) (hw : I.write = BlockHash.write hash) (hW : 32 ≤ P.W) {c c' : Ctx α} {b : List U8}
    (hb : b.length = 64) (hc : Inv c) (h : BlockHash.write hash c b = .ok (c', 64, false)) : Becomes P path ty b (rep c) (rep c') := by
  intro m a ha
  have h64 : (b.length : Int) < 2 ^ (P.W - 1) := by
    have : (2 : Int) ^ 31 ≤ 2 ^ (P.W - 1) := pow_le_pow_right₀ (by decide) (by omega)
    omega
  have := hI.write _ a c _ b hc (get_withBytes b ha) (isBytes_lit m b) (base_lit b ha) h64
  rw [hw, h] at this
  obtain ⟨-, -, h', hr, hp⟩ := this
  exact ⟨h', ⟨.nil, by rw [hb]; exact hr, by simp⟩, prefix_get hp (List.getElem?_set_self (lt_of_get (get_withBytes b ha)))⟩

/-- Which state comes out is what the function for one block says. -/
theorem becomes_iff (hI : Implements P path ty new 0 I rep Inv) (hw : I.write = BlockHash.write hash) (hW : 32 ≤ P.W) (hrep : Function.Injective rep)
    {st st' : List α} {len : U64} {block b : List U8} (hl : block.length = 64) (hb : b.length = 64) (hc : Inv ⟨st, len, block, 0⟩)
    (hh : ∃ st', hash ⟨st, len + 64, b, 64⟩ = .ok ⟨st', len + 64, b, 0⟩) :
    Becomes P path ty b (rep ⟨st, len, block, 0⟩) (rep ⟨st', len + 64, b, 0⟩) ↔ hash ⟨st, len + 64, b, 64⟩ = .ok ⟨st', len + 64, b, 0⟩ := by
  refine ⟨fun h => ?_, fun h => becomes_of hI hw hW hb hc (write_block hl hb h)⟩
  obtain ⟨s₂, h₂⟩ := hh
  have := hrep (h.unique (becomes_of hI hw hW hb hc (write_block hl hb h₂)))
  rw [this]; exact h₂

/-- A block that does not change the state does not change it however often it is written. -/
theorem repeats {b : List U8} {x : U64 → List U8 → Val}
    (hx : ∀ len block, block.length = 64 → Becomes P path ty b (x len block) (x (len + 64) b)) (hb : b.length = 64) {a : Nat} :
    ∀ (n : Nat) (h : List Val) (len : U64) (block : List U8), block.length = 64 → h[a]? = some (x len block) →
      ∃ h', Written P path ty a (List.replicate n b) h h' ∧ h'[a]? = some (x (len + 64 * BitVec.ofNat 64 n) (if n = 0 then block else b))
  | 0, h, len, block, _, ha => ⟨h, .nil, by simpa using ha⟩
  | n + 1, h, len, block, hl, ha => by
    obtain ⟨h₁, c, e⟩ := hx len block hl h a ha
    obtain ⟨h', w, e'⟩ := repeats hx hb n h₁ (len + 64) b hb e
    refine ⟨h', .cons c w, ?_⟩
    rw [e', ite_self, if_neg (Nat.succ_ne_zero n)]
    congr 2
    rw [BitVec.ofNat_add]
    generalize BitVec.ofNat 64 n = k
    rw [BitVec.mul_add, BitVec.add_comm (64 * k), ← BitVec.add_assoc]
    rfl
end

theorem ripemd_rep_inj (hash : Name) (k : Nat) : Function.Injective (Ripemd.rep hash k) := by
  rintro ⟨a, b, c, d⟩ ⟨a', b', c', d'⟩ h
  simp only [Ripemd.rep, Val.struct.injEq, List.cons.injEq, Prod.mk.injEq, Val.arr.injEq, Val.u64.injEq, Val.int.injEq, true_and, and_true] at h
  obtain ⟨h1, h2, h3, h4⟩ := h
  have e1 : a = a' := List.map_injective_iff.mpr (fun _ _ e => Val.u32.inj e) h1
  have e3 : c = c' := List.map_injective_iff.mpr (fun _ _ e => Val.u8.inj e) h3
  rw [e1, h2, e3, Int.ofNat_inj.mp h4]

theorem whirlpool_rep_inj : Function.Injective Whirlpool.rep := by
  rintro ⟨a, b, c, d⟩ ⟨a', b', c', d'⟩ h
  simp only [Whirlpool.rep, Val.struct.injEq, List.cons.injEq, Prod.mk.injEq, Val.arr.injEq, Val.u64.injEq, Val.int.injEq, true_and, and_true] at h
  obtain ⟨h1, h2, h3, h4⟩ := h
  have e1 : a = a' := List.map_injective_iff.mpr (fun _ _ e => Val.u64.inj e) h1
  have e3 : c = c' := List.map_injective_iff.mpr (fun _ _ e => Val.u8.inj e) h3
  rw [e1, h2, e3, Int.ofNat_inj.mp h4]

/-! ## ripemd -/

/-- An object of RIPEMD-256 with an empty buffer, in memory. -/
def object256 (st : List U32) (len : U64) (block : List U8) : Val := Ripemd.rep (n! "hash256") 8 ⟨st ++ [0, 0], len, block, 0⟩

/-- An object of RIPEMD-320 with an empty buffer, in memory. -/
def object320 (st : List U32) (len : U64) (block : List U8) : Val := Ripemd.rep (n! "hash320") 10 ⟨st, len, block, 0⟩

theorem becomes256 {P : Prog} (hP : RipemdHosts P) {b block : List U8} (hb : b.length = 64) (hl : block.length = 64) {st st' : List U32} (hs : st.length = 8)
    (len : U64) : Becomes P Ripemd.path Ripemd.ty b (object256 st len block) (object256 st' (len + 64) b) ↔
      _root_.Ripemd.hash256 ⟨st ++ [0, 0], len + 64, b, 64⟩ = .ok ⟨st' ++ [0, 0], len + 64, b, 0⟩ := by
  refine becomes_iff (C93_ripemd256 hP) rfl hP.word (ripemd_rep_inj _ _) hl hb ⟨by simp [hs], hl, Nat.zero_lt_succ _⟩ ?_
  obtain ⟨z, rfl⟩ : ∃ z : RipemdSpec.Line4 × RipemdSpec.Line4, st = z.1.words ++ z.2.words := by
    match st, hs with
    | [y0, y1, y2, y3, y4, y5, y6, y7], _ => exact ⟨(⟨y0, y1, y2, y3⟩, ⟨y4, y5, y6, y7⟩), rfl⟩
  exact ⟨_, _root_.Ripemd.hash256_eq z ⟨_, len + 64, b, 64⟩ (_root_.Ripemd.emb44_eq z).symm hb⟩

theorem becomes320 {P : Prog} (hP : RipemdHosts P) {b block : List U8} (hb : b.length = 64) (hl : block.length = 64) {st st' : List U32} (hs : st.length = 10)
    (len : U64) : Becomes P Ripemd.path Ripemd.ty b (object320 st len block) (object320 st' (len + 64) b) ↔
      _root_.Ripemd.hash320 ⟨st, len + 64, b, 64⟩ = .ok ⟨st', len + 64, b, 0⟩ := by
  refine becomes_iff (C93_ripemd320 hP) rfl hP.word (ripemd_rep_inj _ _) hl hb ⟨by simp [hs], hl, Nat.zero_lt_succ _⟩ ?_
  obtain ⟨z, rfl⟩ : ∃ z : RipemdSpec.Line5 × RipemdSpec.Line5, st = z.1.words ++ z.2.words := by
    match st, hs with
    | [y0, y1, y2, y3, y4, y5, y6, y7, y8, y9], _ => exact ⟨(⟨y0, y1, y2, y3, y4⟩, ⟨y5, y6, y7, y8, y9⟩), rfl⟩
  exact ⟨_, _root_.Ripemd.hash320_eq z ⟨_, len + 64, b, 64⟩ (_root_.Ripemd.emb55_eq z).symm hb⟩

/-- **C122** RIPEMD-256, run from the text: for every block and every `y` there is exactly one state to which writing the block adds `y`. -/
theorem C122_ripemd256 {P : Prog} (hP : RipemdHosts P) (b : List U8) (hb : b.length = 64) (y : List U32) (hy : y.length = 8) (len : U64)
    (block : List U8) (hl : block.length = 64) :
    ∃! st : List U32, st.length = 8 ∧
      Becomes P Ripemd.path Ripemd.ty b (object256 st len block) (object256 (List.zipWith (· + ·) st y) (len + 64) b) := by
  obtain ⟨st, ⟨hs, he⟩, hu⟩ := _root_.Ripemd.C71_ripemd256 b hb y hy (len + 64) 64
  exact ⟨st, ⟨hs, (becomes256 hP hb hl hs len).mpr he⟩, fun st' ⟨hs', h'⟩ => hu st' ⟨hs', (becomes256 hP hb hl hs' len).mp h'⟩⟩

/-- **C122** RIPEMD-320. -/
theorem C122_ripemd320 {P : Prog} (hP : RipemdHosts P) (b : List U8) (hb : b.length = 64) (y : List U32) (hy : y.length = 10) (len : U64)
    (block : List U8) (hl : block.length = 64) :
    ∃! st : List U32, st.length = 10 ∧
      Becomes P Ripemd.path Ripemd.ty b (object320 st len block) (object320 (List.zipWith (· + ·) st y) (len + 64) b) := by
  obtain ⟨st, ⟨hs, he⟩, hu⟩ := _root_.Ripemd.C71_ripemd320 b hb y hy (len + 64) 64
  exact ⟨st, ⟨hs, (becomes320 hP hb hl hs len).mpr he⟩, fun st' ⟨hs', h'⟩ => hu st' ⟨hs', (becomes320 hP hb hl hs' len).mp h'⟩⟩

theorem zipWith_zero : ∀ (st : List U32), List.zipWith (· + ·) st (List.replicate st.length 0) = st
  | [] => rfl
  | a :: st => by rw [List.length_cons, List.replicate_succ, List.zipWith_cons_cons, zipWith_zero st]; exact congrArg (· :: st) (BitVec.add_zero a)

theorem any_len256 {st st' : List U32} {b : List U8} (hb : b.length = 64) (hs : st.length = 8) {len : U64} (len' : U64)
    (h : _root_.Ripemd.hash256 ⟨st ++ [0, 0], len, b, 64⟩ = .ok ⟨st', len, b, 0⟩) :
    _root_.Ripemd.hash256 ⟨st ++ [0, 0], len', b, 64⟩ = .ok ⟨st', len', b, 0⟩ := by
  obtain ⟨z, rfl⟩ : ∃ z : RipemdSpec.Line4 × RipemdSpec.Line4, st = z.1.words ++ z.2.words := by
    match st, hs with
    | [y0, y1, y2, y3, y4, y5, y6, y7], _ => exact ⟨(⟨y0, y1, y2, y3⟩, ⟨y4, y5, y6, y7⟩), rfl⟩
  have e := fun len => _root_.Ripemd.hash256_eq z ⟨_, len, b, 64⟩ (_root_.Ripemd.emb44_eq z).symm hb
  have := (e len).symm.trans h
  simp only [Res.ok.injEq, BlockHash.Ctx.mk.injEq, and_true] at this
  rw [← this]; exact e len'

theorem any_len320 {st st' : List U32} {b : List U8} (hb : b.length = 64) (hs : st.length = 10) {len : U64} (len' : U64)
    (h : _root_.Ripemd.hash320 ⟨st, len, b, 64⟩ = .ok ⟨st', len, b, 0⟩) :
    _root_.Ripemd.hash320 ⟨st, len', b, 64⟩ = .ok ⟨st', len', b, 0⟩ := by
  obtain ⟨z, rfl⟩ : ∃ z : RipemdSpec.Line5 × RipemdSpec.Line5, st = z.1.words ++ z.2.words := by
    match st, hs with
    | [y0, y1, y2, y3, y4, y5, y6, y7, y8, y9], _ => exact ⟨(⟨y0, y1, y2, y3, y4⟩, ⟨y5, y6, y7, y8, y9⟩), rfl⟩
  have e := fun len => _root_.Ripemd.hash320_eq z ⟨_, len, b, 64⟩ (_root_.Ripemd.emb55_eq z).symm hb
  have := (e len).symm.trans h
  simp only [Res.ok.injEq, BlockHash.Ctx.mk.injEq, and_true] at this
  rw [← this]; exact e len'

/-- **C122** For every block there is exactly one state of RIPEMD-256 that writing the block does not change, in some object (then in every
object, whatever the length counted and the buffer), and writing it any number of times does not change it either. -/
theorem C122_fixed256 {P : Prog} (hP : RipemdHosts P) (b : List U8) (hb : b.length = 64) :
    ∃ st : List U32, st.length = 8 ∧
      (∀ n h a len block, block.length = 64 → h[a]? = some (object256 st len block) →
        ∃ h', Written P Ripemd.path Ripemd.ty a (List.replicate n b) h h' ∧
          h'[a]? = some (object256 st (len + 64 * BitVec.ofNat 64 n) (if n = 0 then block else b))) ∧
      ∀ st' len block, st'.length = 8 → block.length = 64 →
        Becomes P Ripemd.path Ripemd.ty b (object256 st' len block) (object256 st' (len + 64) b) → st' = st := by
  obtain ⟨st, ⟨hs, he⟩, hu⟩ := _root_.Ripemd.C71_ripemd256 b hb (List.replicate 8 0) (by simp) 0 64
  have z {s : List U32} (hs : s.length = 8) : _root_.Ripemd.addWords s (List.replicate 8 0) = s := by
    have := zipWith_zero s
    rwa [hs] at this
  rw [z hs] at he
  refine ⟨st, hs, fun n h a len block hl ha => repeats (x := object256 st)
    (fun len block hl => (becomes256 hP hb hl hs len).mpr (any_len256 hb hs _ he)) hb n h len block hl ha, fun st' len block hs' hl h' => ?_⟩
  refine hu st' ⟨hs', ?_⟩
  rw [z hs']
  exact any_len256 hb hs' _ ((becomes256 hP hb hl hs' len).mp h')

/-- **C122** The same for RIPEMD-320. -/
theorem C122_fixed320 {P : Prog} (hP : RipemdHosts P) (b : List U8) (hb : b.length = 64) :
    ∃ st : List U32, st.length = 10 ∧
      (∀ n h a len block, block.length = 64 → h[a]? = some (object320 st len block) →
        ∃ h', Written P Ripemd.path Ripemd.ty a (List.replicate n b) h h' ∧
          h'[a]? = some (object320 st (len + 64 * BitVec.ofNat 64 n) (if n = 0 then block else b))) ∧
      ∀ st' len block, st'.length = 10 → block.length = 64 →
        Becomes P Ripemd.path Ripemd.ty b (object320 st' len block) (object320 st' (len + 64) b) → st' = st := by
  obtain ⟨st, ⟨hs, he⟩, hu⟩ := _root_.Ripemd.C71_ripemd320 b hb (List.replicate 10 0) (by simp) 0 64
  have z {s : List U32} (hs : s.length = 10) : _root_.Ripemd.addWords s (List.replicate 10 0) = s := by
    have := zipWith_zero s
    rwa [hs] at this
  rw [z hs] at he
  refine ⟨st, hs, fun n h a len block hl ha => repeats (x := object320 st)
    (fun len block hl => (becomes320 hP hb hl hs len).mpr (any_len320 hb hs _ he)) hb n h len block hl ha, fun st' len block hs' hl h' => ?_⟩
  refine hu st' ⟨hs', ?_⟩
  rw [z hs']
  exact any_len320 hb hs' _ ((becomes320 hP hb hl hs' len).mp h')

/-! ## whirlpool -/

/-- An object of package whirlpool with an empty buffer, in memory. -/
def objectW (st : List U64) (len : U64) (block : List U8) : Val := Whirlpool.rep ⟨st, len, block, 0⟩

/-- The eight big-endian words of a block. -/
abbrev wordsOf := _root_.Whirlpool.beWords

theorem becomesW {P : Prog} (hP : WhirlpoolHosts P) {b block : List U8} (hb : b.length = 64) (hl : block.length = 64) {st st' : List U64} (hs : st.length = 8)
    (len : U64) : Becomes P Whirlpool.path Whirlpool.ty b (objectW st len block) (objectW st' (len + 64) b) ↔
      _root_.Whirlpool.hash ⟨st, len + 64, b, 64⟩ = .ok ⟨st', len + 64, b, 0⟩ := by
  refine becomes_iff (C95_whirlpool hP) rfl hP.word whirlpool_rep_inj hl hb ⟨hs, hl, Nat.zero_lt_succ _⟩ ?_
  obtain ⟨m, rfl⟩ := _root_.Whirlpool.C50_states st hs
  exact ⟨_, _root_.Whirlpool.C50_compress m (len + 64) b 64 hb⟩

/-- **C122** Whirlpool, run from the text: in every state there is, for every `y`, exactly one block whose writing makes the state the
exclusive or of the state before, the block and `y`. -/
theorem C122_whirlpool {P : Prog} (hP : WhirlpoolHosts P) (st y : List U64) (hs : st.length = 8) (hy : y.length = 8) (len : U64) (block : List U8)
    (hl : block.length = 64) :
    ∃! b : List U8, b.length = 64 ∧ Becomes P Whirlpool.path Whirlpool.ty b (objectW st len block)
      (objectW (List.zipWith (· ^^^ ·) (List.zipWith (· ^^^ ·) y st) (wordsOf b)) (len + 64) b) := by
  obtain ⟨b, ⟨hb, he⟩, hu⟩ := _root_.Whirlpool.C54_hash st y hs hy (len + 64) 64
  exact ⟨b, ⟨hb, (becomesW hP hb hl hs len).mpr he⟩, fun b' ⟨hb', h'⟩ => hu b' ⟨hb', (becomesW hP hb' hl hs len).mp h'⟩⟩

/-- **C122** In particular every state has exactly one block that changes it by the words of the block alone. -/
theorem C122_whirlpool_zero {P : Prog} (hP : WhirlpoolHosts P) (st : List U64) (hs : st.length = 8) (len : U64) (block : List U8)
    (hl : block.length = 64) :
    ∃! b : List U8, b.length = 64 ∧ Becomes P Whirlpool.path Whirlpool.ty b (objectW st len block)
      (objectW (List.zipWith (· ^^^ ·) st (wordsOf b)) (len + 64) b) := by
  have := C122_whirlpool hP st (List.replicate 8 0) hs (by simp) len block hl
  have z : List.zipWith (· ^^^ ·) (List.replicate 8 0) st = st := by
    match st, hs with
    | [y0, y1, y2, y3, y4, y5, y6, y7], _ => simp [List.replicate]
  rwa [z] at this

/-! ## The hypotheses can be met -/

example : ∃! st : List U32, st.length = 8 ∧ Becomes ripemdProg32 Ripemd.path Ripemd.ty (List.replicate 64 7) (object256 st 5 (List.replicate 64 1))
    (object256 (List.zipWith (· + ·) st [1, 2, 3, 4, 5, 6, 7, 8]) 69 (List.replicate 64 7)) :=
  C122_ripemd256 ripemdProg32_hosts _ (by simp) _ rfl 5 _ (by simp)

example : ∃ st : List U32, st.length = 10 ∧ ∃ h', Written ripemdProg Ripemd.path Ripemd.ty 1 (List.replicate 3 (List.replicate 64 7))
    [.int 4, object320 st 128 (List.replicate 64 0)] h' ∧ h'[1]? = some (object320 st 320 (List.replicate 64 7)) := by
  obtain ⟨st, hs, h, -⟩ := C122_fixed320 ripemdProg_hosts (List.replicate 64 7) (by simp)
  exact ⟨st, hs, h 3 [.int 4, object320 st 128 (List.replicate 64 0)] 1 128 _ (by simp) rfl⟩

example : ∃! b : List U8, b.length = 64 ∧ Becomes whirlpoolProg Whirlpool.path Whirlpool.ty b (objectW (List.replicate 8 9) 0 (List.replicate 64 0))
    (objectW (List.zipWith (· ^^^ ·) (List.replicate 8 9) (wordsOf b)) 64 b) :=
  C122_whirlpool_zero whirlpoolProg_hosts _ (by simp) 0 _ (by simp)

example : ∃! st : List U32, st.length = 10 ∧ Becomes ripemdProg32 Ripemd.path Ripemd.ty (List.replicate 64 7) (object320 st 5 (List.replicate 64 1))
    (object320 (List.zipWith (· + ·) st [1, 2, 3, 4, 5, 6, 7, 8, 9, 10]) 69 (List.replicate 64 7)) :=
  C122_ripemd320 ripemdProg32_hosts _ (by simp) _ rfl 5 _ (by simp)

example : ∃ st : List U32, st.length = 8 ∧ ∃ h', Written ripemdProg Ripemd.path Ripemd.ty 1 (List.replicate 3 (List.replicate 64 7))
    [.int 4, object256 st 128 (List.replicate 64 0)] h' ∧ h'[1]? = some (object256 st 320 (List.replicate 64 7)) := by
  obtain ⟨st, hs, h, -⟩ := C122_fixed256 ripemdProg_hosts (List.replicate 64 7) (by simp)
  exact ⟨st, hs, h 3 [.int 4, object256 st 128 (List.replicate 64 0)] 1 128 _ (by simp) rfl⟩

example : ∃! b : List U8, b.length = 64 ∧ Becomes whirlpoolProg32 Whirlpool.path Whirlpool.ty b (objectW (List.replicate 8 9) 0 (List.replicate 64 0))
    (objectW (List.zipWith (· ^^^ ·) (List.zipWith (· ^^^ ·) [1, 2, 3, 4, 5, 6, 7, 8] (List.replicate 8 9)) (wordsOf b)) 64 b) :=
  C122_whirlpool whirlpoolProg32_hosts _ _ (by simp) rfl 0 _ (by simp)

end Source
