import Verif.Model.Ripemd
import Verif.Spec.Ripemd
import Verif.Lemmas.BlockHash
import Verif.Lemmas.Stream

/-! # RIPEMD: the model computes the published functions -/
namespace Ripemd
open BlockHash BlockSpec

/-! ## Functions and tables -/

theorem f1_eq (x y z : U32) : f1 x y z = RipemdSpec.f 1 x y z := by
  apply BitVec.eq_of_getLsbD_eq
  intro i hi
  simp only [f1, RipemdSpec.f, BitVec.getLsbD_xor, BitVec.getLsbD_and, BitVec.getLsbD_or, BitVec.getLsbD_not, hi, decide_true]
  cases x.getLsbD i <;> cases y.getLsbD i <;> cases z.getLsbD i <;> rfl

theorem f3_eq (x y z : U32) : f3 x y z = RipemdSpec.f 3 x y z := by
  apply BitVec.eq_of_getLsbD_eq
  intro i hi
  simp only [f3, RipemdSpec.f, BitVec.getLsbD_xor, BitVec.getLsbD_and, BitVec.getLsbD_or, BitVec.getLsbD_not, hi, decide_true]
  cases x.getLsbD i <;> cases y.getLsbD i <;> cases z.getLsbD i <;> rfl

theorem f_at : ∀ {i : Nat}, i < 5 → goIdx f i = .ok (RipemdSpec.f i)
  | 0, _ => rfl
  | 1, _ => congrArg Res.ok (funext fun x => funext fun y => funext fun z => f1_eq x y z)
  | 2, _ => rfl
  | 3, _ => congrArg Res.ok (funext fun x => funext fun y => funext fun z => f3_eq x y z)
  | 4, _ => rfl
  | n + 5, h => absurd h (by omega)

theorem rotateLeft32_eq (x : U32) {k : Nat} (h : k < 32) : rotateLeft32 x k = x.rotateLeft k := by
  unfold rotateLeft32
  rw [BitVec.rotateLeft_def]

theorem r_at : ∀ i : Fin 5, ∀ j : Fin 16, goIdx r (16 * i.val + j.val) = .ok (BitVec.ofNat 8 (RipemdSpec.order false i j)) := by
  decide +kernel
theorem rr_at : ∀ i : Fin 5, ∀ j : Fin 16, goIdx rr (16 * i.val + j.val) = .ok (BitVec.ofNat 8 (RipemdSpec.order true i j)) := by
  decide +kernel
theorem s_at : ∀ i : Fin 5, ∀ j : Fin 16, goIdx s (16 * i.val + j.val) =
    .ok (BitVec.ofNat 8 (RipemdSpec.shift i (RipemdSpec.order false i j))) := by decide +kernel
theorem ss_at : ∀ i : Fin 5, ∀ j : Fin 16, goIdx ss (16 * i.val + j.val) =
    .ok (BitVec.ofNat 8 (RipemdSpec.shift i (RipemdSpec.order true i j))) := by decide +kernel
theorem k_at : ∀ i : Fin 5, constAt k i = .ok (RipemdSpec.kLeft i) := by decide +kernel
theorem kk_at : ∀ i : Fin 5, constAt kk i = .ok (RipemdSpec.kRight 5 i) := by decide +kernel
theorem kk128_at : ∀ i : Fin 4, constAt kk128 i = .ok (RipemdSpec.kRight 4 i) := by decide +kernel
theorem order_lt : ∀ (b : Bool) (i : Fin 5) (j : Fin 16), RipemdSpec.order b i j < 16 := by decide +kernel
theorem shift_lt : ∀ (i : Fin 5) (j : Fin 16), RipemdSpec.shift i j < 16 := by decide +kernel

/-! ## Message words -/

theorem leUint32_eq {l : List U8} (h : 4 ≤ l.length) :
    leUint32 l = .ok (BitVec.ofNat 32 (BytesSpec.leVal (l.take 4))) := by
  match l, h with
  | a :: b :: c :: d :: l, _ =>
    show Res.ok _ = _
    congr 1
    apply BitVec.eq_of_toNat_eq
    rw [Bytes.or4, BitVec.toNat_ofNat]
    have ha := a.isLt
    have hb := b.isLt
    have hc := c.isLt
    have hd := d.isLt
    simp only [List.take, BytesSpec.leVal]
    omega

theorem getXLoop_eq (b : List U8) (hb : b.length = 64) : ∀ (n i : Nat) (ret : List U32), i + n = 16 →
    ret = (List.range i).map (RipemdSpec.word b) → getXLoop b n i ret = .ok ((List.range 16).map (RipemdSpec.word b))
  | 0, i, ret, h, hr => by
    have : i = 16 := by omega
    subst this; rw [getXLoop, hr]
  | n + 1, i, ret, h, hr => by
    unfold getXLoop
    have hs : goSlice b (i * 4) b.length = .ok (b.drop (4 * i)) := by
      unfold goSlice; rw [if_pos ⟨by omega, by omega⟩, List.take_of_length_le (Nat.le_refl _), Nat.mul_comm]
    rw [hs]
    simp only [Res.ok_bind]
    rw [leUint32_eq (by simp; omega)]
    simp only [Res.ok_bind]
    apply getXLoop_eq b hb n (i + 1) _ (by omega)
    rw [List.range_succ, List.map_append, hr]
    rfl

theorem getX_eq (c : Ctx U32) (h : c.block.length = 64) : getX c = .ok ((List.range 16).map (RipemdSpec.word c.block)) :=
  getXLoop_eq c.block h 16 0 [] rfl rfl

theorem xAt_eq {b : List U8} {tab : List U8} {j w : Nat} (ht : goIdx tab j = .ok (BitVec.ofNat 8 w)) (hw : w < 16) :
    xAt ((List.range 16).map (RipemdSpec.word b)) tab j = .ok (RipemdSpec.word b w) := by
  unfold xAt
  rw [ht]
  simp only [Res.ok_bind]
  rw [goIdx_lt (by simp; omega)]
  simp only [List.getElem_map, List.getElem_range, BitVec.toNat_ofNat]
  congr 2
  omega

/-! ## Lines -/

def join4 (l r : RipemdSpec.Line4) : Regs4 := ⟨l.a, l.b, l.c, l.d, r.a, r.b, r.c, r.d⟩
def join5 (l r : RipemdSpec.Line5) : Regs5 := ⟨l.a, l.b, l.c, l.d, l.e, r.a, r.b, r.c, r.d, r.e⟩

theorem shiftNat {i w : Nat} (hi : i < 5) (hw : w < 16) :
    (BitVec.ofNat 8 (RipemdSpec.shift i w)).toNat = RipemdSpec.shift i w ∧ RipemdSpec.shift i w < 32 := by
  have := shift_lt ⟨i, hi⟩ ⟨w, hw⟩
  simp only at this
  rw [BitVec.toNat_ofNat]
  omega

theorem step4_eq (b : List U8) (l r : RipemdSpec.Line4) {round i : Nat} (hr : round < 4) (hi : i < 16) :
    step4 ((List.range 16).map (RipemdSpec.word b)) round (RipemdSpec.kLeft round) (RipemdSpec.kRight 4 round) (16 * round + i)
      (join4 l r) = .ok (join4 (RipemdSpec.step4 (RipemdSpec.word b) false round l i)
        (RipemdSpec.step4 (RipemdSpec.word b) true round r i)) := by
  have h5 : round < 5 := by omega
  have o1 := order_lt false ⟨round, h5⟩ ⟨i, hi⟩
  have o2 := order_lt true ⟨round, h5⟩ ⟨i, hi⟩
  have s1 := shiftNat h5 o1
  have s2 := shiftNat h5 o2
  unfold step4
  rw [f_at h5, xAt_eq (r_at ⟨round, h5⟩ ⟨i, hi⟩) o1, s_at ⟨round, h5⟩ ⟨i, hi⟩, f_at (i := 3 - round) (by omega),
    xAt_eq (rr_at ⟨round, h5⟩ ⟨i, hi⟩) o2, ss_at ⟨round, h5⟩ ⟨i, hi⟩]
  simp only [Res.ok_bind, Res.pure_eq]
  rw [s1.1, s2.1, rotateLeft32_eq _ s1.2, rotateLeft32_eq _ s2.2]
  rfl

theorem step5_eq (b : List U8) (l r : RipemdSpec.Line5) {round i : Nat} (h5 : round < 5) (hi : i < 16) :
    step5 ((List.range 16).map (RipemdSpec.word b)) round (RipemdSpec.kLeft round) (RipemdSpec.kRight 5 round) (16 * round + i)
      (join5 l r) = .ok (join5 (RipemdSpec.step5 (RipemdSpec.word b) false round l i)
        (RipemdSpec.step5 (RipemdSpec.word b) true round r i)) := by
  have o1 := order_lt false ⟨round, h5⟩ ⟨i, hi⟩
  have o2 := order_lt true ⟨round, h5⟩ ⟨i, hi⟩
  have s1 := shiftNat h5 o1
  have s2 := shiftNat h5 o2
  unfold step5
  rw [f_at h5, xAt_eq (r_at ⟨round, h5⟩ ⟨i, hi⟩) o1, s_at ⟨round, h5⟩ ⟨i, hi⟩, f_at (i := 4 - round) (by omega),
    xAt_eq (rr_at ⟨round, h5⟩ ⟨i, hi⟩) o2, ss_at ⟨round, h5⟩ ⟨i, hi⟩]
  simp only [Res.ok_bind, Res.pure_eq]
  rw [s1.1, s2.1, rotateLeft32_eq _ s1.2, rotateLeft32_eq _ s2.2, rotateLeft32_eq _ (by omega), rotateLeft32_eq _ (by omega)]
  simp only [join5, RipemdSpec.step5, RipemdSpec.kOf, RipemdSpec.fIndex, Res.ok.injEq, Regs5.mk.injEq, true_and, and_true]
  exact ⟨BitVec.add_comm _ _, BitVec.add_comm _ _⟩

theorem loop4_eq (b : List U8) {round : Nat} (hr : round < 4) : ∀ (n i : Nat) (l r : RipemdSpec.Line4), i + n = 16 →
    loop4 ((List.range 16).map (RipemdSpec.word b)) round (RipemdSpec.kLeft round) (RipemdSpec.kRight 4 round) n (16 * round + i)
      (join4 l r) = .ok (join4 ((List.range' i n).foldl (RipemdSpec.step4 (RipemdSpec.word b) false round) l)
        ((List.range' i n).foldl (RipemdSpec.step4 (RipemdSpec.word b) true round) r))
  | 0, _, _, _, _ => rfl
  | n + 1, i, l, r, h => by
    unfold loop4
    rw [step4_eq b l r hr (by omega)]
    simp only [Res.ok_bind]
    rw [Nat.add_assoc, loop4_eq b hr n (i + 1) _ _ (by omega), List.range'_succ]
    rfl

theorem loop5_eq (b : List U8) {round : Nat} (hr : round < 5) : ∀ (n i : Nat) (l r : RipemdSpec.Line5), i + n = 16 →
    loop5 ((List.range 16).map (RipemdSpec.word b)) round (RipemdSpec.kLeft round) (RipemdSpec.kRight 5 round) n (16 * round + i)
      (join5 l r) = .ok (join5 ((List.range' i n).foldl (RipemdSpec.step5 (RipemdSpec.word b) false round) l)
        ((List.range' i n).foldl (RipemdSpec.step5 (RipemdSpec.word b) true round) r))
  | 0, _, _, _, _ => rfl
  | n + 1, i, l, r, h => by
    unfold loop5
    rw [step5_eq b l r hr (by omega)]
    simp only [Res.ok_bind]
    rw [Nat.add_assoc, loop5_eq b hr n (i + 1) _ _ (by omega), List.range'_succ]
    rfl

theorem round4_eq (b : List U8) {round : Nat} (hr : round < 4) (l r : RipemdSpec.Line4) :
    round4 ((List.range 16).map (RipemdSpec.word b)) round (join4 l r) =
      .ok (join4 (RipemdSpec.round4 (RipemdSpec.word b) false round l) (RipemdSpec.round4 (RipemdSpec.word b) true round r)) := by
  unfold round4
  rw [k_at ⟨round, by omega⟩, kk128_at ⟨round, hr⟩]
  simp only [Res.ok_bind]
  have := loop4_eq b hr 16 0 l r rfl
  rw [Nat.mul_comm] at this
  exact this

theorem round5_eq (b : List U8) {round : Nat} (hr : round < 5) (l r : RipemdSpec.Line5) :
    round5 ((List.range 16).map (RipemdSpec.word b)) round (join5 l r) =
      .ok (join5 (RipemdSpec.round5 (RipemdSpec.word b) false round l) (RipemdSpec.round5 (RipemdSpec.word b) true round r)) := by
  unfold round5
  rw [k_at ⟨round, hr⟩, kk_at ⟨round, hr⟩]
  simp only [Res.ok_bind]
  have := loop5_eq b hr 16 0 l r rfl
  rw [Nat.mul_comm] at this
  exact this

/-! ## Compression functions -/

attribute [local irreducible] RipemdSpec.round4 RipemdSpec.round5 round4 round5

def emb4 (l : RipemdSpec.Line4) : List U32 := [l.a, l.b, l.c, l.d, 0, 0, 0, 0, 0, 0]
def emb5 (l : RipemdSpec.Line5) : List U32 := [l.a, l.b, l.c, l.d, l.e, 0, 0, 0, 0, 0]
def emb44 (z : RipemdSpec.Line4 × RipemdSpec.Line4) : List U32 :=
  [z.1.a, z.1.b, z.1.c, z.1.d, z.2.a, z.2.b, z.2.c, z.2.d, 0, 0]
def emb55 (z : RipemdSpec.Line5 × RipemdSpec.Line5) : List U32 :=
  [z.1.a, z.1.b, z.1.c, z.1.d, z.1.e, z.2.a, z.2.b, z.2.c, z.2.d, z.2.e]

theorem line4_eq (x : Nat → U32) (b : Bool) (l : RipemdSpec.Line4) : RipemdSpec.line4 x b l =
    RipemdSpec.round4 x b 3 (RipemdSpec.round4 x b 2 (RipemdSpec.round4 x b 1 (RipemdSpec.round4 x b 0 l))) := by
  rw [RipemdSpec.line4, show List.range 4 = [0, 1, 2, 3] from rfl]
  simp only [List.foldl]

theorem line5_eq (x : Nat → U32) (b : Bool) (l : RipemdSpec.Line5) : RipemdSpec.line5 x b l =
    RipemdSpec.round5 x b 4 (RipemdSpec.round5 x b 3 (RipemdSpec.round5 x b 2 (RipemdSpec.round5 x b 1
      (RipemdSpec.round5 x b 0 l)))) := by
  rw [RipemdSpec.line5, show List.range 5 = [0, 1, 2, 3, 4] from rfl]
  simp only [List.foldl]

theorem rounds4_eq (b : List U8) (l r : RipemdSpec.Line4) :
    rounds4 ((List.range 16).map (RipemdSpec.word b)) 4 0 (join4 l r) =
      .ok (join4 (RipemdSpec.line4 (RipemdSpec.word b) false l) (RipemdSpec.line4 (RipemdSpec.word b) true r)) := by
  rw [line4_eq, line4_eq]
  unfold rounds4; rw [round4_eq b (show 0 < 4 by omega), Res.ok_bind]
  unfold rounds4; rw [round4_eq b (show 0 + 1 < 4 by omega), Res.ok_bind]
  unfold rounds4; rw [round4_eq b (show 0 + 1 + 1 < 4 by omega), Res.ok_bind]
  unfold rounds4; rw [round4_eq b (show 0 + 1 + 1 + 1 < 4 by omega), Res.ok_bind]
  unfold rounds4; rfl

theorem rounds5_eq (b : List U8) (l r : RipemdSpec.Line5) :
    rounds5 ((List.range 16).map (RipemdSpec.word b)) 5 0 (join5 l r) =
      .ok (join5 (RipemdSpec.line5 (RipemdSpec.word b) false l) (RipemdSpec.line5 (RipemdSpec.word b) true r)) := by
  rw [line5_eq, line5_eq]
  unfold rounds5; rw [round5_eq b (show 0 < 5 by omega), Res.ok_bind]
  unfold rounds5; rw [round5_eq b (show 0 + 1 < 5 by omega), Res.ok_bind]
  unfold rounds5; rw [round5_eq b (show 0 + 1 + 1 < 5 by omega), Res.ok_bind]
  unfold rounds5; rw [round5_eq b (show 0 + 1 + 1 + 1 < 5 by omega), Res.ok_bind]
  unfold rounds5; rw [round5_eq b (show 0 + 1 + 1 + 1 + 1 < 5 by omega), Res.ok_bind]
  unfold rounds5; rfl

theorem hash128_eq : Compresses hash128 emb4 RipemdSpec.compress128 := by
  intro t ⟨st, len, block, bPos⟩ hst hb
  simp only at hst hb
  subst hst
  unfold hash128 RipemdSpec.compress128
  rw [getX_eq _ hb]
  simp only [emb4, goIdx, List.getElem?_cons_zero, List.getElem?_cons_succ, Res.ok_bind]
  rw [show (⟨t.a, t.b, t.c, t.d, t.a, t.b, t.c, t.d⟩ : Regs4) = join4 t t from rfl]
  rw [rounds4_eq block, Res.ok_bind]
  generalize RipemdSpec.line4 _ false _ = l
  generalize RipemdSpec.line4 _ true _ = r
  rfl

theorem hash160_eq : Compresses hash160 emb5 RipemdSpec.compress160 := by
  intro t ⟨st, len, block, bPos⟩ hst hb
  simp only at hst hb
  subst hst
  unfold hash160 RipemdSpec.compress160
  rw [getX_eq _ hb]
  simp only [emb5, goIdx, List.getElem?_cons_zero, List.getElem?_cons_succ, Res.ok_bind]
  rw [show (⟨t.a, t.b, t.c, t.d, t.e, t.a, t.b, t.c, t.d, t.e⟩ : Regs5) = join5 t t from rfl]
  rw [rounds5_eq block, Res.ok_bind]
  generalize RipemdSpec.line5 _ false _ = l
  generalize RipemdSpec.line5 _ true _ = r
  rfl

theorem hash256_eq : Compresses hash256 emb44 RipemdSpec.compress256 := by
  intro ⟨t1, t2⟩ ⟨st, len, block, bPos⟩ hst hb
  simp only at hst hb
  subst hst
  unfold hash256 RipemdSpec.compress256
  rw [getX_eq _ hb, show List.range 4 = [0, 1, 2, 3] from rfl]
  simp only [emb44, goIdx, List.getElem?_cons_zero, List.getElem?_cons_succ, Res.ok_bind, List.foldl]
  rw [show (⟨t1.a, t1.b, t1.c, t1.d, t2.a, t2.b, t2.c, t2.d⟩ : Regs4) = join4 t1 t2 from rfl]
  rw [round4_eq block (by omega), Res.ok_bind]
  generalize RipemdSpec.round4 _ false 0 _ = l0
  generalize RipemdSpec.round4 _ true 0 _ = r0
  rw [show ({ join4 l0 r0 with a := (join4 l0 r0).aa, aa := (join4 l0 r0).a } : Regs4) =
    join4 (RipemdSpec.exchange4 0 (l0, r0)).1 (RipemdSpec.exchange4 0 (l0, r0)).2 from rfl]
  rw [round4_eq block (by omega), Res.ok_bind]
  generalize RipemdSpec.round4 _ false 1 _ = l1
  generalize RipemdSpec.round4 _ true 1 _ = r1
  rw [show ({ join4 l1 r1 with b := (join4 l1 r1).bb, bb := (join4 l1 r1).b } : Regs4) =
    join4 (RipemdSpec.exchange4 1 (l1, r1)).1 (RipemdSpec.exchange4 1 (l1, r1)).2 from rfl]
  rw [round4_eq block (by omega), Res.ok_bind]
  generalize RipemdSpec.round4 _ false 2 _ = l2
  generalize RipemdSpec.round4 _ true 2 _ = r2
  rw [show ({ join4 l2 r2 with c := (join4 l2 r2).cc, cc := (join4 l2 r2).c } : Regs4) =
    join4 (RipemdSpec.exchange4 2 (l2, r2)).1 (RipemdSpec.exchange4 2 (l2, r2)).2 from rfl]
  rw [round4_eq block (by omega), Res.ok_bind]
  generalize RipemdSpec.round4 _ false 3 _ = l3
  generalize RipemdSpec.round4 _ true 3 _ = r3
  rfl

theorem hash320_eq : Compresses hash320 emb55 RipemdSpec.compress320 := by
  intro ⟨t1, t2⟩ ⟨st, len, block, bPos⟩ hst hb
  simp only at hst hb
  subst hst
  unfold hash320 RipemdSpec.compress320
  rw [getX_eq _ hb, show List.range 5 = [0, 1, 2, 3, 4] from rfl]
  simp only [emb55, goIdx, List.getElem?_cons_zero, List.getElem?_cons_succ, Res.ok_bind, List.foldl]
  rw [show (⟨t1.a, t1.b, t1.c, t1.d, t1.e, t2.a, t2.b, t2.c, t2.d, t2.e⟩ : Regs5) = join5 t1 t2 from rfl]
  rw [round5_eq block (by omega), Res.ok_bind]
  generalize RipemdSpec.round5 _ false 0 _ = l0
  generalize RipemdSpec.round5 _ true 0 _ = r0
  rw [show ({ join5 l0 r0 with b := (join5 l0 r0).bb, bb := (join5 l0 r0).b } : Regs5) =
    join5 (RipemdSpec.exchange5 0 (l0, r0)).1 (RipemdSpec.exchange5 0 (l0, r0)).2 from rfl]
  rw [round5_eq block (by omega), Res.ok_bind]
  generalize RipemdSpec.round5 _ false 1 _ = l1
  generalize RipemdSpec.round5 _ true 1 _ = r1
  rw [show ({ join5 l1 r1 with d := (join5 l1 r1).dd, dd := (join5 l1 r1).d } : Regs5) =
    join5 (RipemdSpec.exchange5 1 (l1, r1)).1 (RipemdSpec.exchange5 1 (l1, r1)).2 from rfl]
  rw [round5_eq block (by omega), Res.ok_bind]
  generalize RipemdSpec.round5 _ false 2 _ = l2
  generalize RipemdSpec.round5 _ true 2 _ = r2
  rw [show ({ join5 l2 r2 with a := (join5 l2 r2).aa, aa := (join5 l2 r2).a } : Regs5) =
    join5 (RipemdSpec.exchange5 2 (l2, r2)).1 (RipemdSpec.exchange5 2 (l2, r2)).2 from rfl]
  rw [round5_eq block (by omega), Res.ok_bind]
  generalize RipemdSpec.round5 _ false 3 _ = l3
  generalize RipemdSpec.round5 _ true 3 _ = r3
  rw [show ({ join5 l3 r3 with c := (join5 l3 r3).cc, cc := (join5 l3 r3).c } : Regs5) =
    join5 (RipemdSpec.exchange5 3 (l3, r3)).1 (RipemdSpec.exchange5 3 (l3, r3)).2 from rfl]
  rw [round5_eq block (by omega), Res.ok_bind]
  generalize RipemdSpec.round5 _ false 4 _ = l4
  generalize RipemdSpec.round5 _ true 4 _ = r4
  rfl

/-! ## Reset -/

theorem iv_at : ivAt iv 0 = .ok 0x67452301 ∧ ivAt iv 1 = .ok 0xEFCDAB89 ∧ ivAt iv 2 = .ok 0x98BADCFE ∧
    ivAt iv 3 = .ok 0x10325476 ∧ ivAt iv 4 = .ok 0xC3D2E1F0 := by decide +kernel

theorem iv2_at : ivAt iv2 0 = .ok 0x76543210 ∧ ivAt iv2 1 = .ok 0xFEDCBA98 ∧ ivAt iv2 2 = .ok 0x89ABCDEF ∧
    ivAt iv2 3 = .ok 0x01234567 ∧ ivAt iv2 4 = .ok 0x3C2D1E0F := by decide +kernel

theorem reset128_eq (c : Ctx U32) (t : RipemdSpec.Line4) (h : c.state = emb4 t) :
    reset v128 c = .ok { c with state := emb4 RipemdSpec.iv4, len := 0, bPos := 0 } := by
  obtain ⟨h0, h1, h2, h3, h4⟩ := iv_at
  simp only [reset, v128, resetLoop1, h, emb4, goSet, h0, h1, h2, h3, Res.ok_bind, Res.pure_eq, Nat.zero_add,
    Nat.reduceAdd, List.length_cons, List.length_nil, List.set]
  rfl

theorem reset160_eq (c : Ctx U32) (t : RipemdSpec.Line5) (h : c.state = emb5 t) :
    reset v160 c = .ok { c with state := emb5 RipemdSpec.iv5, len := 0, bPos := 0 } := by
  obtain ⟨h0, h1, h2, h3, h4⟩ := iv_at
  simp only [reset, v160, resetLoop1, h, emb5, goSet, h0, h1, h2, h3, h4, Res.ok_bind, Res.pure_eq, Nat.zero_add,
    Nat.reduceAdd, List.length_cons, List.length_nil, List.set]
  rfl

theorem reset256_eq (c : Ctx U32) (t : RipemdSpec.Line4 × RipemdSpec.Line4) (h : c.state = emb44 t) :
    reset v256 c = .ok { c with state := emb44 (RipemdSpec.iv4, RipemdSpec.iv4'), len := 0, bPos := 0 } := by
  obtain ⟨h0, h1, h2, h3, h4⟩ := iv_at
  obtain ⟨g0, g1, g2, g3, g4⟩ := iv2_at
  simp only [reset, v256, Nat.reduceDiv, resetLoop2, h, emb44, goSet, h0, h1, h2, h3, g0, g1, g2, g3, Res.ok_bind, Res.pure_eq,
    Nat.zero_add, Nat.reduceAdd, List.length_cons, List.length_nil, List.set]
  rfl

theorem reset320_eq (c : Ctx U32) (t : RipemdSpec.Line5 × RipemdSpec.Line5) (h : c.state = emb55 t) :
    reset v320 c = .ok { c with state := emb55 (RipemdSpec.iv5, RipemdSpec.iv5'), len := 0, bPos := 0 } := by
  obtain ⟨h0, h1, h2, h3, h4⟩ := iv_at
  obtain ⟨g0, g1, g2, g3, g4⟩ := iv2_at
  simp only [reset, v320, Nat.reduceDiv, resetLoop2, h, emb55, goSet, h0, h1, h2, h3, h4, g0, g1, g2, g3, g4, Res.ok_bind,
    Res.pure_eq, Nat.zero_add, Nat.reduceAdd, List.length_cons, List.length_nil, List.set]
  rfl

/-! ## Sum -/

theorem putSize_eq (block : List U8) (n : Nat) (h : block.length = 64) :
    putSize block 56 (BitVec.ofNat 64 n) = .ok (block.take 56 ++ leBytes 8 (8 * n)) := by
  have hA : (block.take 56).length = 56 := by simp; omega
  have hB : (block.drop 56).length = 8 := by simp; omega
  rw [← List.take_append_drop 56 block]
  generalize block.take 56 = A at hA ⊢
  generalize block.drop 56 = B at hB ⊢
  match B, hB with
  | [b0, b1, b2, b3, b4, b5, b6, b7], _ =>
    unfold putSize
    rw [show (56 : Nat) = A.length + 0 by omega]
    simp only [Nat.add_assoc, Nat.zero_add]
    simp only [goSet_append, List.length_cons, List.length_nil, List.set, Nat.reduceAdd, Nat.reduceLT, Res.ok_bind]
    rw [Nat.add_zero, List.take_left']
    · congr 2
      have hn : (BitVec.ofNat 64 n).toNat = n % 2 ^ 64 := BitVec.toNat_ofNat _ _
      simp only [leBytes, List.cons.injEq, and_true]
      refine ⟨?_, ?_, ?_, ?_, ?_, ?_, ?_, ?_⟩ <;>
        (apply BitVec.eq_of_toNat_eq
         simp only [BitVec.toNat_setWidth, BitVec.toNat_ushiftRight, BitVec.toNat_shiftLeft, BitVec.toNat_ofNat,
           Nat.shiftRight_eq_div_pow, Nat.shiftLeft_eq]
         omega)
    · rfl

theorem lePut32_eq (v : U32) : lePut32 v = leBytes 4 v.toNat := by
  have := v.isLt
  simp only [lePut32, leBytes, List.cons.injEq, and_true]
  refine ⟨?_, ?_, ?_, ?_⟩ <;>
    (apply BitVec.eq_of_toNat_eq
     simp only [BitVec.toNat_setWidth, BitVec.toNat_ushiftRight, BitVec.toNat_ofNat, Nat.shiftRight_eq_div_pow]
     first | done | omega)

theorem outLoop_eq (st : List U32) : ∀ (m i : Nat) (o : List U8), i + m ≤ st.length →
    outLoop st m i o = .ok (o ++ RipemdSpec.out ((st.drop i).take m))
  | 0, i, o, _ => by simp [outLoop, RipemdSpec.out]
  | m + 1, i, o, h => by
    unfold outLoop
    rw [goIdx_lt (by omega), Res.ok_bind, outLoop_eq st m (i + 1) _ (by omega)]
    rw [List.drop_eq_getElem_cons (i := i) (by omega), List.take_succ_cons, lePut32_eq]
    simp [RipemdSpec.out]

variable {τ : Type} {v : Variant} {emb : τ → List U32} {comp : τ → List U8 → τ}

theorem sum_eq (hc : Compresses v.hash emb comp) (hn : ∀ t, v.stateLen ≤ (emb t).length) (iv : τ) (c : Ctx U32)
    (log inp : List U8) (h : Rel emb comp iv c log) :
    sum v c inp = .ok (c, inp ++
      RipemdSpec.out ((emb ((blocks (RipemdSpec.pad log)).foldl comp iv)).take v.stateLen)) := by
  obtain ⟨hh, hl⟩ := h
  have hsz : (leBytes 8 (8 * log.length)).length = 8 := leBytes_length _ _
  have hbl : c.block.length = 64 := by obtain ⟨bs, rest, _, _, _, _, h, _⟩ := hh; exact h
  have hpos : c.bPos < 64 := by obtain ⟨bs, rest, _, _, _, h, _⟩ := hh; exact h
  have hset : (c.block.set c.bPos 0x80#8).take (c.bPos + 1) = c.block.take c.bPos ++ [0x80#8] := by
    rw [List.take_add_one, List.take_set_of_le (Nat.le_refl _)]
    simp [hbl, hpos]
  unfold sum
  simp only
  rw [goSet_lt (by omega), Res.ok_bind]
  unfold closeBlock sizeSpace
  by_cases hov : c.bPos + 1 > 56
  · obtain ⟨t, hst, hfold⟩ := foldl_over (leBytes 8 (8 * log.length)) hh (by omega) (by omega)
    rw [RipemdSpec.pad, hfold]
    dsimp only
    rw [if_pos hov, zeroIn_eq (by simp; omega) (Nat.le_refl _), Res.ok_bind, hset, List.drop_length, List.append_nil,
      List.length_set, hbl, List.append_assoc, List.singleton_append,
      hc t { c with block := c.block.take c.bPos ++ 0x80#8 :: List.replicate (64 - (c.bPos + 1)) 0#8, bPos := c.bPos + 1 }
        hst (by simp; omega), Res.ok_bind]
    dsimp only
    rw [zeroIn_eq (by omega) (by simp; omega), Res.ok_bind]
    rw [hl, putSize_eq _ _ (by simp; omega), Res.ok_bind]
    simp only [Nat.sub_zero, List.take_zero, List.nil_append]
    rw [List.take_left' (by simp)]
    rw [hc (comp t (c.block.take c.bPos ++ 0x80#8 :: List.replicate (63 - c.bPos) 0#8)) _
      (by dsimp only; rw [show 63 - c.bPos = 64 - (c.bPos + 1) by omega]) (by simp [hsz]), Res.ok_bind]
    dsimp only
    rw [outLoop_eq _ _ _ _ (by rw [Nat.zero_add]; exact hn _), Res.ok_bind, hsz]
    simp only [List.nil_append, List.drop_zero, Res.pure_eq]
  · obtain ⟨t, hst, hfold⟩ := foldl_fit (leBytes 8 (8 * log.length)) hh (by omega)
    rw [RipemdSpec.pad, hfold]
    dsimp only
    rw [if_neg hov, Res.ok_bind]
    dsimp only
    rw [zeroIn_eq (by omega) (by simp; omega), Res.ok_bind, hset]
    rw [hl, putSize_eq _ _ (by simp; omega), Res.ok_bind, List.take_left' (by simp; omega)]
    rw [hc t { c with len := BitVec.ofNat 64 log.length, bPos := 56 + 8, block := (c.block.take c.bPos ++ [0x80#8] ++
      List.replicate (56 - (c.bPos + 1)) 0#8 ++ leBytes 8 (8 * log.length)) } hst (by simp [hsz]; omega), Res.ok_bind]
    dsimp only
    rw [outLoop_eq _ _ _ _ (by rw [Nat.zero_add]; exact hn _), Res.ok_bind, hsz]
    simp only [List.nil_append, List.drop_zero, Res.pure_eq, List.append_assoc, List.singleton_append]
    rw [show 64 - (c.bPos + 1 + 8) = 56 - (c.bPos + 1) by omega]

/-! ## Refinement -/

theorem rel_init (iv : τ) (c : Ctx U32) (hb : c.block.length = 64) :
    Rel emb comp iv { c with state := emb iv, len := 0, bPos := 0 } [] :=
  ⟨⟨[], [], rfl, by simp, rfl, by show 0 < 64; omega, hb, rfl, rfl⟩, rfl⟩

theorem refines (digest : List U8 → List U8) (iv z : τ) (hc : Compresses v.hash emb comp)
    (hn : ∀ t, v.stateLen ≤ (emb t).length)
    (hd : ∀ m, digest m = RipemdSpec.out ((emb ((blocks (RipemdSpec.pad m)).foldl comp iv)).take v.stateLen))
    (hz : List.replicate 10 0#32 = emb z)
    (hr : ∀ c t, c.state = emb t → reset v c = .ok { c with state := emb iv, len := 0, bPos := 0 }) :
    HashSpec.Refines (impl v) (RipemdSpec.algo digest (4 * v.stateLen)) (fun _ _ => True) (Rel emb comp iv) where
  new := ⟨_, hr _ z hz, rel_init iv _ (by simp)⟩
  write := fun s log p h _ => write_rel hc iv s log p h
  sum := fun s log inp h => ⟨s, by
    show sum v s inp = _
    rw [sum_eq hc hn iv s log inp h, ← hd]; rfl, h⟩
  sumN := fun _ _ _ => rfl
  reset := fun s log h => by
    obtain ⟨⟨bs, rest, _, _, _, _, hb, _, hst⟩, _⟩ := h
    exact ⟨_, hr s _ hst, rel_init iv s hb⟩
  size := fun _ _ _ => Nat.mul_comm _ _
  blockSize := fun _ _ _ => rfl

theorem refines128 : HashSpec.Refines (impl v128) (RipemdSpec.algo RipemdSpec.ripemd128 16) (fun _ _ => True)
    (Rel emb4 RipemdSpec.compress128 RipemdSpec.iv4) :=
  refines _ _ ⟨0, 0, 0, 0⟩ hash128_eq (fun _ => by simp [v128, emb4]) (fun _ => rfl) rfl reset128_eq

theorem refines160 : HashSpec.Refines (impl v160) (RipemdSpec.algo RipemdSpec.ripemd160 20) (fun _ _ => True)
    (Rel emb5 RipemdSpec.compress160 RipemdSpec.iv5) :=
  refines _ _ ⟨0, 0, 0, 0, 0⟩ hash160_eq (fun _ => by simp [v160, emb5]) (fun _ => rfl) rfl reset160_eq

theorem refines256 : HashSpec.Refines (impl v256) (RipemdSpec.algo RipemdSpec.ripemd256 32) (fun _ _ => True)
    (Rel emb44 RipemdSpec.compress256 (RipemdSpec.iv4, RipemdSpec.iv4')) :=
  refines _ _ (⟨0, 0, 0, 0⟩, ⟨0, 0, 0, 0⟩) hash256_eq (fun _ => by simp [v256, emb44]) (fun _ => rfl) rfl reset256_eq

theorem refines320 : HashSpec.Refines (impl v320) (RipemdSpec.algo RipemdSpec.ripemd320 40) (fun _ _ => True)
    (Rel emb55 RipemdSpec.compress320 (RipemdSpec.iv5, RipemdSpec.iv5')) :=
  refines _ _ (⟨0, 0, 0, 0, 0⟩, ⟨0, 0, 0, 0, 0⟩) hash320_eq (fun _ => by simp [v320, emb55]) (fun _ => rfl) rfl reset320_eq

end Ripemd
