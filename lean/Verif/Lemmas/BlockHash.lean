import Verif.Model.BlockHash
import Verif.Spec.Blocks
import Verif.Spec.Stream
import Verif.Spec.Bytes
import Verif.Lemmas.Bytes
import Mathlib.Data.List.Induction

/-! # Block-buffered hash objects: buffering, padding and Merkle–Damgård arguments -/
namespace BlockSpec

theorem leBytes_length (n v : Nat) : (leBytes n v).length = n := by
  induction n generalizing v with
  | zero => rfl
  | succ n ih => simp [leBytes, ih]

theorem beBytes_length (n v : Nat) : (beBytes n v).length = n := by simp [beBytes, leBytes_length]

theorem blocks_cons {b l : List U8} (h : b.length = 64) : blocks (b ++ l) = b :: blocks l := by
  unfold blocks
  have hn : (b ++ l).length / 64 = l.length / 64 + 1 := by rw [List.length_append]; omega
  rw [hn, List.range_succ_eq_map, List.map_cons, List.map_map]
  congr 1
  · simp [← h]
  · apply List.map_congr_left
    intro i _
    simp only [Function.comp]
    rw [List.drop_append, List.drop_of_length_le (by omega), h, List.nil_append]
    congr 2

theorem blocks_nil : blocks [] = [] := rfl

theorem blocks_single {b : List U8} (h : b.length = 64) : blocks b = [b] := by
  have := blocks_cons (l := []) h
  rwa [List.append_nil, blocks_nil] at this

theorem blocks_flatten : ∀ (bs : List (List U8)) (l : List U8), (∀ b ∈ bs, b.length = 64) →
    blocks (bs.flatten ++ l) = bs ++ blocks l
  | [], l, _ => by simp
  | b :: bs, l, h => by
    rw [List.flatten_cons, List.append_assoc, blocks_cons (h b (by simp)), blocks_flatten bs l (fun x hx => h x (by simp [hx]))]
    rfl

theorem flatten_length : ∀ (bs : List (List U8)), (∀ b ∈ bs, b.length = 64) → bs.flatten.length = 64 * bs.length
  | [], _ => rfl
  | b :: bs, h => by
    rw [List.flatten_cons, List.length_append, h b (by simp), flatten_length bs (fun x hx => h x (by simp [hx]))]
    simp; omega

theorem flatten_blocks : ∀ (n : Nat) (m : List U8), m.length = 64 * n → (blocks m).flatten = m
  | 0, m, h => by have : m = [] := by simpa using h
                  subst this; rfl
  | n + 1, m, h => by
    conv => lhs; rw [← List.take_append_drop 64 m]
    rw [blocks_cons (by simp; omega), List.flatten_cons, flatten_blocks n _ (by simp; omega), List.take_append_drop]

theorem blocks_mem_length {m b : List U8} (h : b ∈ blocks m) : b.length = 64 := by
  simp only [blocks, List.mem_map, List.mem_range] at h
  obtain ⟨i, hi, rfl⟩ := h
  simp; omega

theorem blocks_length (m : List U8) : (blocks m).length = m.length / 64 := by simp [blocks]

theorem padWith_length (size m : List U8) (hs : size.length < 64) : 64 ∣ (padWith size m).length := by
  simp only [padWith, List.length_append, List.length_cons, List.length_replicate]
  omega

/-- The blocks of a padded message when the size fits in the last one. -/
theorem blocks_pad_fit (size : List U8) (bs : List (List U8)) (rest : List U8) (hb : ∀ b ∈ bs, b.length = 64)
    (hr : rest.length + 1 + size.length ≤ 64) :
    blocks (padWith size (bs.flatten ++ rest)) =
      bs ++ [rest ++ 0x80#8 :: List.replicate (64 - (rest.length + 1 + size.length)) 0#8 ++ size] := by
  have hl := flatten_length bs hb
  unfold padWith
  rw [show (64 - ((bs.flatten ++ rest).length + 1 + size.length) % 64) % 64 = 64 - (rest.length + 1 + size.length) by
    rw [List.length_append, hl]; omega]
  rw [List.append_assoc, List.append_assoc, blocks_flatten bs _ hb, ← List.append_assoc]
  rw [blocks_single]
  simp; omega

/-- The blocks of a padded message when the size needs a block of its own. -/
theorem blocks_pad_over (size : List U8) (bs : List (List U8)) (rest : List U8) (hb : ∀ b ∈ bs, b.length = 64)
    (hlt : rest.length < 64) (hs : size.length < 64) (hr : 64 < rest.length + 1 + size.length) :
    blocks (padWith size (bs.flatten ++ rest)) =
      bs ++ [rest ++ 0x80#8 :: List.replicate (63 - rest.length) 0#8, List.replicate (64 - size.length) 0#8 ++ size] := by
  have hl := flatten_length bs hb
  unfold padWith
  rw [show (64 - ((bs.flatten ++ rest).length + 1 + size.length) % 64) % 64 = (63 - rest.length) + (64 - size.length) by
    rw [List.length_append, hl]; omega]
  rw [← List.replicate_append_replicate, List.append_assoc, List.append_assoc, blocks_flatten bs _ hb]
  congr 1
  rw [show rest ++ (0x80#8 :: (List.replicate (63 - rest.length) 0#8 ++ List.replicate (64 - size.length) 0#8) ++ size)
      = (rest ++ 0x80#8 :: List.replicate (63 - rest.length) 0#8) ++ (List.replicate (64 - size.length) 0#8 ++ size) by simp only [List.append_assoc, List.cons_append]]
  rw [blocks_cons (by simp; omega), blocks_single (by simp; omega)]

/-! ## Injectivity and collisions -/

theorem leVal_leBytes (n v : Nat) : BytesSpec.leVal (leBytes n v) = v % 256 ^ n := by
  induction n generalizing v with
  | zero => simp [leBytes, BytesSpec.leVal, Nat.mod_one]
  | succ n ih =>
    rw [leBytes, BytesSpec.leVal, ih, BitVec.toNat_ofNat, show 256 ^ (n + 1) = 256 * 256 ^ n from Nat.pow_succ', Nat.mod_mul]

theorem leBytes_inj {n v w : Nat} (h : leBytes n v = leBytes n w) : v % 256 ^ n = w % 256 ^ n := by
  rw [← leVal_leBytes, ← leVal_leBytes, h]

theorem beBytes_inj {n v w : Nat} (h : beBytes n v = beBytes n w) : v % 256 ^ n = w % 256 ^ n :=
  leBytes_inj (List.reverse_inj.mp h)

/-- Padding is injective if the size field tells lengths less than 64 apart. -/
theorem padWith_inj {s s' m m' : List U8} (hl : s.length = s'.length) (h : padWith s m = padWith s' m') (hs : s.length < 64)
    (hd : s = s' → m.length < m'.length + 64 → m'.length < m.length + 64 → m.length = m'.length) : m = m' := by
  have hlen := congrArg List.length h
  unfold padWith at h
  obtain ⟨h1, h2⟩ := List.append_inj' h hl
  have := hd h2 (by
    simp only [padWith, List.length_append, List.length_cons, List.length_replicate] at hlen; omega) (by
    simp only [padWith, List.length_append, List.length_cons, List.length_replicate] at hlen; omega)
  exact (List.append_inj h1 this).1

theorem blocks_inj {m m' : List U8} (h : 64 ∣ m.length) (h' : 64 ∣ m'.length) (e : blocks m = blocks m') : m = m' := by
  obtain ⟨n, hn⟩ := h
  obtain ⟨n', hn'⟩ := h'
  rw [← flatten_blocks n m hn, ← flatten_blocks n' m' hn', e]

variable {τ : Type} {comp : τ → List U8 → τ} {iv : τ}

theorem collision_same_length : ∀ (bs bs' : List (List U8)), bs.length = bs'.length → bs ≠ bs' →
    bs.foldl comp iv = bs'.foldl comp iv → Collision comp iv bs bs' := by
  intro bs
  induction bs using List.reverseRecOn with
  | nil => intro bs' hl hne; exact absurd (List.length_eq_zero_iff.mp hl.symm).symm hne
  | append_singleton as b ih =>
    intro bs' hl hne he
    induction bs' using List.reverseRecOn with
    | nil => simp at hl
    | append_singleton as' b' _ =>
      by_cases hc : (as.foldl comp iv, b) = (as'.foldl comp iv, b')
      · obtain ⟨h1, h2⟩ := Prod.mk.inj hc
        obtain ⟨p, c, p', c', h3, h4, h5⟩ := ih as' (by simpa using hl) (fun h => hne (by rw [h, h2])) h1
        exact ⟨p, c, p', c', h3.trans (List.prefix_append _ _), h4.trans (List.prefix_append _ _), h5⟩
      · exact ⟨as, b, as', b', List.prefix_refl _, List.prefix_refl _, hc, by simpa [List.foldl_append] using he⟩

theorem collision_last {as as' : List (List U8)} {b b' : List U8} (h : b ≠ b')
    (he : (as ++ [b]).foldl comp iv = (as' ++ [b']).foldl comp iv) : Collision comp iv (as ++ [b]) (as' ++ [b']) :=
  ⟨as, b, as', b', List.prefix_refl _, List.prefix_refl _, fun e => h (Prod.mk.inj e).2, by simpa [List.foldl_append] using he⟩

/-- The last block ends with the size field. -/
theorem blocks_pad_last (s m : List U8) (hs : s.length < 64) : ∃ as b, blocks (padWith s m) = as ++ [b ++ s] := by
  have hm := List.take_append_drop (64 * (m.length / 64)) m
  have hb : ∀ b ∈ blocks (m.take (64 * (m.length / 64))), b.length = 64 := fun b h => blocks_mem_length h
  have hf := flatten_blocks (m.length / 64) (m.take (64 * (m.length / 64))) (by simp; omega)
  have hr : (m.drop (64 * (m.length / 64))).length < 64 := by simp; omega
  rw [← hm, ← hf]
  generalize blocks (m.take (64 * (m.length / 64))) = bs at hb
  generalize m.drop (64 * (m.length / 64)) = rest at hr
  by_cases h : rest.length + 1 + s.length ≤ 64
  · exact ⟨_, _, blocks_pad_fit s bs rest hb h⟩
  · refine ⟨bs ++ [rest ++ 0x80#8 :: List.replicate (63 - rest.length) 0#8], List.replicate (64 - s.length) 0#8, ?_⟩
    rw [blocks_pad_over s bs rest hb hr hs (by omega), List.append_assoc]; rfl

/-- Merkle–Damgård: with a size field that is injective on the two messages, equal results of different messages give a
collision of the compression function. -/
theorem md_collision {s s' m m' : List U8} (hl : s.length = s'.length) (hs : s.length < 64)
    (hsz : m.length ≠ m'.length → s ≠ s') (hsz' : m.length = m'.length → s = s') (hne : m ≠ m')
    (he : (blocks (padWith s m)).foldl comp iv = (blocks (padWith s' m')).foldl comp iv) :
    Collision comp iv (blocks (padWith s m)) (blocks (padWith s' m')) := by
  by_cases hm : m.length = m'.length
  · have := hsz' hm
    subst this
    apply collision_same_length
    · rw [blocks_length, blocks_length]
      simp [padWith, hm]
    · intro h
      exact hne (padWith_inj rfl (blocks_inj (padWith_length _ _ hs) (padWith_length _ _ hs) h) hs (fun _ _ _ => hm))
    · exact he
  · obtain ⟨as, b, h1⟩ := blocks_pad_last s m hs
    obtain ⟨as', b', h2⟩ := blocks_pad_last s' m' (by omega)
    rw [h1, h2] at he ⊢
    exact collision_last (fun h => hsz hm (List.append_inj' h hl).2) he

end BlockSpec

namespace BlockHash
open BlockSpec

theorem goSet_append {α : Type} (A B : List α) (i : Nat) (v : α) (h : i < B.length) :
    goSet (A ++ B) (A.length + i) v = .ok (A ++ B.set i v) := by
  rw [goSet_lt (by simp; omega), List.set_append_right _ _ (by omega)]
  congr 3
  omega

theorem zeroIn_eq {block : List U8} {lo hi : Nat} (h : lo ≤ hi) (h' : hi ≤ block.length) :
    zeroIn block lo hi = .ok (block.take lo ++ List.replicate (hi - lo) 0#8 ++ block.drop hi) := by
  unfold zeroIn
  rw [show Slice.sub ⟨0, block.length⟩ lo hi = .ok ⟨0 + lo, hi - lo⟩ from if_pos ⟨h, h'⟩]
  simp only [Res.ok_bind, Res.pure_eq, Slice.content, Bytes.Zero_eq]
  congr 1
  apply List.ext_getElem
  · simp; omega
  · intro i h1 h2
    simp only [List.length_map, List.length_range] at h1
    simp only [List.getElem_map, List.getElem_range, List.getElem_append, List.length_append, List.length_take,
      List.length_replicate, List.getElem_take, List.getElem_replicate, List.getElem_drop, Nat.zero_add]
    by_cases ha : i < lo
    · rw [if_neg (by omega), dif_pos (by omega), dif_pos (by omega)]
      simp [h1]
    · by_cases hb : i < hi
      · rw [if_pos (by omega), dif_pos (by omega), dif_neg (by omega)]
      · rw [if_neg (by omega), dif_neg (by omega)]
        rw [List.getD_eq_getElem?_getD, List.getElem?_eq_getElem h1]
        simp only [Option.getD_some]
        congr 1
        omega

variable {α τ : Type}

/-- `hash` runs the compression function `comp`, on states stored as `emb`. -/
def Compresses (hash : Ctx α → Res (Ctx α)) (emb : τ → List α) (comp : τ → List U8 → τ) : Prop :=
  ∀ t c, c.state = emb t → c.block.length = 64 → hash c = .ok { c with state := emb (comp t c.block), bPos := 0 }

/-- The object holds the chaining value of all full blocks and the tail. -/
def Holds (emb : τ → List α) (comp : τ → List U8 → τ) (iv : τ) (c : Ctx α) (log : List U8) : Prop :=
  ∃ (bs : List (List U8)) (rest : List U8), log = bs.flatten ++ rest ∧ (∀ b ∈ bs, b.length = 64) ∧ rest.length = c.bPos ∧ c.bPos < 64 ∧
    c.block.length = 64 ∧ c.block.take c.bPos = rest ∧ c.state = emb (bs.foldl comp iv)

/-- `Holds`, and the length is right. -/
def Rel (emb : τ → List α) (comp : τ → List U8 → τ) (iv : τ) (c : Ctx α) (log : List U8) : Prop :=
  Holds emb comp iv c log ∧ c.len = BitVec.ofNat 64 log.length

theorem goCopyAt_ok {dst src : List α} {pos : Nat} (h : pos + src.length ≤ dst.length) :
    goCopyAt dst pos src = .ok (dst.take pos ++ src ++ dst.drop (pos + src.length)) := by
  unfold goCopyAt
  rw [if_pos (by omega)]
  simp only
  rw [Nat.min_eq_right (by omega), List.take_of_length_le (Nat.le_refl _)]

variable {hash : Ctx α → Res (Ctx α)} {emb : τ → List α} {comp : τ → List U8 → τ}

theorem writeLoop_holds (hc : Compresses hash emb comp) (iv : τ) : ∀ (fuel : Nat) (c : Ctx α) (log p : List U8),
    p.length < fuel → Holds emb comp iv c log →
    ∃ c', writeLoop hash fuel c p p.length (blockSizeBytes - c.bPos) = .ok c' ∧ Holds emb comp iv c' (log ++ p) ∧ c'.len = c.len
  | 0, _, _, _, h, _ => absurd h (Nat.not_lt_zero _)
  | fuel + 1, c, log, p, hf, hh => by
    obtain ⟨bs, rest, hlog, hbs, hrl, hpos, hbl, htake, hst⟩ := hh
    unfold writeLoop blockSizeBytes
    by_cases h0 : p.length > 0
    · rw [if_pos h0]
      by_cases hsp : 64 - c.bPos > p.length
      · rw [if_pos hsp, goCopyAt_ok (by omega)]
        refine ⟨_, rfl, ⟨bs, rest ++ p, by simp [hlog], hbs, by simp [hrl], ?_, ?_, ?_, hst⟩, rfl⟩
        · show c.bPos + p.length < 64
          omega
        · simp; omega
        · show List.take (c.bPos + p.length) _ = _
          rw [htake, List.take_append_of_le_length (by simp [hrl]), List.take_of_length_le (by simp [hrl])]
      · rw [if_neg hsp]
        have hs : goSlice p 0 (64 - c.bPos) = .ok (p.take (64 - c.bPos)) := by
          unfold goSlice; rw [if_pos ⟨by omega, by omega⟩]; rfl
        have htl : (p.take (64 - c.bPos)).length = 64 - c.bPos := by simp; omega
        rw [hs]
        simp only [Res.ok_bind]
        rw [goCopyAt_ok (by rw [htl]; omega)]
        simp only [Res.ok_bind]
        rw [htl, htake, List.drop_of_length_le (by omega), List.append_nil]
        have hb : (rest ++ p.take (64 - c.bPos)).length = 64 := by rw [List.length_append, htl]; omega
        rw [hc (bs.foldl comp iv) { c with block := rest ++ p.take (64 - c.bPos), bPos := c.bPos + (64 - c.bPos) } hst hb]
        simp only [Res.ok_bind]
        have hd : goSlice p (64 - c.bPos) p.length = .ok (p.drop (64 - c.bPos)) := by
          unfold goSlice; rw [if_pos ⟨by omega, by omega⟩, List.take_of_length_le (Nat.le_refl _)]
        rw [hd]
        simp only [Res.ok_bind]
        obtain ⟨c', e, hh', hl'⟩ := writeLoop_holds hc iv fuel
          { c with state := emb (comp (bs.foldl comp iv) (rest ++ p.take (64 - c.bPos))),
                   block := rest ++ p.take (64 - c.bPos), bPos := 0 }
          (log ++ p.take (64 - c.bPos)) (p.drop (64 - c.bPos)) (by simp; omega)
          ⟨bs ++ [rest ++ p.take (64 - c.bPos)], [], by simp [hlog], by
            intro b hb'
            rcases List.mem_append.mp hb' with h | h
            · exact hbs b h
            · simp only [List.mem_singleton] at h; rw [h]; exact hb,
            rfl, by show 0 < 64; omega, hb, rfl, by simp⟩
        refine ⟨c', ?_, ?_, hl'⟩
        · rw [List.length_drop] at e
          exact e
        · rw [List.append_assoc, List.take_append_drop] at hh'
          exact hh'
    · rw [if_neg h0]
      have hp : p = [] := List.length_eq_zero_iff.mp (by omega)
      subst hp
      exact ⟨c, rfl, ⟨bs, rest, by simp [hlog], hbs, hrl, hpos, hbl, htake, hst⟩, rfl⟩

theorem write_rel (hc : Compresses hash emb comp) (iv : τ) (c : Ctx α) (log p : List U8) (h : Rel emb comp iv c log) :
    ∃ c', write hash c p = .ok (c', p.length, false) ∧ Rel emb comp iv c' (log ++ p) := by
  obtain ⟨hh, hl⟩ := h
  obtain ⟨c', e, hh', hl'⟩ := writeLoop_holds hc iv (p.length + 1) { c with len := c.len + BitVec.ofNat 64 p.length } log p
    (by omega) hh
  refine ⟨c', ?_, hh', ?_⟩
  · unfold write
    simp only [e, Res.ok_bind, Res.pure_eq]
  · rw [hl']
    simp only [hl, List.length_append, BitVec.ofNat_add]

/-- The state after hashing the padded message, given what the code leaves in its last blocks. -/
theorem foldl_fit {iv : τ} {c : Ctx α} {log : List U8} (size : List U8) (h : Holds emb comp iv c log)
    (hr : c.bPos + 1 + size.length ≤ 64) : ∃ t, c.state = emb t ∧
    (blocks (padWith size log)).foldl comp iv =
      comp t (c.block.take c.bPos ++ 0x80#8 :: List.replicate (64 - (c.bPos + 1 + size.length)) 0#8 ++ size) := by
  obtain ⟨bs, rest, hlog, hbs, hrl, hpos, hbl, htake, hst⟩ := h
  refine ⟨_, hst, ?_⟩
  rw [hlog, blocks_pad_fit size bs rest hbs (by omega), List.foldl_append, htake, hrl]
  rfl

theorem foldl_over {iv : τ} {c : Ctx α} {log : List U8} (size : List U8) (h : Holds emb comp iv c log)
    (hs : size.length < 64) (hr : 64 < c.bPos + 1 + size.length) : ∃ t, c.state = emb t ∧
    (blocks (padWith size log)).foldl comp iv =
      comp (comp t (c.block.take c.bPos ++ 0x80#8 :: List.replicate (63 - c.bPos) 0#8))
        (List.replicate (64 - size.length) 0#8 ++ size) := by
  obtain ⟨bs, rest, hlog, hbs, hrl, hpos, hbl, htake, hst⟩ := h
  refine ⟨_, hst, ?_⟩
  rw [hlog, blocks_pad_over size bs rest hbs (by omega) hs (by omega), List.foldl_append, htake, hrl]
  rfl

end BlockHash
