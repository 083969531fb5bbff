import Verif.Lemmas.Hex
import Verif.Model.Codegen
import Verif.Spec.Codegen
import Mathlib.Tactic.Ring

namespace Codegen
open HexSpec CodegenSpec

/-! ## Sequential writing into a buffer -/

/-- Writing `w` byte by byte at `ptr`. -/
def put : List U8 → (ret : List U8) → (ptr : Nat) → Res (List U8 × Nat)
  | [], ret, ptr => .ok (ret, ptr)
  | v :: w, ret, ptr => goSet ret ptr v >>= fun ret => put w ret (ptr + 1)

theorem put_append : ∀ (w w' ret : List U8) (ptr : Nat),
    put (w ++ w') ret ptr = (put w ret ptr >>= fun x => put w' x.1 x.2)
  | [], _, _, _ => rfl
  | v :: w, w', ret, ptr => by
    simp only [List.cons_append, put]
    cases goSet ret ptr v with
    | panic => rfl
    | ok r => simp only [Res.ok_bind]; exact put_append w w' r (ptr + 1)

theorem put_eq : ∀ (w done rest : List U8),
    put w (done ++ rest) done.length = if w.length ≤ rest.length then
      .ok (done ++ w ++ rest.drop w.length, done.length + w.length) else .panic
  | [], done, rest => by simp [put]
  | v :: w, done, [] => by simp [put, goSet]
  | v :: w, done, x :: rest => by
    have e : goSet (done ++ x :: rest) done.length v = .ok ((done ++ [v]) ++ rest) := by
      simp [goSet]
    have := put_eq w (done ++ [v]) rest
    rw [List.length_append] at this
    simp only [put, e, Res.ok_bind]
    rw [show done.length + 1 = done.length + [v].length from rfl, this]
    simp only [List.length_cons, Nat.add_le_add_iff_right, List.length_nil]
    split
    · simp; omega
    · rfl

/-! ## Texts by byte index -/

/-- The text of bytes from byte index `k` on: `sec` before bytes at positive multiples of `n`, `byt` before other bytes
but the first, `pre` before every byte. -/
def txt (sec byt pre : List U8) (n : Nat) : (k : Nat) → List U8 → List U8
  | _, [] => []
  | k, b :: l => (if k = 0 then [] else if k % n = 0 then sec else byt) ++ pre ++ encode [b] ++ txt sec byt pre n (k + 1) l

theorem txt_append (sec byt pre : List U8) (n : Nat) : ∀ (a b : List U8) (k : Nat),
    txt sec byt pre n k (a ++ b) = txt sec byt pre n k a ++ txt sec byt pre n (k + a.length) b
  | [], b, k => by simp [txt]
  | x :: a, b, k => by
    simp only [List.cons_append, txt, txt_append sec byt pre n a b, List.append_assoc, List.length_cons]
    rw [show k + 1 + a.length = k + (a.length + 1) by omega]

/-- Bytes strictly inside a section. -/
theorem txt_inside (sec byt pre : List U8) (n : Nat) (hn : 0 < n) : ∀ (s : List U8) (k : Nat), k % n ≠ 0 →
    k % n + s.length ≤ n → txt sec byt pre n k s = s.flatMap (fun b => byt ++ (pre ++ encode [b]))
  | [], _, _, _ => by simp [txt]
  | b :: s, k, hk, hs => by
    have hk0 : k ≠ 0 := by rintro rfl; simp at hk
    simp only [txt, if_neg hk0, if_neg hk, List.flatMap_cons, List.append_assoc]
    congr 3
    match s with
    | [] => simp [txt]
    | c :: s =>
      have hlt : k % n + 1 < n := by simp at hs; omega
      have e : (k + 1) % n = k % n + 1 := by
        rw [Nat.add_mod, Nat.mod_eq_of_lt (a := 1) (by omega), Nat.mod_eq_of_lt hlt]
      exact txt_inside sec byt pre n hn (c :: s) (k + 1) (by omega) (by simp at hs ⊢; omega)

theorem intercalate_cons (sep x : List U8) (xs : List (List U8)) :
    sep.intercalate (x :: xs) = x ++ xs.flatMap (fun y => sep ++ y) := by
  induction xs generalizing x with
  | nil => simp [List.intercalate]
  | cons y ys ih =>
    have : sep.intercalate (x :: y :: ys) = x ++ (sep ++ sep.intercalate (y :: ys)) := by
      simp [List.intercalate, List.intersperse]
    rw [this, ih]; simp

/-- One section. -/
def secText (byt pre : List U8) (s : List U8) : List U8 := byt.intercalate (s.map fun b => pre ++ encode [b])

theorem txt_section (sec byt pre : List U8) (n m : Nat) (hn : 0 < n) (s : List U8) (hs : s ≠ []) (hl : s.length ≤ n) :
    txt sec byt pre n (n * m) s = (if m = 0 then [] else sec) ++ secText byt pre s := by
  match s, hs with
  | b :: s, _ =>
    have e : (if n * m = 0 then [] else if (n * m) % n = 0 then sec else byt) = if m = 0 then [] else sec := by
      by_cases hm : m = 0
      · simp [hm]
      · rw [if_neg hm, if_neg (by simp; omega), if_pos (by simp)]
    simp only [txt, e, secText, List.map_cons, intercalate_cons, List.append_assoc]
    congr 3
    match s with
    | [] => simp [txt]
    | c :: s =>
      have hlt : 1 < n := by simp at hl; omega
      have e : (n * m + 1) % n = 1 := by
        rw [Nat.add_mod]; simp [Nat.mod_eq_of_lt hlt]
      rw [txt_inside sec byt pre n hn (c :: s) _ (by omega) (by rw [e]; simp at hl ⊢; omega), List.flatMap_map]

theorem sections_nil {n : Nat} (hn : 0 < n) : sections n [] = [] := by
  have : (n - 1) / n = 0 := Nat.div_eq_of_lt (by omega)
  simp [sections, this]

theorem sections_cons {k : Nat} (hk : 0 < k) (l : List U8) (hl : l ≠ []) :
    sections k l = l.take k :: sections k (l.drop k) := by
  unfold sections
  have hpos : 0 < l.length := List.length_pos_iff.mpr hl
  have e : (l.length + (k - 1)) / k = ((l.drop k).length + (k - 1)) / k + 1 := by
    rw [List.length_drop]
    rcases Nat.lt_or_ge l.length k with h | h
    · have e1 : (l.length + (k - 1)) / k = 1 := by
        rw [Nat.div_eq_iff (by omega)]; omega
      have e2 : (l.length - k + (k - 1)) / k = 0 := Nat.div_eq_of_lt (by omega)
      omega
    · have : l.length + (k - 1) = (l.length - k + (k - 1)) + k := by omega
      rw [this, Nat.add_div_right _ hk]
  rw [e, List.range_succ_eq_map]
  simp only [List.map_cons, List.map_map, Function.comp_def, Nat.mul_zero, List.drop_zero, List.drop_drop]
  congr 1
  apply List.map_congr_left
  intro i _
  rw [Nat.mul_succ, Nat.add_comm]

theorem txt_sections_from (sec byt pre : List U8) (n : Nat) (hn : 0 < n) (N : Nat) : ∀ (l : List U8) (m : Nat),
    l.length ≤ N → m ≠ 0 →
    txt sec byt pre n (n * m) l = (sections n l).flatMap (fun s => sec ++ secText byt pre s) := by
  induction N with
  | zero =>
    intro l m hl _
    have : l = [] := List.length_eq_zero_iff.mp (by omega)
    subst this; simp [txt, sections_nil hn]
  | succ N ih =>
    intro l m hl hm
    by_cases h0 : l = []
    · subst h0; simp [txt, sections_nil hn]
    · have hpos : 0 < l.length := List.length_pos_iff.mpr h0
      rw [sections_cons hn l h0, List.flatMap_cons]
      conv => lhs; rw [← List.take_append_drop n l, txt_append]
      rw [txt_section _ _ _ n m hn _ (by simp [h0]; omega) (List.length_take_le _ _), if_neg hm]
      congr 1
      by_cases hd : l.drop n = []
      · rw [hd]; simp [txt, sections_nil hn]
      · have hln : n < l.length := by
          rcases Nat.lt_or_ge n l.length with h | h
          · exact h
          · exact absurd (List.drop_eq_nil_of_le h) hd
        rw [List.length_take, Nat.min_eq_left (by omega), show n * m + n = n * (m + 1) by ring]
        exact ih _ _ (by simp; omega) (by omega)

theorem txt_sections (sec byt pre : List U8) (n : Nat) (hn : 0 < n) (l : List U8) :
    txt sec byt pre n 0 l = sec.intercalate ((sections n l).map (secText byt pre)) := by
  by_cases h0 : l = []
  · subst h0; simp [txt, sections_nil hn, List.intercalate]
  · have hpos : 0 < l.length := List.length_pos_iff.mpr h0
    rw [sections_cons hn l h0, List.map_cons, intercalate_cons]
    conv => lhs; rw [← List.take_append_drop n l, txt_append]
    rw [show (0 : Nat) = n * 0 by simp, txt_section _ _ _ n 0 hn _ (by simp [h0]; omega) (List.length_take_le _ _), if_pos rfl]
    congr 1
    by_cases hd : l.drop n = []
    · rw [hd]; simp [txt, sections_nil hn]
    · have hln : n < l.length := by
        rcases Nat.lt_or_ge n l.length with h | h
        · exact h
        · exact absurd (List.drop_eq_nil_of_le h) hd
      rw [List.length_take, Nat.min_eq_left (by omega), show n * 0 + n = n * 1 by ring,
        txt_sections_from _ _ _ n hn _ _ _ (Nat.le_refl _) (by omega), List.flatMap_map]

theorem encode_length (l : List U8) : (encode l).length = 2 * l.length := by
  induction l with
  | nil => rfl
  | cons a t ih => simp [encode] at ih ⊢; omega

/-- Length of the text of bytes `k…`, `k ≥ 1`: there are `(k+len-1)/n - (k-1)/n` section breaks. -/
theorem txt_length_from (sec byt pre : List U8) (n : Nat) (hn : 0 < n) : ∀ (l : List U8) (k : Nat),
    (txt sec byt pre n (k + 1) l).length + byt.length * ((k + l.length) / n - k / n) =
      (byt.length + pre.length + 2) * l.length + sec.length * ((k + l.length) / n - k / n)
  | [], k => by simp [txt]
  | b :: l, k => by
    have ih := txt_length_from sec byt pre n hn l (k + 1)
    simp only [txt, List.length_append, encode_length, List.length_cons, List.length_nil, if_neg (Nat.succ_ne_zero k)]
    rw [show k + (l.length + 1) = k + 1 + l.length by omega]
    have hmono : (k + 1) / n ≤ (k + 1 + l.length) / n := Nat.div_le_div_right (by omega)
    by_cases h : (k + 1) % n = 0
    · rw [if_pos h]
      have e : (k + 1) / n = k / n + 1 := by
        rw [Nat.succ_div_of_dvd (Nat.dvd_of_mod_eq_zero h)]
      obtain ⟨d, hd⟩ : ∃ d, (k + 1 + l.length) / n = (k + 1) / n + d := ⟨_, (Nat.add_sub_cancel' hmono).symm⟩
      rw [hd] at ih ⊢
      rw [e] at ih ⊢
      rw [Nat.add_sub_cancel_left] at ih
      rw [show k / n + 1 + d - k / n = d + 1 by omega]
      simp only [Nat.mul_add, Nat.add_mul] at ih ⊢
      omega
    · rw [if_neg h]
      have e : (k + 1) / n = k / n := by
        rw [Nat.succ_div_of_not_dvd (fun hd => h (Nat.mod_eq_zero_of_dvd hd))]
      rw [e] at ih
      simp only [Nat.mul_add, Nat.add_mul] at ih ⊢
      omega

/-- Length of a whole non-empty text. -/
theorem txt_length (sec byt pre : List U8) (n : Nat) (hn : 0 < n) (l : List U8) (hl : l ≠ []) :
    (txt sec byt pre n 0 l).length + byt.length * ((l.length - 1) / n) + byt.length =
      (byt.length + pre.length + 2) * l.length + sec.length * ((l.length - 1) / n) := by
  match l, hl with
  | b :: l, _ =>
    have ih := txt_length_from sec byt pre n hn l 0
    simp only [txt, List.length_append, encode_length, List.length_cons, List.length_nil, if_true]
    simp only [Nat.zero_add, Nat.zero_div, Nat.sub_zero, Nat.add_sub_cancel] at ih ⊢
    simp only [Nat.mul_add, Nat.add_mul] at ih ⊢
    omega

/-! ## The loops write the texts -/

theorem encode_cons (b : U8) (l : List U8) :
    encode (b :: l) = upperDigit (b.toNat / 16) :: upperDigit (b.toNat % 16) :: encode l := rfl

theorem and_one_even (k : Nat) : (2 * k) &&& 1 = 0 := by rw [Nat.and_one_is_mod]; omega
theorem and_one_odd (k : Nat) : ¬ ((2 * k + 1) &&& 1 = 0) := by rw [Nat.and_one_is_mod]; omega

theorem bind_assoc' {α β γ : Type} (x : Res α) (f : α → Res β) (g : β → Res γ) :
    ((x >>= f) >>= g) = (x >>= fun a => f a >>= g) := by cases x <;> rfl

theorem bind_congr' {α β : Type} {x : Res α} {f g : α → Res β} (h : ∀ a, f a = g a) : (x >>= f) = (x >>= g) := by
  rw [show f = g from funext h]

theorem stringLoop_eq : ∀ (l : List U8) (k : Nat) (ret : List U8) (ptr : Nat),
    stringLoop (encode l) (2 * k) ret ptr = put (l.flatMap (fun b => ascii "\\x" ++ encode [b])) ret ptr
  | [], _, _, _ => rfl
  | b :: l, k, ret, ptr => by
    have ih := stringLoop_eq l (k + 1)
    rw [encode_cons, stringLoop, List.flatMap_cons, put_append, if_pos (and_one_even k)]
    show _ = (put [0x5c#8, 0x78#8, _, _] ret ptr >>= _)
    simp only [put, bind_assoc', Res.ok_bind, stringLoop, if_neg (and_one_odd k)]
    exact bind_congr' fun r1 => bind_congr' fun r2 => bind_congr' fun r3 => bind_congr' fun r4 => ih r4 (ptr + 4)

theorem stringSepLoop_eq (hps : Int) (n : Nat) : ∀ (l : List U8) (k : Nat) (ret : List U8) (ptr : Nat),
    (∀ j, j < k + l.length → (((2 * j : Nat) : Int).tmod hps = 0 ↔ j % n = 0)) → (k = 0 ↔ ptr = 1) → 0 < ptr →
    stringSepLoop hps (encode l) (2 * k) ret ptr = put (txt (ascii "\"+\"") [] (ascii "\\x") n k l) ret ptr
  | [], _, _, _, _, _, _ => rfl
  | b :: l, k, ret, ptr, hm, hk, hp => by
    have ih := fun r (q : Nat) (hq : 1 < q) => stringSepLoop_eq hps n l (k + 1) r q (fun j hj => hm j (by simp; omega))
      (by constructor <;> (intro h; omega)) (by omega)
    have hmk := hm k (by simp)
    rw [encode_cons, stringSepLoop, txt, if_pos (and_one_even k)]
    by_cases hk0 : k = 0
    · have hp1 : ptr = 1 := hk.mp hk0
      rw [if_neg (by omega), if_pos hk0, List.nil_append, put_append]
      show _ = (put [0x5c#8, 0x78#8, _, _] ret ptr >>= _)
      simp only [put, bind_assoc', Res.ok_bind, stringSepLoop, if_neg (and_one_odd k)]
      exact bind_congr' fun r1 => bind_congr' fun r2 => bind_congr' fun r3 => bind_congr' fun r4 => ih r4 (ptr + 4) (by omega)
    · rw [if_neg hk0]
      by_cases hs : k % n = 0
      · rw [if_pos hs, if_pos ⟨hmk.mpr hs, by omega⟩, put_append]
        show _ = (put [0x22#8, 0x2b#8, 0x22#8, 0x5c#8, 0x78#8, _, _] ret ptr >>= _)
        simp only [put, bind_assoc', Res.ok_bind, stringSepLoop, if_neg (and_one_odd k)]
        exact bind_congr' fun r1 => bind_congr' fun r2 => bind_congr' fun r3 => bind_congr' fun r4 =>
          bind_congr' fun r5 => bind_congr' fun r6 => bind_congr' fun r7 => ih r7 (ptr + 7) (by omega)
      · rw [if_neg hs, if_neg (fun h => hs (hmk.mp h.1)), List.nil_append, put_append]
        show _ = (put [0x5c#8, 0x78#8, _, _] ret ptr >>= _)
        simp only [put, bind_assoc', Res.ok_bind, stringSepLoop, if_neg (and_one_odd k)]
        exact bind_congr' fun r1 => bind_congr' fun r2 => bind_congr' fun r3 => bind_congr' fun r4 => ih r4 (ptr + 4) (by omega)

theorem hexSepLoop_eq (hps : Int) (n : Nat) : ∀ (l : List U8) (k : Nat) (ret : List U8) (ptr : Nat),
    (∀ j, j < k + l.length → (((2 * j : Nat) : Int).tmod hps = 0 ↔ j % n = 0)) → (k = 0 ↔ ptr = 1) → 0 < ptr →
    hexSepLoop hps (encode l) (2 * k) ret ptr = put (txt (ascii ", \n") (ascii ", ") (ascii "0x") n k l) ret ptr
  | [], _, _, _, _, _, _ => rfl
  | b :: l, k, ret, ptr, hm, hk, hp => by
    have ih := fun r (q : Nat) (hq : 1 < q) => hexSepLoop_eq hps n l (k + 1) r q (fun j hj => hm j (by simp; omega))
      (by constructor <;> (intro h; omega)) (by omega)
    have hmk := hm k (by simp)
    rw [encode_cons, hexSepLoop, txt, if_pos (and_one_even k)]
    by_cases hk0 : k = 0
    · have hp1 : ptr = 1 := hk.mp hk0
      rw [if_neg (by omega), if_pos hk0, List.nil_append, put_append]
      show _ = (put [0x30#8, 0x78#8, _, _] ret ptr >>= _)
      simp only [put, bind_assoc', Res.ok_bind, hexSepLoop, if_neg (and_one_odd k)]
      exact bind_congr' fun r1 => bind_congr' fun r2 => bind_congr' fun r3 => bind_congr' fun r4 => ih r4 (ptr + 4) (by omega)
    · rw [if_neg hk0, if_pos (by omega)]
      by_cases hs : k % n = 0
      · rw [if_pos hs, put_append]
        simp only [if_pos (hmk.mpr hs)]
        show _ = (put [0x2c#8, 0x20#8, 0x0a#8, 0x30#8, 0x78#8, _, _] ret ptr >>= _)
        simp only [put, bind_assoc', Res.ok_bind, hexSepLoop, if_neg (and_one_odd k)]
        exact bind_congr' fun r1 => bind_congr' fun r2 => bind_congr' fun r3 => bind_congr' fun r4 =>
          bind_congr' fun r5 => bind_congr' fun r6 => bind_congr' fun r7 => ih r7 (ptr + 7) (by omega)
      · rw [if_neg hs, put_append]
        simp only [if_neg (fun h => hs (hmk.mp h))]
        show _ = (put [0x2c#8, 0x20#8, 0x30#8, 0x78#8, _, _] ret ptr >>= _)
        simp only [put, bind_assoc', Res.ok_bind, hexSepLoop, if_neg (and_one_odd k)]
        exact bind_congr' fun r1 => bind_congr' fun r2 => bind_congr' fun r3 => bind_congr' fun r4 =>
          bind_congr' fun r5 => bind_congr' fun r6 => ih r6 (ptr + 6) (by omega)

/-! ## The buffer is either exactly filled or overrun -/

/-- Opening byte, text, closing byte written into a fresh buffer of `n` bytes. -/
theorem fill (n : Int) (o c : U8) (w : List U8) :
    (makeBytes n >>= fun ret => goSet ret 0 o >>= fun ret => put w ret 1 >>= fun x => goSet x.1 x.2 c) =
      if (w.length + 2 : Int) ≤ n then .ok (o :: w ++ c :: List.replicate (n - (w.length + 2)).toNat 0#8) else .panic := by
  have e : ∀ ret, (goSet ret 0 o >>= fun ret => put w ret 1 >>= fun x => goSet x.1 x.2 c) =
      (put (o :: w ++ [c]) ret 0 >>= fun x => .ok x.1) := by
    intro ret
    simp only [List.cons_append, put, put_append, bind_assoc', Res.ok_bind]
    refine bind_congr' fun r => bind_congr' fun x => ?_
    cases goSet x.1 x.2 c <;> rfl
  unfold makeBytes
  by_cases hn : n < 0
  · rw [if_pos hn, if_neg (by omega)]; rfl
  · rw [if_neg hn, Res.ok_bind, e]
    have := put_eq (o :: w ++ [c]) [] (List.replicate n.toNat 0#8)
    simp only [List.nil_append, List.length_nil] at this
    rw [this]
    simp only [List.length_append, List.length_cons, List.length_nil, List.length_replicate, List.drop_replicate]
    by_cases h : (w.length + 2 : Int) ≤ n
    · rw [if_pos h, if_pos (by omega)]
      simp; omega
    · rw [if_neg h, if_neg (by omega)]; rfl

theorem tmod_iff (hps : Int) (n : Nat) (hh : hps = 2 * n ∨ hps = -(2 * n)) (j : Nat) :
    ((2 * j : Nat) : Int).tmod hps = 0 ↔ j % n = 0 := by
  have e : ((2 * j : Nat) : Int).tmod hps = (((2 * j) % (2 * n) : Nat) : Int) := by
    rcases hh with rfl | rfl
    · rfl
    · rw [Int.tmod_neg]; rfl
  rw [e, Nat.mul_mod_mul_left]
  omega

theorem int64_small (bps : Nat) (h : bps < 2 ^ 62) : int64 ((bps : Int) * 2) = (bps : Int) * 2 := by
  unfold int64
  rw [Int.bmod_def]; omega

/-- Sections of 2^62 bytes and more make `bytesPerSection * 2` negative. -/
theorem int64_big (bps : Nat) (h : 2 ^ 62 ≤ bps) (h' : bps < 2 ^ 63) :
    int64 ((bps : Int) * 2) = -(2 * ((2 ^ 63 - bps : Nat) : Int)) := by
  unfold int64
  rw [Int.bmod_def]
  omega

/-- Break count and buffer size agree exactly for positive multiples. -/
theorem div_pred (len bps : Nat) (hl : 0 < len) :
    len / bps = (len - 1) / bps + (if len % bps = 0 then 1 else 0) := by
  obtain ⟨m, rfl⟩ : ∃ m, len = m + 1 := ⟨len - 1, by omega⟩
  rw [Nat.succ_div]
  simp [Nat.dvd_iff_mod_eq_zero]

theorem tdiv_pos (bps len : Nat) : ((2 * len : Nat) : Int).tdiv ((bps : Int) * 2) = ((len / bps : Nat) : Int) := by
  rw [show ((bps : Int) * 2) = ((2 * bps : Nat) : Int) by push_cast; ring]
  show (((2 * len) / (2 * bps) : Nat) : Int) = _
  rw [Nat.mul_div_mul_left _ _ (by omega)]

theorem tdiv_neg (n len : Nat) : ((2 * len : Nat) : Int).tdiv (-(2 * (n : Int))) ≤ 0 := by
  rw [Int.tdiv_neg]
  have : 0 ≤ ((2 * len : Nat) : Int).tdiv (2 * (n : Int)) := Int.tdiv_nonneg (by omega) (by omega)
  omega

theorem BytesToString_eq (inp : List U8) : BytesToString inp = .ok (quoted inp) := by
  have hl : ∀ l : List U8, (l.flatMap (fun b => ascii "\\x" ++ encode [b])).length = 4 * l.length := by
    intro l
    induction l with
    | nil => rfl
    | cons b l ih => rw [List.flatMap_cons, List.length_append, ih, List.length_cons]; show 4 + _ = _; omega
  have := fill ((encode inp).length * 2 + 2) 0x22#8 0x22#8 (inp.flatMap (fun b => ascii "\\x" ++ encode [b]))
  unfold BytesToString
  rw [Hex.FromBytes_eq, Res.ok_bind]
  have hloop : ∀ ret ptr, stringLoop (encode inp) 0 ret ptr = _ := stringLoop_eq inp 0
  simp only [hloop]
  refine Eq.trans this ?_
  rw [hl, encode_length, if_pos (by push_cast; omega)]
  have : ((((2 * inp.length : Nat) : Int) * 2 + 2) - ((4 * inp.length : Nat) + 2 : Int)).toNat = 0 := by omega
  rw [this]
  simp [quoted, ascii]

/-- The exact behaviour of `BytesToStringSep`. -/
theorem BytesToStringSep_eq (inp : List U8) (bps : Nat) (h1 : 0 < bps) (h2 : bps < 2 ^ 63)
    (hlen60 : inp.length < 2 ^ 60) :
    BytesToStringSep inp bps = if inp ≠ [] ∧ inp.length % bps = 0 then
      .ok (0x22#8 :: txt (ascii "\"+\"") [] (ascii "\\x") bps 0 inp ++ [0x22#8]) else .panic := by
  obtain ⟨hps, hhps⟩ : ∃ hps, hps = int64 ((bps : Int) * 2) := ⟨_, rfl⟩
  obtain ⟨n, hn, hn0⟩ : ∃ n : Nat, (hps = 2 * n ∨ hps = -(2 * n)) ∧ 0 < n := by
    by_cases hb : bps < 2 ^ 62
    · exact ⟨bps, .inl (by rw [hhps, int64_small _ hb]; ring), h1⟩
    · exact ⟨2 ^ 63 - bps, .inr (by rw [hhps, int64_big _ (by omega) h2]), by omega⟩
  unfold BytesToStringSep
  rw [if_neg (by omega), Hex.FromBytes_eq, Res.ok_bind]
  simp only [← hhps]
  have hloop : ∀ ret, stringSepLoop hps (encode inp) 0 ret 1 = put (txt (ascii "\"+\"") [] (ascii "\\x") n 0 inp) ret 1 :=
    fun ret => stringSepLoop_eq hps n inp 0 ret 1 (fun j _ => tmod_iff hps n hn j) (by simp) (by omega)
  simp only [hloop]
  refine Eq.trans (fill _ _ _ _) ?_
  rw [encode_length]
  by_cases h0 : inp = []
  · subst h0
    rw [if_neg (by simp [txt]), if_neg (by simp)]
  · have hpos : 0 < inp.length := List.length_pos_iff.mpr h0
    have hlen := txt_length (ascii "\"+\"") [] (ascii "\\x") n hn0 inp h0
    simp only [show (ascii "\"+\"").length = 3 from rfl, show (ascii "\\x").length = 2 from rfl, List.length_nil,
      Nat.zero_mul, Nat.add_zero, Nat.zero_add] at hlen
    by_cases hb : bps < 2 ^ 62
    · have he : hps = (bps : Int) * 2 := by rw [hhps, int64_small _ hb]
      have hnb : n = bps := by omega
      subst hnb
      rw [he, tdiv_pos, div_pred inp.length n hpos]
      by_cases hm : inp.length % n = 0
      · rw [if_pos hm, if_pos (by push_cast; omega), if_pos ⟨h0, hm⟩]
        congr 2
        have : ((2 * inp.length : Nat) * 2 + 3 * ((((inp.length - 1) / n + 1 : Nat) : Int) - 1) + 2 -
            (((txt (ascii "\"+\"") [] (ascii "\\x") n 0 inp).length : Int) + 2)).toNat = 0 := by push_cast; omega
        rw [this]; rfl
      · rw [if_neg hm, if_neg (by push_cast; omega), if_neg (fun h => hm h.2)]
    · have he : hps = -(2 * ((2 ^ 63 - bps : Nat) : Int)) := by rw [hhps, int64_big _ (by omega) h2]
      have := tdiv_neg (2 ^ 63 - bps) inp.length
      rw [he, if_neg (by push_cast at this ⊢; omega)]
      rw [if_neg (fun h => by rw [Nat.mod_eq_of_lt (by omega)] at h; omega)]

/-- The exact behaviour of `BytesToHexSep`. -/
theorem BytesToHexSep_eq (inp : List U8) (bps : Nat) (h1 : 0 < bps) (h2 : bps < 2 ^ 63)
    (hlen60 : inp.length < 2 ^ 60) :
    BytesToHexSep inp bps = if inp ≠ [] ∧ inp.length % bps = 0 then
      .ok (0x7b#8 :: txt (ascii ", \n") (ascii ", ") (ascii "0x") bps 0 inp ++ [0x7d#8]) else .panic := by
  obtain ⟨hps, hhps⟩ : ∃ hps, hps = int64 ((bps : Int) * 2) := ⟨_, rfl⟩
  obtain ⟨n, hn, hn0⟩ : ∃ n : Nat, (hps = 2 * n ∨ hps = -(2 * n)) ∧ 0 < n := by
    by_cases hb : bps < 2 ^ 62
    · exact ⟨bps, .inl (by rw [hhps, int64_small _ hb]; ring), h1⟩
    · exact ⟨2 ^ 63 - bps, .inr (by rw [hhps, int64_big _ (by omega) h2]), by omega⟩
  unfold BytesToHexSep
  rw [if_neg (by omega), Hex.FromBytes_eq, Res.ok_bind]
  simp only [← hhps]
  have hloop : ∀ ret, hexSepLoop hps (encode inp) 0 ret 1 = put (txt (ascii ", \n") (ascii ", ") (ascii "0x") n 0 inp) ret 1 :=
    fun ret => hexSepLoop_eq hps n inp 0 ret 1 (fun j _ => tmod_iff hps n hn j) (by simp) (by omega)
  simp only [hloop]
  refine Eq.trans (fill _ _ _ _) ?_
  rw [encode_length]
  by_cases h0 : inp = []
  · subst h0
    rw [if_neg (by simp [txt]), if_neg (by simp)]
  · have hpos : 0 < inp.length := List.length_pos_iff.mpr h0
    have hlen := txt_length (ascii ", \n") (ascii ", ") (ascii "0x") n hn0 inp h0
    simp only [show (ascii ", \n").length = 3 from rfl, show (ascii ", ").length = 2 from rfl, show (ascii "0x").length = 2 from rfl,
      Nat.zero_mul, Nat.add_zero, Nat.zero_add] at hlen
    by_cases hb : bps < 2 ^ 62
    · have he : hps = (bps : Int) * 2 := by rw [hhps, int64_small _ hb]
      have hnb : n = bps := by omega
      subst hnb
      rw [he, tdiv_pos, div_pred inp.length n hpos]
      by_cases hm : inp.length % n = 0
      · rw [if_pos hm, if_pos (by push_cast; omega), if_pos ⟨h0, hm⟩]
        congr 2
        have : ((inp.length : Int) * 6 + ((((inp.length - 1) / n + 1 : Nat) : Int) - 1) -
            (((txt (ascii ", \n") (ascii ", ") (ascii "0x") n 0 inp).length : Int) + 2)).toNat = 0 := by push_cast; omega
        rw [this]; rfl
      · rw [if_neg hm, if_neg (by push_cast; omega), if_neg (fun h => hm h.2)]
    · have he : hps = -(2 * ((2 ^ 63 - bps : Nat) : Int)) := by rw [hhps, int64_big _ (by omega) h2]
      have := tdiv_neg (2 ^ 63 - bps) inp.length
      rw [he, if_neg (by push_cast at this ⊢; omega)]
      rw [if_neg (fun h => by rw [Nat.mod_eq_of_lt (by omega)] at h; omega)]

/-! ## The texts in the form of the specification, and their meaning -/

theorem nil_intercalate (xs : List (List U8)) : ([] : List U8).intercalate xs = xs.flatten := by
  induction xs with
  | nil => rfl
  | cons x xs ih => rw [intercalate_cons]; simp [List.flatMap_def]

theorem quote_intercalate (q p : List U8) (f : List U8 → List U8) (x : List U8) (xs : List (List U8)) :
    q ++ (q ++ p ++ q).intercalate ((x :: xs).map f) ++ q = p.intercalate ((x :: xs).map fun s => q ++ f s ++ q) := by
  rw [List.map_cons, List.map_cons, intercalate_cons, intercalate_cons]
  simp only [List.append_assoc]
  congr 2
  induction xs with
  | nil => simp
  | cons y ys ih => simp only [List.map_cons, List.flatMap_cons, List.append_assoc]; rw [ih]

theorem stringSep_text (n : Nat) (hn : 0 < n) (l : List U8) :
    0x22#8 :: txt (ascii "\"+\"") [] (ascii "\\x") n 0 l ++ [0x22#8] = stringExpr n l := by
  by_cases h0 : l = []
  · subst h0; rfl
  · rw [txt_sections _ _ _ n hn, stringExpr, if_neg h0, sections_cons hn l h0]
    have := quote_intercalate (ascii "\"") (ascii "+") (secText [] (ascii "\\x")) (l.take n) (sections n (l.drop n))
    refine Eq.trans ?_ (this.trans ?_)
    · rfl
    · congr 1
      apply List.map_congr_left
      intro s _
      rw [secText, nil_intercalate, quoted, List.flatMap_def]

theorem hexSep_text (n : Nat) (hn : 0 < n) (l : List U8) :
    0x7b#8 :: txt (ascii ", \n") (ascii ", ") (ascii "0x") n 0 l ++ [0x7d#8] = compositeBody n l := by
  rw [txt_sections _ _ _ n hn, compositeBody]
  rfl

theorem two_digits (b : U8) : digitVal (upperDigit (b.toNat / 16)) = some (b.toNat / 16) ∧
    digitVal (upperDigit (b.toNat % 16)) = some (b.toNat % 16) ∧
    BitVec.ofNat 8 (16 * (b.toNat / 16) + b.toNat % 16) = b := by
  have := b.isLt
  refine ⟨Hex.digitVal_upperDigit _ (by omega), Hex.digitVal_upperDigit _ (by omega), ?_⟩
  rw [Nat.div_add_mod]; simp

theorem eval_inside (n : Nat) : ∀ (l : List U8) (k : Nat),
    evalStringFrom .inside (txt (ascii "\"+\"") [] (ascii "\\x") n k l ++ [0x22#8]) = some l
  | [], k => by simp [txt, evalStringFrom]
  | b :: l, k => by
    have ih := eval_inside n l (k + 1)
    obtain ⟨h1, h2, h3⟩ := two_digits b
    have step : evalStringFrom .inside (ascii "\\x" ++ encode [b] ++
        (txt (ascii "\"+\"") [] (ascii "\\x") n (k + 1) l ++ [0x22#8])) = some (b :: l) := by
      show evalStringFrom .inside (0x5c#8 :: 0x78#8 :: upperDigit (b.toNat / 16) :: upperDigit (b.toNat % 16) :: _) = _
      simp [evalStringFrom, h1, h2, h3, ih]
    rw [txt]
    split
    · simpa using step
    · split
      · have : ∀ t, evalStringFrom .inside (ascii "\"+\"" ++ t) = evalStringFrom .inside t := by
          intro t
          show evalStringFrom .inside (0x22#8 :: 0x2b#8 :: 0x22#8 :: t) = _
          rw [evalStringFrom.eq_def]; simp only [if_true]
          rw [evalStringFrom, if_pos rfl, evalStringFrom, if_pos rfl]
        simp only [List.append_assoc, this]
        simpa using step
      · simpa using step

theorem eval_stringExpr (n : Nat) (hn : 0 < n) (l : List U8) : evalString (stringExpr n l) = some l := by
  rw [← stringSep_text n hn, evalString]
  have := eval_inside n l 0
  simp only [List.cons_append, evalStringFrom]
  simpa using this

theorem eval_quoted (l : List U8) : evalString (quoted l) = some l := by
  by_cases h0 : l = []
  · subst h0; decide
  · have hpos : 0 < l.length := List.length_pos_iff.mpr h0
    have := eval_stringExpr l.length hpos l
    rw [stringExpr, if_neg h0, sections_cons hpos l h0] at this
    simpa [sections_nil hpos, List.intercalate] using this

theorem elem_blank (c : U8) (t : List U8) (h : c = 0x20#8 ∨ c = 0x0a#8 ∨ c = 0x09#8) :
    evalBodyFrom .elem (c :: t) = evalBodyFrom .elem t := by
  rw [evalBodyFrom.eq_def]; simp only [if_pos h]

theorem eval_body (n : Nat) : ∀ (l : List U8) (k : Nat),
    evalBodyFrom (if k = 0 then .elem else .after)
      (txt (ascii ", \n") (ascii ", ") (ascii "0x") n k l ++ [0x7d#8]) = some l
  | [], k => by split <;> simp [txt, evalBodyFrom]
  | b :: l, k => by
    have ih := eval_body n l (k + 1)
    rw [if_neg (by omega)] at ih
    obtain ⟨h1, h2, h3⟩ := two_digits b
    have step : evalBodyFrom .elem (ascii "0x" ++ encode [b] ++
        (txt (ascii ", \n") (ascii ", ") (ascii "0x") n (k + 1) l ++ [0x7d#8])) = some (b :: l) := by
      show evalBodyFrom .elem (0x30#8 :: 0x78#8 :: upperDigit (b.toNat / 16) :: upperDigit (b.toNat % 16) :: _) = _
      simp [evalBodyFrom, h1, h2, h3, ih]
    rw [txt]
    split
    · simpa using step
    · split
      · have : ∀ t, evalBodyFrom .after (ascii ", \n" ++ t) = evalBodyFrom .elem t := by
          intro t
          show evalBodyFrom .after (0x2c#8 :: 0x20#8 :: 0x0a#8 :: t) = _
          rw [evalBodyFrom, if_pos rfl, elem_blank _ _ (.inl rfl), elem_blank _ _ (.inr (.inl rfl))]
        simp only [List.append_assoc, this]
        simpa using step
      · have : ∀ t, evalBodyFrom .after (ascii ", " ++ t) = evalBodyFrom .elem t := by
          intro t
          show evalBodyFrom .after (0x2c#8 :: 0x20#8 :: t) = _
          rw [evalBodyFrom, if_pos rfl, elem_blank _ _ (.inl rfl)]
        simp only [List.append_assoc, this]
        simpa using step

theorem eval_compositeBody (n : Nat) (hn : 0 < n) (l : List U8) : evalBody (compositeBody n l) = some l := by
  rw [← hexSep_text n hn, evalBody]
  have := eval_body n l 0
  simp only [List.cons_append, evalBodyFrom]
  simpa using this

end Codegen
