import Verif.Model.Hex
import Verif.Spec.Hex
import Verif.Lemmas.Bits

namespace Hex
open HexSpec Bits

theorem decode_facts_all (build : Build) : ∀ n : Fin 256,
    ((digitVal (BitVec.ofFin n)).isSome = true →
      (digitVal (BitVec.ofFin n)).getD 99 < 16 ∧
      decode build (BitVec.ofFin n) = BitVec.ofNat 8 ((digitVal (BitVec.ofFin n)).getD 99)) ∧
    ((digitVal (BitVec.ofFin n)).isSome = false →
      decode build (BitVec.ofFin n) &&& 0xF0#8 ≠ 0#8 ∧ decode build (BitVec.ofFin n) > 15#8) := by
  cases build <;> decide +kernel

theorem decode_facts (build : Build) (b : U8) :
    (match digitVal b with
     | some v => v < 16 ∧ decode build b = BitVec.ofNat 8 v
     | none => decode build b &&& 0xF0#8 ≠ 0#8 ∧ decode build b > 15#8) := by
  have := decode_facts_all build b.toFin
  cases h : digitVal b with
  | none => simpa [h] using this
  | some v => simpa [h] using this

theorem decode_hex {build : Build} {b : U8} {v : Nat} (h : digitVal b = some v) :
    v < 16 ∧ decode build b = BitVec.ofNat 8 v ∧ decode build b &&& 0xF0#8 = 0#8 ∧
      ¬ decode build b > 15#8 := by
  have := decode_facts build b
  rw [h] at this
  obtain ⟨hv, hd⟩ := this
  refine ⟨hv, hd, ?_, ?_⟩
  · rw [hd]
    have : ∀ n : Fin 16, BitVec.ofNat 8 n.val &&& 0xF0#8 = 0#8 := by decide +kernel
    exact this ⟨v, hv⟩
  · rw [hd]
    have : ∀ n : Fin 16, ¬ BitVec.ofNat 8 n.val > 15#8 := by decide +kernel
    exact this ⟨v, hv⟩

theorem decode_nothex {build : Build} {b : U8} (h : digitVal b = none) :
    decode build b &&& 0xF0#8 ≠ 0#8 ∧ decode build b > 15#8 := by
  have := decode_facts build b
  rw [h] at this
  exact this

theorem isHex_iff (c : U8) : IsHex c ↔ ∃ v, digitVal c = some v := by
  simp [IsHex, Option.isSome_iff_exists]

theorem not_isHex_iff (c : U8) : ¬ IsHex c ↔ digitVal c = none := by
  simp [IsHex]

theorem nibbles (h l : Nat) (hh : h < 16) (hl : l < 16) :
    (BitVec.ofNat 8 h) <<< 4 ||| BitVec.ofNat 8 l = BitVec.ofNat 8 (16 * h + l) := by
  have : ∀ h : Fin 16, ∀ l : Fin 16,
    (BitVec.ofNat 8 h.val) <<< 4 ||| BitVec.ofNat 8 l.val = BitVec.ofNat 8 (16 * h.val + l.val) := by
    decide +kernel
  exact this ⟨h, hh⟩ ⟨l, hl⟩

/-- Reference: what `ToBytes` returns on the rest of the text once `k` pairs are decoded into `done`. -/
def toBytesRef : (rest : List U8) → (k : Nat) → (done : List U8) → ToBytesRet
  | [], _, done => ⟨some done, none⟩
  | [c], k, _ =>
    if (digitVal c).isSome then ⟨none, some .errLength⟩ else ⟨none, some (.invalidHexAt c (2 * k))⟩
  | a :: b :: t, k, done =>
    match digitVal a with
    | none => ⟨none, some (.invalidHexAt a (2 * k))⟩
    | some h =>
      match digitVal b with
      | none => ⟨none, some (.invalidHexAt b (2 * k + 1))⟩
      | some l => toBytesRef t (k + 1) (done ++ [BitVec.ofNat 8 (16 * h + l)])

theorem set_done (done : List U8) (n : Nat) (v : U8) :
    (done ++ List.replicate (n + 1) 0#8).set done.length v = (done ++ [v]) ++ List.replicate n 0#8 := by
  simp [List.replicate_succ]

theorem toBytesLoop_eq (build : Build) : ∀ (rest pre done : List U8),
    pre.length = 2 * done.length →
    toBytesLoop build (pre ++ rest) (1 + pre.length) done.length
      (done ++ List.replicate (rest.length / 2) 0#8) = .ok (toBytesRef rest done.length done)
  | [], pre, done, hp => by
    rw [toBytesLoop, dif_neg (by simp), if_neg (by simp [Nat.and_one_is_mod]; omega)]
    simp [toBytesRef]
  | [c], pre, done, hp => by
    rw [toBytesLoop, dif_neg (by simp; omega), if_pos (by simp [Nat.and_one_is_mod]; omega)]
    have h1 : (pre ++ [c])[pre.length]? = some c := by simp
    simp only [goIdx, Nat.add_sub_cancel_left, h1, Res.ok_bind]
    cases hv : digitVal c with
    | some v =>
      have hd := decode_hex (build := build) hv
      rw [if_neg hd.2.2.2]
      simp [toBytesRef, hv]
    | none =>
      have hd := decode_nothex (build := build) hv
      rw [if_pos hd.2]
      simp [toBytesRef, hv, hp]
  | a :: b :: t, pre, done, hp => by
    have h1 : (pre ++ a :: b :: t)[pre.length]? = some a := by simp
    have h2 : (pre ++ a :: b :: t)[1 + pre.length]? = some b := by
      rw [List.getElem?_append_right (by omega)]; simp
    have hlt : 1 + pre.length < (pre ++ a :: b :: t).length := by simp; omega
    have h3 : (a :: b :: t).length / 2 = t.length / 2 + 1 := by simp; omega
    rw [toBytesLoop, dif_pos hlt, h3]
    simp only [goIdx, h1, h2, Nat.add_sub_cancel_left, Res.ok_bind, ne_eq]
    cases ha : digitVal a with
    | none =>
      have hd := decode_nothex (build := build) ha
      rw [if_pos hd.1]
      simp [toBytesRef, ha, hp]
    | some h =>
      have hda := decode_hex (build := build) ha
      rw [if_neg (Classical.not_not.mpr hda.2.2.1)]
      cases hb : digitVal b with
      | none =>
        have hd := decode_nothex (build := build) hb
        rw [if_pos hd.1]
        simp [toBytesRef, ha, hb, hp, Nat.add_comm 1]
      | some l =>
        have hdb := decode_hex (build := build) hb
        rw [if_neg (Classical.not_not.mpr hdb.2.2.1)]
        have := toBytesLoop_eq build t (pre ++ [a, b]) (done ++ [BitVec.ofNat 8 (16 * h + l)])
          (by simp; omega)
        rw [goSet_lt (by simp), set_done]
        simp only [Res.ok_bind, hda.2.1, hdb.2.1, nibbles h l hda.1 hdb.1]
        simp only [toBytesRef, ha, hb]
        simp only [List.append_assoc, List.cons_append, List.nil_append, List.length_append,
          List.length_cons, List.length_nil] at this ⊢
        rw [← this]
        rfl

theorem ToBytes_eq (build : Build) (s : List U8) :
    ToBytes build s = .ok (toBytesRef s 0 []) := by
  have := toBytesLoop_eq build s [] [] rfl
  simpa [ToBytes] using this

theorem or_and_u8 (a b c : U8) : (a ||| b) &&& c = (a &&& c) ||| (b &&& c) := by
  ext i; simp [Bool.and_or_distrib_right]

theorem toBytesFastLoop_eq (build : Build) (hex : List U8) (i ptr : Nat) (ret : List U8)
    (hi : 1 ≤ i) (hodd : i % 2 = 1) (hle : i ≤ hex.length + 1) :
    toBytesFastLoop build hex i ptr ret =
      (toBytesLoop build hex i ptr ret >>= fun r => Res.ok r.slice) := by
  fun_induction toBytesFastLoop build hex i ptr ret with
  | case1 i ptr ret h ih =>
    rw [toBytesLoop, dif_pos h]
    have h1 : i - 1 < hex.length := by omega
    simp only [goIdx_lt h, goIdx_lt h1, Res.ok_bind]
    by_cases hA : decode build hex[i-1] &&& 0xF0#8 = 0#8
    · by_cases hB : decode build hex[i] &&& 0xF0#8 = 0#8
      · have : (decode build hex[i-1] ||| decode build hex[i]) &&& 0xF0#8 = 0#8 := by
          rw [or_and_u8, hA, hB]; rfl
        simp only [hA, hB, this, ne_eq, not_true_eq_false, if_false]
        cases hs : goSet ret ptr (decode build hex[i-1] <<< 4 ||| decode build hex[i]) with
        | panic => rfl
        | ok r =>
          simp only [Res.ok_bind]
          exact ih r (by omega) (by omega) (by omega)
      · have : (decode build hex[i-1] ||| decode build hex[i]) &&& 0xF0#8 ≠ 0#8 := by
          rw [or_and_u8, hA]; simpa using hB
        simp [hA, hB, this]
    · have : (decode build hex[i-1] ||| decode build hex[i]) &&& 0xF0#8 ≠ 0#8 := by
        rw [or_and_u8]
        intro h0
        apply hA
        exact (BitVec.or_eq_zero_iff.mp h0).1
      simp [hA, this]
  | case2 i ptr ret h h1 =>
    rw [toBytesLoop, dif_neg h, if_pos h1]
    rw [Nat.and_one_is_mod] at h1
    have hl : i - 1 < hex.length := by omega
    simp only [goIdx_lt hl, Res.ok_bind]
    split <;> rfl
  | case3 i ptr ret h h1 =>
    rw [toBytesLoop, dif_neg h, if_neg h1]; rfl

theorem ToBytesFast_eq (build : Build) (s : List U8) :
    ToBytesFast build s = .ok (toBytesRef s 0 []).slice := by
  rw [ToBytesFast, toBytesFastLoop_eq _ _ _ _ _ (by omega) (by omega) (by omega)]
  have := ToBytes_eq build s
  rw [ToBytes] at this
  rw [this]; rfl

theorem hexTable_get (n : Nat) (h : n < 16) : goIdx hexTable n = .ok (upperDigit n) := by
  have : ∀ n : Fin 16, goIdx hexTable n.val = .ok (upperDigit n.val) := by decide +kernel
  exact this ⟨n, h⟩

theorem hi_nib (b : U8) : (b >>> 4).toNat = b.toNat / 16 := by
  simp [BitVec.toNat_ushiftRight, Nat.shiftRight_eq_div_pow]

theorem lo_nib (b : U8) : (b &&& 0xF#8).toNat = b.toNat % 16 := by
  simp only [BitVec.toNat_and]
  exact Nat.and_two_pow_sub_one_eq_mod b.toNat 4

theorem fromBytesLoop_eq (src : List U8) : ∀ (done : List U8),
    fromBytesLoop src done.length (done ++ List.replicate (src.length * 2) 0#8)
      = .ok (done ++ encode src) := by
  induction src with
  | nil => intro done; simp [fromBytesLoop, encode]
  | cons b src ih =>
    intro done
    have hb := b.isLt
    rw [fromBytesLoop]
    rw [hi_nib, lo_nib, hexTable_get _ (by omega), hexTable_get _ (by omega)]
    simp only [Res.ok_bind]
    rw [goSet_lt (by simp)]
    simp only [Res.ok_bind]
    rw [goSet_lt (by simp; omega)]
    simp only [Res.ok_bind]
    have := ih (done ++ [upperDigit (b.toNat / 16), upperDigit (b.toNat % 16)])
    simp only [List.length_append, List.length_cons, List.length_nil] at this
    have e : ((done ++ List.replicate ((src.length + 1) * 2) 0#8).set done.length (upperDigit (b.toNat / 16))).set
        (done.length + 1) (upperDigit (b.toNat % 16)) =
        done ++ [upperDigit (b.toNat / 16), upperDigit (b.toNat % 16)] ++ List.replicate (src.length * 2) 0#8 := by
      rw [show (src.length + 1) * 2 = src.length * 2 + 1 + 1 by omega]
      simp [List.replicate_succ]
    simp only [List.length_cons]
    rw [e, this]
    simp [encode]

theorem FromBytes_eq (src : List U8) : FromBytes src = .ok (encode src) := by
  have := fromBytesLoop_eq src []
  simpa [FromBytes] using this

theorem digitVal_upperDigit (n : Nat) (h : n < 16) : digitVal (upperDigit n) = some n := by
  have : ∀ n : Fin 16, digitVal (upperDigit n.val) = some n.val := by decide +kernel
  exact this ⟨n, h⟩

theorem upperDigit_of_digitVal (c : U8) (v : Nat) (h : digitVal c = some v) : upperDigit v = upper c := by
  have : ∀ c : U8, ∀ v, digitVal c = some v → upperDigit v = upper c := by
    apply forall_u8
    have : ∀ n : Fin 256, ∀ v : Fin 16, digitVal (BitVec.ofFin n) = some v.val → upperDigit v.val = upper (BitVec.ofFin n) := by
      decide +kernel
    intro n v hv
    have hlt := (decode_hex (build := .table) hv).1
    exact this n ⟨v, hlt⟩ hv
  exact this c v h

theorem toBytesRef_decode : ∀ (rest : List U8) (k : Nat) (done bs : List U8),
    HexSpec.decode rest = some bs → toBytesRef rest k done = ⟨some (done ++ bs), none⟩
  | [], k, done, bs, h => by
    simp [HexSpec.decode] at h; subst h; simp [toBytesRef]
  | [_], k, done, bs, h => by simp [HexSpec.decode] at h
  | a :: b :: t, k, done, bs, h => by
    rw [HexSpec.decode] at h
    cases ha : digitVal a <;> cases hb : digitVal b <;> cases ht : HexSpec.decode t <;>
      simp [ha, hb, ht] at h
    subst h
    rw [toBytesRef]
    simp only [ha, hb]
    rw [toBytesRef_decode t _ _ _ ht]
    simp

theorem toBytesRef_decode_none : ∀ (rest : List U8) (k : Nat) (done : List U8),
    HexSpec.decode rest = none → ∃ e, toBytesRef rest k done = ⟨none, some e⟩
  | [], k, done, h => by simp [HexSpec.decode] at h
  | [c], k, done, h => by
    simp [toBytesRef]; split <;> simp
  | a :: b :: t, k, done, h => by
    rw [HexSpec.decode] at h
    rw [toBytesRef]
    cases ha : digitVal a with
    | none => simp
    | some x =>
      cases hb : digitVal b with
      | none => simp
      | some y =>
        simp only
        apply toBytesRef_decode_none
        cases ht : HexSpec.decode t with
        | none => rfl
        | some z => simp [ha, hb, ht] at h

theorem decode_encode (b : List U8) : HexSpec.decode (encode b) = some b := by
  induction b with
  | nil => rfl
  | cons x xs ih =>
    have hx := x.isLt
    have : encode (x :: xs) = upperDigit (x.toNat / 16) :: upperDigit (x.toNat % 16) :: encode xs := by
      simp [encode]
    rw [this, HexSpec.decode, digitVal_upperDigit _ (by omega), digitVal_upperDigit _ (by omega), ih]
    simp only [Option.some.injEq, List.cons.injEq, and_true]
    rw [Nat.div_add_mod]
    simp

theorem decode_isSome_iff : ∀ s : List U8,
    (∃ b, HexSpec.decode s = some b) ↔ s.length % 2 = 0 ∧ ∀ c ∈ s, IsHex c
  | [] => by simp [HexSpec.decode]
  | [_] => by simp [HexSpec.decode]
  | a :: b :: t => by
    have ih := decode_isSome_iff t
    rw [HexSpec.decode]
    simp only [List.mem_cons, forall_eq_or_imp, isHex_iff, List.length_cons] at *
    have : (t.length + 1 + 1) % 2 = t.length % 2 := by omega
    rw [this]
    cases ha : digitVal a <;> cases hb : digitVal b <;> cases ht : HexSpec.decode t <;>
      simp [ht] at ih ⊢
    · intro h; obtain ⟨c, h1, h2⟩ := ih h; exact ⟨c, h1, h2⟩
    · exact ih

theorem encode_decode_upper : ∀ (s b : List U8), HexSpec.decode s = some b → encode b = s.map upper
  | [], b, h => by simp [HexSpec.decode] at h; subst h; rfl
  | [_], b, h => by simp [HexSpec.decode] at h
  | x :: y :: t, b, h => by
    rw [HexSpec.decode] at h
    cases ha : digitVal x <;> cases hb : digitVal y <;> cases ht : HexSpec.decode t <;>
      simp [ha, hb, ht] at h
    rename_i p q r
    subst h
    have hp := (decode_hex (build := .table) ha).1
    have hq := (decode_hex (build := .table) hb).1
    have ih := encode_decode_upper t r ht
    have e1 : (16 * p + q) % 256 / 16 = p := by omega
    have e2 : (16 * p + q) % 256 % 16 = q := by omega
    simp only [encode, List.flatMap_cons, List.map_cons] at ih ⊢
    rw [ih]
    simp [BitVec.toNat_ofNat, e1, e2, upperDigit_of_digitVal _ _ ha, upperDigit_of_digitVal _ _ hb]

theorem toBytesRef_invalid : ∀ (pre : List U8) (c : U8) (post : List U8) (k : Nat) (done : List U8),
    (∀ x ∈ pre, IsHex x) → ¬ IsHex c →
    toBytesRef (pre ++ c :: post) k done = ⟨none, some (.invalidHexAt c (2 * k + pre.length))⟩
  | [], c, [], k, done, _, hc => by
    rw [not_isHex_iff] at hc
    simp [toBytesRef, hc]
  | [], c, d :: post, k, done, _, hc => by
    rw [not_isHex_iff] at hc
    simp [toBytesRef, hc]
  | [x], c, post, k, done, hp, hc => by
    rw [not_isHex_iff] at hc
    have := hp x (by simp)
    rw [isHex_iff] at this
    obtain ⟨v, hv⟩ := this
    simp [toBytesRef, hv, hc]
  | x :: y :: pre, c, post, k, done, hp, hc => by
    have h1 := hp x (by simp)
    have h2 := hp y (by simp)
    rw [isHex_iff] at h1 h2
    obtain ⟨v, hv⟩ := h1
    obtain ⟨w, hw⟩ := h2
    simp only [List.cons_append, toBytesRef, hv, hw]
    rw [toBytesRef_invalid pre c post _ _ (fun z hz => hp z (by simp [hz])) hc]
    simp; omega

theorem toBytesRef_odd : ∀ (s : List U8) (k : Nat) (done : List U8),
    (∀ x ∈ s, IsHex x) → s.length % 2 = 1 → toBytesRef s k done = ⟨none, some .errLength⟩
  | [], k, done, _, h => by simp at h
  | [x], k, done, hx, _ => by
    have := hx x (by simp)
    simp only [IsHex] at this
    simp [toBytesRef, this]
  | x :: y :: t, k, done, hp, hl => by
    have h1 := hp x (by simp)
    have h2 := hp y (by simp)
    rw [isHex_iff] at h1 h2
    obtain ⟨v, hv⟩ := h1
    obtain ⟨w, hw⟩ := h2
    simp only [toBytesRef, hv, hw]
    exact toBytesRef_odd t _ _ (fun z hz => hp z (by simp [hz])) (by simp at hl; omega)

/-! ## Error texts -/

theorem stringOfByte_eq (b : U8) : stringOfByte b = utf8 b.toNat := by
  revert b; apply forall_u8; decide +kernel

theorem digit_toNat {n : Nat} (h : n < 10) : (BitVec.ofNat 8 (48 + n)).toNat = 48 + n := by
  simp; omega

theorem fmtNat_isDecimal (n : Nat) : IsDecimal (fmtNat n) n := by
  fun_induction fmtNat n with
  | case1 n h =>
    refine ⟨by simp, ?_, ?_, ?_⟩
    · intro c hc
      rw [List.mem_singleton] at hc
      rw [hc, digit_toNat h]; omega
    · intro h0
      simpa using h0
    · simp only [List.foldl, digit_toNat h]; omega
  | case2 n h ih =>
    obtain ⟨h1, h2, h3, h4⟩ := ih
    have hm : n % 10 < 10 := Nat.mod_lt _ (by omega)
    refine ⟨by simp, ?_, ?_, ?_⟩
    · intro c hc
      rw [List.mem_append, List.mem_singleton] at hc
      rcases hc with hc | hc
      · exact h2 c hc
      · rw [hc, digit_toNat hm]; omega
    · intro h0
      have h0 : (fmtNat (n / 10)).head? = some 48#8 := by
        cases hc : fmtNat (n / 10) with
        | nil => exact absurd hc h1
        | cons x t => rw [hc] at h0; exact h0
      rw [h3 h0] at h4
      simp at h4
      omega
    · rw [List.foldl_append, h4]
      simp only [List.foldl, digit_toNat hm]; omega

theorem fmtInt_isSigned (n : Int) : IsSigned (fmtInt n) n := by
  cases n with
  | ofNat n =>
    rw [fmtInt, if_neg (by simp)]
    exact fmtNat_isDecimal n
  | negSucc n =>
    rw [fmtInt, if_pos (Int.negSucc_lt_zero n)]
    exact ⟨_, rfl, fmtNat_isDecimal (n + 1)⟩

/-- A text is the notation of at most one number. -/
theorem isSigned_inj {t : List U8} {m n : Int} (hm : IsSigned t m) (hn : IsSigned t n) : m = n := by
  have key : ∀ d, t = 45#8 :: d → ∀ k, ¬ IsDecimal t k := by
    intro d hd k hk
    have := hk.2.1 45#8 (by simp [hd])
    simp at this
  cases m with
  | ofNat m =>
    cases n with
    | ofNat n => exact congrArg Int.ofNat (hm.2.2.2.symm.trans hn.2.2.2)
    | negSucc n => obtain ⟨d, hd, -⟩ := hn; exact absurd hm (key d hd m)
  | negSucc m =>
    cases n with
    | ofNat n => obtain ⟨d, hd, -⟩ := hm; exact absurd hn (key d hd n)
    | negSucc n =>
      obtain ⟨d, hd, h1⟩ := hm
      obtain ⟨d', hd', h2⟩ := hn
      have : d = d' := by rw [hd] at hd'; exact (List.cons.inj hd').2
      subst this
      have := h1.2.2.2.symm.trans h2.2.2.2
      have : m = n := by omega
      rw [this]

theorem stringOfByte_cancel (a b : U8) (x y : List U8) (h : stringOfByte a ++ 32#8 :: x = stringOfByte b ++ 32#8 :: y) :
    a = b ∧ x = y := by
  have hab : ∀ a : U8, ∀ b : U8, a < 0x80#8 → ¬ b < 0x80#8 → a ≠ 0xC0#8 ||| (b >>> 6) := by
    intro a b ha hb e
    have : ∀ b : U8, ¬ (0xC0#8 ||| (b >>> 6)) < 0x80#8 := by apply forall_u8; decide +kernel
    exact this b (e ▸ ha)
  unfold stringOfByte at h
  by_cases ha : a < 0x80#8 <;> by_cases hb : b < 0x80#8
  · rw [if_pos ha, if_pos hb] at h
    simpa using h
  · rw [if_pos ha, if_neg hb] at h
    exact absurd (List.cons.inj h).1 (hab a b ha hb)
  · rw [if_neg ha, if_pos hb] at h
    exact absurd (List.cons.inj h).1.symm (hab b a hb ha)
  · rw [if_neg ha, if_neg hb] at h
    simp only [List.cons_append, List.nil_append, List.cons.injEq, true_and] at h
    have inv : ∀ b : U8, (0xC0#8 ||| (b >>> 6)) <<< 6 ||| ((0x80#8 ||| (b &&& 0x3F#8)) &&& 0x3F#8) = b := by
      apply forall_u8; decide +kernel
    refine ⟨?_, h.2.2⟩
    have := inv a
    rw [h.1, h.2.1, inv b] at this
    exact this.symm

end Hex
