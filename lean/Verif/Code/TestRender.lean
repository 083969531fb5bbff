import Verif.Code.Block
import Verif.Code.TestMismatch

/-!
# The code of package `test`: the text of the report
-/
namespace Source.Test
open GoLang Block

/-- `copy` into the array made last. -/
theorem copy_last {H : List Val} {r : List U8} {pos len cap : Nat} (w : List U8) (hl : pos + len ≤ r.length) (e : List (Name × Val)) :
    copyTo (.slice H.length [] pos len cap) (w.map .u8) ⟨H ++ [.arr (r.map .u8)], e⟩ =
      .ok (.int (min len w.length : Nat)) ⟨H ++ [.arr ((put r pos (w.take len)).map .u8)], e⟩ := by
  have : pos + min len w.length ≤ r.length := by omega
  simp [go, this, ← List.map_take, splice_put]

/-- What a call of `renderText` did. -/
def Renders (H : List Val) (x : Res (List U8)) (r : Out (List Val)) : Prop :=
  match x with
  | .ok s => ∃ t, r = .ok [.str s] ⟨H ++ t, []⟩
  | .panic => ∃ t, r = .panic (H ++ t)

theorem blankLoop_length {d i : Int} {k : Nat} {r r' : List U8} (h : TestHelpers.blankLoop d k i r = .ok r') : r'.length = r.length := by
  induction k generalizing i r with
  | zero => cases h; rfl
  | succ k ih =>
    rw [TestHelpers.blankLoop] at h
    simp only [goSetZ, goSet] at h
    split at h
    · split at h
      · split at h
        · simp only [go] at h
          split at h
          · have := ih h; simpa using this
          · simp only [go, reduceCtorEq] at h
        · simp only [go, reduceCtorEq] at h
      · simp only [go, reduceCtorEq] at h
    · simp only [go, reduceCtorEq] at h

theorem renderText_eq (t : List U8) (b first : Nat) (last : Int) : TestHelpers.renderText t b first last = (do
    let r ← goMakeZ ((t.length : Int) + 8 + b * 2)
    let s ← goSliceZ t 0 first
    let r ← goCopyAt r 0 s
    let r ← goCopyAtZ r first [27#8, 91#8, 55#8, 109#8]
    let s ← goSliceZ t first ((t.length : Int) + last)
    let r ← goCopyAtZ r (first + 4) s
    let r ← TestHelpers.blankLoop ((t.length : Int) + last) b 0 r
    let r ← goCopyAtZ r ((t.length : Int) + last + 4 + b * 2) [27#8, 91#8, 48#8, 109#8]
    let s ← goSliceZ t ((t.length : Int) + last) t.length
    let r ← goCopyAtZ r ((t.length : Int) + last + 8 + b * 2) s
    return r) := rfl

section
variable {P : Prog} (hP : findPkg path P.pkgs = some pkg) (hW : 32 ≤ P.W)
include hP hW

theorem run_render (H : List Val) (t : List U8) (b first : Nat) (last : Int) (h0 : last ≤ 0) (h1 : -(2 : Int) ^ (P.W - 1) ≤ last)
    (hl : ((t.length + 2 * b + first + 32 : Nat) : Int) < 2 ^ (P.W - 1)) {n : Nat} (hn : b < n) :
    Renders H (TestHelpers.renderText t b first last)
      (run P (n + 1) path 0 (n! "renderText") [.str t, .int b, .int first, .int last] H) := by
  have hB := pow31 hW
  have w1 : wrap P.W ((t.length : Int) + 8) = (t.length + 8 : Nat) := wrap_add (k := 8) (by omega) (by omega)
  have w2 : wrap P.W ((b : Int) * 2) = (b * 2 : Nat) := by rw [← wrap_nat (W := P.W) (i := b * 2) (by omega) (by omega)]; simp
  have w3 : wrap P.W (((t.length + 8 : Nat) : Int) + (b * 2 : Nat)) = (t.length + 8 + b * 2 : Nat) := wrap_add (by omega) (by omega)
  have w4 : wrap P.W ((t.length : Int) + last) = t.length + last := wrap_eq (by omega) (by omega) (by omega)
  have c0 : ¬ ((t.length + 8 + b * 2 : Nat) : Int) < 0 := by omega
  have z0 : (0 : Int) ≤ 0 := by decide
  have z1 : (0 : Int) < ((t.length + 1 : Nat) : Int) := by omega
  rw [run_func hP find_render]
  rw [renderText_eq]
  by_cases c1 : first < t.length + 1
  · generalize hN : t.length + 8 + b * 2 = N at *
    have w5 : wrap P.W ((first : Int) + 4) = (first + 4 : Nat) := wrap_add (k := 4) (by omega) (by omega)
    obtain ⟨r1, hr1⟩ : ∃ r1, put (List.replicate N 0#8) 0 ((t.take first).take N) = r1 := ⟨_, rfl⟩
    have p1 : ∀ e, copyTo (.slice H.length [] 0 N N) ((t.take first).map .u8) ⟨H ++ [.arr (List.replicate N (.u8 0))], e⟩ =
        .ok (.int (min N (t.take first).length : Nat)) ⟨H ++ [.arr (r1.map .u8)], e⟩ := by
      intro e
      have := copy_last (H := H) (r := List.replicate N 0#8) (pos := 0) (len := N) (cap := N) (t.take first) (by simp) e
      rw [List.map_replicate, hr1] at this
      exact this
    have f1 : first < N + 1 := by omega
    have f2 : first + 4 < N + 1 := by omega
    have f3 : first ≤ N := by omega
    have f4 : first + 4 ≤ N := by omega
    have hl1 : r1.length = N := by rw [← hr1, put_length] <;> simp <;> omega
    have p2 := copy_last (H := H) (r := r1) (pos := first) (len := N - first) (cap := N - first) [27#8, 91#8, 55#8, 109#8] (by omega)
    generalize hr2 : put r1 first ([27#8, 91#8, 55#8, 109#8].take (N - first)) = r2 at p2
    have hl2 : r2.length = N := by rw [← hr2, put_length] <;> simp [hl1] <;> omega
    simp only [List.map_cons, List.map_nil, List.length_cons, List.length_nil] at p2
    have g1 : goMakeZ ((t.length : Int) + 8 + b * 2) = .ok (List.replicate N 0#8) := by
      unfold goMakeZ
      rw [if_pos (by omega), show ((t.length : Int) + 8 + b * 2).toNat = N by omega]
    have g2 : goSliceZ t 0 first = .ok (t.take first) := by
      unfold goSliceZ goSlice
      simp
      omega
    have g3 : goCopyAt (List.replicate N 0#8) 0 (t.take first) = .ok r1 := by
      rw [put_copy (by simp), ← hr1]; simp
    have g4 : goCopyAtZ r1 first [27#8, 91#8, 55#8, 109#8] = .ok r2 := by
      unfold goCopyAtZ
      rw [if_pos (by omega), Int.toNat_natCast, put_copy (by omega), hl1, ← hr2]
    rw [g1, Res.ok_bind, g2, Res.ok_bind, g3, Res.ok_bind, g4, Res.ok_bind]
    by_cases c2 : (first : Int) ≤ t.length + last
    · obtain ⟨k, hk⟩ : ∃ k : Nat, (t.length : Int) + last = k := ⟨((t.length : Int) + last).toNat, by omega⟩
      have w4 := w4.trans hk
      rw [hk] at c2 ⊢
      have c3 : first ≤ k := by omega
      have c4 : k < t.length + 1 := by omega
      have p3 := copy_last (H := H) (r := r2) (pos := first + 4) (len := N - (first + 4)) (cap := N - (first + 4)) ((t.drop first).take (k - first)) (by omega)
      generalize hr3 : put r2 (first + 4) (((t.drop first).take (k - first)).take (N - (first + 4))) = r3 at p3
      have hl3 : r3.length = N := by rw [← hr3, put_length] <;> simp [hl2] <;> omega
      have g5 : goSliceZ t first k = .ok ((t.drop first).take (k - first)) := by
        unfold goSliceZ goSlice
        rw [if_pos (by omega), if_pos (by simp; omega)]
        simp [List.drop_take]
      have g6 : goCopyAtZ r2 (first + 4) ((t.drop first).take (k - first)) = .ok r3 := by
        unfold goCopyAtZ
        rw [if_pos (by omega), show ((first : Int) + 4).toNat = first + 4 by omega, put_copy (by omega), hl2, ← hr3]
      rw [g5, Res.ok_bind, g6, Res.ok_bind]
      eval_go [w1, w2, w3, w4, w5, c0, c1, z0, z1, Nat.zero_le, Nat.sub_zero, ↓p1, Nat.zero_add, f1, f3, f4, ↓p2, f2, c3, c4, ↓p3]
      generalize hr : loop _ _ _ _ _ = r
      have := loop_post (fun o => ∃ r4, TestHelpers.blankLoop k b 0 r3 = .ok r4 ∧ r4.length = N ∧
          o = .ok .next ⟨H ++ [.arr (r4.map .u8)], [(n! "i", .int (b * 2 : Nat)), (n! "ret", .slice H.length [] 0 N N), (n! "markEnd", .int k),
            (n! "n", .int N), (n! "markEndOffset", .int last), (n! "markStart", .int first), (n! "blankChars", .int b), (n! "t", .str t)]⟩)
        (fun x : Nat × List U8 => x.1 ≤ b ∧ x.2.length = N ∧ TestHelpers.blankLoop k b 0 r3 = TestHelpers.blankLoop k (b - x.1) (x.1 * 2 : Nat) x.2)
        (fun x => ⟨H ++ [.arr (x.2.map .u8)], [(n! "i", .int (x.1 * 2 : Nat)), (n! "ret", .slice H.length [] 0 N N), (n! "markEnd", .int k),
            (n! "n", .int N), (n! "markEndOffset", .int last), (n! "markStart", .int first), (n! "blankChars", .int b), (n! "t", .str t)]⟩)
        (fun x => b - x.1) (fun x m hI hm ih => ?_) (0, r3) ⟨Nat.zero_le _, hl3, by simp⟩ (by simpa using hn) (by simp) hr
      · obtain ⟨r4, g7, hl4, rfl⟩ := this
        have u1 : wrap P.W ((k : Int) + 4) = (k + 4 : Nat) := wrap_add (k := 4) (by omega) (by omega)
        have u2 : wrap P.W ((k : Int) + 8) = (k + 8 : Nat) := wrap_add (k := 8) (by omega) (by omega)
        have u3 : wrap P.W (((k + 4 : Nat) : Int) + (b * 2 : Nat)) = (k + 4 + b * 2 : Nat) := wrap_add (by omega) (by omega)
        have u4 : wrap P.W (((k + 8 : Nat) : Int) + (b * 2 : Nat)) = (k + 8 + b * 2 : Nat) := wrap_add (by omega) (by omega)
        have p5 := copy_last (H := H) (r := r4) (pos := k + 4 + b * 2) (len := N - (k + 4 + b * 2)) (cap := N - (k + 4 + b * 2)) [27#8, 91#8, 48#8, 109#8] (by omega)
        generalize hr5 : put r4 (k + 4 + b * 2) ([27#8, 91#8, 48#8, 109#8].take (N - (k + 4 + b * 2))) = r5 at p5
        have hl5 : r5.length = N := by rw [← hr5, put_length] <;> simp [hl4] <;> omega
        simp only [List.map_cons, List.map_nil, List.length_cons, List.length_nil] at p5
        have p6 := copy_last (H := H) (r := r5) (pos := k + 8 + b * 2) (len := N - (k + 8 + b * 2)) (cap := N - (k + 8 + b * 2)) ((t.drop k).take (t.length - k)) (by omega)
        generalize hr6 : put r5 (k + 8 + b * 2) (((t.drop k).take (t.length - k)).take (N - (k + 8 + b * 2))) = r6 at p6
        have hl6 : r6.length = N := by rw [← hr6, put_length] <;> simp [hl5] <;> omega
        have g8 : goCopyAtZ r4 ((k : Int) + 4 + b * 2) [27#8, 91#8, 48#8, 109#8] = .ok r5 := by
          unfold goCopyAtZ
          rw [if_pos (by omega), show ((k : Int) + 4 + b * 2).toNat = k + 4 + b * 2 by omega, put_copy (by omega), hl4, ← hr5]
        have g9 : goSliceZ t k t.length = .ok ((t.drop k).take (t.length - k)) := by
          unfold goSliceZ goSlice
          rw [if_pos (by omega), if_pos (by simp; omega)]
          simp [List.drop_take]
        have g10 : goCopyAtZ r5 ((k : Int) + 8 + b * 2) ((t.drop k).take (t.length - k)) = .ok r6 := by
          unfold goCopyAtZ
          rw [if_pos (by omega), show ((k : Int) + 8 + b * 2).toNat = k + 8 + b * 2 by omega, put_copy (by omega), hl5, ← hr6]
        rw [g7, Res.ok_bind, g8, Res.ok_bind, g9, Res.ok_bind, g10]
        refine ⟨[.arr (r6.map .u8)], ?_⟩
        have d1 : k + 4 + b * 2 < N + 1 := by omega
        have d2 : k + 8 + b * 2 < N + 1 := by omega
        have d3 : k + 4 + b * 2 ≤ N := by omega
        have d4 : k + 8 + b * 2 ≤ N := by omega
        have d5 : k ≤ t.length := by omega
        eval_go [w2, u1, u2, u3, u4, d1, d2, d3, d4, d5, c4, Nat.zero_le, Nat.sub_zero, Nat.zero_add, ↓p5, ↓p6, get_last, List.length_map, hl6, Nat.le_refl,
          List.take_of_length_le, valBytes_map]
      · obtain ⟨j, r⟩ := x
        obtain ⟨hj, hlr, hb⟩ := hI
        simp only at hj hlr hb hm ih
        rw [loop]
        by_cases hjb : j < b
        · have u1 : wrap P.W ((k : Int) + 4) = (k + 4 : Nat) := wrap_add (k := 4) (by omega) (by omega)
          have u2 : wrap P.W (((k + 4 : Nat) : Int) + (j * 2 : Nat)) = (k + 4 + j * 2 : Nat) := wrap_add (by omega) (by omega)
          have u3 : wrap P.W (((k + 4 + j * 2 : Nat) : Int) + 1) = (k + 4 + j * 2 + 1 : Nat) := wrap_add (k := 1) (by omega) (by omega)
          have u4 : wrap P.W (((j * 2 : Nat) : Int) + 2) = (j * 2 + 2 : Nat) := wrap_add (k := 2) (by omega) (by omega)
          have d1 : k + 4 + j * 2 < N := by omega
          have d2 : k + 4 + j * 2 + 1 < N := by omega
          have d3 : k + 4 + j * 2 < r.length := by omega
          have d4 : k + 4 + j * 2 + 1 < r.length := by omega
          have d5 : j * 2 < b * 2 := by omega
          have := ih (j + 1, (r.set (k + 4 + j * 2) 194#8).set (k + 4 + j * 2 + 1) 183#8) ⟨hjb, by simpa using hlr, ?_⟩ (by simp only; omega)
          · rw [show (j + 1) * 2 = j * 2 + 2 by omega] at this
            eval_go [w2, u1, u2, u3, u4, d1, d2, d3, d4, d5, Nat.zero_add, get_last, set_last, get_map, set_map, List.length_set]
            exact this
          · rw [hb, show b - j = (b - (j + 1)) + 1 by omega, TestHelpers.blankLoop]
            simp only [goSetZ, goSet]
            rw [if_pos (by omega), show ((k : Int) + 4 + (j * 2 : Nat)).toNat = k + 4 + j * 2 by omega, if_pos d3, Res.ok_bind, if_pos (by omega),
              show ((k : Int) + 4 + (j * 2 : Nat) + 1).toNat = k + 4 + j * 2 + 1 by omega, if_pos (by simpa using d4), Res.ok_bind,
              show ((j * 2 : Nat) : Int) + 2 = ((j + 1) * 2 : Nat) by omega]
        · obtain rfl : j = b := by omega
          refine ⟨r, ?_, hlr, ?_⟩
          · rw [hb, Nat.sub_self]; rfl
          · eval_go [w2, Nat.lt_irrefl]
    · have c3 : ¬ (0 ≤ (t.length : Int) + last ∧ first ≤ ((t.length : Int) + last).toNat) := by omega
      have g5 : goSliceZ t first ((t.length : Int) + last) = .panic := by
        unfold goSliceZ goSlice
        split
        · rw [if_neg (by simp; omega)]
        · rfl
      rw [g5]
      have c4 : (t.length : Int) + last < ((t.length + 1 : Nat) : Int) := by omega
      refine ⟨[.arr (r2.map .u8)], ?_⟩
      by_cases c5 : 0 ≤ (t.length : Int) + last
      · have c6 : ¬ first ≤ ((t.length : Int) + last).toNat := by omega
        eval_go [w1, w2, w3, w4, w5, c0, c1, z0, z1, Nat.zero_le, Nat.sub_zero, ↓p1, Nat.zero_add, f1, f3, f4, ↓p2, f2, c4, c5, c6]
      · eval_go [w1, w2, w3, w4, w5, c0, c1, z0, z1, Nat.zero_le, Nat.sub_zero, ↓p1, Nat.zero_add, f1, f3, f4, ↓p2, f2, c5, false_and]
  · have g1 : goMakeZ ((t.length : Int) + 8 + b * 2) = .ok (List.replicate (t.length + 8 + b * 2) 0#8) := by
      unfold goMakeZ
      rw [if_pos (by omega), show ((t.length : Int) + 8 + b * 2).toNat = t.length + 8 + b * 2 by omega]
    have g2 : goSliceZ t 0 first = .panic := by
      unfold goSliceZ goSlice
      rw [if_pos (by omega), if_neg (by simp; omega)]
    rw [g1, Res.ok_bind, g2]
    eval_go [w1, w2, w3, w4, c0, c1, z0, z1]
    exact ⟨_, rfl⟩

end

end Source.Test
