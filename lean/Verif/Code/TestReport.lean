import Verif.Code.TestRender
import Verif.Lang.Segments
import Verif.Lemmas.TestHelpers

/-!
# The code of package `test`: comparing strings
-/
namespace Source.Test
open GoLang

/-! ## `strings.Split(s, "")` and formatting -/

theorem inRange_eq (lo hi : Nat) (b : U8) : GoLang.inRange lo hi b = decide (lo ≤ b.toNat ∧ b.toNat ≤ hi) := by
  rw [GoLang.inRange, Bool.eq_iff_iff]
  simp [Nat.ble_eq]

theorem inRange_eq' (lo hi : Nat) (b : U8) : TestHelpers.inRange lo hi b = decide (lo ≤ b.toNat ∧ b.toNat ≤ hi) := by
  simp [TestHelpers.inRange]

theorem ite_eq_cond (b : U8) (k : Nat) (hk : k < 256) (x y : Nat) : (if b = BitVec.ofNat 8 k then x else y) = bif TestHelpers.inRange k k b then x else y := by
  have q : b = BitVec.ofNat 8 k ↔ k ≤ b.toNat ∧ b.toNat ≤ k := by
    rw [← BitVec.toNat_inj, BitVec.toNat_ofNat]
    omega
  rw [inRange_eq', Bool.cond_eq_ite]
  simp only [q, decide_eq_true_eq]

theorem charSize_eq (s : List U8) (h : s ≠ []) : charSize s = TestHelpers.runeSize s := by
  have hr : ∀ lo hi b, GoLang.inRange lo hi b = TestHelpers.inRange lo hi b := fun lo hi b => (inRange_eq lo hi b).trans (inRange_eq' lo hi b).symm
  have q1 : ∀ (b : U8) x y, (if b = 0xE0 then x else y) = bif TestHelpers.inRange 0xE0 0xE0 b then x else y := fun b => ite_eq_cond b 0xE0 (by decide)
  have q2 : ∀ (b : U8) x y, (if b = 0xED then x else y) = bif TestHelpers.inRange 0xED 0xED b then x else y := fun b => ite_eq_cond b 0xED (by decide)
  have q3 : ∀ (b : U8) x y, (if b = 0xF0 then x else y) = bif TestHelpers.inRange 0xF0 0xF0 b then x else y := fun b => ite_eq_cond b 0xF0 (by decide)
  have q4 : ∀ (b : U8) x y, (if b = 0xF4 then x else y) = bif TestHelpers.inRange 0xF4 0xF4 b then x else y := fun b => ite_eq_cond b 0xF4 (by decide)
  rcases s with _ | ⟨b0, _ | ⟨b1, l⟩⟩
  · exact absurd rfl h
  · rfl
  have x1 : TestHelpers.inRange 0xC2 0xDF b0 = true → TestHelpers.inRange 0xE0 0xEF b0 = false := by simp only [inRange_eq', decide_eq_true_eq, decide_eq_false_iff_not]; omega
  have x2 : TestHelpers.inRange 0xC2 0xDF b0 = true → TestHelpers.inRange 0xF0 0xF4 b0 = false := by simp only [inRange_eq', decide_eq_true_eq, decide_eq_false_iff_not]; omega
  have x3 : TestHelpers.inRange 0xE0 0xEF b0 = true → TestHelpers.inRange 0xF0 0xF4 b0 = false := by simp only [inRange_eq', decide_eq_true_eq, decide_eq_false_iff_not]; omega
  rcases l with _ | ⟨b2, _ | ⟨b3, l⟩⟩ <;>
    simp only [charSize, TestHelpers.runeSize, TestHelpers.runeSize.three, hr, q1, q2, q3, q4] <;>
    generalize TestHelpers.inRange (bif TestHelpers.inRange 0xE0 0xE0 b0 then 0xA0 else 0x80) (bif TestHelpers.inRange 0xED 0xED b0 then 0x9F else 0xBF) b1 = T <;>
    generalize TestHelpers.inRange (bif TestHelpers.inRange 0xF0 0xF0 b0 then 0x90 else 0x80) (bif TestHelpers.inRange 0xF4 0xF4 b0 then 0x8F else 0xBF) b1 = U <;>
    clear q1 q2 q3 q4 hr <;>
    generalize TestHelpers.inRange 0xC2 0xDF b0 = A at * <;>
    generalize TestHelpers.inRange 0xE0 0xEF b0 = E at * <;>
    generalize TestHelpers.inRange 0xF0 0xF4 b0 = F at * <;>
    generalize TestHelpers.inRange 0x80 0xBF b1 = B1 at *
  · cases A <;> cases B1 <;> cases E <;> cases T <;> cases F <;> cases U <;> first | rfl | simp at x1 x2 x3
  · generalize TestHelpers.inRange 0x80 0xBF b2 = B2 at *
    cases A <;> cases B1 <;> cases E <;> cases T <;> cases F <;> cases U <;> cases B2 <;> first | rfl | simp at x1 x2 x3
  · generalize TestHelpers.inRange 0x80 0xBF b2 = B2 at *
    generalize TestHelpers.inRange 0x80 0xBF b3 = B3 at *
    cases A <;> cases B1 <;> cases E <;> cases T <;> cases F <;> cases U <;> cases B2 <;> cases B3 <;> first | rfl | simp at x1 x2 x3

theorem chars_eq (n : Nat) (s : List U8) (h : s.length ≤ n) : chars n s = TestHelpers.explode s := by
  induction n generalizing s with
  | zero =>
    obtain rfl : s = [] := List.eq_nil_of_length_eq_zero (by omega)
    rw [TestHelpers.explode]; rfl
  | succ n ih =>
    rw [TestHelpers.explode]
    by_cases hs : s = []
    · subst hs; rfl
    · rw [dif_neg hs]
      have hb := TestHelpers.runeSize_bounds s hs
      cases s with
      | nil => exact absurd rfl hs
      | cons x l => rw [chars.eq_3 _ _ (by simp), charSize_eq _ hs, ih _ (by simp only [List.length_drop]; omega)]

theorem split_eq (s : List U8) (h : List Val) (e : List (Name × Val)) : stdlib (n! "strings") 0 (n! "Split") [.str s, .str []] ⟨h, e⟩ =
    .ok (whole h.length (TestHelpers.explode s).length) ⟨h ++ [.arr ((TestHelpers.explode s).map .str)], e⟩ := by
  have : stdlib (n! "strings") 0 (n! "Split") [.str s, .str []] = splitChars s := rfl
  rw [this]
  simp only [splitChars, go, chars_eq _ _ (Nat.le_refl _), List.length_map]

theorem decimal_eq (n : Nat) : decimal n = TestHelpers.decimal n := by
  unfold TestHelpers.decimal ascii
  rw [show (toString n).toList = Nat.toDigits 10 n by simp [toString, Nat.repr]]
  induction n using Nat.strongRecOn with
  | ind n ih =>
    rw [decimal, Nat.toDigits_eq_if (by decide)]
    have hd : ∀ k < 10, [BitVec.ofNat 8 (48 + k)] = [k.digitChar].map fun c => BitVec.ofNat 8 c.toNat := by decide
    by_cases h : n < 10
    · rw [if_pos h, if_pos h, hd n h]
    · rw [if_neg h, if_neg h, List.map_append, ih _ (by omega), hd _ (by omega)]

theorem explode_length (s : List U8) : (TestHelpers.explode s).length ≤ s.length := by
  obtain ⟨h1, h2⟩ := TestHelpers.explode_splits s
  generalize TestHelpers.explode s = l at *
  subst h1
  induction l with
  | nil => simp
  | cons x l ih =>
    have := List.length_pos_iff.mpr (h2 x (by simp))
    have := ih fun r hr => h2 r (by simp [hr])
    simp only [List.flatten_cons, List.length_append, List.length_cons]
    omega

/-- An argument of `Errorf` as it is printed: the bytes of a slice, other values as they are. -/
def shown (h : List Val) : Val → Option Val
  | .slice a p off len cap =>
    match bytesIn (.slice a p off len cap) ⟨h, []⟩ with
    | .ok b _ => some (.str b)
    | _ => none
  | v => some v

/-- The arguments as they are printed. -/
def shownAll (h : List Val) : List Val → Option (List Val)
  | [] => some []
  | v :: vs =>
    match shown h v, shownAll h vs with
    | some w, some ws => some (w :: ws)
    | _, _ => none

/-- Calls of `Errorf` on the test `i` add the formatted message to the list at `a`. -/
def Logs (P : Prog) (i a : Nat) : Prop := ∀ (h : List Val) (e : List (Name × Val)) (ms : List (List U8)) (f : List U8) (args ws : List Val) (msg : List U8),
  h[a]? = some (.arr (ms.map .str)) → shownAll h args = some ws → sprintf f ws = some msg →
    P.native i (n! "Errorf") (.str f :: args) ⟨h, e⟩ = .ok .nil ⟨h.set a (.arr ((ms ++ [msg]).map .str)), e⟩

theorem set_same {H : List Val} {a : Nat} {v : Val} (h : H[a]? = some v) : H.set a v = H := by
  obtain ⟨h1, rfl⟩ := List.getElem?_eq_some_iff.mp h
  exact List.set_getElem_self h1

theorem first_facts {e f : List (List U8)} {m m' : List U8} {i : Nat} (h : TestHelpers.findFirstMismatch e f m = .ok (i, m')) : m'.length = m.length ∧ i < m.length := by
  unfold TestHelpers.findFirstMismatch at h
  cases h1 : TestHelpers.firstLoop e f 0 m with
  | panic => simp [h1] at h
  | ok p =>
    have := firstLoop_length h1
    simp only [h1, Res.ok_bind, goSet] at h
    split at h
    · rename_i hi
      cases h
      simp only [List.length_set]
      omega
    · cases h

theorem last_facts {e f : List (List U8)} {m m' : List U8} {s : Nat} {l : Int} (h : TestHelpers.findLastMismatch e f m s = .ok (l, m')) :
    m'.length = m.length ∧ -(e.length : Int) ≤ l ∧ l ≤ 0 := by
  unfold TestHelpers.findLastMismatch at h
  cases h1 : TestHelpers.lastLoop e f ((m.length : Int) - e.length - 1) s ((e.length : Int) - 1) ((f.length : Int) - 1) m with
  | panic => simp [h1] at h
  | ok p =>
    obtain ⟨e', m1⟩ := p
    have b1 := lastLoop_length h1
    have b2 := lastLoop_bounds h1 (by omega) (by omega)
    simp only [h1, Res.ok_bind] at h
    cases h2 : TestHelpers.fillLoop s (e' - 1 + ((m.length : Int) - e.length - 1)) m1 with
    | panic => simp [h2] at h
    | ok m2 =>
      have b3 := fillLoop_length h2
      simp only [h2, Res.ok_bind, goSetZ, goSet] at h
      split at h
      · split at h
        · cases h
          simp only [List.length_set]
          omega
        · cases h
      · cases h

/-- The body of `StringMatchTitle`. -/
def BT : Stmts := bodyOf TestStringMatch.StringMatchTitle

theorem find_titleS : findFunc 0 (n! "StringMatchTitle") pkg.decls = some (.func 0 false 0 (n! "StringMatchTitle")
    (.cons (n! "t") (.ptr (.qual (n! "testing") (n! "T"))) (.cons (n! "title") (.name (n! "string")) (.cons (n! "prefix") (.name (n! "string"))
      (.cons (n! "expect") (.name (n! "string")) (.cons (n! "found") (.name (n! "string")) .nil)))))
    .nil (appS (takeS 1 BT) (appS (takeS 1 (dropS 1 BT)) (appS (takeS 6 (dropS 2 BT)) (appS (takeS 4 (dropS 8 BT)) (dropS 12 BT)))))) := by kernel_rfl

/-- The context of `StringMatchTitle`. -/
abbrev ctxT (P : Prog) (n : Nat) : GoLang.Ctx := P.ctx n pkg (n! "StringMatchTitle") .nil (run P n)

/-- The parameters. -/
abbrev envT (i : Nat) (title pre expect found : List U8) : List (Name × Val) :=
  [(n! "found", .str found), (n! "expect", .str expect), (n! "prefix", .str pre), (n! "title", .str title), (n! "t", .native i)]

/-- `%sExpect, found:…`. -/
theorem sprintf_report (a b c d e f g : List U8) : sprintf [37#8, 115#8, 69#8, 120#8, 112#8, 101#8, 99#8, 116#8, 44#8, 32#8, 102#8, 111#8, 117#8, 110#8, 100#8, 58#8, 10#8, 37#8, 115#8, 37#8, 115#8, 226#8, 144#8, 131#8, 10#8, 37#8, 115#8, 37#8, 115#8, 226#8, 144#8, 131#8, 10#8, 37#8, 115#8, 37#8, 115#8]
    [.str a, .str b, .str c, .str d, .str e, .str f, .str g] =
    some (a ++ ascii "Expect, found:\n" ++ b ++ c ++ TestHelpers.etx ++ ascii "\n" ++ d ++ e ++ TestHelpers.etx ++ ascii "\n" ++ f ++ g) := by
  simp [sprintf, TestHelpers.etx]
  rfl

theorem sprintf_length (a b : Nat) : sprintf [69#8, 120#8, 112#8, 101#8, 99#8, 116#8, 101#8, 100#8, 32#8, 37#8, 100#8, 32#8, 99#8, 104#8, 97#8, 114#8, 115#8, 44#8, 32#8, 103#8, 111#8, 116#8, 32#8, 37#8, 100#8] [.int a, .int b] =
    some (ascii "Expected " ++ TestHelpers.decimal a ++ ascii " chars, got " ++ TestHelpers.decimal b) := by
  rw [← decimal_eq, ← decimal_eq]
  simp [sprintf]
  rfl

section
variable {P : Prog} (hP : findPkg path P.pkgs = some pkg) (hW : 32 ≤ P.W) (hS : P.std = stdlib) (hB : elemN (n! "strings") (P.pkgs.map Pkg.path) = false)
include hP hW hS hB

theorem title_marker (H : List Val) (i : Nat) (title pre expect found : List U8)
    (hl : ((expect.length + found.length + 64 : Nat) : Int) < 2 ^ (P.W - 1)) (n : Nat) :
    let s := TestHelpers.sizes expect found (TestHelpers.explode expect) (TestHelpers.explode found)
    execs (ctxT P n) (takeS 6 (dropS 2 BT)) ⟨H, envT i title pre expect found⟩ =
      .ok .next ⟨H ++ [.arr ((TestHelpers.explode expect).map .str)] ++ [.arr ((TestHelpers.explode found).map .str)] ++ [.arr ((List.replicate (s.2 + 1) 0#8).map .u8)],
        (n! "marker", whole (H.length + 2) (s.2 + 1)) :: (n! "nBytes", .int s.1) :: (n! "nRunes", .int s.2) ::
        (n! "fRunes", whole (H.length + 1) (TestHelpers.explode found).length) :: (n! "eRunes", whole H.length (TestHelpers.explode expect).length) ::
        envT i title pre expect found⟩ := by
  have e1 := explode_length expect
  have e2 := explode_length found
  have w1 : wrap P.W (((TestHelpers.explode expect).length : Int) + 1) = ((TestHelpers.explode expect).length + 1 : Nat) := wrap_add (k := 1) (by omega) (by omega)
  have w2 : wrap P.W (((TestHelpers.explode found).length : Int) + 1) = ((TestHelpers.explode found).length + 1 : Nat) := wrap_add (k := 1) (by omega) (by omega)
  have nn (k : Nat) : ¬ ((k + 1 : Nat) : Int) < 0 := by omega
  simp only [takeS, dropS, BT, bodyOf, TestStringMatch.StringMatchTitle, TestHelpers.sizes]
  by_cases h : (expect.length : Int) < found.length
  · have h' : found.length > expect.length := by omega
    eval_go [h', if_true, h, hS, hB, split_eq, w1, w2, nn, List.length_append, List.length_cons, List.length_nil, List.map_replicate]
    rfl
  · have h' : ¬ found.length > expect.length := by omega
    eval_go [h', if_false, h, hS, hB, split_eq, w1, w2, nn, List.length_append, List.length_cons, List.length_nil, List.map_replicate]
    rfl

/-- What is known before the last statement. -/
theorem title_marks (H : List Val) (i : Nat) (title pre : List U8) {expect found : List U8} {e f : List (List U8)} {m m1 m2 : List U8} {first : Nat} {last nB nR : Int}
    {ae af am : Nat} (hE : H[ae]? = some (.arr (e.map .str))) (hF : H[af]? = some (.arr (f.map .str))) (hne : am ≠ ae) (hnf : am ≠ af)
    (hm : H[am]? = some (.arr (m.map .u8))) (x1 : TestHelpers.findFirstMismatch e f m = .ok (first, m1))
    (x2 : TestHelpers.findLastMismatch e f m1 first = .ok (last, m2)) (hl : ((e.length + f.length + m.length + 2 : Nat) : Int) < 2 ^ (P.W - 1))
    {n : Nat} (hn : e.length + m.length < n) :
    execs (ctxT P (n + 1)) (takeS 4 (dropS 8 BT)) ⟨H, (n! "marker", whole am m.length) :: (n! "nBytes", .int nB) :: (n! "nRunes", .int nR) ::
        (n! "fRunes", whole af f.length) :: (n! "eRunes", whole ae e.length) :: envT i title pre expect found⟩ =
      .ok .next ⟨withM H am m2, (n! "fullTitle", .str (if title.length > 0 then title ++ ascii ": " else [])) :: (n! "last", .int last) :: (n! "first", .int first) ::
        (n! "marker", whole am m.length) :: (n! "nBytes", .int nB) :: (n! "nRunes", .int nR) ::
        (n! "fRunes", whole af f.length) :: (n! "eRunes", whole ae e.length) :: envT i title pre expect found⟩ := by
  have ha : am < H.length := lt_of_get hm
  have hm1 := (first_facts x1).1
  have r1 := run_first hP hW hE hF hne hnf ha hm (by omega) (n := n) (by omega)
  rw [x1] at r1
  simp only [Marks, Res.ok_bind, Res.pure_eq] at r1
  have r2 := run_last hP hW (withM_ne (m := m1) hne hE) (withM_ne hnf hF) hne hnf (by simpa [withM] using ha) (withM_get ha) (by omega) first (n := n) (by omega)
  rw [x2] at r2
  simp only [Marks, withM_set, hm1] at r2
  have r3 : withM (withM H am m1) am m2 = withM H am m2 := withM_set
  rw [r3] at r2
  have hR := elem_repo hP
  simp only [takeS, dropS, BT, bodyOf, TestStringMatch.StringMatchTitle]
  by_cases h : title.length > 0
  · have h' : (0 : Int) < title.length := by omega
    eval_go [h', h, hR, r1, r2, if_true]
    rfl
  · have h' : ¬ (0 : Int) < title.length := by omega
    eval_go [h', h, hR, r1, r2, if_false]

theorem title_last {H : List Val} {i a : Nat} (hL : Logs P i a) {ms : List (List U8)} (hms : H[a]? = some (.arr (ms.map .str))) (full pre title : List U8) {expect found l1 l2 : List U8}
    {m : List U8} {am : Nat} (hm : H[am]? = some (.arr (m.map .u8))) {first nB : Nat} {last : Int} (x1 : TestHelpers.renderText expect ((nB : Int) - expect.length) first last = .ok l1)
    (x2 : TestHelpers.renderText found ((nB : Int) - found.length) first last = .ok l2) (h1 : expect.length ≤ nB) (h2 : found.length ≤ nB)
    (h0 : last ≤ 0) (hf : -(nB : Int) ≤ last) (hl : ((3 * nB + first + 32 : Nat) : Int) < 2 ^ (P.W - 1)) {n : Nat} (hn : nB < n) (nR f e : Val) :
    ∃ t E', execs (ctxT P (n + 1)) (dropS 12 BT) ⟨H, (n! "fullTitle", .str full) :: (n! "last", .int last) :: (n! "first", .int first) ::
        (n! "marker", whole am m.length) :: (n! "nBytes", .int nB) :: (n! "nRunes", nR) :: (n! "fRunes", f) :: (n! "eRunes", e) :: envT i title pre expect found⟩ =
      .ok .next ⟨(H.set a (.arr ((ms ++ [full ++ ascii "Expect, found:\n" ++ pre ++ l1 ++ TestHelpers.etx ++ ascii "\n" ++ pre ++ l2 ++ TestHelpers.etx ++ ascii "\n" ++
      pre ++ m]).map .str))) ++ t, E'⟩ := by
  have hR := elem_repo hP
  have ha := lt_of_get hms
  have ham := lt_of_get hm
  have w1 : wrap P.W ((nB : Int) - expect.length) = nB - expect.length := wrap_eq (by omega) (by omega) (by omega)
  have w2 : wrap P.W ((nB : Int) - found.length) = nB - found.length := wrap_eq (by omega) (by omega) (by omega)
  have r1 := run_render hP hW H expect (nB - expect.length) first last h0 (by omega) (by omega) (n := n) (by omega)
  rw [show (((nB - expect.length : Nat) : Int)) = (nB : Int) - expect.length by omega, x1] at r1
  obtain ⟨t1, r1⟩ := r1
  have r2 := run_render hP hW (H ++ t1) found (nB - found.length) first last h0 (by omega) (by omega) (n := n) (by omega)
  rw [show (((nB - found.length : Nat) : Int)) = (nB : Int) - found.length by omega, x2] at r2
  obtain ⟨t2, r2⟩ := r2
  have hms' : (H ++ t1 ++ t2)[a]? = some (.arr (ms.map .str)) := by
    rw [List.append_assoc, List.getElem?_append_left ha, hms]
  have hm' : (H ++ t1 ++ t2)[am]? = some (.arr (m.map .u8)) := by
    rw [List.append_assoc, List.getElem?_append_left ham, hm]
  have sh : shownAll (H ++ t1 ++ t2) [.str full, .str pre, .str l1, .str pre, .str l2, .str pre, whole am m.length] =
      some [.str full, .str pre, .str l1, .str pre, .str l2, .str pre, .str m] := by
    have : bytesIn (whole am m.length) ⟨H ++ t1 ++ t2, []⟩ = .ok m ⟨H ++ t1 ++ t2, []⟩ := by
      eval_go [hm', List.length_map, Nat.zero_add, Nat.le_refl, List.drop_zero, valBytes_map, List.take_length]
      rw [List.take_of_length_le (by simp), valBytes_map]
      rfl
    simp only [shownAll, shown, this]
  have hl e := hL (H ++ t1 ++ t2) e ms _ _ _ _ hms' sh (sprintf_report ..)
  have hs (v : Val) : (H ++ t1 ++ t2).set a v = H.set a v ++ (t1 ++ t2) := by rw [List.append_assoc, List.set_append_left _ _ ha]
  simp only [hs] at hl
  refine ⟨t1 ++ t2, (n! "fullTitle", .str full) :: (n! "last", .int last) :: (n! "first", .int first) ::
        (n! "marker", whole am m.length) :: (n! "nBytes", .int nB) :: (n! "nRunes", nR) :: (n! "fRunes", f) :: (n! "eRunes", e) :: envT i title pre expect found, ?_⟩
  simp only [takeS, dropS, BT, bodyOf, TestStringMatch.StringMatchTitle]
  eval_go [hR, w1, w2, r1, r2, hl]

/-- `StringMatchTitle` records what the model says. -/
theorem run_title {H : List Val} {i a : Nat} (hL : Logs P i a) {ms : List (List U8)} (hms : H[a]? = some (.arr (ms.map .str))) (title pre expect found : List U8)
    {r : List (List U8)} (hx : TestHelpers.StringMatchTitle title pre expect found = .ok r)
    (hl : ((4 * (expect.length + found.length) + 64 : Nat) : Int) < 2 ^ (P.W - 1)) {n : Nat} (hn : 2 * (expect.length + found.length) + 2 < n) :
    ∃ t, run P (n + 2) path 0 (n! "StringMatchTitle") [.native i, .str title, .str pre, .str expect, .str found] H =
      .ok [] ⟨H.set a (.arr ((ms ++ r).map .str)) ++ t, []⟩ := by
  have ha := lt_of_get hms
  unfold TestHelpers.StringMatchTitle TestHelpers.stringMatchTitle at hx
  by_cases he : found = expect
  · rw [if_pos he] at hx
    cases hx
    refine ⟨[], ?_⟩
    rw [run_func hP find_titleS]
    have hset : H.set a (.arr ((ms ++ []).map .str)) ++ [] = H := by
      rw [List.append_nil, List.append_nil, set_same hms]
    rw [hset]
    simp only [takeS, dropS, BT, bodyOf, TestStringMatch.StringMatchTitle, appS]
    eval_go [he, if_true]
  rw [if_neg he] at hx
  have e1 := explode_length expect
  have e2 := explode_length found
  have hz : TestHelpers.sizes expect found (TestHelpers.explode expect) (TestHelpers.explode found) = (max expect.length found.length,
      if found.length > expect.length then (TestHelpers.explode found).length else (TestHelpers.explode expect).length) := by
    unfold TestHelpers.sizes; split <;> congr 1 <;> omega
  have hR : (TestHelpers.sizes expect found (TestHelpers.explode expect) (TestHelpers.explode found)).2 ≤ expect.length + found.length := by
    rw [hz]; dsimp only; split <;> omega
  have hN : (TestHelpers.sizes expect found (TestHelpers.explode expect) (TestHelpers.explode found)).1 = max expect.length found.length := by rw [hz]
  simp only at hx
  have s3 (H : List Val) := title_marker hP hW hS hB H i title pre expect found (by omega) (n + 1)
  simp only at s3
  generalize TestHelpers.sizes expect found (TestHelpers.explode expect) (TestHelpers.explode found) = z at *
  obtain ⟨nB, nR⟩ := z
  dsimp only at hR hN s3 hx
  generalize TestHelpers.explode expect = e at *
  generalize TestHelpers.explode found = f at *
  cases x1 : TestHelpers.findFirstMismatch e f (List.replicate (nR + 1) 0#8) with
  | panic => simp [x1] at hx
  | ok p =>
  obtain ⟨first, m1⟩ := p
  cases x2 : TestHelpers.findLastMismatch e f m1 first with
  | panic => simp [x1, x2] at hx
  | ok p =>
  obtain ⟨last, m2⟩ := p
  cases x3 : TestHelpers.renderText expect ((nB : Int) - expect.length) first last with
  | panic => simp [x1, x2, x3] at hx
  | ok l1 =>
  cases x4 : TestHelpers.renderText found ((nB : Int) - found.length) first last with
  | panic => simp [x1, x2, x3, x4] at hx
  | ok l2 =>
  simp only [x1, x2, x3, x4, Res.ok_bind, Res.pure_eq, Res.ok.injEq] at hx
  obtain ⟨b1, b2⟩ := first_facts x1
  obtain ⟨b3, b4, b5⟩ := last_facts x2
  simp only [List.length_replicate] at b1 b2
  have s1 : execs (ctxT P (n + 1)) (takeS 1 BT) ⟨H, envT i title pre expect found⟩ = .ok .next ⟨H, envT i title pre expect found⟩ := by
    simp only [takeS, dropS, BT, bodyOf, TestStringMatch.StringMatchTitle]
    eval_go [he, if_false]
  have s2 : execs (ctxT P (n + 1)) (takeS 1 (dropS 1 BT)) ⟨H, envT i title pre expect found⟩ =
      .ok .next ⟨H.set a (.arr ((ms ++ TestHelpers.lengthReport expect found).map .str)), envT i title pre expect found⟩ := by
    simp only [takeS, dropS, BT, bodyOf, TestStringMatch.StringMatchTitle, TestHelpers.lengthReport]
    by_cases hd : found.length = expect.length
    · have : (found.length : Int) = expect.length := by omega
      simp only [hd, ne_eq, not_true_eq_false, if_false, List.append_nil, set_same hms]
      eval_go [hd]
    · have hd' : ¬ (found.length : Int) = expect.length := by omega
      simp only [hd, ne_eq, not_false_eq_true, if_true]
      have hl e := hL H e ms _ [.int expect.length, .int found.length] _ _ hms rfl (sprintf_length ..)
      eval_go [hd', hl]
  generalize hms1 : ms ++ TestHelpers.lengthReport expect found = ms1 at *
  have ha' : a < (H.set a (.arr (ms1.map .str))).length := by simpa using ha
  have hg : (H.set a (.arr (ms1.map .str)))[a]? = some (.arr (ms1.map .str)) := by simp [ha]
  have hHL : (H.set a (.arr (ms1.map .str))).length = H.length := by simp
  have s3 := s3 (H.set a (.arr (ms1.map .str)))
  generalize hH1 : H.set a (.arr (ms1.map .str)) = H1 at *
  have g1 : (H1 ++ [.arr (e.map .str)] ++ [.arr (f.map .str)] ++ [.arr ((List.replicate (nR + 1) 0#8).map .u8)])[H1.length]? = some (.arr (e.map .str)) := by simp
  have g2 : (H1 ++ [.arr (e.map .str)] ++ [.arr (f.map .str)] ++ [.arr ((List.replicate (nR + 1) 0#8).map .u8)])[H1.length + 1]? = some (.arr (f.map .str)) := by simp
  have g3 : (H1 ++ [.arr (e.map .str)] ++ [.arr (f.map .str)] ++ [.arr ((List.replicate (nR + 1) 0#8).map .u8)])[H1.length + 2]? =
    some (.arr ((List.replicate (nR + 1) 0#8).map .u8)) := by simp
  have s4 := title_marks hP hW hS hB _ i title pre (expect := expect) (found := found) (nB := nB) (nR := nR) g1 g2 (by omega) (by omega) g3 x1 x2
    (by simp only [List.length_replicate]; omega) (n := n) (by simp only [List.length_replicate]; omega)
  have hw : withM (H1 ++ [.arr (e.map .str)] ++ [.arr (f.map .str)] ++ [.arr ((List.replicate (nR + 1) 0#8).map .u8)]) (H1.length + 2) m2 =
      H1 ++ [.arr (e.map .str), .arr (f.map .str), .arr (m2.map .u8)] := by
    simp [withM]
  rw [hw] at s4
  obtain ⟨t, E', s5⟩ := title_last hP hW hS hB (H := H1 ++ [.arr (e.map .str), .arr (f.map .str), .arr (m2.map .u8)]) hL (ms := ms1)
    (by rw [List.getElem?_append_left ha', hg]) (if title.length > 0 then title ++ ascii ": " else []) pre title (am := H1.length + 2) (m := m2) (by simp)
    x3 x4 (by omega) (by omega) b5 (by omega) (by omega) (n := n) (by omega) (.int nR) (whole (H1.length + 1) f.length) (whole H1.length e.length)
  rw [b3, b1] at s5
  rw [List.length_replicate] at s4
  rw [List.set_append_left _ _ ha', List.append_assoc] at s5
  refine ⟨[.arr (e.map .str), .arr (f.map .str), .arr (m2.map .u8)] ++ t, ?_⟩
  rw [run_func hP find_titleS]
  generalize takeS 1 BT = S1 at *
  generalize takeS 1 (dropS 1 BT) = S2 at *
  generalize takeS 6 (dropS 2 BT) = S3 at *
  generalize takeS 4 (dropS 8 BT) = S4 at *
  generalize dropS 12 BT = S5 at *
  have hf : H.set a (.arr ((ms ++ r).map .str)) = H1.set a (.arr ((ms ++ r).map .str)) := by rw [← hH1, List.set_set]
  rw [hf, ← hx, ← List.append_assoc ms, hms1]
  eval_go [↓execs_app, ↓s1, ↓s2, ↓s3, ↓s4, ↓s5]

end

end Source.Test
