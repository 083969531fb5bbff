import Verif.Lang.HashCode
import Verif.Source.Hex
import Verif.Source.Hex256b
import Verif.Source.HexTiny
import Verif.Model.Hex

/-!
# The code of package `hex`, in both builds
-/
namespace Source.Hex
open GoLang _root_.Hex

abbrev path : Name := n! "github.com/gnabgib/gnablib-go/encoding/hex"

/-- The files of a build. -/
def files : Build → List File
  | .table => [file, Hex256b.file]
  | .tiny => [file, HexTiny.file]

def texts : Build → List (List String)
  | .table => [src, Hex256b.src]
  | .tiny => [src, HexTiny.src]

/-- The package. -/
def pkg (b : Build) : Pkg :=
  ⟨path, (files b).flatMap fun f => importTable f.imports, (files b).flatMap File.decls,
    (n! "hexTable", .str hexTable) :: (n! "ErrLength", .err HexErr.errLength.text) ::
      match b with
      | .table => [(n! "asciiDecode", .str asciiDecode)]
      | .tiny => [(n! "mask6", .const 223)], []⟩

theorem loaded (b : Build) : loadPkg stdlib path (files b) [] = some (pkg b) := by
  cases b <;> kernel_rfl

theorem text (b : Build) : loadText path (texts b) [] = some (pkg b) := by
  rw [← loaded]
  cases b <;> simp only [loadText, texts, files, parseAll, parsed, Hex256b.parsed, HexTiny.parsed, Option.bind_some, Option.map_some]

theorem find_decode (b : Build) : findFunc 0 (n! "decode") (pkg b).decls = some (match b with | .table => Hex256b.decode | .tiny => HexTiny.decode) := by
  cases b <;> kernel_rfl
theorem find_Error (b : Build) : findFunc (n! "invalidHexAtError") (n! "Error") (pkg b).decls = some invalidHexAtError_Error := by cases b <;> kernel_rfl
theorem find_InvalidHexAt (b : Build) : findFunc 0 (n! "InvalidHexAt") (pkg b).decls = some InvalidHexAt := by cases b <;> kernel_rfl
theorem find_FromBytes (b : Build) : findFunc 0 (n! "FromBytes") (pkg b).decls = some FromBytes := by cases b <;> kernel_rfl
theorem find_ToBytes (b : Build) : findFunc 0 (n! "ToBytes") (pkg b).decls = some ToBytes := by cases b <;> kernel_rfl
theorem find_ToBytesFast (b : Build) : findFunc 0 (n! "ToBytesFast") (pkg b).decls = some ToBytesFast := by cases b <;> kernel_rfl

theorem fromBytesLoop_length {b r s : List (BitVec 8)} {p : Nat} (h : fromBytesLoop b p r = .ok s) : s.length = r.length := by
  induction b generalizing p r with
  | nil => cases h; rfl
  | cons x b ih =>
    rw [fromBytesLoop] at h
    generalize goIdx hexTable (x >>> 4).toNat = y at h
    generalize goIdx hexTable (x &&& 15#8).toNat = z at h
    rcases y with y | _ <;> simp only [go, goSet, reduceCtorEq] at h
    split at h <;> simp only [go, reduceCtorEq, List.length_set] at h
    rcases z with z | _ <;> simp only [go, reduceCtorEq] at h
    split at h <;> simp only [go, reduceCtorEq] at h
    simpa using ih h

/-- A slice of a whole array, or nil. -/
def sliceVal (a : Nat) : Option (List (BitVec 8)) → Val
  | some b => .slice a [] 0 b.length b.length
  | none => .nil

/-- The error values. -/
def errVal : Option HexErr → Val
  | none => .nil
  | some .errLength => .err HexErr.errLength.text
  | some (.invalidHexAt c i) => .struct path (n! "invalidHexAtError") [(n! "Byte", .u8 c), (n! "At", .int i)]

section
variable {P : Prog} {bd : Build} (hP : findPkg path P.pkgs = some (pkg bd)) {h : List Val}
include hP

theorem run_decode (x : BitVec 8) (n : Nat) : run P (n + 1) path 0 (n! "decode") [.u8 x] h = .ok [.u8 (decode bd x)] ⟨h, []⟩ := by
  cases bd
  · rw [run_func hP (find_decode .table)]
    have hx : x.toNat < asciiDecode.length := by rw [asciiDecode_length]; exact x.isLt
    eval_go [hx, List.getElem?_eq_getElem hx]
    rfl
  · rw [run_func hP (find_decode .tiny)]
    by_cases hx : 57#8 < x
    · eval_go [hx]
      simp only [decode, decodeTiny, hx, GT.gt, if_true, mask6]
    · eval_go [hx]
      simp only [decode, decodeTiny, hx, GT.gt, if_false]

theorem run_InvalidHexAt (x : BitVec 8) (i : Int) (n : Nat) :
    run P (n + 1) path 0 (n! "InvalidHexAt") [.u8 x, .int i] h = .ok [.struct path (n! "invalidHexAtError") [(n! "Byte", .u8 x), (n! "At", .int i)]] ⟨h, []⟩ := by
  rw [run_func hP (find_InvalidHexAt bd)]
  cases bd <;> eval_go

theorem run_FromBytes {v : Val} {b s : List (BitVec 8)} (hs : _root_.Hex.FromBytes b = .ok s) (hb : HasBytes h v b) (hW : 32 ≤ P.W)
    (hl : ((b.length * 2 : Nat) : Int) < 2 ^ (P.W - 1)) {n : Nat} (hn : b.length < n) :
    run P (n + 1) path 0 (n! "FromBytes") [v] h = .ok [.str s] ⟨h ++ [.arr (s.map .u8)], []⟩ := by
  have hv := hb.plain
  have hlen := hb.len
  have h2 : wrap P.W (b.length * 2 : Int) = (b.length * 2 : Nat) := by
    rw [← wrap_nat (W := P.W) (i := b.length * 2) (by omega) (by omega)]; simp
  have h0 : ¬ ((b.length * 2 : Nat) : Int) < 0 := by omega
  rw [run_func hP (find_FromBytes bd)]
  cases bd <;> (
    eval_go [hv, hlen, h2, h0]
    rw [loop_wf (fun x => x.1 ≤ b.length ∧ x.2.length = b.length * 2 ∧ fromBytesLoop (b.drop x.1) (x.1 * 2) x.2 = .ok s)
      (fun x : Nat × List (BitVec 8) => ⟨h ++ [.arr (x.2.map .u8)], [(n! "i", .int x.1), (n! "ptr", .int (x.1 * 2 : Nat)),
        (n! "ret", .slice h.length [] 0 (b.length * 2) (b.length * 2)), (n! "n", .int b.length), (n! "src", v)]⟩)
      (fun x => .ok .next ⟨h ++ [.arr (s.map .u8)], [(n! "i", .int b.length), (n! "ptr", .int (b.length * 2 : Nat)),
        (n! "ret", .slice h.length [] 0 (b.length * 2) (b.length * 2)), (n! "n", .int b.length), (n! "src", v)]⟩)
      (fun x => b.length - x.1) ?_ (0, List.replicate (b.length * 2) 0) ⟨Nat.zero_le _, by simp, by simpa [_root_.Hex.FromBytes] using hs⟩ (by simp; omega)]
    · have hsl : s.length = b.length * 2 := by simpa using fromBytesLoop_length hs
      eval_go [get_last, List.length_map, hsl, Nat.zero_add, Nat.le_refl, List.take_of_length_le, valBytes_map]
    · simp
    · rintro ⟨i, r⟩ m ⟨h1, h2, h3⟩ hm ih
      simp only at h1 h2 h3 hm
      by_cases hi : i < b.length
      · rw [List.drop_eq_getElem_cons hi, fromBytesLoop] at h3
        have e1 : (b[i] >>> 4).toNat < hexTable.length := by
          have := b[i].isLt
          rw [BitVec.toNat_ushiftRight, Nat.shiftRight_eq_div_pow, show hexTable.length = 16 from rfl]
          omega
        have e2 : (b[i] &&& 15#8).toNat < hexTable.length := by
          rw [BitVec.toNat_and]
          exact Nat.lt_of_le_of_lt Nat.and_le_right (by decide)
        have e3 : i * 2 < r.length := by omega
        have e4 : i * 2 + 1 < r.length := by omega
        simp only [goIdx, goSet, List.getElem?_eq_getElem (l := hexTable) e1, List.getElem?_eq_getElem (l := hexTable) e2, List.length_set, e3, e4, go] at h3
        rw [loop]
        have w1 : wrap P.W (((i * 2 : Nat) : Int) + 1) = (i * 2 + 1 : Nat) := wrap_add (k := 1) (by omega) (by omega)
        have w2 : wrap P.W (((i * 2 : Nat) : Int) + 2) = (i * 2 + 2 : Nat) := wrap_add (k := 2) (by omega) (by omega)
        eval_go [hi, hv, (hb.append _).at hi, get_last, set_last, get_map, e1, e2, e3, e4, h2 ▸ e3, h2 ▸ e4, Nat.zero_add, List.length_set, set_map,
          List.getElem?_eq_getElem (l := hexTable) e1, List.getElem?_eq_getElem (l := hexTable) e2, w1, w2, wrap_succ hi (n := b.length) (by omega) (by omega : 0 < P.W)]
        have h3 := ih (i + 1, (r.set (i * 2) hexTable[(b[i] >>> 4).toNat]).set (i * 2 + 1) hexTable[(b[i] &&& 15#8).toNat]) ⟨hi, by simpa using h2, by rw [show (i + 1) * 2 = i * 2 + 2 by omega]; exact h3⟩ (by simp; omega)
        rw [show (i + 1) * 2 = i * 2 + 2 by omega] at h3
        exact h3
      · have : i = b.length := by omega
        subst this
        rw [List.drop_length, fromBytesLoop] at h3
        cases h3
        rw [loop]
        eval_go [Nat.lt_irrefl])

theorem run_ToBytes {s : List (BitVec 8)} {r : ToBytesRet} (hr : _root_.Hex.ToBytes bd s = .ok r) (hW : 32 ≤ P.W)
    (hl : ((s.length + 1 : Nat) : Int) < 2 ^ (P.W - 1)) {n : Nat} (hn : s.length < n) :
    ∃ x : List (BitVec 8), x.length = s.length / 2 ∧ (∀ b, r.slice = some b → x = b) ∧
      run P (n + 2) path 0 (n! "ToBytes") [.str s] h = .ok [sliceVal h.length r.slice, errVal r.err] ⟨h ++ [.arr (x.map .u8)], []⟩ := by
  have h2 : wrap P.W ((s.length : Int).tdiv 2) = (s.length / 2 : Nat) := by
    rw [← wrap_nat (W := P.W) (i := s.length / 2) (by omega) (by omega)]; simp
  have hR := elem_repo hP
  have h0 : ¬ ((s.length / 2 : Nat) : Int) < 0 := by omega
  have hd := fun h x => run_decode hP (h := h) x n
  have hI := fun h x i => run_InvalidHexAt hP (h := h) x i n
  rw [run_func hP (find_ToBytes bd)]
  obtain ⟨bd', hbd⟩ : ∃ x, x = bd := ⟨_, rfl⟩
  simp only [← hbd] at hr hd
  cases bd
  all_goals
    eval_go [h2, h0]
    generalize hlp : loop _ _ _ _ _ = o
    have hQ := loop_post (fun o => (∃ (x : List (BitVec 8)) (env : List (Name × Val)), x.length = s.length / 2 ∧ r.slice = none ∧ 
          o = .ok (.ret [.nil, errVal r.err]) ⟨h ++ [.arr (x.map .u8)], env⟩) ∨
        ∃ (i p : Nat) (x : List (BitVec 8)), x.length = s.length / 2 ∧ ¬ i < s.length ∧ i = p * 2 + 1 ∧ i ≤ s.length + 1 ∧ toBytesLoop bd' s i p x = .ok r ∧
          o = .ok .next ⟨h ++ [.arr (x.map .u8)], [(n! "ptr", .int p), (n! "i", .int i), (n! "ret", .slice h.length [] 0 (s.length / 2) (s.length / 2)),
            (n! "n", .int s.length), (n! "hex", .str s)]⟩)
      (fun x : Nat × List (BitVec 8) => x.2.length = s.length / 2 ∧ x.1 * 2 ≤ s.length ∧ toBytesLoop bd' s (x.1 * 2 + 1) x.1 x.2 = .ok r)
      (fun x => ⟨h ++ [.arr (x.2.map .u8)], [(n! "ptr", .int x.1), (n! "i", .int (x.1 * 2 + 1 : Nat)),
        (n! "ret", .slice h.length [] 0 (s.length / 2) (s.length / 2)), (n! "n", .int s.length), (n! "hex", .str s)]⟩)
      (fun x => s.length - x.1 * 2) (by
        rintro ⟨p, x⟩ m ⟨h1, h2, h3⟩ hm ih
        simp only at h1 h2 h3 hm
        have e3 : ((p * 2 + 1 : Nat) : Int) - 1 = (p * 2 : Nat) := by omega
        have e4 : wrap P.W (((p * 2 + 1 : Nat) : Int) - 1) = (p * 2 : Nat) := by rw [e3]; exact wrap_nat (by omega) (by omega)
        rw [toBytesLoop.eq_def] at h3
        by_cases hi : p * 2 + 1 < s.length
        · have e1 : p * 2 < s.length := by omega
          have e2 : p < s.length / 2 := by omega
          have e5 : wrap P.W (((p * 2 + 1 : Nat) : Int) + 2) = (p * 2 + 1 + 2 : Nat) := wrap_add (k := 2) (by omega) (by omega)
          have e6 : wrap P.W ((p : Int) + 1) = (p + 1 : Nat) := wrap_add (k := 1) (by omega) (by omega)
          simp only [goIdx, hi, Nat.add_sub_cancel, List.getElem?_eq_getElem, e1, go] at h3
          rw [loop]
          by_cases c1 : decode bd' s[p * 2] &&& 240#8 = 0#8
          · by_cases c2 : decode bd' s[p * 2 + 1] &&& 240#8 = 0#8
            · simp only [c1, c2, not_true_eq_false, if_false, goSet, h1, e2, if_true, go] at h3
              eval_go [e4, hi, List.getElem?_eq_getElem, e1, hd, hR, c1, c2, e2, get_last, Nat.zero_add, get_map, h1, set_map, set_last, e5, e6]
              have h3 := ih (p + 1, x.set p (decode bd' s[p * 2] <<< 4 ||| decode bd' s[p * 2 + 1])) ⟨by simpa using h1, by simp; omega, by
                rw [show (p + 1) * 2 + 1 = p * 2 + 1 + 2 by omega]; exact h3⟩ (by simp; omega)
              rw [show (p + 1) * 2 + 1 = p * 2 + 1 + 2 by omega] at h3
              exact h3
            · simp only [c1, c2, not_true_eq_false, not_false_eq_true, if_false, if_true, go, Res.ok.injEq] at h3
              subst h3
              eval_go [e4, hi, List.getElem?_eq_getElem, e1, hd, hR, hI, c1, c2]
              exact .inl ⟨x, _, h1, rfl⟩
          · simp only [c1, not_false_eq_true, if_true, go, Res.ok.injEq] at h3
            subst h3
            eval_go [e4, hi, List.getElem?_eq_getElem, e1, hd, hR, hI, c1]
            exact .inl ⟨x, _, h1, rfl⟩
        · rw [loop]
          eval_go [hi]
          exact .inr ⟨_, p, x, h1, hi, rfl, by omega, by rw [toBytesLoop.eq_def]; exact h3, rfl⟩) (0, List.replicate (s.length / 2) 0) ⟨by simp, by simp, by simpa [_root_.Hex.ToBytes] using hr⟩ (by simp; omega) (by simp) hlp
    clear hlp
    rcases hQ with ⟨x, env, h1, h2, rfl⟩ | ⟨i, p, x, h1, hi, h3, h4, h5, rfl⟩
    · refine ⟨x, h1, by simp [h2], ?_⟩
      eval_go [h2]
      rfl
    · have e4 : wrap P.W ((i : Int) - 1) = (i - 1 : Nat) := wrap_sub (k := 1) (by omega) (by omega) (by omega)
      rw [toBytesLoop.eq_def] at h5
      simp only [hi, dite_false, Nat.and_one_is_mod] at h5
      by_cases ho : s.length % 2 = 1
      · have e1 : i - 1 < s.length := by omega
        simp only [ho, if_true, goIdx, List.getElem?_eq_getElem, e1, go] at h5
        by_cases c1 : 15#8 < decode bd' s[i - 1]
        · simp only [c1, GT.gt, if_true, go, Res.ok.injEq] at h5
          subst h5
          refine ⟨x, h1, by simp, ?_⟩
          eval_go [and_one (by omega : 2 ≤ P.W), ho, e4, e1, hd, hR, hI, List.getElem?_eq_getElem, c1]
          rfl
        · simp only [c1, GT.gt, if_false, go, Res.ok.injEq] at h5
          subst h5
          refine ⟨x, h1, by simp, ?_⟩
          eval_go [and_one (by omega : 2 ≤ P.W), ho, e4, e1, hd, hR, List.getElem?_eq_getElem, c1]
          rfl
      · simp only [ho, if_false, go, Res.ok.injEq] at h5
        subst h5
        refine ⟨x, h1, by simp, ?_⟩
        have : s.length % 2 = 0 := by omega
        eval_go [and_one (by omega : 2 ≤ P.W), this]
        simp only [sliceVal, errVal, h1]

theorem run_ToBytesFast {s : List (BitVec 8)} {r : Option (List (BitVec 8))} (hr : _root_.Hex.ToBytesFast bd s = .ok r) (hW : 32 ≤ P.W)
    (hl : ((s.length + 1 : Nat) : Int) < 2 ^ (P.W - 1)) {n : Nat} (hn : s.length < n) :
    ∃ x : List (BitVec 8), x.length = s.length / 2 ∧ (∀ b, r = some b → x = b) ∧
      run P (n + 2) path 0 (n! "ToBytesFast") [.str s] h = .ok [sliceVal h.length r] ⟨h ++ [.arr (x.map .u8)], []⟩ := by
  have h2 : wrap P.W ((s.length : Int).tdiv 2) = (s.length / 2 : Nat) := by
    rw [← wrap_nat (W := P.W) (i := s.length / 2) (by omega) (by omega)]; simp
  have hR := elem_repo hP
  have h0 : ¬ ((s.length / 2 : Nat) : Int) < 0 := by omega
  have hd := fun h x => run_decode hP (h := h) x n
  rw [run_func hP (find_ToBytesFast bd)]
  obtain ⟨bd', hbd⟩ : ∃ x, x = bd := ⟨_, rfl⟩
  simp only [← hbd] at hr hd
  cases bd
  all_goals
    eval_go [h2, h0]
    generalize hlp : loop _ _ _ _ _ = o
    have hQ := loop_post (fun o => (∃ (x : List (BitVec 8)) (env : List (Name × Val)), x.length = s.length / 2 ∧ r = none ∧ 
          o = .ok (.ret [.nil]) ⟨h ++ [.arr (x.map .u8)], env⟩) ∨
        ∃ (i p : Nat) (x : List (BitVec 8)), x.length = s.length / 2 ∧ ¬ i < s.length ∧ i = p * 2 + 1 ∧ i ≤ s.length + 1 ∧ toBytesFastLoop bd' s i p x = .ok r ∧
          o = .ok .next ⟨h ++ [.arr (x.map .u8)], [(n! "ptr", .int p), (n! "i", .int i), (n! "ret", .slice h.length [] 0 (s.length / 2) (s.length / 2)),
            (n! "n", .int s.length), (n! "hex", .str s)]⟩)
      (fun x : Nat × List (BitVec 8) => x.2.length = s.length / 2 ∧ x.1 * 2 ≤ s.length ∧ toBytesFastLoop bd' s (x.1 * 2 + 1) x.1 x.2 = .ok r)
      (fun x => ⟨h ++ [.arr (x.2.map .u8)], [(n! "ptr", .int x.1), (n! "i", .int (x.1 * 2 + 1 : Nat)),
        (n! "ret", .slice h.length [] 0 (s.length / 2) (s.length / 2)), (n! "n", .int s.length), (n! "hex", .str s)]⟩)
      (fun x => s.length - x.1 * 2) (by
        rintro ⟨p, x⟩ m ⟨h1, h2, h3⟩ hm ih
        simp only at h1 h2 h3 hm
        have e3 : ((p * 2 + 1 : Nat) : Int) - 1 = (p * 2 : Nat) := by omega
        have e4 : wrap P.W (((p * 2 + 1 : Nat) : Int) - 1) = (p * 2 : Nat) := by rw [e3]; exact wrap_nat (by omega) (by omega)
        rw [toBytesFastLoop.eq_def] at h3
        by_cases hi : p * 2 + 1 < s.length
        · have e1 : p * 2 < s.length := by omega
          have e2 : p < s.length / 2 := by omega
          have e5 : wrap P.W (((p * 2 + 1 : Nat) : Int) + 2) = (p * 2 + 1 + 2 : Nat) := wrap_add (k := 2) (by omega) (by omega)
          have e6 : wrap P.W ((p : Int) + 1) = (p + 1 : Nat) := wrap_add (k := 1) (by omega) (by omega)
          simp only [goIdx, hi, Nat.add_sub_cancel, List.getElem?_eq_getElem, e1, go] at h3
          rw [loop]
          by_cases c1 : (decode bd' s[p * 2] ||| decode bd' s[p * 2 + 1]) &&& 240#8 = 0#8
          · simp only [c1, not_true_eq_false, if_false, goSet, h1, e2, if_true, go] at h3
            eval_go [e4, hi, List.getElem?_eq_getElem, e1, hd, hR, c1, e2, get_last, Nat.zero_add, get_map, h1, set_map, set_last, e5, e6]
            have h3 := ih (p + 1, x.set p (decode bd' s[p * 2] <<< 4 ||| decode bd' s[p * 2 + 1])) ⟨by simpa using h1, by simp; omega, by
              rw [show (p + 1) * 2 + 1 = p * 2 + 1 + 2 by omega]; exact h3⟩ (by simp; omega)
            rw [show (p + 1) * 2 + 1 = p * 2 + 1 + 2 by omega] at h3
            exact h3
          · simp only [c1, not_false_eq_true, if_true, go, Res.ok.injEq] at h3
            subst h3
            eval_go [e4, hi, List.getElem?_eq_getElem, e1, hd, hR, c1]
            exact .inl ⟨x, _, h1, rfl⟩
        · rw [loop]
          eval_go [hi]
          exact .inr ⟨_, p, x, h1, hi, rfl, by omega, by rw [toBytesFastLoop.eq_def]; exact h3, rfl⟩)
      (0, List.replicate (s.length / 2) 0) ⟨by simp, by simp, by simpa [_root_.Hex.ToBytesFast] using hr⟩ (by simp; omega) (by simp) hlp
    clear hlp
    rcases hQ with ⟨x, env, h1, h2, rfl⟩ | ⟨i, p, x, h1, hi, h3, h4, h5, rfl⟩
    · refine ⟨x, h1, by simp [h2], ?_⟩
      eval_go [h2]
      rfl
    · rw [toBytesFastLoop.eq_def] at h5
      simp only [hi, dite_false, Nat.and_one_is_mod] at h5
      by_cases ho : s.length % 2 = 1
      · simp only [ho, if_true, go, Res.ok.injEq] at h5
        subst h5
        refine ⟨x, h1, by simp, ?_⟩
        eval_go [and_one (by omega : 2 ≤ P.W), ho]
        rfl
      · simp only [ho, if_false, go, Res.ok.injEq] at h5
        subst h5
        refine ⟨x, h1, by simp, ?_⟩
        have : s.length % 2 = 0 := by omega
        eval_go [and_one (by omega : 2 ≤ P.W), this]
        simp only [sliceVal, h1]

theorem run_Error (hS : P.std = stdlib) (c : BitVec 8) (i : Int) (hR : elemN (n! "fmt") (P.pkgs.map Pkg.path) = false) (n : Nat) :
    run P (n + 1) path (n! "invalidHexAtError") (n! "Error") [.struct path (n! "invalidHexAtError") [(n! "Byte", .u8 c), (n! "At", .int i)]] h =
      .ok [.str (invalidText c i)] ⟨h, []⟩ := by
  have hb : byteText c = stringOfByte c := by
    revert c; decide +kernel
  have hd : ∀ n, decimal n = fmtNat n := by
    intro n
    induction n using Nat.strongRecOn with
    | _ n ih =>
      rw [decimal, fmtNat]
      split
      · rfl
      · rw [ih _ (by omega)]
  have ht : sprintf [73, 110, 118, 97, 108, 105, 100, 32, 104, 101, 120, 58, 32, 37, 115, 32, 64, 32, 37, 100]
      [.str (stringOfByte c), .int i] = some (invalidText c i) := by
    have e1 : ascii "Invalid hex: " = [73, 110, 118, 97, 108, 105, 100, 32, 104, 101, 120, 58, 32] := by decide +kernel
    have e2 : ascii " @ " = [32, 64, 32] := by decide +kernel
    simp [sprintf, exact, invalidText, fmtInt, hd, e1, e2]
  rw [run_func hP (find_Error bd)]
  cases bd
  all_goals
    eval_go [hR, hS, stdlib, hb]
    erw [ht]
    eval_go

end
end Source.Hex
