import Verif.Lang.Memory
import Verif.Source.BytesAdd
import Verif.Source.BytesAddBE
import Verif.Source.BytesAddLE
import Verif.Source.BytesPad
import Verif.Source.BytesXor
import Verif.Source.BytesZero
import Verif.Lemmas.Bytes

/-!
# The code of package `bytes`
-/
namespace Source.Bytes
open GoLang

set_option linter.unusedSimpArgs false

abbrev path : Name := n! "github.com/gnabgib/gnablib-go/bytes"

def files : List File := [BytesAdd.file, BytesAddBE.file, BytesAddLE.file, BytesXor.file, BytesZero.file, BytesPad.file]

/-- The package. -/
def pkg : Pkg := ⟨path, files.flatMap fun f => importTable f.imports, files.flatMap File.decls,
  [(n! "bytes16", .const 2), (n! "bytes32", .const 4), (n! "bytes64", .const 8), (n! "bytes128", .const 16), (n! "bytes256", .const 32), (n! "bytes512", .const 64),
    (n! "z8", .str (List.replicate 8 0#8))], []⟩

def texts : List (List String) := [BytesAdd.src, BytesAddBE.src, BytesAddLE.src, BytesXor.src, BytesZero.src, BytesPad.src]

theorem loaded : loadPkg stdlib path files [] = some pkg := by kernel_rfl

theorem text : loadText path texts [] = some pkg := by
  simp only [texts, loadText, parseAll, BytesAdd.parsed, BytesAddBE.parsed, BytesAddLE.parsed, BytesXor.parsed, BytesZero.parsed, BytesPad.parsed, Option.bind_some, Option.map_some]
  exact loaded

theorem find_Zero : findFunc 0 (n! "Zero") pkg.decls = some BytesZero.Zero := by kernel_rfl
theorem find_XorEq : findFunc 0 (n! "XorEq") pkg.decls = some BytesXor.XorEq := by kernel_rfl
theorem find_padLE : findFunc 0 (n! "padLE") pkg.decls = some BytesPad.padLE := by kernel_rfl
theorem find_padBE : findFunc 0 (n! "padBE") pkg.decls = some BytesPad.padBE := by kernel_rfl
theorem find_addEq8 : findFunc 0 (n! "addEq8") pkg.decls = some BytesAdd.addEq8 := by kernel_rfl
theorem find_addEq16LE : findFunc 0 (n! "addEq16LE") pkg.decls = some BytesAddLE.addEq16LE := by kernel_rfl
theorem find_addEq32LE : findFunc 0 (n! "addEq32LE") pkg.decls = some BytesAddLE.addEq32LE := by kernel_rfl
theorem find_addEq16BE : findFunc 0 (n! "addEq16BE") pkg.decls = some BytesAddBE.addEq16BE := by kernel_rfl
theorem find_addEq32BE : findFunc 0 (n! "addEq32BE") pkg.decls = some BytesAddBE.addEq32BE := by kernel_rfl
theorem find_addAnyLE : findFunc 0 (n! "addAnyLE") pkg.decls = some BytesAddLE.addAnyLE := by kernel_rfl
theorem find_addAnyBE : findFunc 0 (n! "addAnyBE") pkg.decls = some BytesAddBE.addAnyBE := by kernel_rfl

/-- The outcome of the model's function as outcome of a run. -/
def Ends {α : Type} (L : Layout) (h : List Val) (vals : α → List Val) (r : Res (Mem × α)) (o : Out (List Val)) : Prop :=
  match r with
  | .ok (m', x) => ∃ h', o = .ok (vals x) ⟨h', []⟩ ∧ View L h' m' ∧ Frame L h h'
  | .panic => ∃ h', o = .panic h' ∧ Frame L h h'

/-- The errors of the package. -/
def errVal (e : Bool) : Val := bif e then .err ("not enough space".toList.map fun c => BitVec.ofNat 8 c.toNat) else .nil

theorem errVal_true : errVal true = .err [110#8, 111#8, 116#8, 32#8, 101#8, 110#8, 111#8, 117#8, 103#8, 104#8, 32#8, 115#8, 112#8, 97#8, 99#8, 101#8] := by kernel_rfl

section
variable {P : Prog} (hP : findPkg path P.pkgs = some pkg) {L : Layout} {h : List Val} {m : Mem}
include hP

theorem run_Zero (hV : View L h m) {v : Val} {s : Slice} (hs : SliceAt L v s) {n : Nat} (hn : s.len < n) :
    ∃ h', run P (n + 1) path 0 (n! "Zero") [v] h = .ok [] ⟨h', []⟩ ∧ View L h' (_root_.Bytes.Zero m s) ∧ Frame L h h' := by
  have hv := hs.plain
  rw [run_func hP find_Zero]
  eval_go [hv]
  generalize hlp : loop _ _ _ _ _ = o
  obtain ⟨v', s', h', m', rfl, hV', hs', hF, e⟩ : ∃ v' s' h' m', o = .ok .next ⟨h', [(n! "target", v')]⟩ ∧ View L h' m' ∧ SliceAt L v' s' ∧ Frame L h h' ∧
      _root_.Bytes.Zero m s = Slice.copyStr m' s' (List.replicate 8 0#8) := by
    refine loop_post (α := Val × Slice × List Val × Mem)
      (fun o => ∃ v' s' h' m', o = .ok .next ⟨h', [(n! "target", v')]⟩ ∧ View L h' m' ∧ SliceAt L v' s' ∧ Frame L h h' ∧
        _root_.Bytes.Zero m s = Slice.copyStr m' s' (List.replicate 8 0#8))
      (fun x => View L x.2.2.1 x.2.2.2 ∧ SliceAt L x.1 x.2.1 ∧ Frame L h x.2.2.1 ∧ _root_.Bytes.Zero m s = _root_.Bytes.Zero x.2.2.2 x.2.1)
      (fun x => ⟨x.2.2.1, [(n! "target", x.1)]⟩) (fun x => x.2.1.len) ?_ (v, s, h, m) ⟨hV, hs, .refl .., rfl⟩ hn rfl hlp
    clear hlp
    rintro ⟨v₁, s₁, h₁, m₁⟩ k ⟨hV₁, hs₁, hF₁, e₁⟩ hk ih
    simp only at hV₁ hs₁ hF₁ e₁ hk ih ⊢
    have hv₁ := hs₁.plain
    have hl₁ := hs₁.len
    by_cases h8 : 8 < s₁.len
    · have h8' : (8 : Int) < (s₁.len : Int) := by omega
      obtain ⟨h₂, hV₂, hF₂, hc⟩ := hs₁.copyTo hV₁ (List.replicate 8 0#8)
      obtain ⟨v₂, hs₂, hc₂⟩ := hs₁.from (lo := 8) (by omega) (x := .const 8) rfl
      have hv₂ := hs₂.plain
      simp only [List.reduceReplicate, List.map_cons, List.map_nil] at hc
      rw [loop_next (s₁ := ⟨h₁, [(n! "target", v₁)]⟩) (s₂ := ⟨h₂, [(n! "target", v₂)]⟩) (s₃ := ⟨h₂, [(n! "target", v₂)]⟩)]
      · refine ih (v₂, ⟨s₁.base + 8, s₁.len - 8⟩, h₂, Slice.copyStr m₁ s₁ (List.replicate 8 0#8)) ⟨hV₂, hs₂, hF₁.trans hF₂, ?_⟩ (by show s₁.len - 8 < _; omega)
        rw [e₁, _root_.Bytes.Zero, dif_pos h8]
      all_goals eval_go [hv₁, hs₁.able, hl₁, h8', hc, hc₂, hv₂]
    · have h8' : ¬ (8 : Int) < (s₁.len : Int) := by omega
      rw [loop_false (s₁ := ⟨h₁, [(n! "target", v₁)]⟩)]
      · exact ⟨v₁, s₁, h₁, m₁, rfl, hV₁, hs₁, hF₁, by rw [e₁, _root_.Bytes.Zero, dif_neg h8]⟩
      · eval_go [hv₁, hl₁, h8']
  clear hlp
  obtain ⟨h₂, hV₂, hF₂, hc⟩ := hs'.copyTo hV' (List.replicate 8 0#8)
  simp only [List.reduceReplicate, List.map_cons, List.map_nil] at hc
  have hv' := hs'.plain
  eval_go [hc, hv']
  refine ⟨h₂, rfl, ?_, hF.trans hF₂⟩
  rw [e]; exact hV₂

theorem run_XorEq (hW : 32 ≤ P.W) (hV : View L h m) {vd vo : Val} {d o : Slice} (hd : SliceAt L vd d) (ho : SliceAt L vo o)
    (hl : (d.len : Int) < 2 ^ (P.W - 1)) {n : Nat} (hn : d.len < n) :
    ∃ h' m' k, run P (n + 1) path 0 (n! "XorEq") [vd, vo] h = .ok [.int (k : Nat)] ⟨h', []⟩ ∧ _root_.Bytes.XorEq m d o = .ok (m', k) ∧ View L h' m' ∧ Frame L h h' := by
  have hvd := hd.plain
  have hvo := ho.plain
  have hld := hd.len
  have hlo := ho.len
  rw [run_func hP find_XorEq]
  eval_go [hvd, hvo, hld]
  obtain ⟨k, hk⟩ : ∃ k, k = if o.len < d.len then o.len else d.len := ⟨_, rfl⟩
  have hX : _root_.Bytes.XorEq m d o = (do let m ← _root_.Bytes.xorLoop d o k 0 m; return (m, k)) := by rw [hk]; rfl
  have hkd : k ≤ d.len := by split at hk <;> omega
  have hko : k ≤ o.len := by split at hk <;> omega
  rw [hX]
  clear hX
  by_cases hlt : o.len < d.len
  on_goal 1 =>
    have hlt' : (o.len : Int) < (d.len : Int) := by omega
    eval_go [hvd, hvo, hlo, hlt']
    rw [if_pos hlt] at hk
    rw [← hk]
    clear hlt' hlt hk
  on_goal 2 =>
    have hlt' : ¬ (o.len : Int) < (d.len : Int) := by omega
    eval_go [hvd, hvo, hlo, hlt']
    rw [if_neg hlt] at hk
    rw [← hk]
    clear hlt' hlt hk
  all_goals
    generalize hlp : loop _ _ _ _ _ = out
    obtain ⟨h', m', rfl, hV', hF', hx⟩ : ∃ h' m', out = .ok .next ⟨h', [(n! "i", .int k), (n! "n", .int k), (n! "other", vo), (n! "dst", vd)]⟩ ∧ View L h' m' ∧ Frame L h h' ∧
        _root_.Bytes.xorLoop d o k 0 m = .ok m' := by
      refine loop_post (α := Nat × List Val × Mem)
        (fun out => ∃ h' m', out = .ok .next ⟨h', [(n! "i", .int k), (n! "n", .int k), (n! "other", vo), (n! "dst", vd)]⟩ ∧ View L h' m' ∧ Frame L h h' ∧
          _root_.Bytes.xorLoop d o k 0 m = .ok m')
        (fun x => View L x.2.1 x.2.2 ∧ Frame L h x.2.1 ∧ x.1 ≤ k ∧ _root_.Bytes.xorLoop d o k 0 m = _root_.Bytes.xorLoop d o (k - x.1) x.1 x.2.2)
        (fun x => ⟨x.2.1, [(n! "i", .int x.1), (n! "n", .int k), (n! "other", vo), (n! "dst", vd)]⟩) (fun x => k - x.1) ?_ (0, h, m) ⟨hV, .refl .., by simp, rfl⟩ (by simp; omega) rfl hlp
      clear hlp
      rintro ⟨i, h₁, m₁⟩ q ⟨hV₁, hF₁, hi, e₁⟩ hq ih
      simp only at hV₁ hF₁ e₁ hq ih hi ⊢
      by_cases hik : i < k
      · have hik' : (i : Int) < (k : Int) := by omega
        obtain ⟨l, hl1, hl2⟩ := hd.loc (i := i) (by omega) (j := .int i) rfl
        obtain ⟨hld, hst⟩ := hl2 h₁ m₁ hV₁
        obtain ⟨h₂, m₂, hm₂, hV₂, hF₂, hst⟩ := hst (m₁ (d.base + i) ^^^ m₁ (o.base + i))
        have hat := ho.at hV₁ (i := i) (by omega)
        have hw := wrap_succ hik (by omega) (show 0 < P.W by omega)
        rw [loop_next (s₁ := ⟨h₁, [(n! "i", .int i), (n! "n", .int k), (n! "other", vo), (n! "dst", vd)]⟩)
          (s₂ := ⟨h₂, [(n! "i", .int i), (n! "n", .int k), (n! "other", vo), (n! "dst", vd)]⟩)
          (s₃ := ⟨h₂, [(n! "i", .int (i + 1 : Nat)), (n! "n", .int k), (n! "other", vo), (n! "dst", vd)]⟩)]
        · refine ih (i + 1, h₂, m₂) ⟨hV₂, hF₁.trans hF₂, hik, ?_⟩ (by show k - (i + 1) < _; omega)
          rw [e₁, show k - i = k - (i + 1) + 1 by omega, _root_.Bytes.xorLoop]
          simp only [Slice.get, show i < d.len by omega, show i < o.len by omega, if_true, Res.ok_bind, hm₂]
        all_goals eval_go [hvd, hvo, hik', hl1, hld, hst, hat, hw]
      · obtain rfl : i = k := by omega
        rw [loop_false (s₁ := ⟨h₁, [(n! "i", .int i), (n! "n", .int i), (n! "other", vo), (n! "dst", vd)]⟩)]
        · exact ⟨h₁, m₁, rfl, hV₁, hF₁, by simpa [_root_.Bytes.xorLoop] using e₁⟩
        · eval_go [hvd, decide_false, hik]
    clear hlp
    eval_go [hx, hvo]
    exact ⟨h', m', k, rfl, rfl, hV', hF'⟩

variable (hS : P.std = stdlib) (hE : elemN (n! "errors") (P.pkgs.map Pkg.path) = false)
include hS hE

theorem run_padLE (hV : View L h m) {vd vs : Val} {d s : Slice} (hd : SliceAt L vd d) (hs : SliceAt L vs s) (k : Nat) {n : Nat} (hn : d.len + 1 < n) :
    Ends L h (fun e => [errVal e]) (_root_.Bytes.padLE m d s k) (run P (n + 1) path 0 (n! "padLE") [vd, vs, .int k] h) := by
  have hvd := hd.plain
  have hvs := hs.plain
  have hld := hd.len
  have hls := hs.len
  have had := hd.able
  have has := hs.able
  rw [run_func hP find_padLE]
  by_cases hlt : d.len < k
  · eval_go [hvd, hvs, hld, hlt, hE, hS, errVal_true]
    rw [_root_.Bytes.padLE, if_pos hlt]
    exact ⟨h, rfl, hV, .refl ..⟩
  by_cases hk : s.len < k
  · by_cases h0 : 0 < s.len
    · have h0' : (0 : Int) < (s.len : Int) := by omega
      obtain ⟨l1, l2, a, p, b, q, f1, f2, f3, f4, f5⟩ := hd.same hs (by omega) (by omega) (j := .const 0) rfl
      have f3 := f3 h m hV
      have f4 := f4 h m hV
      have hz : ¬ ((0 < s.len) ∧ (d.len = 0 ∨ s.len = 0)) := by omega
      by_cases hb : d.base = s.base
      · have hb' := decide_eq_true hb
        eval_go [hvd, hvs, hld, hls, hlt, hk, h0', f1, f2, f3, f4, f5, hb']
        rw [_root_.Bytes.padLE, if_neg hlt]
        simp only [hk, if_true, if_false, gt_iff_lt, if_neg hz, if_pos (show _ ∧ d.base = s.base from ⟨h0, hb⟩)]
        exact ⟨h, rfl, hV, .refl ..⟩
      · have hb' := decide_eq_false hb
        obtain ⟨vs', hs', fs⟩ := hs.upto (hi := s.len) (by omega) (y := .int s.len) rfl
        have hvs' := hs'.plain
        have fe := hs'.elemsIn hV
        obtain ⟨h₂, hV₂, hF₂, fc⟩ := hd.copyTo hV (Slice.content m ⟨s.base, s.len⟩)
        rw [copyStr_content] at hV₂
        obtain ⟨vd', hd', fd⟩ := hd.sub (lo := s.len) (hi := k) (by omega) (by omega) (x := .int s.len) (y := .int k) rfl rfl
        have hvd' := hd'.plain
        obtain ⟨h₃, hzr, hV₃, hF₃⟩ := run_Zero hP hV₂ hd' (n := n - 1) (by show k - s.len < _; omega)
        rw [show n - 1 + 1 = n by omega] at hzr
        eval_go [hvd, hvs, hld, hls, had, has, hlt, hk, h0', f1, f2, f3, f4, f5, hb', fs, hvs', fe, fc, elem_repo hP, fd, hvd', hzr, Nat.lt_irrefl, cast_lt_cast]
        rw [_root_.Bytes.padLE, if_neg hlt]
        simp only [gt_iff_lt, if_neg hz, hb, and_false, hk, if_true, if_false, Slice.sub, Nat.zero_le, Nat.le_refl, true_and, Nat.add_zero, Nat.sub_zero, Res.ok_bind, Nat.lt_irrefl, show ¬ s.len < s.len from Nat.lt_irrefl _, show s.len ≤ k ∧ k ≤ d.len by omega]
        exact ⟨_, rfl, hV₃, hF₂.trans hF₃⟩
    · have h0' : ¬ (0 : Int) < (s.len : Int) := by omega
      have hz : ¬ ((0 < s.len) ∧ (d.len = 0 ∨ s.len = 0)) := by omega
      have hb : ¬ ((0 < s.len) ∧ d.base = s.base) := by omega
      obtain ⟨vs', hs', fs⟩ := hs.upto (hi := s.len) (by omega) (y := .int s.len) rfl
      have hvs' := hs'.plain
      have fe := hs'.elemsIn hV
      obtain ⟨h₂, hV₂, hF₂, fc⟩ := hd.copyTo hV (Slice.content m ⟨s.base, s.len⟩)
      rw [copyStr_content] at hV₂
      obtain ⟨vd', hd', fd⟩ := hd.sub (lo := s.len) (hi := k) (by omega) (by omega) (x := .int s.len) (y := .int k) rfl rfl
      have hvd' := hd'.plain
      obtain ⟨h₃, hzr, hV₃, hF₃⟩ := run_Zero hP hV₂ hd' (n := n - 1) (by show k - s.len < _; omega)
      rw [show n - 1 + 1 = n by omega] at hzr
      eval_go [hvd, hvs, hld, hls, had, has, hlt, hk, h0', fs, hvs', fe, fc, elem_repo hP, fd, hvd', hzr, Nat.lt_irrefl, cast_lt_cast]
      rw [_root_.Bytes.padLE, if_neg hlt]
      simp only [gt_iff_lt, if_neg hz, if_neg hb, hk, if_true, if_false, Slice.sub, Nat.zero_le, Nat.le_refl, true_and, Nat.add_zero, Nat.sub_zero, Res.ok_bind, Nat.lt_irrefl, show ¬ s.len < s.len from Nat.lt_irrefl _, show s.len ≤ k ∧ k ≤ d.len by omega]
      exact ⟨_, rfl, hV₃, hF₂.trans hF₃⟩
  · by_cases h0 : 0 < k
    · have h0' : (0 : Int) < (k : Int) := by omega
      obtain ⟨l1, l2, a, p, b, q, f1, f2, f3, f4, f5⟩ := hd.same hs (by omega) (by omega) (j := .const 0) rfl
      have f3 := f3 h m hV
      have f4 := f4 h m hV
      have hz : ¬ ((0 < k) ∧ (d.len = 0 ∨ s.len = 0)) := by omega
      by_cases hb : d.base = s.base
      · have hb' := decide_eq_true hb
        eval_go [hvd, hvs, hld, hls, hlt, hk, h0', f1, f2, f3, f4, f5, hb']
        rw [_root_.Bytes.padLE, if_neg hlt]
        simp only [hk, if_true, if_false, gt_iff_lt, if_neg hz, if_pos (show _ ∧ d.base = s.base from ⟨h0, hb⟩)]
        exact ⟨h, rfl, hV, .refl ..⟩
      · have hb' := decide_eq_false hb
        obtain ⟨vs', hs', fs⟩ := hs.upto (hi := k) (by omega) (y := .int k) rfl
        have hvs' := hs'.plain
        have fe := hs'.elemsIn hV
        obtain ⟨h₂, hV₂, hF₂, fc⟩ := hd.copyTo hV (Slice.content m ⟨s.base, k⟩)
        rw [copyStr_content] at hV₂
        eval_go [hvd, hvs, hld, hls, had, has, hlt, hk, h0', f1, f2, f3, f4, f5, hb', fs, hvs', fe, fc, Nat.lt_irrefl, cast_lt_cast]
        rw [_root_.Bytes.padLE, if_neg hlt]
        simp only [gt_iff_lt, if_neg hz, hb, and_false, hk, if_true, if_false, Slice.sub, Nat.zero_le, Nat.le_refl, true_and, Nat.add_zero, Nat.sub_zero, Res.ok_bind, Nat.lt_irrefl, show ¬ s.len < s.len from Nat.lt_irrefl _, show k ≤ s.len by omega]
        exact ⟨_, rfl, hV₂, hF₂⟩
    · have h0' : ¬ (0 : Int) < (k : Int) := by omega
      have hz : ¬ ((0 < k) ∧ (d.len = 0 ∨ s.len = 0)) := by omega
      have hb : ¬ ((0 < k) ∧ d.base = s.base) := by omega
      obtain ⟨vs', hs', fs⟩ := hs.upto (hi := k) (by omega) (y := .int k) rfl
      have hvs' := hs'.plain
      have fe := hs'.elemsIn hV
      obtain ⟨h₂, hV₂, hF₂, fc⟩ := hd.copyTo hV (Slice.content m ⟨s.base, k⟩)
      rw [copyStr_content] at hV₂
      eval_go [hvd, hvs, hld, hls, had, has, hlt, hk, h0', fs, hvs', fe, fc, Nat.lt_irrefl, cast_lt_cast]
      rw [_root_.Bytes.padLE, if_neg hlt]
      simp only [gt_iff_lt, if_neg hz, if_neg hb, hk, if_true, if_false, Slice.sub, Nat.zero_le, Nat.le_refl, true_and, Nat.add_zero, Nat.sub_zero, Res.ok_bind, Nat.lt_irrefl, show ¬ s.len < s.len from Nat.lt_irrefl _, show k ≤ s.len by omega]
      exact ⟨_, rfl, hV₂, hF₂⟩

theorem run_padBE (hW : 32 ≤ P.W) (hV : View L h m) {vd vs : Val} {d s : Slice} (hd : SliceAt L vd d) (hs : SliceAt L vs s) (k : Nat) (hk2 : (k : Int) < 2 ^ (P.W - 1))
    {n : Nat} (hn : d.len + 1 < n) :
    Ends L h (fun e => [errVal e]) (_root_.Bytes.padBE m d s k) (run P (n + 1) path 0 (n! "padBE") [vd, vs, .int k] h) := by
  have hvd := hd.plain
  have hvs := hs.plain
  have hld := hd.len
  have hls := hs.len
  have had := hd.able
  have has := hs.able
  rw [run_func hP find_padBE]
  by_cases hlt : d.len < k
  · eval_go [hvd, hvs, hld, hlt, hE, hS, errVal_true]
    rw [_root_.Bytes.padBE, if_pos hlt]
    exact ⟨h, rfl, hV, .refl ..⟩
  by_cases hk : s.len < k
  · have hw := wrap_sub (W := P.W) (i := k) (k := s.len) hk2 (by omega) (by omega)
    obtain ⟨vd', hd', fd⟩ := hd.sub (lo := 0) (hi := k - s.len) (by omega) (by omega) (x := .const 0) (y := .int (k - s.len : Nat)) rfl rfl
    have hvd' := hd'.plain
    obtain ⟨h₂, hzr, hV₂, hF₂⟩ := run_Zero hP hV hd' (n := n - 1) (by show k - s.len - 0 < _; omega)
    rw [show n - 1 + 1 = n by omega] at hzr
    obtain ⟨vt, ht, ft⟩ := hd.from (lo := k - s.len) (by omega) (x := .int (k - s.len : Nat)) rfl
    have hvt := ht.plain
    have fe := hs.elemsIn hV₂
    obtain ⟨h₃, hV₃, hF₃, fc⟩ := ht.copyTo hV₂ (s.content _)
    rw [copyStr_content] at hV₃
    eval_go [hvd, hvs, hld, hls, had, has, hlt, hk, hw, elem_repo hP, fd, hvd', hzr, ft, hvt, fe, fc, Nat.lt_irrefl, cast_lt_cast]
    rw [_root_.Bytes.padBE, if_neg hlt]
    simp only [hk, if_true, if_false, Slice.sub, Slice.drop, Nat.zero_le, Nat.le_refl, true_and, and_true, Nat.add_zero, Nat.sub_zero, Res.ok_bind, Nat.lt_irrefl, show k - s.len ≤ d.len by omega]
    exact ⟨_, rfl, hV₃, hF₂.trans hF₃⟩
  · have hw := wrap_sub (W := P.W) (i := k) (k := k) hk2 (by omega) (by omega)
    obtain ⟨vt, ht, ft⟩ := hd.from (lo := 0) (by omega) (x := .int 0) rfl
    have hvt := ht.plain
    have fe := hs.elemsIn hV
    obtain ⟨h₃, hV₃, hF₃, fc⟩ := ht.copyTo hV (s.content _)
    rw [copyStr_content] at hV₃
    eval_go [hvd, hvs, hld, hls, had, has, hlt, hk, hw, ft, hvt, fe, fc, Nat.lt_irrefl, cast_lt_cast]
    rw [_root_.Bytes.padBE, if_neg hlt]
    simp only [hk, if_true, if_false, Slice.sub, Slice.drop, Nat.zero_le, Nat.le_refl, true_and, and_true, Nat.add_zero, Nat.sub_zero, Res.ok_bind, Nat.lt_irrefl, Nat.sub_self]
    exact ⟨_, rfl, hV₃, hF₃⟩

/-! ## Numbers -/

omit hP hS hE in
theorem get_le32 (hV : View L h m) {v : Val} {s : Slice} (hs : SliceAt L v s) (hl : 4 ≤ s.len) :
    ∃ y, _root_.Bytes.leUint32 m s = .ok (BitVec.ofNat 32 y) ∧ ∀ e, readUint false 4 v ⟨h, e⟩ = .ok y ⟨h, e⟩ := by
  refine ⟨_, ?_, hs.read hV false hl (by decide)⟩
  simp only [_root_.Bytes.leUint32, Slice.get, show 0 < s.len by omega, show 1 < s.len by omega, show 2 < s.len by omega, show 3 < s.len by omega, if_true, Res.ok_bind]
  refine congrArg Res.ok (BitVec.eq_of_toNat_eq ?_)
  rw [_root_.Bytes.or4, BitVec.toNat_ofNat]
  simp only [Slice.content, List.range_succ_eq_map, List.range_zero, List.map_cons, List.map_nil, leNat, cond_true, cond_false, List.reverse_cons, List.reverse_nil, List.nil_append, List.cons_append, Nat.succ_eq_add_one, Nat.zero_add, Nat.add_zero, Nat.reduceAdd]
  have := (m s.base).isLt
  have := (m (s.base + 1)).isLt
  have := (m (s.base + 2)).isLt
  have := (m (s.base + 3)).isLt
  omega

omit hP hS hE in
theorem put_le32 (hV : View L h m) {v : Val} {s : Slice} (hs : SliceAt L v s) (hl : 4 ≤ s.len) (x : BitVec 32) :
    ∃ h' m', _root_.Bytes.lePutUint32 m s x = .ok m' ∧ View L h' m' ∧ Frame L h h' ∧ ∀ e, putUint false 4 v x.toNat ⟨h, e⟩ = .ok (.tuple []) ⟨h', e⟩ := by
  obtain ⟨h', h1, h2, h3⟩ := hs.put hV false hl (by decide) x.toNat (w := [BitVec.ofNat 8 (x.toNat), BitVec.ofNat 8 (x.toNat / 256), BitVec.ofNat 8 (x.toNat / 256 / 256), BitVec.ofNat 8 (x.toNat / 256 / 256 / 256)]) rfl rfl
  refine ⟨h', _, ?_, h1, h2, h3⟩
  have e0 : BitVec.ofNat 8 x.toNat = x.setWidth 8 := rfl
  have e1 : BitVec.ofNat 8 (x.toNat / 256) = (x >>> 8).setWidth 8 := by
    apply BitVec.eq_of_toNat_eq
    simp [Nat.shiftRight_eq_div_pow, Nat.div_div_eq_div_mul]
  have e2 : BitVec.ofNat 8 (x.toNat / 256 / 256) = (x >>> 16).setWidth 8 := by
    apply BitVec.eq_of_toNat_eq
    simp [Nat.shiftRight_eq_div_pow, Nat.div_div_eq_div_mul]
  have e3 : BitVec.ofNat 8 (x.toNat / 256 / 256 / 256) = (x >>> 24).setWidth 8 := by
    apply BitVec.eq_of_toNat_eq
    simp [Nat.shiftRight_eq_div_pow, Nat.div_div_eq_div_mul]
  simp only [_root_.Bytes.lePutUint32, Slice.get, Slice.set, show 0 < s.len by omega, show 1 < s.len by omega, show 2 < s.len by omega, show 3 < s.len by omega, if_true, Res.ok_bind]
  refine congrArg Res.ok ?_
  rw [e0, e1, e2, e3]
  simp only [cond_true, cond_false, List.reverse_cons, List.reverse_nil, List.nil_append, List.cons_append]
  rw [putBytes_cons, putBytes_cons, putBytes_cons, putBytes_one, putBytes_one, putBytes_one, putBytes_one]
  simp only [Nat.add_assoc, Nat.reduceAdd, Nat.add_zero]

omit hP hS hE in
theorem get_be32 (hV : View L h m) {v : Val} {s : Slice} (hs : SliceAt L v s) (hl : 4 ≤ s.len) :
    ∃ y, _root_.Bytes.beUint32 m s = .ok (BitVec.ofNat 32 y) ∧ ∀ e, readUint true 4 v ⟨h, e⟩ = .ok y ⟨h, e⟩ := by
  refine ⟨_, ?_, hs.read hV true hl (by decide)⟩
  simp only [_root_.Bytes.beUint32, Slice.get, show 0 < s.len by omega, show 1 < s.len by omega, show 2 < s.len by omega, show 3 < s.len by omega, if_true, Res.ok_bind]
  refine congrArg Res.ok (BitVec.eq_of_toNat_eq ?_)
  rw [_root_.Bytes.or4, BitVec.toNat_ofNat]
  simp only [Slice.content, List.range_succ_eq_map, List.range_zero, List.map_cons, List.map_nil, leNat, cond_true, cond_false, List.reverse_cons, List.reverse_nil, List.nil_append, List.cons_append, Nat.succ_eq_add_one, Nat.zero_add, Nat.add_zero, Nat.reduceAdd]
  have := (m s.base).isLt
  have := (m (s.base + 1)).isLt
  have := (m (s.base + 2)).isLt
  have := (m (s.base + 3)).isLt
  omega

omit hP hS hE in
theorem put_be32 (hV : View L h m) {v : Val} {s : Slice} (hs : SliceAt L v s) (hl : 4 ≤ s.len) (x : BitVec 32) :
    ∃ h' m', _root_.Bytes.bePutUint32 m s x = .ok m' ∧ View L h' m' ∧ Frame L h h' ∧ ∀ e, putUint true 4 v x.toNat ⟨h, e⟩ = .ok (.tuple []) ⟨h', e⟩ := by
  obtain ⟨h', h1, h2, h3⟩ := hs.put hV true hl (by decide) x.toNat (w := [BitVec.ofNat 8 (x.toNat), BitVec.ofNat 8 (x.toNat / 256), BitVec.ofNat 8 (x.toNat / 256 / 256), BitVec.ofNat 8 (x.toNat / 256 / 256 / 256)]) rfl rfl
  refine ⟨h', _, ?_, h1, h2, h3⟩
  have e0 : BitVec.ofNat 8 x.toNat = x.setWidth 8 := rfl
  have e1 : BitVec.ofNat 8 (x.toNat / 256) = (x >>> 8).setWidth 8 := by
    apply BitVec.eq_of_toNat_eq
    simp [Nat.shiftRight_eq_div_pow, Nat.div_div_eq_div_mul]
  have e2 : BitVec.ofNat 8 (x.toNat / 256 / 256) = (x >>> 16).setWidth 8 := by
    apply BitVec.eq_of_toNat_eq
    simp [Nat.shiftRight_eq_div_pow, Nat.div_div_eq_div_mul]
  have e3 : BitVec.ofNat 8 (x.toNat / 256 / 256 / 256) = (x >>> 24).setWidth 8 := by
    apply BitVec.eq_of_toNat_eq
    simp [Nat.shiftRight_eq_div_pow, Nat.div_div_eq_div_mul]
  simp only [_root_.Bytes.bePutUint32, Slice.get, Slice.set, show 0 < s.len by omega, show 1 < s.len by omega, show 2 < s.len by omega, show 3 < s.len by omega, if_true, Res.ok_bind]
  refine congrArg Res.ok ?_
  rw [e0, e1, e2, e3]
  simp only [cond_true, cond_false, List.reverse_cons, List.reverse_nil, List.nil_append, List.cons_append]
  rw [putBytes_cons, putBytes_cons, putBytes_cons, putBytes_one, putBytes_one, putBytes_one, putBytes_one]
  simp only [Nat.add_assoc, Nat.reduceAdd, Nat.add_zero]

omit hP hS hE in
theorem get_le16 (hV : View L h m) {v : Val} {s : Slice} (hs : SliceAt L v s) (hl : 2 ≤ s.len) :
    ∃ y, _root_.Bytes.leUint16 m s = .ok (BitVec.ofNat 16 y) ∧ ∀ e, readUint false 2 v ⟨h, e⟩ = .ok y ⟨h, e⟩ := by
  refine ⟨_, ?_, hs.read hV false hl (by decide)⟩
  simp only [_root_.Bytes.leUint16, Slice.get, show 0 < s.len by omega, show 1 < s.len by omega, if_true, Res.ok_bind]
  refine congrArg Res.ok (BitVec.eq_of_toNat_eq ?_)
  rw [_root_.Bytes.or2, BitVec.toNat_ofNat]
  simp only [Slice.content, List.range_succ_eq_map, List.range_zero, List.map_cons, List.map_nil, leNat, cond_true, cond_false, List.reverse_cons, List.reverse_nil, List.nil_append, List.cons_append, Nat.succ_eq_add_one, Nat.zero_add, Nat.add_zero, Nat.reduceAdd]
  have := (m s.base).isLt
  have := (m (s.base + 1)).isLt
  omega

omit hP hS hE in
theorem put_le16 (hV : View L h m) {v : Val} {s : Slice} (hs : SliceAt L v s) (hl : 2 ≤ s.len) (x : BitVec 16) :
    ∃ h' m', _root_.Bytes.lePutUint16 m s x = .ok m' ∧ View L h' m' ∧ Frame L h h' ∧ ∀ e, putUint false 2 v x.toNat ⟨h, e⟩ = .ok (.tuple []) ⟨h', e⟩ := by
  obtain ⟨h', h1, h2, h3⟩ := hs.put hV false hl (by decide) x.toNat (w := [BitVec.ofNat 8 (x.toNat), BitVec.ofNat 8 (x.toNat / 256)]) rfl rfl
  refine ⟨h', _, ?_, h1, h2, h3⟩
  have e0 : BitVec.ofNat 8 x.toNat = x.setWidth 8 := rfl
  have e1 : BitVec.ofNat 8 (x.toNat / 256) = (x >>> 8).setWidth 8 := by
    apply BitVec.eq_of_toNat_eq
    simp [Nat.shiftRight_eq_div_pow, Nat.div_div_eq_div_mul]
  simp only [_root_.Bytes.lePutUint16, Slice.get, Slice.set, show 0 < s.len by omega, show 1 < s.len by omega, if_true, Res.ok_bind]
  refine congrArg Res.ok ?_
  rw [e0, e1]
  simp only [cond_true, cond_false, List.reverse_cons, List.reverse_nil, List.nil_append, List.cons_append]
  rw [putBytes_cons, putBytes_one, putBytes_one]
  simp only [Nat.add_assoc, Nat.reduceAdd, Nat.add_zero]

omit hP hS hE in
theorem get_be16 (hV : View L h m) {v : Val} {s : Slice} (hs : SliceAt L v s) (hl : 2 ≤ s.len) :
    ∃ y, _root_.Bytes.beUint16 m s = .ok (BitVec.ofNat 16 y) ∧ ∀ e, readUint true 2 v ⟨h, e⟩ = .ok y ⟨h, e⟩ := by
  refine ⟨_, ?_, hs.read hV true hl (by decide)⟩
  simp only [_root_.Bytes.beUint16, Slice.get, show 0 < s.len by omega, show 1 < s.len by omega, if_true, Res.ok_bind]
  refine congrArg Res.ok (BitVec.eq_of_toNat_eq ?_)
  rw [_root_.Bytes.or2, BitVec.toNat_ofNat]
  simp only [Slice.content, List.range_succ_eq_map, List.range_zero, List.map_cons, List.map_nil, leNat, cond_true, cond_false, List.reverse_cons, List.reverse_nil, List.nil_append, List.cons_append, Nat.succ_eq_add_one, Nat.zero_add, Nat.add_zero, Nat.reduceAdd]
  have := (m s.base).isLt
  have := (m (s.base + 1)).isLt
  omega

omit hP hS hE in
theorem put_be16 (hV : View L h m) {v : Val} {s : Slice} (hs : SliceAt L v s) (hl : 2 ≤ s.len) (x : BitVec 16) :
    ∃ h' m', _root_.Bytes.bePutUint16 m s x = .ok m' ∧ View L h' m' ∧ Frame L h h' ∧ ∀ e, putUint true 2 v x.toNat ⟨h, e⟩ = .ok (.tuple []) ⟨h', e⟩ := by
  obtain ⟨h', h1, h2, h3⟩ := hs.put hV true hl (by decide) x.toNat (w := [BitVec.ofNat 8 (x.toNat), BitVec.ofNat 8 (x.toNat / 256)]) rfl rfl
  refine ⟨h', _, ?_, h1, h2, h3⟩
  have e0 : BitVec.ofNat 8 x.toNat = x.setWidth 8 := rfl
  have e1 : BitVec.ofNat 8 (x.toNat / 256) = (x >>> 8).setWidth 8 := by
    apply BitVec.eq_of_toNat_eq
    simp [Nat.shiftRight_eq_div_pow, Nat.div_div_eq_div_mul]
  simp only [_root_.Bytes.bePutUint16, Slice.get, Slice.set, show 0 < s.len by omega, show 1 < s.len by omega, if_true, Res.ok_bind]
  refine congrArg Res.ok ?_
  rw [e0, e1]
  simp only [cond_true, cond_false, List.reverse_cons, List.reverse_nil, List.nil_append, List.cons_append]
  rw [putBytes_cons, putBytes_one, putBytes_one]
  simp only [Nat.add_assoc, Nat.reduceAdd, Nat.add_zero]

/-- `v` is a slice with the content of `s`; its address does not matter. -/
structure Reads (h : List Val) (m : Mem) (v : Val) (s : Slice) : Prop where
  plain : Plain v
  len : lenOf v = pure (s.len : Int)
  elem : ∀ {i : Nat}, i < s.len → ∀ e, elemAt v (.int i) ⟨h, e⟩ = .ok (.u8 (m (s.base + i))) ⟨h, e⟩
  at0 : 0 < s.len → ∀ e, elemAt v (.const 0) ⟨h, e⟩ = .ok (.u8 (m s.base)) ⟨h, e⟩

omit hP hS hE in
theorem reads (hV : View L h m) {v : Val} {s : Slice} (hs : SliceAt L v s) : Reads h m v s :=
  ⟨hs.plain, hs.len, fun hi e => hs.at hV hi e, fun hi e => by
    have := hs.at hV hi e
    rcases hs with ⟨rfl, h0⟩ | ⟨a, p, off, cap, rfl, _⟩
    · omega
    · simpa [go] using this⟩

end
end Source.Bytes
