import Verif.Code.MakeTables
import Verif.Model.MakeTables

/-!
# The code of `hash/whirlpool/make_tables.go`: the text and the file
-/
namespace Source.MakeTables
open GoLang

/-- What the program uses of the standard library besides `math/bits`, with `fmtr` for what `format.Source` does to a text, and the files
written so far, names and contents in turn, at address `fs`:
a buffer is an object that holds its text, and `Fprintf`, `Fprint` append to it; `log.Fatal` ends the program. -/
structure Tools (P : Prog) (fmtr : List (BitVec 8) → Except (List (BitVec 8)) (List (BitVec 8))) (wr : Option (List (BitVec 8))) (fs : Nat) : Prop where
  newBuffer : ∀ (h : List Val) (e : List (Name × Val)) (v : Val) (b : List (BitVec 8)), HasBytes h v b →
    P.std (n! "bytes") 0 (n! "NewBuffer") [v] ⟨h, e⟩ = .ok (.native h.length) ⟨h ++ [.str b], e⟩
  fprintf : ∀ (h : List Val) (e : List (Name × Val)) (i : Nat) (w f t : List (BitVec 8)) (args : List Val), h[i]? = some (.str w) → sprintf f args = some t →
    P.std (n! "fmt") 0 (n! "Fprintf") (.native i :: .str f :: args) ⟨h, e⟩ = .ok (.tuple [.int t.length, .nil]) ⟨h.set i (.str (w ++ t)), e⟩
  fprint : ∀ (h : List Val) (e : List (Name × Val)) (i : Nat) (w t : List (BitVec 8)), h[i]? = some (.str w) →
    P.std (n! "fmt") 0 (n! "Fprint") [.native i, .str t] ⟨h, e⟩ = .ok (.tuple [.int t.length, .nil]) ⟨h.set i (.str (w ++ t)), e⟩
  bytes : ∀ (h : List Val) (e : List (Name × Val)) (i : Nat) (w : List (BitVec 8)), h[i]? = some (.str w) →
    P.native i (n! "Bytes") [] ⟨h, e⟩ = .ok (.slice h.length [] 0 w.length w.length) ⟨h ++ [.arr (w.map .u8)], e⟩
  source : ∀ (h : List Val) (e : List (Name × Val)) (v : Val) (b : List (BitVec 8)), HasBytes h v b →
    P.std (n! "go/format") 0 (n! "Source") [v] ⟨h, e⟩ =
      match fmtr b with
      | .ok t => .ok (.tuple [.slice h.length [] 0 t.length t.length, .nil]) ⟨h ++ [.arr (t.map .u8)], e⟩
      | .error m => .ok (.tuple [.nil, .err m]) ⟨h, e⟩
  writeFile : ∀ (h : List Val) (e : List (Name × Val)) (name : List (BitVec 8)) (v : Val) (b : List (BitVec 8)) (perm : Int) (l : List Val), h[fs]? = some (.arr l) → HasBytes h v b →
    P.std (n! "os") 0 (n! "WriteFile") [.str name, v, .const perm] ⟨h, e⟩ =
      match wr with
      | none => .ok .nil ⟨h.set fs (.arr (l ++ [.str name, .str b])), e⟩
      | some m => .ok (.err m) ⟨h, e⟩
  fatal : ∀ (h : List Val) (e : List (Name × Val)) (m : List (BitVec 8)), P.std (n! "log") 0 (n! "Fatal") [.err m] ⟨h, e⟩ = .panic h

/-! ## Formats -/

theorem decimal_fmt (n : Nat) : decimal n = _root_.Hex.fmtNat n := by
  induction n using Nat.strongRecOn with
  | ind n ih =>
    rw [decimal, _root_.Hex.fmtNat]
    by_cases h : n < 10
    · rw [if_pos h, if_pos h]
    · rw [if_neg h, if_neg h, ih _ (by omega)]

theorem hexDigits_pad (k n : Nat) : hexDigits k n = _root_.MakeTables.hexPad k n := by
  induction k generalizing n with
  | zero => rfl
  | succ k ih =>
    rw [hexDigits, _root_.MakeTables.hexPad, ih, _root_.MakeTables.lowerDigit]
    by_cases h : n % 16 < 10
    · rw [show Nat.blt (n % 16) 10 = true by simpa [Nat.blt_eq] using h, if_pos h, cond_true]
    · rw [show Nat.blt (n % 16) 10 = false by simpa [← Bool.not_eq_true, Nat.blt_eq] using h, if_neg h, cond_false]

theorem fmt_var (s : List (BitVec 8)) : sprintf [118#8, 97#8, 114#8, 32#8, 37#8, 115#8, 32#8, 61#8, 91#8, 46#8, 46#8, 46#8, 93#8, 117#8, 105#8, 110#8, 116#8, 54#8, 52#8, 123#8, 10#8] [.str s] =
    some (ascii "var " ++ s ++ ascii " =[...]uint64{\n") := by
  simp [sprintf, show ascii "var " = [118#8, 97#8, 114#8, 32#8] by decide +kernel,
    show ascii " =[...]uint64{\n" = [32#8, 61#8, 91#8, 46#8, 46#8, 46#8, 93#8, 117#8, 105#8, 110#8, 116#8, 54#8, 52#8, 123#8, 10#8] by decide +kernel]

theorem fmt_index (i : Nat) : sprintf [47#8, 47#8, 37#8, 100#8, 10#8] [.int i] = some (ascii "//" ++ _root_.Hex.fmtNat i ++ ascii "\n") := by
  rw [← decimal_fmt]
  simp [sprintf, exact, show ascii "//" = [47#8, 47#8] by decide +kernel, show ascii "\n" = [10#8] by decide +kernel]

theorem fmt_num (v : U64) : sprintf [48#8, 120#8, 37#8, 48#8, 49#8, 54#8, 120#8, 44#8] [.u64 v] = some (ascii "0x" ++ _root_.MakeTables.hexPad 16 v.toNat ++ ascii ",") := by
  rw [← hexDigits_pad]
  simp [sprintf, show ascii "0x" = [48#8, 120#8] by decide +kernel, show ascii "," = [44#8] by decide +kernel]

theorem fmt_rounds : sprintf [99#8, 111#8, 110#8, 115#8, 116#8, 32#8, 114#8, 111#8, 117#8, 110#8, 100#8, 115#8, 61#8, 37#8, 100#8, 10#8, 10#8] [.const 10] =
    some (ascii "const rounds=" ++ _root_.Hex.fmtNat _root_.Whirlpool.rounds ++ ascii "\n\n") := by decide +kernel

/-- A whole array of bytes. -/
theorem has_whole {h : List Val} {k : Nat} {b : List (BitVec 8)} (hk : h[k]? = some (.arr (b.map .u8))) : HasBytes h (.slice k [] 0 b.length b.length) b := by
  unfold HasBytes
  simp only [bytesIn, go, hk, getPath, List.length_map, Nat.zero_add, Nat.le_refl, if_true, List.drop_zero, List.take_of_length_le (show (b.map Val.u8).length ≤ b.length by simp), valBytes_map]

/-! ## `genVar` -/

theorem find_genVar : findFunc 0 (n! "genVar") pkg.decls = some MakeTables.genVar := by kernel_rfl
theorem find_main : findFunc 0 (n! "main") pkg.decls = some MakeTables.main := by kernel_rfl

section
variable {P : Prog} {fmtr : List (BitVec 8) → Except (List (BitVec 8)) (List (BitVec 8))} {wr : Option (List (BitVec 8))} {fs : Nat} (hT : Tools P fmtr wr fs)
  (hF : elemN (n! "fmt") (P.pkgs.map Pkg.path) = false) (hP : findPkg path P.pkgs = some pkg)
include hT hF hP

theorem run_genVar {H : List Val} {b a : Nat} (hab : a ≠ b) (hb : b < H.length) {data : List U64} (ha : H[a]? = some (.arr (data.map .u64))) (w name : List (BitVec 8)) {n : Nat} :
    run P (n + 1) path 0 (n! "genVar") [.native b, .str name, .slice a [] 0 data.length data.length] (H.set b (.str w)) = .ok [] ⟨H.set b (.str (_root_.MakeTables.genVar w name data)), []⟩ := by
  have hg (w : List (BitVec 8)) : (H.set b (.str w))[b]? = some (.str w) := by simp [hb]
  have ha' (w : List (BitVec 8)) : (H.set b (.str w))[a]? = some (.arr (data.map .u64)) := by simp [List.getElem?_set_ne hab.symm, ha]
  have hpf (w f t : List (BitVec 8)) (args : List Val) (e : List (Name × Val)) := hT.fprintf (H.set b (.str w)) e b w f t args (hg w)
  have hp (w t : List (BitVec 8)) (e : List (Name × Val)) := hT.fprint (H.set b (.str w)) e b w t (hg w)
  rw [run_func hP find_genVar]
  have h1 := fun e => hpf w _ _ _ e (fmt_var name)
  eval_go [hF, h1, List.set_set]
  generalize hlp : rangeLoop _ _ _ _ = o
  obtain ⟨w1, hw1⟩ : ∃ w1, w1 = w ++ (ascii "var " ++ name ++ ascii " =[...]uint64{\n") := ⟨_, rfl⟩
  rw [← hw1] at hlp
  have hl := range_post (fun o => o = .ok .next ⟨H.set b (.str (_root_.MakeTables.varLoop data 0 w1)), [(n! "data", .slice a [] 0 data.length data.length), (n! "name", .str name), (n! "w", .native b)]⟩)
    (fun i w => _root_.MakeTables.varLoop (data.drop i) i w = _root_.MakeTables.varLoop data 0 w1)
    (fun i w => ⟨H.set b (.str w), [(n! "data", .slice a [] 0 data.length data.length), (n! "name", .str name), (n! "w", .native b)]⟩) data.length
    (by
      intro i k w hi hI hQ
      have hdi : data.drop i = data[i] :: data.drop (i + 1) := List.drop_eq_getElem_cons hi
      rw [hdi, _root_.MakeTables.varLoop] at hI
      have hv : (data.map Val.u64)[i]? = some (.u64 data[i]) := by simp [hi]
      have hi' : (i : Int) < data.length := by omega
      have h1 := fun w e => hpf w _ _ _ e (fmt_index i)
      have h2 := fun w e => hpf w _ _ _ e (fmt_num data[i])
      have h4 : ((i : Int).tmod 4 = 0) = (i % 4 = 0) := by
        rw [Int.tmod_eq_emod_of_nonneg (by omega)]
        exact propext (by omega)
      have h16 : ((i : Int).tmod 16 = 0) = (i % 16 = 0) := by
        rw [Int.tmod_eq_emod_of_nonneg (by omega)]
        exact propext (by omega)
      have h0 : ((0 : Int) < i) = (0 < i) := propext (by omega)
      rw [rangeLoop]
      by_cases c0 : 0 < i <;> by_cases c4 : i % 4 = 0 <;> by_cases c16 : i % 16 = 0 <;>
        eval_go [hF, h1, h2, hp, ha', hv, hi, hi', h4, h16, h0, c0, c4, c16, List.length_map, List.set_set, Nat.zero_add]
      all_goals
        refine hQ _ ?_
        rw [← hI]
        simp only [c0, c4, c16, if_true, if_false, List.append_assoc]
        try rfl)
    (by intro w hw; simp only [List.drop_length] at hw; rw [← hw]; rfl) 0 (by simp) w1 rfl rfl hlp
  rw [hl]
  eval_go [hF, hp, List.set_set]
  rw [_root_.MakeTables.genVar, hw1]
  simp only [List.append_assoc]
  rfl

/-- The text that is formatted. -/
def fullText : List (BitVec 8) := _root_.MakeTables.genVar (_root_.MakeTables.genVar (head ++ (ascii "const rounds=" ++ _root_.Hex.fmtNat _root_.Whirlpool.rounds ++ ascii "\n\n")) (ascii "rc") _root_.Whirlpool.rc)
  (ascii "ct") _root_.Whirlpool.ct

/-- The program, run. -/
theorem run_main (hW : 32 ≤ P.W) (hstd : P.std (n! "math/bits") = stdlib (n! "math/bits"))
    (hM : elemN (n! "math/bits") (P.pkgs.map Pkg.path) = false) (hB : elemN (n! "bytes") (P.pkgs.map Pkg.path) = false) (hG : elemN (n! "go/format") (P.pkgs.map Pkg.path) = false)
    (hO : elemN (n! "os") (P.pkgs.map Pkg.path) = false) (hL : elemN (n! "log") (P.pkgs.map Pkg.path) = false)
    {h : List Val} {a c : List U64} {l : List Val} (h0 : h[0]? = some (.arr (head.map .u8))) (h1 : h[1]? = some (.arr (a.map .u64))) (h2 : h[2]? = some (.arr (c.map .u64)))
    (ha : a.length = 10) (hc : c.length = 2048) (h3 : 3 ≤ fs) (hl : h[fs]? = some (.arr l)) {n : Nat} (hn : 300 < n) :
    match fmtr fullText, wr with
    | .ok t, none => run P (n + 2) path 0 (n! "main") [] h = .ok [] ⟨((withRc (withCt h _root_.Whirlpool.ct) _root_.Whirlpool.rc).set fs (.arr (l ++ [.str (ascii "whirlpool_tables.go"), .str t]))) ++
        [.str fullText, .arr (fullText.map .u8), .arr (t.map .u8)], []⟩
    | .ok t, some _ => run P (n + 2) path 0 (n! "main") [] h = .panic (withRc (withCt h _root_.Whirlpool.ct) _root_.Whirlpool.rc ++
        [.str fullText, .arr (fullText.map .u8), .arr (t.map .u8)])
    | .error _, _ => run P (n + 2) path 0 (n! "main") [] h = .panic (withRc (withCt h _root_.Whirlpool.ct) _root_.Whirlpool.rc ++ [.str fullText, .arr (fullText.map .u8)]) := by
  have hlen : 2 < h.length := (List.getElem?_eq_some_iff.mp h2).1
  have e2 : withCt h c = h := by
    obtain ⟨_, e⟩ := List.getElem?_eq_some_iff.mp h2
    rw [withCt, ← e, List.set_getElem_self]
  have r1 := run_circ hW hstd hM hn hlen hP hc
  rw [e2] at r1
  obtain ⟨H1, hH1⟩ : ∃ H1, H1 = withCt h _root_.Whirlpool.ct := ⟨_, rfl⟩
  have hct1 : H1[2]? = some (.arr (_root_.Whirlpool.ct.map .u64)) := by rw [hH1]; exact get_ct hlen _
  have hl1 : H1.length = h.length := by rw [hH1, withCt, List.length_set]
  have h11 : H1[1]? = some (.arr (a.map .u64)) := by rw [hH1, withCt, List.getElem?_set_ne (by decide), h1]
  have h01 : H1[0]? = some (.arr (head.map .u8)) := by rw [hH1, withCt, List.getElem?_set_ne (by decide), h0]
  have hf1 : H1[fs]? = some (.arr l) := by rw [hH1, withCt, List.getElem?_set_ne (by omega), hl]
  have e1 : withRc H1 a = H1 := by
    obtain ⟨_, e⟩ := List.getElem?_eq_some_iff.mp h11
    rw [withRc, ← e, List.set_getElem_self]
  have r2 := run_rcs hW hn (by omega) hP hct1 ha
  rw [e1] at r2
  rw [← hH1] at r1
  obtain ⟨H2, hH2⟩ : ∃ H2, H2 = withRc H1 _root_.Whirlpool.rc := ⟨_, rfl⟩
  have hl2 : H2.length = h.length := by rw [hH2, withRc, List.length_set, hl1]
  have hrc2 : H2[1]? = some (.arr (_root_.Whirlpool.rc.map .u64)) := by rw [hH2]; exact get_rc (by omega) _
  have hct2 : H2[2]? = some (.arr (_root_.Whirlpool.ct.map .u64)) := by rw [hH2, withRc, List.getElem?_set_ne (by decide), hct1]
  have h02 : H2[0]? = some (.arr (head.map .u8)) := by rw [hH2, withRc, List.getElem?_set_ne (by decide), h01]
  have hf2 : H2[fs]? = some (.arr l) := by rw [hH2, withRc, List.getElem?_set_ne (by omega), hf1]
  rw [← hH1, ← hH2]
  rw [← hH2] at r2
  clear hH1 hH2 e1 e2
  have hhead : HasBytes H2 (.slice 0 [] 0 head.length head.length) head := has_whole h02
  have b1 := fun e => hT.newBuffer H2 e _ head hhead
  have hg (w : List (BitVec 8)) : (H2 ++ [Val.str w])[H2.length]? = some (.str w) := by simp
  have b2 := fun e => hT.fprintf (H2 ++ [.str head]) e H2.length head _ _ _ (hg _) fmt_rounds
  have hset (w w' : List (BitVec 8)) : (H2 ++ [Val.str w]).set H2.length (.str w') = H2 ++ [.str w'] := by simp
  have b3 (w name : List (BitVec 8)) {data : List U64} {k : Nat} (hk : H2[k]? = some (.arr (data.map .u64))) :
      run P (n + 1) path 0 (n! "genVar") [.native H2.length, .str name, .slice k [] 0 data.length data.length] (H2 ++ [.str w]) = .ok [] ⟨H2 ++ [.str (_root_.MakeTables.genVar w name data)], []⟩ := by
    have hk' : k < H2.length := (List.getElem?_eq_some_iff.mp hk).1
    have := run_genVar hT hF hP (H := H2 ++ [.str w]) (b := H2.length) (a := k) (data := data) (by omega) (by simp) (by rw [List.getElem?_append_left hk', hk]) w name (n := n)
    rw [hset, hset] at this
    exact this
  have b4 (w : List (BitVec 8)) := b3 w [114#8, 99#8] hrc2
  have b5 (w : List (BitVec 8)) := b3 w [99#8, 116#8] hct2
  have hcl := Source.Whirlpool.ct_length
  have hrl : _root_.Whirlpool.rc.length = 10 := by kernel_rfl
  have hrc3 (w : List (BitVec 8)) : (H2 ++ [Val.str w])[1]? = some (.arr (_root_.Whirlpool.rc.map .u64)) := by rw [List.getElem?_append_left (by omega), hrc2]
  have hct3 (w : List (BitVec 8)) : (H2 ++ [Val.str w])[2]? = some (.arr (_root_.Whirlpool.ct.map .u64)) := by rw [List.getElem?_append_left (by omega), hct2]
  rw [hrl] at b4
  rw [hcl] at b5
  rw [run_func hP find_main]
  have hR := elem_repo hP
  have hfull : _root_.MakeTables.genVar (_root_.MakeTables.genVar (head ++ (ascii "const rounds=" ++ _root_.Hex.fmtNat _root_.Whirlpool.rounds ++ ascii "\n\n")) [114#8, 99#8] _root_.Whirlpool.rc)
    [99#8, 116#8] _root_.Whirlpool.ct = fullText := rfl
  generalize fullText = T at *
  have b6 := fun e => hT.bytes (H2 ++ [.str T]) e H2.length T (hg _)
  have hl3 : (H2 ++ [Val.str T]).length = H2.length + 1 := by simp
  have hTb : HasBytes (H2 ++ [.str T] ++ [.arr (T.map .u8)]) (.slice (H2.length + 1) [] 0 T.length T.length) T := has_whole (by simp)
  have b7 := fun e => hT.source (H2 ++ [.str T] ++ [.arr (T.map .u8)]) e _ T hTb
  cases hft : fmtr T with
  | ok t =>
    simp only [hft] at b7
    have htb : HasBytes (H2 ++ [.str T] ++ [.arr (T.map .u8)] ++ [.arr (t.map .u8)]) (.slice (H2 ++ [Val.str T] ++ [Val.arr (T.map .u8)]).length [] 0 t.length t.length) t := has_whole (by simp)
    have b8 := fun e => hT.writeFile (H2 ++ [.str T] ++ [.arr (T.map .u8)] ++ [.arr (t.map .u8)]) e [119#8, 104#8, 105#8, 114#8, 108#8, 112#8, 111#8, 111#8, 108#8, 95#8, 116#8, 97#8, 98#8, 108#8, 101#8, 115#8, 46#8, 103#8, 111#8] _ t 438 l (by
      rw [List.append_assoc, List.append_assoc, List.getElem?_append_left (List.getElem?_eq_some_iff.mp hf2).1, hf2]) htb
    cases hw : wr with
    | none =>
      simp only [hw] at b8
      dsimp only
      eval_go [r1, r2, hB, hF, b1, b2, b4, b5, hR, hset, hrc3, hct3, List.length_map, hrl, hcl, hfull, b6, hl3, b7, b8, hG, hO]
      simp only [List.append_assoc, List.cons_append, List.nil_append]
      rw [List.set_append_left _ _ (List.getElem?_eq_some_iff.mp hf2).1]
      rfl
    | some m =>
      simp only [hw] at b8
      have b9 := fun e => hT.fatal (H2 ++ [.str T] ++ [.arr (T.map .u8)] ++ [.arr (t.map .u8)]) e m
      dsimp only
      eval_go [r1, r2, hB, hF, b1, b2, b4, b5, hR, hset, hrc3, hct3, List.length_map, hrl, hcl, hfull, b6, hl3, b7, b8, b9, hG, hO, hL]
      simp only [List.append_assoc, List.cons_append, List.nil_append]
  | error m =>
    simp only [hft] at b7
    have b9 := fun e => hT.fatal (H2 ++ [.str T] ++ [.arr (T.map .u8)]) e m
    dsimp only
    eval_go [r1, r2, hB, hF, b1, b2, b4, b5, hR, hset, hrc3, hct3, List.length_map, hrl, hcl, hfull, b6, hl3, b7, b9, hG, hL]
    simp only [List.append_assoc, List.cons_append, List.nil_append]

end

end Source.MakeTables
