import Verif.Lang.HashCode
import Verif.Source.NetIpv4
import Verif.Source.NetMask
import Verif.Source.NetCidr
import Verif.Source.NetIpTree
import Verif.Model.NetCallback
import Verif.Lemmas.Net

/-!
# The code of package `net`: addresses, masks and networks
-/
namespace Source.Net
open GoLang

abbrev path : Name := n! "github.com/gnabgib/gnablib-go/net"

/-- The files of the package. -/
def texts : List (List String) := [NetIpv4.src, NetMask.src, NetCidr.src, NetIpTree.src]

def files : List File := [NetIpv4.file, NetMask.file, NetCidr.file, NetIpTree.file]

/-- The variable `ret` of `ListCidr` is used by a function literal. -/
def boxed : List (Name × List Name) := [(n! "ListCidr", [n! "ret"])]

/-- The package. -/
def pkg : Pkg := ⟨path, files.flatMap fun f => importTable f.imports, files.flatMap File.decls, [], boxed⟩

theorem loaded : loadPkg stdlib path files boxed = some pkg := by kernel_rfl

theorem text : loadText path texts boxed = some pkg := by
  rw [← loaded]
  simp only [loadText, texts, files, parseAll, NetIpv4.parsed, NetMask.parsed, NetCidr.parsed, NetIpTree.parsed, Option.bind_some, Option.map_some]

theorem find_Ipv4ToUint : findFunc 0 (n! "Ipv4ToUint") pkg.decls = some NetIpv4.Ipv4ToUint := by kernel_rfl
theorem find_Ipv4FromUint : findFunc 0 (n! "Ipv4FromUint") pkg.decls = some NetIpv4.Ipv4FromUint := by kernel_rfl
theorem find_MaskFromByte : findFunc 0 (n! "MaskFromByte") pkg.decls = some NetMask.MaskFromByte := by kernel_rfl
theorem find_MaskToByte : findFunc 0 (n! "MaskToByte") pkg.decls = some NetMask.MaskToByte := by kernel_rfl
theorem find_CidrEqual : findFunc 0 (n! "CidrEqual") pkg.decls = some NetCidr.CidrEqual := by kernel_rfl
theorem find_FirstIpv4 : findFunc 0 (n! "FirstIpv4") pkg.decls = some NetCidr.FirstIpv4 := by kernel_rfl
theorem find_LastIpv4 : findFunc 0 (n! "LastIpv4") pkg.decls = some NetCidr.LastIpv4 := by kernel_rfl

/-! ## The standard library -/

theorem std_To4 (v : Val) : stdlib 0 0 (n! "To4") [v] = to4 v := by kernel_rfl
theorem std_Size (v : Val) : stdlib 0 0 (n! "Size") [v] = maskSize v := by kernel_rfl
theorem std_be32 (v : Val) : stdlib (n! "encoding/binary") (n! "BigEndian") (n! "Uint32") [v] = (do return .u32 (.ofNat 32 (← readUint true 4 v))) := by kernel_rfl
theorem std_put32 (v : Val) (x : BitVec 32) : stdlib (n! "encoding/binary") (n! "BigEndian") (n! "PutUint32") [v, .u32 x] = putUint true 4 v x.toNat := by kernel_rfl
theorem std_Compare (a b : Val) : stdlib (n! "bytes") 0 (n! "Compare") [a, b] = (do
    let x ← bytesIn a
    let y ← bytesIn b
    return .int (compareBytes x y)) := by kernel_rfl

theorem IsBytes.get {h : List Val} {v : Val} {b : List (BitVec 8)} (hb : IsBytes h v b) (e : List (Name × Val)) :
    bytesIn v ⟨h, e⟩ = .ok b ⟨h, e⟩ := by
  rcases hb with ⟨rfl, rfl⟩ | ⟨a, p, off, cap, o, l, rfl, ho, hg, hc, hl, he⟩
  · rfl
  · have : off + b.length ≤ l.length := by omega
    simp [go, ho, hg, this, he, valBytes_map]

theorem app_inj {α : Type} {a b c d : List α} (h : a.length = b.length) : a ++ c = b ++ d ↔ a = b ∧ c = d :=
  ⟨fun e => List.append_inj e h, fun ⟨e, f⟩ => by rw [e, f]⟩

theorem take12 {b : List (BitVec 8)} (hb : b.length = 16) :
    b.take 12 = [0, 0, 0, 0, 0, 0, 0, 0, 0, 0, 255, 255] ↔
      b.take 10 = List.replicate 10 0#8 ∧ b[10]? = some 0xff#8 ∧ b[11]? = some 0xff#8 := by
  obtain ⟨c, x, y, t, rfl, hc⟩ : ∃ c x y t, b = c ++ x :: y :: t ∧ c.length = 10 := by
    refine ⟨b.take 10, b[10], b[11], b.drop 12, ?_, by simp [hb]⟩
    conv => lhs; rw [← List.take_append_drop 10 b]
    rw [List.drop_eq_getElem_cons (by omega), List.drop_eq_getElem_cons (by omega)]
  have h10 : (c ++ x :: y :: t)[10]? = some x := by rw [List.getElem?_append_right (by omega)]; simp [hc]
  have h11 : (c ++ x :: y :: t)[11]? = some y := by rw [List.getElem?_append_right (by omega)]; simp [hc]
  have t12 : (c ++ x :: y :: t).take 12 = c ++ [x, y] := by rw [List.take_append]; simp [hc]; rw [List.take_of_length_le (by omega)]
  have t10 : (c ++ x :: y :: t).take 10 = c := by rw [List.take_append]; simp [hc]; rw [List.take_of_length_le (by omega)]
  rw [h10, h11, t12, t10, show [0, 0, 0, 0, 0, 0, 0, 0, 0, 0, 255, 255] = List.replicate 10 0#8 ++ [0xff#8, 0xff#8] from rfl,
    app_inj (by simp [hc])]
  simp

/-- `net.IP.To4` of the standard library, as in the model. -/
theorem to4_eq {h : List Val} {v : Val} {b : List (BitVec 8)} (hb : IsBytes h v b) :
    ∃ w, (∀ e, to4 v ⟨h, e⟩ = .ok w ⟨h, e⟩) ∧ Plain w ∧
      match _root_.Net.To4 b with
      | none => w = .nil
      | some c => IsBytes h w c ∧ c.length = 4 ∧ w ≠ .nil := by
  have hg := IsBytes.get hb
  rcases hb with ⟨rfl, rfl⟩ | ⟨a, p, off, cap, o, l, rfl, ho, hp, hc, hl, he⟩
  · exact ⟨.nil, fun e => rfl, trivial, rfl⟩
  · by_cases h4 : b.length = 4
    · refine ⟨.slice a p off b.length cap, fun e => ?_, trivial, ?_⟩
      · simp [to4, h4, go]
      · simp only [_root_.Net.To4, h4, if_true]
        exact ⟨.inr ⟨a, p, off, cap, o, l, by rw [h4], ho, hp, hc, hl, he⟩, trivial, by simp⟩
    · by_cases h16 : b.length = 16
      · have key := take12 h16
        by_cases hp4 : b.take 12 = [0, 0, 0, 0, 0, 0, 0, 0, 0, 0, 255, 255]
        · refine ⟨.slice a p (off + 12) 4 (cap - 12), fun e => ?_, trivial, ?_⟩
          · have h4' : ¬ (16 : Nat) = 4 := by decide
            have := hg e
            simp only [h16] at this
            simp only [to4, h16, bind_apply, GoLang.ite_apply, h4', if_true, if_false, this, bind_ok, hp4, pure_apply]
          · rw [_root_.Net.To4, if_neg h4, if_pos ⟨h16, key.mp hp4⟩]
            have hd : (b.drop 12).length = 4 := by simp [h16]
            refine ⟨.inr ⟨a, p, off + 12, cap - 12, o, l, by rw [hd], ho, hp, by omega, by omega, ?_⟩, hd, by simp⟩
            rw [hd, List.map_drop, ← he, List.drop_take, List.drop_drop, h16]
        · refine ⟨.nil, fun e => ?_, trivial, ?_⟩
          · have h4' : ¬ (16 : Nat) = 4 := by decide
            have := hg e
            simp only [h16] at this
            simp only [to4, h16, bind_apply, GoLang.ite_apply, h4', if_true, if_false, this, bind_ok, hp4, pure_apply]
          · rw [_root_.Net.To4, if_neg h4, if_neg fun ⟨_, q⟩ => hp4 (key.mpr q)]
      · refine ⟨.nil, fun e => ?_, trivial, ?_⟩
        · simp [to4, h4, h16, go]
        · rw [_root_.Net.To4, if_neg h4, if_neg fun ⟨q, _⟩ => h16 q]

/-- Reading a big-endian number from four bytes. -/
theorem readUint_eq {h : List Val} {v : Val} {b : List (BitVec 8)} (hb : IsBytes h v b) (h4 : b.length = 4) :
    ∃ x, (∀ e, readUint true 4 v ⟨h, e⟩ = .ok x ⟨h, e⟩) ∧ _root_.Net.beUint32 b = .ok (.ofNat 32 x) := by
  obtain ⟨x0, x1, x2, x3, rfl⟩ : ∃ x0 x1 x2 x3, b = [x0, x1, x2, x3] := by
    match b, h4 with
    | [x0, x1, x2, x3], _ => exact ⟨x0, x1, x2, x3, rfl⟩
  rcases hb with ⟨rfl, hn⟩ | ⟨a, p, off, cap, o, l, rfl, ho, hp, hc, hl, he⟩
  · simp at hn
  · simp at hl he
    have hl' : off + 4 ≤ l.length := by omega
    refine ⟨leNat [x3, x2, x1, x0], ?_, ?_⟩
    · intro e
      simp [readUint, firstElems, go, ho, hp, hl', he, valBytes]
    · obtain ⟨u, hu, hv⟩ := _root_.Net.beUint32_eq x0 x1 x2 x3
      rw [hu]
      congr 1
      apply BitVec.eq_of_toNat_eq
      have := u.isLt
      rw [BitVec.toNat_ofNat, hv]
      simp only [leNat]
      omega

/-- Writing a big-endian number to four new bytes. -/
theorem putUint_eq (h : List Val) (x : BitVec 32) (e : List (Name × Val)) :
    putUint true 4 (.slice h.length [] 0 4 4) x.toNat ⟨h ++ [.arr [.u8 0, .u8 0, .u8 0, .u8 0]], e⟩ =
      .ok (.tuple []) ⟨h ++ [.arr ((_root_.Net.bePutUint32 x).map .u8)], e⟩ := by
  simp [putUint, go, leBytes, splice, _root_.Net.bePutUint32]
  refine ⟨?_, ?_, ?_⟩ <;> apply BitVec.eq_of_toNat_eq <;> simp [Nat.shiftRight_eq_div_pow] <;> omega

/-! ## Sizes of masks -/

theorem leadingOnes_append (l m : List Bool) (h : l.all id = true) : GoLang.leadingOnes (l ++ m) = l.length + GoLang.leadingOnes m := by
  induction l with
  | nil => simp
  | cons x l ih =>
    simp only [List.all_cons, id, Bool.and_eq_true] at h
    rw [h.1, List.cons_append, GoLang.leadingOnes, ih h.2]
    simp
    omega

/-- The bits of a byte. -/
def byteBits (b : BitVec 8) : List Bool := (List.range 8).map fun i => b.getMsbD i

theorem bitsOf_cons (x : BitVec 8) (l : List (BitVec 8)) : bitsOf (x :: l) = byteBits x ++ bitsOf l := rfl

theorem byteBits_length (x : BitVec 8) : (byteBits x).length = 8 := by simp [byteBits]

theorem byteBits_ff : byteBits 0xff#8 = List.replicate 8 true := by decide

theorem byteBits_zero (x : BitVec 8) : byteBits x = List.replicate 8 false ↔ x = 0 := by
  revert x
  decide +kernel

/-- The leading ones of a byte that is not 255, and whether the rest is zero. -/
theorem byte_ones (x : BitVec 8) (hx : x ≠ 0xff#8) :
    GoLang.leadingOnes (byteBits x) = (_root_.Net.leadingOnes 8 x).1 ∧ (_root_.Net.leadingOnes 8 x).1 < 8 ∧
      (byteBits x)[(_root_.Net.leadingOnes 8 x).1]? = some false ∧
      ((byteBits x).drop (_root_.Net.leadingOnes 8 x).1 = List.replicate (8 - (_root_.Net.leadingOnes 8 x).1) false ↔ (_root_.Net.leadingOnes 8 x).2 = 0#8) := by
  revert x
  decide +kernel

theorem leadingOnes_stop (l m : List Bool) {n : Nat} (h : GoLang.leadingOnes l = n) (hn : l[n]? = some false) : GoLang.leadingOnes (l ++ m) = n := by
  induction l generalizing n with
  | nil => simp at hn
  | cons x l ih =>
    cases x with
    | false =>
      simp only [GoLang.leadingOnes] at h
      subst h
      rfl
    | true =>
      simp only [GoLang.leadingOnes] at h
      subst h
      simp only [List.getElem?_cons_succ] at hn
      rw [List.cons_append, GoLang.leadingOnes, ih rfl hn]

theorem bitsOf_length (l : List (BitVec 8)) : (bitsOf l).length = 8 * l.length := by
  induction l with
  | nil => rfl
  | cons x l ih => rw [bitsOf_cons, List.length_append, byteBits_length, ih]; simp; omega

theorem bitsOf_zero (l : List (BitVec 8)) : bitsOf l = List.replicate (8 * l.length) false ↔ l.all (· = 0#8) = true := by
  induction l with
  | nil => simp [bitsOf]
  | cons x l ih =>
    rw [bitsOf_cons, List.length_cons, Nat.mul_succ, Nat.add_comm, ← List.replicate_append_replicate,
      app_inj (by simp [byteBits_length]), ih, byteBits_zero]
    simp

/-- `net.simpleMaskLength`, by bits. -/
theorem simpleMaskLength_eq (m : List (BitVec 8)) :
    _root_.Net.simpleMaskLength m = if (bitsOf m).drop (GoLang.leadingOnes (bitsOf m)) = List.replicate ((bitsOf m).length - GoLang.leadingOnes (bitsOf m)) false
      then some (GoLang.leadingOnes (bitsOf m)) else none := by
  induction m with
  | nil => rfl
  | cons x m ih =>
    rw [_root_.Net.simpleMaskLength, bitsOf_cons]
    by_cases hx : x = 0xff#8
    · subst hx
      rw [if_pos rfl, ih, byteBits_ff, leadingOnes_append _ _ (by decide)]
      have h8 : (List.replicate 8 true).length = 8 := rfl
      rw [List.length_append, h8, Nat.add_sub_add_left, List.drop_append, h8, Nat.add_sub_cancel_left,
        List.drop_eq_nil_of_le (as := List.replicate 8 true) (by simp only [List.length_replicate]; omega), List.nil_append]
      split
      · simp [Nat.add_comm]
      · rfl
    · obtain ⟨h1, h2, h3, h4⟩ := byte_ones x hx
      rw [if_neg hx, leadingOnes_stop _ _ h1 h3]
      obtain ⟨⟨n, v⟩, hnv⟩ : ∃ p, _root_.Net.leadingOnes 8 x = p := ⟨_, rfl⟩
      simp only [hnv] at h1 h2 h3 h4 ⊢
      rw [List.drop_append_of_le_length (by rw [byteBits_length]; omega), List.length_append, byteBits_length, bitsOf_length,
        show 8 + 8 * m.length - n = (8 - n) + 8 * m.length by omega, ← List.replicate_append_replicate]
      have key : (byteBits x).drop n ++ bitsOf m = List.replicate (8 - n) false ++ List.replicate (8 * m.length) false ↔
          v = 0#8 ∧ m.all (· = 0#8) = true := by
        rw [app_inj (by simp [byteBits_length]), h4, bitsOf_zero]
      by_cases hv : v = 0#8
      · by_cases hm : m.all (· = 0#8) = true
        · rw [if_pos (key.mpr ⟨hv, hm⟩)]
          simp [hv, hm]
        · rw [if_neg fun q => hm (key.mp q).2]
          simp [hv, hm]
      · rw [if_neg fun q => hv (key.mp q).1]
        simp [hv]

/-- `net.IPMask.Size`, first result, as in the model. -/
theorem maskSize_eq {h : List Val} {v : Val} {b : List (BitVec 8)} (hb : IsBytes h v b) :
    ∃ k, ∀ e, maskSize v ⟨h, e⟩ = .ok (.tuple [.int (_root_.Net.maskSizeOnes b), .int k]) ⟨h, e⟩ := by
  rw [_root_.Net.maskSizeOnes, simpleMaskLength_eq]
  by_cases hc : (bitsOf b).drop (GoLang.leadingOnes (bitsOf b)) = List.replicate ((bitsOf b).length - GoLang.leadingOnes (bitsOf b)) false
  · refine ⟨(8 * b.length : Nat), fun e => ?_⟩
    simp only [maskSize, go, IsBytes.get hb, hc]
  · refine ⟨0, fun e => ?_⟩
    simp only [maskSize, go, IsBytes.get hb, hc]

theorem compareBytes_zero (a b : List (BitVec 8)) : compareBytes a b = 0 ↔ a = b := by
  induction a generalizing b with
  | nil => cases b <;> simp [compareBytes]
  | cons x a ih =>
    cases b with
    | nil => simp [compareBytes]
    | cons y b =>
      simp only [compareBytes]
      split
      · rename_i hxy
        simp only [Int.reduceNeg, Int.neg_eq_zero, Int.reduceEq, List.cons.injEq, false_iff, not_and]
        rintro rfl
        exact absurd hxy (BitVec.lt_irrefl _)
      · split
        · rename_i hxy
          simp only [Int.reduceEq, List.cons.injEq, false_iff, not_and]
          rintro rfl
          exact absurd hxy (BitVec.lt_irrefl _)
        · rename_i h1 h2
          have : x = y := BitVec.le_antisymm (BitVec.not_lt.mp h2) (BitVec.not_lt.mp h1)
          rw [ih, List.cons.injEq]
          simp [this]

/-- A constant shifted to the left, as a `uint32`. -/
theorem shift_const (x n : Nat) : BitVec.ofInt 32 ((x : Int) * 2 ^ n) = BitVec.ofNat 32 x <<< n := by
  rw [show (x : Int) * 2 ^ n = ((x * 2 ^ n : Nat) : Int) by push_cast; rfl, BitVec.ofInt_natCast]
  apply BitVec.eq_of_toNat_eq
  simp [Nat.shiftLeft_eq]

theorem elemAt_const (v : Val) (i : Int) (s : St) : elemAt v (.const i) s = elemAt v (.int i) s := by cases v <;> rfl

/-! ## The functions -/

/-- In memory `h`, `v` points to a network with this address and mask. -/
def IsNet (h : List Val) (v : Val) (ip mask : Val) : Prop :=
  ∃ k t a p x, v = .ptr k t a p ∧ h[a]? = some x ∧ getPath x (p ++ [.fld (n! "IP")]) = some ip ∧ getPath x (p ++ [.fld (n! "Mask")]) = some mask

theorem nil_To4 : nilPanics (n! "To4") pkg.decls pkg.decls false = false := by kernel_rfl
theorem nil_Size : nilPanics (n! "Size") pkg.decls pkg.decls false = false := by kernel_rfl
theorem nil_each : nilPanics (n! "each") pkg.decls pkg.decls false = true := by kernel_rfl

section
variable {P : Prog} (hP : findPkg path P.pkgs = some pkg) {h : List Val}
variable (hS : P.std = stdlib) (hB : elemN (n! "encoding/binary") (P.pkgs.map Pkg.path) = false) (hC : elemN (n! "bytes") (P.pkgs.map Pkg.path) = false)
include hP

include hS hB in
theorem run_Ipv4ToUint {v : Val} {b : List (BitVec 8)} (hb : IsBytes h v b) (n : Nat) :
    ∃ u, _root_.Net.Ipv4ToUint b = .ok u ∧ run P (n + 1) path 0 (n! "Ipv4ToUint") [v] h = .ok [.u32 u] ⟨h, []⟩ := by
  have hv := hb.has.plain
  obtain ⟨w, hw, hpw, hm⟩ := to4_eq hb
  have hcm : ∀ n f rs call place e, callMethod (P.ctx n pkg f rs call) v place (n! "To4") [] ⟨h, e⟩ = P.std 0 0 (n! "To4") [v] ⟨h, e⟩ := by
    intro n f rs call place e
    rcases hb with ⟨rfl, rfl⟩ | ⟨a, p, off, cap, o, l, rfl, _⟩
    · exact congrArg (fun q : Bool => (bif q then panic else P.std 0 0 (n! "To4") [.nil]) ⟨h, e⟩) nil_To4
    · rfl
  rw [_root_.Net.Ipv4ToUint, run_func hP find_Ipv4ToUint]
  split at hm <;> rename_i hq <;> simp only [hq]
  · subst hm
    refine ⟨_, rfl, ?_⟩
    eval_go [hv, hcm, hS, std_To4, hw]
  · rename_i c
    obtain ⟨h1, h2, h3⟩ := hm
    obtain ⟨x, hx, hy⟩ := readUint_eq h1 h2
    rcases h1 with ⟨rfl, _⟩ | ⟨a, p, off, cap, o, l, rfl, _⟩
    · exact absurd rfl h3
    · refine ⟨_, hy, ?_⟩
      eval_go [hv, hcm, hS, hB, std_To4, hw, std_be32, hx]

include hS hB in
theorem run_Ipv4FromUint (u : BitVec 32) (n : Nat) :
    run P (n + 1) path 0 (n! "Ipv4FromUint") [.u32 u] h =
      .ok [.slice h.length [] 0 4 4] ⟨h ++ [.arr ((_root_.Net.Ipv4FromUint u).map .u8)], []⟩ := by
  rw [run_func hP find_Ipv4FromUint, _root_.Net.Ipv4FromUint]
  have h4 : ¬ (4 : Int) < 0 := by decide
  eval_go [hS, hB, std_put32, putUint_eq, h4]

include hS hB in
theorem run_MaskFromByte (b : BitVec 8) (n : Nat) :
    run P (n + 1) path 0 (n! "MaskFromByte") [.u8 b] h =
      .ok [.slice h.length [] 0 4 4] ⟨h ++ [.arr ((_root_.Net.MaskFromByte b).map .u8)], []⟩ := by
  rw [run_func hP find_MaskFromByte, _root_.Net.MaskFromByte]
  have h4 : ¬ (4 : Int) < 0 := by decide
  have hm := shift_const 4294967295 (32#8 - b).toNat
  simp only [Nat.cast_ofNat] at hm
  eval_go [hS, hB, std_put32, putUint_eq, h4, hm]

include hS in
theorem run_MaskToByte {v : Val} {m : List (BitVec 8)} (hm : IsBytes h v m) (n : Nat) :
    run P (n + 1) path 0 (n! "MaskToByte") [v] h = .ok [.u8 (_root_.Net.MaskToByte m)] ⟨h, []⟩ := by
  have hv := hm.has.plain
  obtain ⟨k, hk⟩ := maskSize_eq hm
  have hcm : ∀ n f rs call place e, callMethod (P.ctx n pkg f rs call) v place (n! "Size") [] ⟨h, e⟩ = P.std 0 0 (n! "Size") [v] ⟨h, e⟩ := by
    intro n f rs call place e
    rcases hm with ⟨rfl, rfl⟩ | ⟨a, p, off, cap, o, l, rfl, _⟩
    · exact congrArg (fun q : Bool => (bif q then panic else P.std 0 0 (n! "Size") [.nil]) ⟨h, e⟩) nil_Size
    · rfl
  rw [run_func hP find_MaskToByte, _root_.Net.MaskToByte]
  eval_go [hv, hcm, hS, std_Size, hk, BitVec.ofInt_natCast]

include hS hC in
theorem run_CidrEqual {va vb ia ma ib mb : Val} {a b : _root_.Net.IPNet} (ha : IsNet h va ia ma) (hb : IsNet h vb ib mb) (hia : IsBytes h ia a.ip)
    (hma : IsBytes h ma a.mask) (hib : IsBytes h ib b.ip) (hmb : IsBytes h mb b.mask) (n : Nat) :
    run P (n + 1) path 0 (n! "CidrEqual") [va, vb] h = .ok [.bool (_root_.Net.CidrEqual a b)] ⟨h, []⟩ := by
  obtain ⟨k₁, t₁, a₁, p₁, x₁, rfl, e₁, f₁, g₁⟩ := ha
  obtain ⟨k₂, t₂, a₂, p₂, x₂, rfl, e₂, f₂, g₂⟩ := hb
  have q1 := IsBytes.get hma
  have q2 := IsBytes.get hmb
  have z := compareBytes_zero a.mask b.mask
  rw [run_func hP find_CidrEqual, _root_.Net.CidrEqual]
  by_cases hne : a.mask = b.mask
  · obtain ⟨w₁, hw₁, pw₁, hm₁⟩ := to4_eq hia
    obtain ⟨w₂, hw₂, pw₂, hm₂⟩ := to4_eq hib
    have c₁ : ∀ n f rs call place e, callMethod (P.ctx n pkg f rs call) ia place (n! "To4") [] ⟨h, e⟩ = P.std 0 0 (n! "To4") [ia] ⟨h, e⟩ := by
      intro n f rs call place e
      rcases hia with ⟨rfl, _⟩ | ⟨a, p, off, cap, o, l, rfl, _⟩
      · exact congrArg (fun q : Bool => (bif q then panic else P.std 0 0 (n! "To4") [.nil]) ⟨h, e⟩) nil_To4
      · rfl
    have c₂ : ∀ n f rs call place e, callMethod (P.ctx n pkg f rs call) ib place (n! "To4") [] ⟨h, e⟩ = P.std 0 0 (n! "To4") [ib] ⟨h, e⟩ := by
      intro n f rs call place e
      rcases hib with ⟨rfl, _⟩ | ⟨a, p, off, cap, o, l, rfl, _⟩
      · exact congrArg (fun q : Bool => (bif q then panic else P.std 0 0 (n! "To4") [.nil]) ⟨h, e⟩) nil_To4
      · rfl
    have b₁ : ∀ e, bytesIn w₁ ⟨h, e⟩ = .ok ((_root_.Net.To4 a.ip).getD []) ⟨h, e⟩ := by
      intro e
      split at hm₁ <;> rename_i hq <;> rw [hq]
      · subst hm₁; rfl
      · exact IsBytes.get hm₁.1 e
    have b₂ : ∀ e, bytesIn w₂ ⟨h, e⟩ = .ok ((_root_.Net.To4 b.ip).getD []) ⟨h, e⟩ := by
      intro e
      split at hm₂ <;> rename_i hq <;> rw [hq]
      · subst hm₂; rfl
      · exact IsBytes.get hm₂.1 e
    have z' := compareBytes_zero ((_root_.Net.To4 a.ip).getD []) ((_root_.Net.To4 b.ip).getD [])
    rw [if_neg (by simpa using hne)]
    have hz := z.mpr hne
    eval_go [hS, hC, std_Compare, e₁, f₁, g₁, e₂, f₂, g₂, q1, q2, hz, c₁, c₂, std_To4, hw₁, hw₂, b₁, b₂]
    rw [show (compareBytes ((_root_.Net.To4 a.ip).getD []) ((_root_.Net.To4 b.ip).getD []) == 0) =
      decide (compareBytes ((_root_.Net.To4 a.ip).getD []) ((_root_.Net.To4 b.ip).getD []) = 0) from rfl, decide_eq_decide.mpr z']
  · have hz : compareBytes a.mask b.mask ≠ 0 := fun q => hne (z.mp q)
    rw [if_pos hne]
    eval_go [hS, hC, std_Compare, e₁, f₁, g₁, e₂, f₂, g₂, q1, q2, hz]

/-- The result is the address in the network, the same memory. -/
theorem run_FirstIpv4 {v ip mask : Val} (hn : IsNet h v ip mask) (hi : Plain ip) (n : Nat) :
    run P (n + 1) path 0 (n! "FirstIpv4") [v] h = .ok [ip] ⟨h, []⟩ := by
  obtain ⟨k₁, t₁, a₁, p₁, x₁, rfl, e₁, f₁, g₁⟩ := hn
  rw [run_func hP find_FirstIpv4]
  eval_go [e₁, f₁, hi]


/-- The result is new memory; a panic leaves the memory that was there as it was. -/
theorem run_LastIpv4 {v ip mask : Val} {N : _root_.Net.IPNet} (hn : IsNet h v ip mask) (hi : IsBytes h ip N.ip) (hm : IsBytes h mask N.mask) (n : Nat) :
    match _root_.Net.LastIpv4 N with
    | .ok r => run P (n + 1) path 0 (n! "LastIpv4") [v] h = .ok [.slice h.length [] 0 4 4] ⟨h ++ [.arr (r.map .u8)], []⟩
    | .panic => ∃ x, run P (n + 1) path 0 (n! "LastIpv4") [v] h = .panic (h ++ [x]) := by
  obtain ⟨k₁, t₁, a₁, p₁, x₁, rfl, e₀, f₁, g₁⟩ := hn
  have e₁ : ∀ x, (h ++ [x])[a₁]? = some x₁ := fun x => by rw [List.getElem?_append_left (lt_of_get e₀), e₀]
  have Hi : ∀ x i (q : i < N.ip.length) e, elemAt ip (.const (i : Nat)) ⟨h ++ [x], e⟩ = .ok (.u8 N.ip[i]) ⟨h ++ [x], e⟩ :=
    fun x i q e => (elemAt_const ..).trans ((hi.append [x]).has.at q e)
  have Hm : ∀ x i (q : i < N.mask.length) e, elemAt mask (.const (i : Nat)) ⟨h ++ [x], e⟩ = .ok (.u8 N.mask[i]) ⟨h ++ [x], e⟩ :=
    fun x i q e => (elemAt_const ..).trans ((hm.append [x]).has.at q e)
  have Oi : ∀ x i (q : ¬ i < N.ip.length) e, elemAt ip (.const (i : Nat)) ⟨h ++ [x], e⟩ = .panic (h ++ [x]) :=
    fun x i q e => (elemAt_const ..).trans ((hi.append [x]).has.oob (by omega) e)
  have Om : ∀ x i (q : ¬ i < N.mask.length) e, elemAt mask (.const (i : Nat)) ⟨h ++ [x], e⟩ = .panic (h ++ [x]) :=
    fun x i q e => (elemAt_const ..).trans ((hm.append [x]).has.oob (by omega) e)
  have h4 : ¬ (4 : Int) < 0 := by decide
  have hl : (0 : Int) < 4 ∧ (1 : Int) < 4 ∧ (2 : Int) < 4 ∧ (3 : Int) < 4 := by decide
  have il : (0 : Int) ≤ 0 ∧ (0 : Int) ≤ 1 ∧ (0 : Int) ≤ 2 ∧ (0 : Int) ≤ 3 := by decide
  rw [run_func hP find_LastIpv4]
  simp only [_root_.Net.LastIpv4, goIdx]
  by_cases i0 : 0 < N.ip.length
  · have ai0 := fun x e => Hi x 0 i0 e
    simp only [Nat.cast_ofNat, Int.cast_ofNat_Int, Nat.cast_zero, Nat.cast_one] at ai0
    simp only [i0, List.getElem?_eq_getElem, go]
    by_cases m0 : 0 < N.mask.length
    · have am0 := fun x e => Hm x 0 m0 e
      simp only [Nat.cast_ofNat, Int.cast_ofNat_Int, Nat.cast_zero, Nat.cast_one] at am0
      simp only [m0, List.getElem?_eq_getElem, go]
      by_cases i1 : 1 < N.ip.length
      · have ai1 := fun x e => Hi x 1 i1 e
        simp only [Nat.cast_ofNat, Int.cast_ofNat_Int, Nat.cast_zero, Nat.cast_one] at ai1
        simp only [i1, List.getElem?_eq_getElem, go]
        by_cases m1 : 1 < N.mask.length
        · have am1 := fun x e => Hm x 1 m1 e
          simp only [Nat.cast_ofNat, Int.cast_ofNat_Int, Nat.cast_zero, Nat.cast_one] at am1
          simp only [m1, List.getElem?_eq_getElem, go]
          by_cases i2 : 2 < N.ip.length
          · have ai2 := fun x e => Hi x 2 i2 e
            simp only [Nat.cast_ofNat, Int.cast_ofNat_Int, Nat.cast_zero, Nat.cast_one] at ai2
            simp only [i2, List.getElem?_eq_getElem, go]
            by_cases m2 : 2 < N.mask.length
            · have am2 := fun x e => Hm x 2 m2 e
              simp only [Nat.cast_ofNat, Int.cast_ofNat_Int, Nat.cast_zero, Nat.cast_one] at am2
              simp only [m2, List.getElem?_eq_getElem, go]
              by_cases i3 : 3 < N.ip.length
              · have ai3 := fun x e => Hi x 3 i3 e
                simp only [Nat.cast_ofNat, Int.cast_ofNat_Int, Nat.cast_zero, Nat.cast_one] at ai3
                simp only [i3, List.getElem?_eq_getElem, go]
                by_cases m3 : 3 < N.mask.length
                · have am3 := fun x e => Hm x 3 m3 e
                  simp only [Nat.cast_ofNat, Int.cast_ofNat_Int, Nat.cast_zero, Nat.cast_one] at am3
                  simp only [m3, List.getElem?_eq_getElem, go]
                  eval_go [e₁, f₁, g₁, h4, get_last, set_last, hl, il, List.getElem?_cons_zero, List.getElem?_cons_succ, List.set_cons_zero, List.set_cons_succ, ai0, am0, ai1, am1, ai2, am2, ai3, am3]
                · have am3 := fun x e => Om x 3 m3 e
                  simp only [Nat.cast_ofNat, Int.cast_ofNat_Int, Nat.cast_zero, Nat.cast_one] at am3
                  simp only [List.getElem?_eq_none (Nat.le_of_not_lt m3), go]
                  eval_go [e₁, f₁, g₁, h4, get_last, set_last, hl, il, List.getElem?_cons_zero, List.getElem?_cons_succ, List.set_cons_zero, List.set_cons_succ, ai0, am0, ai1, am1, ai2, am2, ai3, am3]
                  exact ⟨_, rfl⟩
              · have ai3 := fun x e => Oi x 3 i3 e
                simp only [Nat.cast_ofNat, Int.cast_ofNat_Int, Nat.cast_zero, Nat.cast_one] at ai3
                simp only [List.getElem?_eq_none (Nat.le_of_not_lt i3), go]
                eval_go [e₁, f₁, g₁, h4, get_last, set_last, hl, il, List.getElem?_cons_zero, List.getElem?_cons_succ, List.set_cons_zero, List.set_cons_succ, ai0, am0, ai1, am1, ai2, am2, ai3]
                exact ⟨_, rfl⟩
            · have am2 := fun x e => Om x 2 m2 e
              simp only [Nat.cast_ofNat, Int.cast_ofNat_Int, Nat.cast_zero, Nat.cast_one] at am2
              simp only [List.getElem?_eq_none (Nat.le_of_not_lt m2), go]
              eval_go [e₁, f₁, g₁, h4, get_last, set_last, hl, il, List.getElem?_cons_zero, List.getElem?_cons_succ, List.set_cons_zero, List.set_cons_succ, ai0, am0, ai1, am1, ai2, am2]
              exact ⟨_, rfl⟩
          · have ai2 := fun x e => Oi x 2 i2 e
            simp only [Nat.cast_ofNat, Int.cast_ofNat_Int, Nat.cast_zero, Nat.cast_one] at ai2
            simp only [List.getElem?_eq_none (Nat.le_of_not_lt i2), go]
            eval_go [e₁, f₁, g₁, h4, get_last, set_last, hl, il, List.getElem?_cons_zero, List.getElem?_cons_succ, List.set_cons_zero, List.set_cons_succ, ai0, am0, ai1, am1, ai2]
            exact ⟨_, rfl⟩
        · have am1 := fun x e => Om x 1 m1 e
          simp only [Nat.cast_ofNat, Int.cast_ofNat_Int, Nat.cast_zero, Nat.cast_one] at am1
          simp only [List.getElem?_eq_none (Nat.le_of_not_lt m1), go]
          eval_go [e₁, f₁, g₁, h4, get_last, set_last, hl, il, List.getElem?_cons_zero, List.getElem?_cons_succ, List.set_cons_zero, List.set_cons_succ, ai0, am0, ai1, am1]
          exact ⟨_, rfl⟩
      · have ai1 := fun x e => Oi x 1 i1 e
        simp only [Nat.cast_ofNat, Int.cast_ofNat_Int, Nat.cast_zero, Nat.cast_one] at ai1
        simp only [List.getElem?_eq_none (Nat.le_of_not_lt i1), go]
        eval_go [e₁, f₁, g₁, h4, get_last, set_last, hl, il, List.getElem?_cons_zero, List.getElem?_cons_succ, List.set_cons_zero, List.set_cons_succ, ai0, am0, ai1]
        exact ⟨_, rfl⟩
    · have am0 := fun x e => Om x 0 m0 e
      simp only [Nat.cast_ofNat, Int.cast_ofNat_Int, Nat.cast_zero, Nat.cast_one] at am0
      simp only [List.getElem?_eq_none (Nat.le_of_not_lt m0), go]
      eval_go [e₁, f₁, g₁, h4, get_last, set_last, hl, il, List.getElem?_cons_zero, List.getElem?_cons_succ, List.set_cons_zero, List.set_cons_succ, ai0, am0]
      exact ⟨_, rfl⟩
  · have ai0 := fun x e => Oi x 0 i0 e
    simp only [Nat.cast_ofNat, Int.cast_ofNat_Int, Nat.cast_zero, Nat.cast_one] at ai0
    simp only [List.getElem?_eq_none (Nat.le_of_not_lt i0), go]
    eval_go [e₁, f₁, g₁, h4, get_last, set_last, hl, il, List.getElem?_cons_zero, List.getElem?_cons_succ, List.set_cons_zero, List.set_cons_succ, ai0]
    exact ⟨_, rfl⟩

end
end Source.Net
