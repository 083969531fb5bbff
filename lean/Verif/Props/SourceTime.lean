import Verif.Props.SourceErrors
import Verif.Props.SourceRipemd
import Verif.Props.SourceWhirlpool
import Verif.Props.SourceCodegen
import Verif.Props.SourceBytes

/-!
# C121: how long calls take, run from the text

`Returns` says that a call ends, but not when. The interpreter is given a number that bounds how deep calls nest and how often each
loop turns; here is how large it must be. For the hash and checksum objects the bound is linear in what is written and constant for all
other methods, after any use of the object; the conversions and the functions of package bytes have bounds linear in their arguments; the
Luhn digit takes at most 21 turns for every number. (Package net is in C108.)
-/
namespace Source
open GoLang HashSpec

/-- The call ends, by returning or by panicking, if calls may nest `n` deep and each loop may turn `n` times. -/
def Lasts (P : Prog) (n : Nat) (path t f : Name) (args h : List Val) : Prop := run P n path t f args h ≠ .stuck

theorem Lasts.of {P : Prog} {n m : Nat} {path t f : Name} {args h : List Val} {o : Out (List Val)} (hr : run P m path t f args h = o)
    (ho : o ≠ .stuck) (hm : m ≤ n) : Lasts P n path t f args h := by
  rw [Lasts, run_mono hm ho hr]; exact ho

/-! ## Hash and checksum objects -/

/-- The bound for each method. -/
def mostTime : GoHash.Op → Nat
  | .write p => p.length + 22
  | .sum _ => 72
  | _ => 12

/-- The method call, with a fresh slice as argument, ends. -/
def OpLasts (P : Prog) (path ty sumN : Name) (n a : Nat) (h : List Val) : GoHash.Op → Prop
  | .write p => Lasts P n path ty (n! "Write") [obj path ty a, litBytes h p] (withBytes h p)
  | .sum p => Lasts P n path ty (n! "Sum") [obj path ty a, litBytes h p] (withBytes h p)
  | .sumN => Lasts P n path ty sumN [obj path ty a] h
  | .reset => Lasts P n path ty (n! "Reset") [obj path ty a] h
  | .size => Lasts P n path ty (n! "Size") [obj path ty a] h
  | .blockSize => Lasts P n path ty (n! "BlockSize") [obj path ty a] h

/-- The object at `a` has been used: methods were called, and in between the program allocated whatever it liked. -/
inductive Used (P : Prog) (path ty sumN : Name) (a : Nat) (h : List Val) : List Val → Prop
  | start : Used P path ty sumN a h h
  | call {h₁ h₂ op o} : Used P path ty sumN a h h₁ → Callable P.W sumN [op] → CallReturns P path ty sumN a h₁ op o h₂ → Used P path ty sumN a h h₂
  | other {h₁ t} : Used P path ty sumN a h h₁ → Used P path ty sumN a h (h₁ ++ t)

/-- Making an object ends soon, and so does every method call on it after any use. -/
def Timely (P : Prog) (path ty new sumN : Name) : Prop :=
  ∀ h, Lasts P 14 path 0 new [] h ∧
    ∀ a h₁ h₂ op, Returns P path 0 new [] h [obj path ty a] h₁ → Used P path ty sumN a h₁ h₂ → Callable P.W sumN [op] →
      OpLasts P path ty sumN (mostTime op) a h₂ op

section
variable {P : Prog} {path ty new sumN : Name} {σ : Type} {I : GoHash.Impl σ} {rep : σ → Val} {Inv : σ → Prop}

/-- A call leaves the object in a state that it can have. -/
theorem implements_stays (hI : Implements P path ty new sumN I rep Inv) {a : Nat} {h h' : List Val} {s : σ} (hs : Inv s)
    (ha : h[a]? = some (rep s)) {op : GoHash.Op} {o : GoHash.Out} (hop : Callable P.W sumN [op]) (hc : CallReturns P path ty sumN a h op o h') :
    ∃ s', Inv s' ∧ h'[a]? = some (rep s') := by
  cases op with
  | write p =>
    have hw := hI.write _ a s _ p hs (get_withBytes p ha) (isBytes_lit h p) (base_lit p ha) (hop.1 p (.head _))
    rcases hr : I.write s p with ⟨s', k, e⟩ | _
    · simp only [hr] at hw
      obtain ⟨hi, rfl, h₁, hret, hpre⟩ := hw
      obtain ⟨-, rfl⟩ := hc.unique (show CallReturns P path ty sumN a h (.write p) (.wrote k false) h₁ from ⟨.nil, hret, by simp⟩)
      exact ⟨s', hi, prefix_get hpre (List.getElem?_set_self (lt_of_get (get_withBytes p ha)))⟩
    · simp only [hr] at hw
      obtain ⟨h₁, hp, _⟩ := hw
      exact absurd (show CallPanics P path ty a h (.write p) from ⟨h₁, hp⟩) hc.not_panics
  | sum p =>
    obtain ⟨w, h₁, v', h₂, hsum, hpre, hap, hret⟩ := hI.sum _ a s _ p hs (get_withBytes p ha) (isBytes_lit h p) (base_lit p ha)
    have hb : IsBytes h₁ (litBytes h p) p := .inr ⟨h.length, [], 0, p.length, _, _, rfl,
      prefix_get hpre (List.getElem?_concat_length ..), rfl, by simp, by simp, by
        simp only [List.drop_zero]
        exact List.take_of_length_le (by simp)⟩
    obtain ⟨v₂, h₃, hap₂, hb₂, _, hfr⟩ := appendTo_bytes P.grow hb w
    have := hap.symm.trans (hap₂ [])
    simp only [Out.ok.injEq, St.mk.injEq, and_true] at this
    obtain ⟨rfl, rfl⟩ := this
    obtain ⟨-, rfl⟩ := hc.unique (show CallReturns P path ty sumN a h (.sum p) (.bytes (p ++ w)) h₂ from ⟨v', hret, hb₂⟩)
    have ha₁ := prefix_get hpre (get_withBytes p ha)
    exact ⟨s, hs, by rw [hfr a (lt_of_get ha₁) (base_lit p ha).symm, ha₁]⟩
  | sumN =>
    obtain ⟨v, k, hk, hv, hret⟩ := hI.sumN h a s hs ha (hop.2 (.head _))
    obtain ⟨-, rfl⟩ := hc.unique (show CallReturns P path ty sumN a h .sumN (.num k) h from ⟨v, hret, hv⟩)
    exact ⟨s, hs, ha⟩
  | reset =>
    obtain ⟨s', h₁, hr, hi, hret, hpre⟩ := hI.reset h a s hs ha
    obtain ⟨-, rfl⟩ := hc.unique (show CallReturns P path ty sumN a h .reset .unit h₁ from hret)
    exact ⟨s', hi, prefix_get hpre (List.getElem?_set_self (lt_of_get ha))⟩
  | size =>
    obtain ⟨-, rfl⟩ := hc.unique (show CallReturns P path ty sumN a h .size (.num (I.size s)) h from hI.size h a s hs ha)
    exact ⟨s, hs, ha⟩
  | blockSize =>
    obtain ⟨-, rfl⟩ := hc.unique (show CallReturns P path ty sumN a h .blockSize (.num (I.blockSize s)) h from hI.blockSize h a s hs ha)
    exact ⟨s, hs, ha⟩

theorem implements_timely (hI : Implements P path ty new sumN I rep Inv) (hn : ∀ h, Lasts P 14 path 0 new [] h)
    (hm : ∀ h a s op, Inv s → h[a]? = some (rep s) → Callable P.W sumN [op] → OpLasts P path ty sumN (mostTime op) a h op) :
    Timely P path ty new sumN := by
  intro h
  refine ⟨hn h, fun a h₁ h₂ op hr hu hop => ?_⟩
  obtain ⟨s, h', -, hs, hr', hpre⟩ := hI.new h
  have := hr.unique hr'
  simp only [List.cons.injEq, Val.ptr.injEq, and_true, true_and] at this
  obtain ⟨rfl, rfl⟩ := this
  have ha : h₁[h.length]? = some (rep s) := prefix_get hpre (List.getElem?_concat_length ..)
  have : ∃ s, Inv s ∧ h₂[h.length]? = some (rep s) := by
    clear hop
    induction hu with
    | start => exact ⟨s, hs, ha⟩
    | call _ hop hc ih =>
      obtain ⟨s', hs', ha'⟩ := ih
      exact implements_stays hI hs' ha' hop hc
    | other _ ih =>
      obtain ⟨s', hs', ha'⟩ := ih
      exact ⟨s', hs', prefix_get ⟨_, rfl⟩ ha'⟩
  obtain ⟨s', hs', ha'⟩ := this
  exact hm h₂ _ s' op hs' ha' hop
end

/-- **C121** bcc.go -/
theorem C121_bcc {P : Prog} (hP : P.Has Bcc.path [Bcc.src] []) (hW : 32 ≤ P.W) : Timely P Bcc.path (n! "digest") (n! "New") (n! "Sum8") := by
  have hp := hP.find Bcc.text
  refine implements_timely (C87_bcc P hP hW) (fun h => .of (Bcc.run_New hp 0) (by simp) (by omega)) fun h a s op _ ha hop => ?_
  cases op with
  | write p => exact .of (Bcc.run_Write hp (by omega) (get_withBytes p ha) (isBytes_lit h p).has (hop.1 p (.head _)) (Nat.lt_succ_self _)) (by simp) (by simp only [mostTime]; omega)
  | sum p =>
    obtain ⟨v', h', hap, _, hv', _⟩ := appendTo_bytes P.grow (isBytes_lit h p) [s]
    exact .of (Bcc.run_Sum hp (get_withBytes p ha) (isBytes_lit h p).has.plain hv' hap 0) (by simp) (by simp only [mostTime]; omega)
  | sumN => exact .of (Bcc.run_Sum8 hp ha 0) (by simp) (by simp only [mostTime]; omega)
  | reset => exact .of (Bcc.run_Reset hp ha 0) (by simp) (by simp only [mostTime]; omega)
  | size => exact .of (Bcc.run_Size hp 0) (by simp) (by simp only [mostTime]; omega)
  | blockSize => exact .of (Bcc.run_BlockSize hp 0) (by simp) (by simp only [mostTime]; omega)

/-- **C121** lrc.go -/
theorem C121_lrc {P : Prog} (hP : P.Has Lrc.path [Lrc.src] []) (hW : 32 ≤ P.W) : Timely P Lrc.path (n! "digest") (n! "New") (n! "Sum8") := by
  have hp := hP.find Lrc.text
  refine implements_timely (C87_lrc P hP hW) (fun h => .of (Lrc.run_New hp 0) (by simp) (by omega)) fun h a s op _ ha hop => ?_
  cases op with
  | write p => exact .of (Lrc.run_Write hp (by omega) (get_withBytes p ha) (isBytes_lit h p).has (hop.1 p (.head _)) (Nat.lt_succ_self _)) (by simp) (by simp only [mostTime]; omega)
  | sum p =>
    obtain ⟨v', h', hap, _, hv', _⟩ := appendTo_bytes P.grow (isBytes_lit h p) [s]
    exact .of (Lrc.run_Sum hp (get_withBytes p ha) (isBytes_lit h p).has.plain hv' hap 0) (by simp) (by simp only [mostTime]; omega)
  | sumN => exact .of (Lrc.run_Sum8 hp ha 0) (by simp) (by simp only [mostTime]; omega)
  | reset => exact .of (Lrc.run_Reset hp ha 0) (by simp) (by simp only [mostTime]; omega)
  | size => exact .of (Lrc.run_Size hp 0) (by simp) (by simp only [mostTime]; omega)
  | blockSize => exact .of (Lrc.run_BlockSize hp 0) (by simp) (by simp only [mostTime]; omega)

/-- **C121** fletcher16.go -/
theorem C121_fletcher16 {P : Prog} (hP : P.Has Fletcher.path fletcherTexts []) (hW : 32 ≤ P.W) : Timely P Fletcher.path (n! "digest16") (n! "New16") (n! "Sum16") := by
  have hp := hP.find Fletcher.text
  refine implements_timely (C87_fletcher16 P hP hW) (fun h => .of (Fletcher16.run_New hp 0) (by simp) (by omega)) fun h a s op _ ha hop => ?_
  cases op with
  | write p =>
    have hr := Fletcher16.run_Write hp hW (get_withBytes p ha) (isBytes_lit h p).has (hop.1 p (.head _)) (Nat.lt_succ_self (p.length + 1))
    rcases hu : _root_.Fletcher.update16 s p with d | _
    · rw [hu] at hr
      exact .of hr (by simp) (by simp only [mostTime]; omega)
    · rw [hu] at hr
      exact .of hr (by simp) (by simp only [mostTime]; omega)
  | sum p =>
    obtain ⟨v', h', hap, _, hv', _⟩ := appendTo_bytes P.grow (isBytes_lit h p) [s.b, s.a]
    exact .of (Fletcher16.run_Sum hp (get_withBytes p ha) (isBytes_lit h p).has.plain hv' hap 0) (by simp) (by simp only [mostTime]; omega)
  | sumN => exact .of (Fletcher16.run_Sum16 hp ha 0) (by simp) (by simp only [mostTime]; omega)
  | reset => exact .of (Fletcher16.run_Reset hp ha 0) (by simp) (by simp only [mostTime]; omega)
  | size => exact .of (Fletcher16.run_Size hp 0) (by simp) (by simp only [mostTime]; omega)
  | blockSize => exact .of (Fletcher16.run_BlockSize hp 0) (by simp) (by simp only [mostTime]; omega)

/-- **C121** fletcher32.go -/
theorem C121_fletcher32 {P : Prog} (hP : P.Has Fletcher.path fletcherTexts []) (hW : 32 ≤ P.W) : Timely P Fletcher.path (n! "digest32") (n! "New32") (n! "Sum32") := by
  have hp := hP.find Fletcher.text
  refine implements_timely (C87_fletcher32 P hP hW) (fun h => .of (Fletcher32.run_New hp 0) (by simp) (by omega)) fun h a s op _ ha hop => ?_
  cases op with
  | write p =>
    have hr := Fletcher32.run_Write hp hW (get_withBytes p ha) (isBytes_lit h p).has (hop.1 p (.head _)) (Nat.lt_succ_self (p.length + 1))
    rcases hu : _root_.Fletcher.update32 s p with d | _
    · rw [hu] at hr
      exact .of hr (by simp) (by simp only [mostTime]; omega)
    · rw [hu] at hr
      exact .of hr (by simp) (by simp only [mostTime]; omega)
  | sum p =>
    obtain ⟨v', h', hap, _, hv', _⟩ := appendTo_bytes P.grow (isBytes_lit h p) [(s.b >>> 8).setWidth 8, s.b.setWidth 8, (s.a >>> 8).setWidth 8, s.a.setWidth 8]
    exact .of (Fletcher32.run_Sum hp (get_withBytes p ha) (isBytes_lit h p).has.plain hv' hap 0) (by simp) (by simp only [mostTime]; omega)
  | sumN => exact .of (Fletcher32.run_Sum32 hp ha 0) (by simp) (by simp only [mostTime]; omega)
  | reset => exact .of (Fletcher32.run_Reset hp ha 0) (by simp) (by simp only [mostTime]; omega)
  | size => exact .of (Fletcher32.run_Size hp 0) (by simp) (by simp only [mostTime]; omega)
  | blockSize => exact .of (Fletcher32.run_BlockSize hp 0) (by simp) (by simp only [mostTime]; omega)

/-- **C121** fletcher64.go -/
theorem C121_fletcher64 {P : Prog} (hP : P.Has Fletcher.path fletcherTexts []) (hW : 32 ≤ P.W) : Timely P Fletcher.path (n! "digest64") (n! "New64") (n! "Sum64") := by
  have hp := hP.find Fletcher.text
  refine implements_timely (C87_fletcher64 P hP hW) (fun h => .of (Fletcher64.run_New hp 0) (by simp) (by omega)) fun h a s op _ ha hop => ?_
  cases op with
  | write p =>
    have hr := Fletcher64.run_Write hp hW (get_withBytes p ha) (isBytes_lit h p).has (hop.1 p (.head _)) (Nat.lt_succ_self (p.length + 1))
    rcases hu : _root_.Fletcher.update64 s p with d | _
    · rw [hu] at hr
      exact .of hr (by simp) (by simp only [mostTime]; omega)
    · rw [hu] at hr
      exact .of hr (by simp) (by simp only [mostTime]; omega)
  | sum p =>
    obtain ⟨v', h', hap, _, hv', _⟩ := appendTo_bytes P.grow (isBytes_lit h p) [(s.b >>> 24).setWidth 8, (s.b >>> 16).setWidth 8, (s.b >>> 8).setWidth 8, s.b.setWidth 8,
      (s.a >>> 24).setWidth 8, (s.a >>> 16).setWidth 8, (s.a >>> 8).setWidth 8, s.a.setWidth 8]
    exact .of (Fletcher64.run_Sum hp (get_withBytes p ha) (isBytes_lit h p).has.plain hv' hap 0) (by simp) (by simp only [mostTime]; omega)
  | sumN => exact .of (Fletcher64.run_Sum64 hp ha 0) (by simp) (by simp only [mostTime]; omega)
  | reset => exact .of (Fletcher64.run_Reset hp ha 0) (by simp) (by simp only [mostTime]; omega)
  | size => exact .of (Fletcher64.run_Size hp 0) (by simp) (by simp only [mostTime]; omega)
  | blockSize => exact .of (Fletcher64.run_BlockSize hp 0) (by simp) (by simp only [mostTime]; omega)

/-- **C121** luhn.go: whatever the number, the loop turns at most 21 times (the number has at most twenty digits). -/
theorem C121_luhn {P : Prog} (hP : P.Has Luhn.path [Luhn.src] []) (h : List Val) (i : BitVec 64) : Lasts P 22 Luhn.path 0 (n! "Checksum") [.u64 i] h :=
  .of (Luhn.run_Checksum (hP.find Luhn.text) h i (n := 21) (by omega)) (by simp) (by omega)

theorem ripemd_timely {P : Prog} (hP : RipemdHosts P) {new hash : Name} {k : Nat} {H : BlockHash.Ctx U32 → Res (BlockHash.Ctx U32)} (hk : k ≤ 10)
    (hH : Ripemd.RunsHash P hash k H) (hI : Implements P Ripemd.path Ripemd.ty new 0 (_root_.Ripemd.impl ⟨H, k⟩) (Ripemd.rep hash k) Ripemd.Inv)
    (hn : ∀ h, Lasts P 14 Ripemd.path 0 new [] h) : Timely P Ripemd.path Ripemd.ty new 0 := by
  have hT := hP.text.find Ripemd.text
  have hZ := hP.bytes.find Bytes.text
  refine implements_timely hI hn fun h a s op hs ha hop => ?_
  cases op with
  | write p =>
    obtain ⟨t, c', -, -, hr⟩ := Ripemd.run_Write hT hP.word hH (get_withBytes p ha) hs (isBytes_lit h p) (base_lit p ha) (hop.1 p (.head _)) (Nat.lt_succ_self _)
    exact .of hr (by simp) (by simp only [mostTime]; omega)
  | sum p =>
    obtain ⟨w, t, -, hr⟩ := Ripemd.run_Sum hT hP.word hP.std hP.binary hZ hH (get_withBytes p ha) hs hk (isBytes_lit h p).has.plain p (Nat.lt_succ_self _)
    obtain ⟨v', h', hap, _, hv', _⟩ := appendTo_bytes P.grow ((isBytes_lit h p).append t) w
    exact .of (hr v' h' hv' hap) (by simp) (by simp only [mostTime]; omega)
  | sumN => exact absurd rfl (hop.2 (.head _))
  | reset =>
    obtain ⟨t, st, -, -, hr⟩ := Ripemd.run_Reset (H := H) hT hP.word hP.std hP.binary ha hs.1 hk (Nat.lt_succ_self _)
    exact .of hr (by simp) (by simp only [mostTime]; omega)
  | size => exact .of (Ripemd.run_Size hT hP.word ha hk 0) (by simp) (by simp only [mostTime]; omega)
  | blockSize => exact .of (Ripemd.run_BlockSize hT hP.word 0) (by simp) (by simp only [mostTime]; omega)

/-- **C121** ripe128.go and shared.go -/
theorem C121_ripemd128 {P : Prog} (hP : RipemdHosts P) : Timely P Ripemd.path Ripemd.ty (n! "New128") 0 :=
  ripemd_timely hP (by decide) (Ripemd.run_hash128 (hP.text.find Ripemd.text) hP.std hP.binary hP.bits hP.word) (C93_ripemd128 hP) fun h => by
    obtain ⟨t, st, -, -, hr⟩ := Ripemd.run_New128 (H := _root_.Ripemd.v128.hash) (hP.text.find Ripemd.text) hP.word hP.std hP.binary h (n := 9) (by decide)
    exact .of hr (by simp) (by decide)

/-- **C121** ripe160.go and shared.go -/
theorem C121_ripemd160 {P : Prog} (hP : RipemdHosts P) : Timely P Ripemd.path Ripemd.ty (n! "New160") 0 :=
  ripemd_timely hP (by decide) (Ripemd.run_hash160 (hP.text.find Ripemd.text) hP.std hP.binary hP.bits hP.word) (C93_ripemd160 hP) fun h => by
    obtain ⟨t, st, -, -, hr⟩ := Ripemd.run_New160 (H := _root_.Ripemd.v160.hash) (hP.text.find Ripemd.text) hP.word hP.std hP.binary h (n := 9) (by decide)
    exact .of hr (by simp) (by decide)

/-- **C121** ripe256.go and shared.go -/
theorem C121_ripemd256 {P : Prog} (hP : RipemdHosts P) : Timely P Ripemd.path Ripemd.ty (n! "New256") 0 :=
  ripemd_timely hP (by decide) (Ripemd.run_hash256 (hP.text.find Ripemd.text) hP.std hP.binary hP.bits hP.word) (C93_ripemd256 hP) fun h => by
    obtain ⟨t, st, -, -, hr⟩ := Ripemd.run_New256 (H := _root_.Ripemd.v256.hash) (hP.text.find Ripemd.text) hP.word hP.std hP.binary h (n := 9) (by decide)
    exact .of hr (by simp) (by decide)

/-- **C121** ripe320.go and shared.go -/
theorem C121_ripemd320 {P : Prog} (hP : RipemdHosts P) : Timely P Ripemd.path Ripemd.ty (n! "New320") 0 :=
  ripemd_timely hP (by decide) (Ripemd.run_hash320 (hP.text.find Ripemd.text) hP.std hP.binary hP.bits hP.word) (C93_ripemd320 hP) fun h => by
    obtain ⟨t, st, -, -, hr⟩ := Ripemd.run_New320 (H := _root_.Ripemd.v320.hash) (hP.text.find Ripemd.text) hP.word hP.std hP.binary h (n := 9) (by decide)
    exact .of hr (by simp) (by decide)

/-- **C121** whirlpool.go -/
theorem C121_whirlpool {P : Prog} (hP : WhirlpoolHosts P) : Timely P Whirlpool.path Whirlpool.ty (n! "New") 0 := by
  have hT := hP.text.find Whirlpool.text
  have hZ := hP.bytes.find Bytes.text
  refine implements_timely (C95_whirlpool hP) (fun h => ?_) fun h a s op hs ha hop => ?_
  · obtain ⟨st, -, -, hr⟩ := Whirlpool.run_New hT hP.word h (n := 13) (by decide)
    exact .of hr (by simp) (by decide)
  cases op with
  | write p =>
    obtain ⟨c', -, -, hr⟩ := Whirlpool.run_Write hT hP.word (get_withBytes p ha) hs (isBytes_lit h p) (base_lit p ha) (hop.1 p (.head _)) (Nat.lt_succ_self _)
    exact .of hr (by simp) (by simp only [mostTime]; omega)
  | sum p =>
    obtain ⟨w, t, -, hr⟩ := Whirlpool.run_Sum hT hP.word hP.std hP.binary hZ (get_withBytes p ha) hs (isBytes_lit h p).has.plain p (Nat.lt_succ_self _)
    obtain ⟨v', h', hap, _, hv', _⟩ := appendTo_bytes P.grow ((isBytes_lit h p).append t) w
    exact .of (hr v' h' hv' hap) (by simp) (by simp only [mostTime]; omega)
  | sumN => exact absurd rfl (hop.2 (.head _))
  | reset =>
    obtain ⟨st, -, -, hr⟩ := Whirlpool.run_Reset hT hP.word ha hs.1 (Nat.lt_succ_self _)
    exact .of hr (by simp) (by simp only [mostTime]; omega)
  | size => exact .of (Whirlpool.run_Size hT hP.word 0) (by simp) (by simp only [mostTime]; omega)
  | blockSize => exact .of (Whirlpool.run_BlockSize hT hP.word 0) (by simp) (by simp only [mostTime]; omega)

/-! ## Conversions -/

/-- **C121** hex.go, in either build: a turn per byte, or per character. -/
theorem C121_hex {P : Prog} {bd : _root_.Hex.Build} (hP : P.Has Hex.path (Hex.texts bd) []) (hW : 32 ≤ P.W) (h : List Val) :
    (∀ v b, HasBytes h v b → Fits P (b.length * 2) → Lasts P (b.length + 2) Hex.path 0 (n! "FromBytes") [v] h) ∧
    ∀ s : List U8, Fits P (s.length + 1) → Lasts P (s.length + 3) Hex.path 0 (n! "ToBytes") [.str s] h ∧
      Lasts P (s.length + 3) Hex.path 0 (n! "ToBytesFast") [.str s] h := by
  have hp := hP.find (Hex.text bd)
  refine ⟨fun v b hb hl => .of (Hex.run_FromBytes hp (Hex.FromBytes_eq b) hb hW hl (Nat.lt_succ_self _)) (by simp) (by omega), fun s hl => ⟨?_, ?_⟩⟩
  · obtain ⟨x, -, -, e⟩ := Hex.run_ToBytes hp (_root_.Hex.ToBytes_eq bd s) hW hl (Nat.lt_succ_self s.length)
    exact .of e (by simp) (by omega)
  · obtain ⟨x, -, -, e⟩ := Hex.run_ToBytesFast hp (_root_.Hex.ToBytesFast_eq bd s) hW hl (Nat.lt_succ_self s.length)
    exact .of e (by simp) (by omega)

/-- **C121** Package codegen: a turn per byte, however the sections are chosen. -/
theorem C121_codegen {P : Prog} {bd : _root_.Hex.Build} (hP : Codegen.In P bd) (h : List Val) (v : Val) (b : List U8) (hb : HasBytes h v b)
    (hl : Fits P (b.length * 16 + 16)) :
    Lasts P (b.length + 3) Codegen.path 0 (n! "BytesToString") [v] h ∧
    ∀ bps : Int, bps < 1 ∨ (∃ k : Nat, bps = k ∧ Fits P k ∧ (P.W = 64 ∨ Fits P (k * 2))) →
      Lasts P (b.length + 3) Codegen.path 0 (n! "BytesToStringSep") [v, .int bps] h ∧
      Lasts P (b.length + 3) Codegen.path 0 (n! "BytesToHexSep") [v, .int bps] h := by
  have hp := hP.codegen.find Codegen.text
  have hh := hP.hex.find (Hex.text bd)
  have out {e : List U8} {r : Res (List U8)} {n : Nat} {f : Name} {args : List Val} (ho : Codegen.Outcome h e r (run P n Codegen.path 0 f args h))
      (hn : n ≤ b.length + 3) : Lasts P (b.length + 3) Codegen.path 0 f args h := by
    cases r with
    | ok s => exact .of ho (by simp) hn
    | panic =>
      obtain ⟨t, e⟩ := ho
      exact .of e (by simp) hn
  refine ⟨.of (Codegen.run_BytesToString hp hh (Hex.FromBytes_eq b) (_root_.Codegen.C07_literal b).1 hb hP.low (by unfold Fits at hl; omega)
    (Nat.lt_succ_self b.length)) (by simp) (by omega), ?_⟩
  intro bps hk
  by_cases h1 : bps < 1
  · exact ⟨.of (Codegen.run_StringSep_bad (n := 0) hp h1 hb.plain) (by simp) (by omega), .of (Codegen.run_HexSep_bad (n := 0) hp h1 hb.plain) (by simp) (by omega)⟩
  · obtain ⟨k, rfl, hf, hk⟩ := hk.resolve_left h1
    obtain ⟨-, hw, hz⟩ := Codegen.sections hP.low hP.high (by omega) hf hk
    exact ⟨out (Codegen.run_BytesToStringSep hp hh (by omega) hw rfl hz (Hex.FromBytes_eq b) hb hP.low hl (Nat.lt_succ_self b.length)) (by omega),
      out (Codegen.run_BytesToHexSep hp hh (by omega) hw rfl hz (Hex.FromBytes_eq b) hb hP.low (by unfold Fits at hl; omega) (Nat.lt_succ_self b.length)) (by omega)⟩

/-! ## Package bytes -/

/-- **C121** Package bytes, for slices that overlap in any way. -/
theorem C121_bytes {P : Prog} (hP : Hosts P) {h : List Val} :
    (∀ v, ByteSlice h v → Lasts P (sliceLen v + 2) Bytes.path 0 (n! "Zero") [v] h) ∧
    (∀ v o, ByteSlice h v → ByteSlice h o → Fits P (sliceLen v) → Lasts P (sliceLen v + 2) Bytes.path 0 (n! "XorEq") [v, o] h) ∧
    ∀ w s a b f, ByteSlice h s → ByteSlice h a → ByteSlice h b → Fits P (sliceLen b) →
      f = nameLE w ∨ f = nameBE w ∨ f = nameAdd w ∧ (∃ little, Platform P little) → Lasts P (sliceLen s + 77) Bytes.path 0 f [s, a, b] h := by
  have hp := hP.text.find Bytes.text
  have hV := view_of h
  refine ⟨fun v hv => ?_, fun v o hv ho hl => ?_, fun w vs va vb f hs ha hb hl hf => ?_⟩
  · obtain ⟨h', r, -, -⟩ := Bytes.run_Zero hp hV hv.at (Nat.lt_succ_self _)
    exact .of r (by simp) (by rw [sliceLen_eq h])
  · obtain ⟨h', m', k, r, -, -, -⟩ := Bytes.run_XorEq hp hP.word hV hv.at ho.at (by rw [← sliceLen_eq h] at hl; exact hl) (Nat.lt_succ_self _)
    exact .of r (by simp) (by rw [sliceLen_eq h])
  · have out {vals : U8 × Bool → List Val} {r : Res (Mem × (U8 × Bool))} {f : Name} {args : List Val}
        (e : Bytes.Ends (layoutOf h) h vals r (run P ((sliceOf h vs).len + 76 + 1) Bytes.path 0 f args h)) : Lasts P (sliceLen vs + 77) Bytes.path 0 f args h := by
      rw [← sliceLen_eq h]
      cases r with
      | panic =>
        obtain ⟨h', e, -⟩ := e
        exact .of e (by simp) (Nat.le_refl _)
      | ok y =>
        obtain ⟨h', e, -, -⟩ := e
        exact .of e (by simp) (Nat.le_refl _)
    rw [← sliceLen_eq h] at hl
    replace hs := hs.at
    replace ha := ha.at
    replace hb := hb.at
    rcases hf with rfl | rfl | ⟨rfl, little, hO⟩
    · cases w
      · exact out (Bytes.run_Add16LE hp hP.std hP.errors hP.binary hP.word hV hs ha hb (n := (sliceOf h vs).len + 76) (by omega))
      · exact out (Bytes.run_Add32LE hp hP.std hP.errors hP.binary hP.word hV hs ha hb (n := (sliceOf h vs).len + 76) (by omega))
      · exact out (Bytes.run_Add64LE hp hP.std hP.errors hP.binary hP.word hV hs ha hb (n := (sliceOf h vs).len + 76) (by omega))
      · exact out (Bytes.run_Add128LE hp hP.std hP.errors hP.binary hP.word hV hs ha hb (n := (sliceOf h vs).len + 76) (by omega))
      · exact out (Bytes.run_Add256LE hp hP.std hP.errors hP.binary hP.word hV hs ha hb (n := (sliceOf h vs).len + 76) (by omega))
      · exact out (Bytes.run_Add512LE hp hP.std hP.errors hP.binary hP.word hV hs ha hb (n := (sliceOf h vs).len + 76) (by omega))
    · cases w
      · exact out (Bytes.run_Add16BE hp hP.std hP.errors hP.binary hP.word hV hs ha hb (n := (sliceOf h vs).len + 76) (by omega))
      · exact out (Bytes.run_Add32BE hp hP.std hP.errors hP.binary hP.word hV hs ha hb (n := (sliceOf h vs).len + 76) (by omega))
      · exact out (Bytes.run_Add64BE hp hP.std hP.errors hP.binary hP.word hV hs ha hb hl (n := (sliceOf h vs).len + 76) (by omega))
      · exact out (Bytes.run_Add128BE hp hP.std hP.errors hP.binary hP.word hV hs ha hb hl (n := (sliceOf h vs).len + 76) (by omega))
      · exact out (Bytes.run_Add256BE hp hP.std hP.errors hP.binary hP.word hV hs ha hb hl (n := (sliceOf h vs).len + 76) (by omega))
      · exact out (Bytes.run_Add512BE hp hP.std hP.errors hP.binary hP.word hV hs ha hb hl (n := (sliceOf h vs).len + 76) (by omega))
    · cases w
      · exact out (Bytes.run_Add16 hp hP.std hP.errors hP.binary hP.word hO.repo hO.order hV hs ha hb (n := (sliceOf h vs).len + 76) (by omega))
      · exact out (Bytes.run_Add32 hp hP.std hP.errors hP.binary hP.word hO.repo hO.order hV hs ha hb (n := (sliceOf h vs).len + 76) (by omega))
      · exact out (Bytes.run_Add64 hp hP.std hP.errors hP.binary hP.word hO.repo hO.order hV hs ha hb hl (n := (sliceOf h vs).len + 76) (by omega))
      · exact out (Bytes.run_Add128 hp hP.std hP.errors hP.binary hP.word hO.repo hO.order hV hs ha hb hl (n := (sliceOf h vs).len + 76) (by omega))
      · exact out (Bytes.run_Add256 hp hP.std hP.errors hP.binary hP.word hO.repo hO.order hV hs ha hb hl (n := (sliceOf h vs).len + 76) (by omega))
      · exact out (Bytes.run_Add512 hp hP.std hP.errors hP.binary hP.word hO.repo hO.order hV hs ha hb hl (n := (sliceOf h vs).len + 76) (by omega))

/-! ## The hypotheses can be met -/

example : Timely checksums32 Bcc.path (n! "digest") (n! "New") (n! "Sum8") ∧ Timely checksums32 Fletcher.path (n! "digest64") (n! "New64") (n! "Sum64") :=
  ⟨C121_bcc ⟨_, Bcc.text, by kernel_rfl⟩ (by decide), C121_fletcher64 ⟨_, Fletcher.text, by kernel_rfl⟩ (by decide)⟩

example : Lasts checksums32 22 Luhn.path 0 (n! "Checksum") [.u64 (-1)] [] := C121_luhn ⟨_, Luhn.text, by kernel_rfl⟩ [] (-1)

/-- The bound for Luhn's digit is the least: with one turn less, the largest number does not end. -/
example : ¬ Lasts checksums32 21 Luhn.path 0 (n! "Checksum") [.u64 (-1)] [] := by
  rw [Lasts, not_not]
  kernel_rfl

example : Timely ripemdProg Ripemd.path Ripemd.ty (n! "New160") 0 := C121_ripemd160 ripemdProg_hosts

example (bd : _root_.Hex.Build) : Lasts (codegenProg bd) 7 Codegen.path 0 (n! "BytesToString") [.slice 0 [] 0 4 4] [.arr [.u8 1, .u8 2, .u8 3, .u8 4]] :=
  (C121_codegen (codegenProg_in bd) _ _ [1, 2, 3, 4] four_bytes (by simp [Fits, codegenProg])).1

example (little : Bool) : Lasts (bytesProg little) 79 Bytes.path 0 (nameLE .w16) [.slice 0 [] 0 2 4, .slice 0 [] 1 2 3, .slice 1 [.fld (n! "x")] 0 1 1] threeArrays :=
  (C121_bytes (bytesProg_hosts little)).2.2 .w16 (.slice 0 [] 0 2 4) _ _ _ (.inr ⟨0, [], 0, 2, 4, [0xff, 0xff, 0xff, 7], rfl, rfl, by decide, by decide⟩)
    (.inr ⟨0, [], 1, 2, 3, [0xff, 0xff, 0xff, 7], rfl, rfl, by decide, by decide⟩)
    (.inr ⟨1, [.fld (n! "x")], 0, 1, 1, [1], rfl, rfl, by decide, by decide⟩) (by simp [Fits, bytesProg, sliceLen]) (.inl rfl)

example : Timely checksums32 Lrc.path (n! "digest") (n! "New") (n! "Sum8") ∧ Timely checksums32 Fletcher.path (n! "digest16") (n! "New16") (n! "Sum16") ∧
    Timely checksums32 Fletcher.path (n! "digest32") (n! "New32") (n! "Sum32") :=
  ⟨C121_lrc ⟨_, Lrc.text, by kernel_rfl⟩ (by decide), C121_fletcher16 ⟨_, Fletcher.text, by kernel_rfl⟩ (by decide),
    C121_fletcher32 ⟨_, Fletcher.text, by kernel_rfl⟩ (by decide)⟩

example : Timely ripemdProg Ripemd.path Ripemd.ty (n! "New128") 0 ∧ Timely ripemdProg Ripemd.path Ripemd.ty (n! "New256") 0 ∧
    Timely ripemdProg Ripemd.path Ripemd.ty (n! "New320") 0 ∧ Timely whirlpoolProg Whirlpool.path Whirlpool.ty (n! "New") 0 :=
  ⟨C121_ripemd128 ripemdProg_hosts, C121_ripemd256 ripemdProg_hosts, C121_ripemd320 ripemdProg_hosts, C121_whirlpool whirlpoolProg_hosts⟩

end Source
