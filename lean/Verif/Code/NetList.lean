import Verif.Code.NetTree
import Mathlib.Data.List.Forall2

/-!
# The code of package `net`: listing the tree
-/
namespace Source.Net
open GoLang
open _root_.Net (Node Eff)

set_option linter.unusedSimpArgs false

theorem find_all_each : findFunc (n! "all") (n! "each") pkg.decls = some NetIpTree.all_each := by kernel_rfl
theorem find_none_each : findFunc (n! "none") (n! "each") pkg.decls = some NetIpTree.none_each := by kernel_rfl
theorem find_treeNode_each : findFunc (n! "treeNode") (n! "each") pkg.decls = some NetIpTree.treeNode_each := by kernel_rfl
theorem find_ListCidr : findFunc (n! "Tree") (n! "ListCidr") pkg.decls = some NetIpTree.Tree_ListCidr := by kernel_rfl

/-! ## Function literals -/

/-- The context in which a function literal is run. -/
def cloCtx (P : Prog) (fuel : Nat) (k : Pkg) (rs : Params) (call : Name → Name → Name → List Val → List Val → Out (List Val)) : Ctx :=
  { W := P.W, fuel := fuel, pkg := k, boxed := [], results := rs, repo := P.pkgs.map Pkg.path, methods := P.methods, other := P.other
    call := call, std := P.std, native := P.native, grow := P.grow, clo := fun _ _ _ _ _ _ => .stuck }

theorem ctx_clo (P : Prog) (n : Nat) (k : Pkg) (f : Name) (rs : Params) (call) (ps rs' : Params) (body : Stmts) (env : List (Name × Val)) (args h : List Val) :
    (P.ctx n k f rs call).clo ps rs' body env args h =
      leave ((do
        bindParams (cloCtx P n k rs' call) ps args
        result rs' (← execs (cloCtx P n k rs' call) body)) ⟨h, env⟩) := rfl

section
variable (P : Prog) (n : Nat) (k : Pkg) (rs : Params) (call : Name → Name → Name → List Val → List Val → Out (List Val))
theorem cloCtx_W : (cloCtx P n k rs call).W = P.W := rfl
theorem cloCtx_pkg : (cloCtx P n k rs call).pkg = k := rfl
theorem cloCtx_boxed : (cloCtx P n k rs call).boxed = [] := rfl
theorem cloCtx_results : (cloCtx P n k rs call).results = rs := rfl
theorem cloCtx_repo : (cloCtx P n k rs call).repo = P.pkgs.map Pkg.path := rfl
theorem cloCtx_methods : (cloCtx P n k rs call).methods = P.methods := rfl
theorem cloCtx_call : (cloCtx P n k rs call).call = call := rfl
theorem cloCtx_std : (cloCtx P n k rs call).std = P.std := rfl
theorem cloCtx_grow : (cloCtx P n k rs call).grow = P.grow := rfl
end

/-- The parameters of the function literal in `ListCidr`. -/
def outPs : Params := .cons (n! "position") (.name (n! "uint32")) (.cons (n! "bit") (.name (n! "byte")) (.cons (n! "value") .iface .nil))

/-- The body of the function literal in `ListCidr`. -/
def outBody : Stmts := (.cons
      (.define [n! "ip"] (.cons (.call (.id (n! "Ipv4FromUint")) (.cons (.id (n! "position")) .nil) false) .nil)) (.cons
      (.define [n! "mask"] (.cons (.call (.id (n! "MaskFromByte")) (.cons (.id (n! "bit")) .nil) false) .nil)) (.cons
      (.define [n! "cidr"] (.cons (.un .addr (.comp (.qual (n! "net") (n! "IPNet")) (.cons (n! "IP") (.id (n! "ip")) (.cons (n! "Mask") (.id (n! "mask")) .nil)))) .nil)) (.cons
      (.assign (.cons (.id (n! "ret")) .nil) (.cons (.call (.id (n! "append")) (.cons (.id (n! "ret")) (.cons (.comp (.name (n! "CidrValue")) (.cons 0 (.id (n! "cidr")) (.cons 0 (.id (n! "value")) .nil))) .nil)) false) .nil)) .nil))))

/-- The function literal in `ListCidr`; its variable `ret` is at address `b`. -/
def output (b : Nat) : Val := .clo outPs .nil outBody [(n! "ret", .box b)]

theorem output_plain (b : Nat) : Plain (output b) := trivial

/-! ## What has been listed -/

/-- `net.IPNet` -/
abbrev netObj (i m : Nat) : Val := .struct (n! "net") (n! "IPNet") [(n! "IP", .slice i [] 0 4 4), (n! "Mask", .slice m [] 0 4 4)]
abbrev cidrVal (c : Nat) (v : Val) : Val := .struct path (n! "CidrValue") [(n! "Cidr", .ptr (n! "net") (n! "IPNet") c []), (n! "Value", v)]

/-- An element of the result: its objects are not those at `a` and `b`. -/
def Entry (h : List Val) (a b : Nat) (v : Val) (x : BitVec 32 × BitVec 8 × Val) : Prop :=
  ∃ c i m, v = cidrVal c x.2.2 ∧ h[c]? = some (netObj i m) ∧ h[i]? = some (.arr ((_root_.Net.Ipv4FromUint x.1).map .u8)) ∧
    h[m]? = some (.arr ((_root_.Net.MaskFromByte x.2.1).map .u8)) ∧ (c ≠ a ∧ c ≠ b) ∧ (i ≠ a ∧ i ≠ b) ∧ (m ≠ a ∧ m ≠ b)

/-- The variable `ret` at address `b` holds a slice of these. The objects of `h0` are as before. -/
def Listed (h0 : List Val) (b : Nat) (h : List Val) (l : List (BitVec 32 × BitVec 8 × Val)) : Prop :=
  h0.length ≤ b ∧ (∀ i, i < h0.length → h[i]? = h0[i]?) ∧
    ∃ a vals pad, h[b]? = some (.slice a [] 0 vals.length (vals ++ pad).length) ∧ h[a]? = some (.arr (vals ++ pad)) ∧ h0.length ≤ a ∧ a ≠ b ∧
      List.Forall₂ (Entry h a b) vals l

theorem append_one (grow : Nat → Nat) {h : List Val} {a : Nat} {vals pad : List Val} (ha : h[a]? = some (.arr (vals ++ pad))) (x : Val) :
    ∃ a' pad' h', (∀ e, appendTo grow (.slice a [] 0 vals.length (vals ++ pad).length) [x] ⟨h, e⟩ =
        .ok (.slice a' [] 0 (vals ++ [x]).length (vals ++ [x] ++ pad').length) ⟨h', e⟩) ∧
      h'[a']? = some (.arr (vals ++ [x] ++ pad')) ∧ (a' = a ∨ a' = h.length) ∧ (∀ i, i < h.length → i ≠ a → h'[i]? = h[i]?) ∧ h.length ≤ h'.length := by
  cases pad with
  | nil =>
    refine ⟨h.length, List.replicate (grow (vals.length + 1)) (zeroLike (vals ++ [x])), _, fun e => ?_, List.getElem?_concat_length .., .inr rfl,
      fun i hi _ => List.getElem?_append_left hi, by simp⟩
    have h1 : ¬ vals.length + 1 ≤ vals.length := by omega
    simp [go, ha, h1]
    omega
  | cons y pad =>
    refine ⟨a, pad, h.set a (.arr (vals ++ [x] ++ pad)), fun e => ?_, by simp [lt_of_get ha], .inl rfl, fun i _ hi => ?_, by simp⟩
    · have h1 : vals.length + 1 ≤ (vals ++ y :: pad).length := by simp
      have h2 : splice (vals ++ y :: pad) vals.length [x] = vals ++ [x] ++ pad := by
        simp [splice]
      simp [go, ha, h1, h2]
    · rw [List.getElem?_set_ne (by omega)]

section
variable {P : Prog} (hP : findPkg path P.pkgs = some pkg) (hS : P.std = stdlib) (hB : elemN (n! "encoding/binary") (P.pkgs.map Pkg.path) = false)
include hP hS hB

/-- A call of the function literal. -/
theorem run_output {h0 h : List Val} {b : Nat} {l : List (BitVec 32 × BitVec 8 × Val)} (hl : Listed h0 b h l) (pos : BitVec 32) (bit : BitVec 8) {v : Val}
    (hv : Plain v) (n : Nat) : ∃ h', Listed h0 b h' (l ++ [(pos, bit, v)]) ∧ ∀ f rs, 
      (P.ctx (n + 1) pkg f rs (run P (n + 1))).clo outPs .nil outBody [(n! "ret", .box b)] [.u32 pos, .u8 bit, v] h = .ok [] ⟨h', []⟩ := by
  obtain ⟨hb, hk, a, vals, pad, hbv, hav, h0a, hab, hen⟩ := hl
  have hal := lt_of_get hav
  have hbl := lt_of_get hbv
  have hR := elem_repo hP
  obtain ⟨h1, hh1⟩ : ∃ h1, h1 = h ++ [.arr ((_root_.Net.Ipv4FromUint pos).map .u8)] := ⟨_, rfl⟩
  obtain ⟨h2, hh2⟩ : ∃ h2, h2 = h1 ++ [.arr ((_root_.Net.MaskFromByte bit).map .u8)] := ⟨_, rfl⟩
  obtain ⟨h3, hh3⟩ : ∃ h3, h3 = h2 ++ [netObj h.length h1.length] := ⟨_, rfl⟩
  have r1 := run_Ipv4FromUint hP hS hB (h := h) pos n
  have r2 := run_MaskFromByte hP hS hB (h := h1) bit n
  rw [← hh1] at r1
  rw [← hh2] at r2
  have l1 : h1.length = h.length + 1 := by simp [hh1]
  have l2 : h2.length = h.length + 2 := by simp [hh2, l1]
  have l3 : h3.length = h.length + 3 := by simp [hh3, l2]
  have old : ∀ i, i < h.length → h3[i]? = h[i]? := by
    intro i hi
    rw [hh3, List.getElem?_append_left (by omega), hh2, List.getElem?_append_left (by omega), hh1, List.getElem?_append_left hi]
  obtain ⟨a', pad', h4, happ, ha4, haa, hk4, hl4⟩ := append_one (cloCtx P (n + 1) pkg .nil (run P (n + 1))).grow (h := h3) (by rw [old a hal, hav]) (cidrVal h2.length v)
  have hb3 : h3[b]? = some (.slice a [] 0 vals.length (vals ++ pad).length) := by rw [old b hbl, hbv]
  have hb4 : h4[b]? = some (.slice a [] 0 vals.length (vals ++ pad).length) := by rw [hk4 b (by omega) (Ne.symm hab), hb3]
  have ha'b : a' ≠ b := by omega
  refine ⟨h4.set b (.slice a' [] 0 (vals ++ [cidrVal h2.length v]).length (vals ++ [cidrVal h2.length v] ++ pad').length), ⟨hb, ?_, a', vals ++ [cidrVal h2.length v], pad', ?_, ?_, ?_, ha'b, ?_⟩, ?_⟩
  · intro i hi
    rw [List.getElem?_set_ne (by omega), hk4 i (by omega) (by omega), old i (by omega), hk i hi]
  · rw [List.getElem?_set_self (by omega)]
  · rw [List.getElem?_set_ne (by omega), ha4]
  · omega
  · have step : ∀ i x, h[i]? = some x → i ≠ a → i ≠ b → (h4.set b (.slice a' [] 0 (vals ++ [cidrVal h2.length v]).length (vals ++ [cidrVal h2.length v] ++ pad').length))[i]? = some x := by
      intro i x hi h1 h2
      have := lt_of_get hi
      rw [List.getElem?_set_ne (by omega), hk4 i (by omega) h1, old i this, hi]
    refine List.rel_append (hen.imp (fun w x => ?_)) (.cons ?_ .nil)
    · rintro ⟨c, i, m, rfl, hc, hi, hm, ⟨c1, c2⟩, ⟨i1, i2⟩, ⟨m1, m2⟩⟩
      have := lt_of_get hc
      have := lt_of_get hi
      have := lt_of_get hm
      exact ⟨c, i, m, rfl, step _ _ hc c1 c2, step _ _ hi i1 i2, step _ _ hm m1 m2, ⟨by omega, c2⟩, ⟨by omega, i2⟩, ⟨by omega, m2⟩⟩
    · refine ⟨h2.length, h.length, h1.length, rfl, ?_, ?_, ?_, by omega, by omega, by omega⟩
      · rw [List.getElem?_set_ne (by omega), hk4 _ (by omega) (by omega), hh3, List.getElem?_concat_length]
      · rw [List.getElem?_set_ne (by omega), hk4 _ (by omega) (by omega), hh3, List.getElem?_append_left (by omega), hh2, List.getElem?_append_left (by omega), hh1,
          List.getElem?_concat_length]
      · rw [List.getElem?_set_ne (by omega), hk4 _ (by omega) (by omega), hh3, List.getElem?_append_left (by omega), hh2, List.getElem?_concat_length]
  · intro f rs
    rw [ctx_clo, outPs, outBody]
    eval_go [cloCtx_W, cloCtx_pkg, cloCtx_boxed, cloCtx_results, cloCtx_repo, cloCtx_call, cloCtx_std, hv, hR, r1, r2, ← hh3, hb3, ↓happ, hb4]

/-- The number of levels of a tree. -/
def depth : Node Val → Nat
  | .all _ => 0
  | .none => 0
  | .tree l r => max (depth l) (depth r) + 1

/-- `each`, whatever the node. -/
theorem run_each {h0 : List Val} {b : Nat} : (x : Node Val) → {v : Val} → IsNode h0 v x → (n : Nat) → depth x + 2 ≤ n → {h : List Val} → {l : List (BitVec 32 × BitVec 8 × Val)} →
    Listed h0 b h l → (pos : BitVec 32) → (mask : BitVec 8) → ∃ h', Listed h0 b h' (l ++ x.each pos mask) ∧ ∀ f rs place e,
      callMethod (P.ctx n pkg f rs (run P n)) v place (n! "each") [.u32 pos, .u8 mask, output b] ⟨h, e⟩ = .ok (.tuple []) ⟨h', e⟩ := by
  intro x
  induction x with
  | all y =>
    rintro v (hv | _) n hn h l hl pos mask
    obtain ⟨m, rfl⟩ : ∃ m, n = m + 1 + 1 := ⟨n - 2, by omega⟩
    obtain ⟨h', hl', r⟩ := run_output hP hS hB hl pos (31#8 - mask) hv m
    refine ⟨h', hl', fun f rs place e => ?_⟩
    have hR := elem_repo hP
    have hr := run_func hP find_all_each (m + 1) [allVal y, .u32 pos, .u8 mask, output b] h
    rw [show callBody _ _ _ _ _ _ = .ok [] ⟨h', []⟩ from by
      rw [output]
      eval_go [hv, r]] at hr
    eval_go [hR, hr]
  | none =>
    intro v hv n hn h l hl pos mask
    obtain ⟨m, rfl⟩ : ∃ m, n = m + 1 + 1 := ⟨n - 2, by omega⟩
    refine ⟨h, by simpa [Node.each] using hl, fun f rs place e => ?_⟩
    have hR := elem_repo hP
    have hr := run_func hP find_none_each (m + 1) [noneVal, .u32 pos, .u8 mask, output b] h
    rw [show callBody _ _ _ _ _ _ = .ok [] ⟨h, []⟩ from by
      rw [output]
      eval_go] at hr
    cases hv with
    | none => eval_go [hR, hr]
    | ptr ha =>
      rw [← hl.2.1 _ (lt_of_get ha)] at ha
      eval_go [hR, hr, ha]
  | tree x y ihx ihy =>
    intro v hv n hn h l hl pos mask
    obtain ⟨m, rfl⟩ : ∃ m, n = m + 1 := ⟨n - 1, by omega⟩
    cases hv with
    | tree hvx hvy =>
    rw [depth] at hn
    obtain ⟨h1, hl1, r1⟩ := ihx hvx m (by omega) hl pos (mask - 1#8)
    obtain ⟨h2, hl2, r2⟩ := ihy hvy m (by omega) hl1 (pos ||| 1#32 <<< mask.toNat) (mask - 1#8)
    refine ⟨h2, by simpa [Node.each] using hl2, fun f rs place e => ?_⟩
    have hR := elem_repo hP
    have hsh : BitVec.ofInt 32 ((1 : Int) * 2 ^ mask.toNat) = 1#32 <<< mask.toNat := shift_const 1 mask.toNat
    rename_i vl vr
    have hr := run_func hP find_treeNode_each m [treeVal vl vr, .u32 pos, .u8 mask, output b] h
    have p1 := hvx.plain
    have p2 := hvy.plain
    have p3 := output_plain b
    rw [show callBody _ _ _ _ _ _ = .ok [] ⟨h2, []⟩ from by
      eval_go [p1, p2, p3, hsh, ↓r1, r2]] at hr
    eval_go [hR, hr]

omit hS hB in
theorem const_each {h : List Val} {x : Node Val} {v : Val} (hv : IsNode h v x) (b n : Nat) (f : Name) (rs : Params) (place : M Loc) (e : List (Name × Val)) :
    callMethod (P.ctx (n + 1) pkg f rs (run P (n + 1))) v place (n! "each") [.const 0, .const 31, output b] ⟨h, e⟩ =
      callMethod (P.ctx (n + 1) pkg f rs (run P (n + 1))) v place (n! "each") [.u32 0#32, .u8 31#8, output b] ⟨h, e⟩ := by
  have hR := elem_repo hP
  have p := output_plain b
  cases hv with
  | all hv =>
    eval_go [hR, run_func hP find_all_each, p, hv]
  | none =>
    eval_go [hR, run_func hP find_none_each]
  | ptr ha =>
    eval_go [hR, run_func hP find_none_each, ha]
  | tree h1 h2 =>
    have p1 := h1.plain
    have p2 := h2.plain
    eval_go [hR, run_func hP find_treeNode_each, p, p1, p2]

/-- The slice that `ListCidr` returns. -/
def IsList (h : List Val) (v : Val) (l : List (_root_.Net.IPNet × Val)) : Prop :=
  ∃ a vals pad, v = .slice a [] 0 vals.length (vals ++ pad).length ∧ h[a]? = some (.arr (vals ++ pad)) ∧
    List.Forall₂ (fun w x => ∃ vn vi vm, w = .struct path (n! "CidrValue") [(n! "Cidr", vn), (n! "Value", x.2)] ∧ IsNet h vn vi vm ∧
      IsBytes h vi x.1.ip ∧ IsBytes h vm x.1.mask) vals l

theorem run_ListCidr {h : List Val} {t : Nat} {root f : Val} (ht : h[t]? = some (treeObj root f)) {x : Node Val} (hx : IsNode h root x) {n : Nat} (hn : depth x + 2 ≤ n) :
    ∃ v h', run P (n + 1) path (n! "Tree") (n! "ListCidr") [.ptr path (n! "Tree") t []] h = .ok [v] ⟨h', []⟩ ∧
      (∀ i, i < h.length → h'[i]? = h[i]?) ∧ IsList h' v (_root_.Net.ListCidr x) := by
  obtain ⟨h1, hh1⟩ : ∃ h1, h1 = h ++ [.arr []] ++ [.slice h.length [] 0 0 0] := ⟨_, rfl⟩
  have old : ∀ i, i < h.length → h1[i]? = h[i]? := fun i hi => by
    rw [hh1, List.getElem?_append_left (by simp; omega), List.getElem?_append_left hi]
  have ha : h1[h.length]? = some (.arr []) := by simp [hh1]
  have hb : h1[h.length + 1]? = some (.slice h.length [] 0 0 0) := by simp [hh1]
  have hl : Listed h (h.length + 1) h1 [] := ⟨by omega, old, h.length, [], [], hb, ha, le_refl _, by omega, .nil⟩
  obtain ⟨h2, hl2, r⟩ := run_each hP hS hB x hx n hn hl 0#32 31#8
  obtain ⟨m, rfl⟩ : ∃ m, n = m + 1 := ⟨n - 1, by omega⟩
  have hx1 : IsNode h1 root x := hx.kept fun i hi => by rw [old i (lt_of_get hi), hi]
  have hc := const_each hP hx1 (h.length + 1) m
  obtain ⟨_, hk, a, vals, pad, hb2, ha2, _, _, hen⟩ := hl2
  have ht1 : h1[t]? = some (treeObj root f) := by rw [old t (lt_of_get ht), ht]
  have hp := hx.plain
  refine ⟨.slice a [] 0 vals.length (vals ++ pad).length, h2, ?_, hk, a, vals, pad, rfl, ha2, ?_⟩
  · rw [run_func hP find_ListCidr]
    rw [output, outPs, outBody] at hc r
    have h0 : ¬ (0 : Int) < 0 := by omega
    have hlen : (h ++ [Val.arr []]).length = h.length + 1 := by simp
    have hfil : List.filter isBox [(n! "ret", .box (h.length + 1)), (n! "t", .ptr path (n! "Tree") t [])] = [(n! "ret", .box (h.length + 1))] := rfl
    eval_go [hp, h0, hlen, ← hh1, ht1, hfil, hc, r, hb2]
  · rw [List.nil_append] at hen
    rw [_root_.Net.ListCidr, List.forall₂_map_right_iff]
    refine hen.imp ?_
    rintro w ⟨pos, bit, y⟩ ⟨c, i, m, rfl, hc, hi, hm, _⟩
    exact ⟨_, _, _, rfl, ⟨_, _, _, _, _, rfl, hc, rfl, rfl⟩, isBytes_all hi, isBytes_all hm⟩

omit hS hB in
/-- A tree that was not made by `New` and never added to: the method of the nil interface cannot be called. -/
theorem run_ListCidr_nil {h : List Val} {t : Nat} {f : Val} (ht : h[t]? = some (treeObj .nil f)) (n : Nat) :
    run P (n + 1) path (n! "Tree") (n! "ListCidr") [.ptr path (n! "Tree") t []] h = .panic (h ++ [.arr []] ++ [.slice h.length [] 0 0 0]) := by
  obtain ⟨h1, hh1⟩ : ∃ h1, h1 = h ++ [.arr []] ++ [.slice h.length [] 0 0 0] := ⟨_, rfl⟩
  have ht1 : h1[t]? = some (treeObj .nil f) := by
    rw [hh1, List.getElem?_append_left (by have := lt_of_get ht; simp; omega), List.getElem?_append_left (lt_of_get ht), ht]
  rw [run_func hP find_ListCidr]
  have h0 : ¬ (0 : Int) < 0 := by omega
  have hlen : (h ++ [Val.arr []]).length = h.length + 1 := by simp
  have hfil : List.filter isBox [(n! "ret", .box (h.length + 1)), (n! "t", .ptr path (n! "Tree") t [])] = [(n! "ret", .box (h.length + 1))] := rfl
  eval_go [h0, hlen, ← hh1, ht1, hfil, nil_each]

omit hS hB in
/-- A nil `*Tree`. -/
theorem run_ListCidr_nilTree (h : List Val) (n : Nat) :
    run P (n + 1) path (n! "Tree") (n! "ListCidr") [.nil] h = .panic (h ++ [.arr []] ++ [.slice h.length [] 0 0 0]) := by
  rw [run_func hP find_ListCidr]
  have h0 : ¬ (0 : Int) < 0 := by omega
  have hlen : (h ++ [Val.arr []]).length = h.length + 1 := by simp
  have hfil : List.filter isBox [(n! "ret", .box (h.length + 1)), (n! "t", .nil)] = [(n! "ret", .box (h.length + 1))] := rfl
  eval_go [h0, hlen, hfil]

end
end Source.Net
