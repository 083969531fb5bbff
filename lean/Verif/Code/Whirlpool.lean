import Verif.Code.Block
import Verif.Code.WhirlpoolTables
import Verif.Lemmas.Whirlpool

/-!
# The code of package `whirlpool`: the compression function
-/
namespace Source.Whirlpool
open GoLang BlockHash

theorem find_hash : findFunc ty (n! "hash") pkg.decls = some Whirlpool.ctx_hash := by kernel_rfl

/-- The object in a state. -/
abbrev rep (c : Ctx U64) : Val := .struct path ty [(n! "state", .arr (c.state.map .u64)), (n! "lenBytes", .u64 c.len),
  (n! "block", .arr (c.block.map .u8)), (n! "bPos", .int c.bPos)]

/-! ## Table lookups -/

/-- `(i - t) & 7` of integers of any size. -/
theorem and7 {W : Nat} (hW : 32 ≤ W) {i t : Nat} (hi : i < 8) (ht : t ≤ 7) :
    (BitVec.ofInt W (wrap W ((i : Int) - t)) &&& BitVec.ofInt W 7).toInt = ((i + 8 - t) % 8 : Nat) := by
  have h1 : BitVec.ofInt W (wrap W ((i : Int) - t)) = BitVec.ofInt W ((i : Int) - t) := by
    apply BitVec.eq_of_toInt_eq
    simp [wrap]
  have h8 : (8 : Int) ∣ 2 ^ W := ⟨2 ^ (W - 3), by
    rw [show (8 : Int) = 2 ^ 3 by norm_num, ← pow_add]
    congr 1
    omega⟩
  have h7 : (BitVec.ofInt W 7).toNat = 2 ^ 3 - 1 := by
    have : (7 : Nat) < 2 ^ W := Nat.lt_of_lt_of_le (by decide : 7 < 2 ^ 32) (Nat.pow_le_pow_right (by decide) hW)
    rw [show (7 : Int) = ((7 : Nat) : Int) from rfl, BitVec.ofInt_natCast, BitVec.toNat_ofNat, Nat.mod_eq_of_lt this]
    rfl
  have hN : (BitVec.ofInt W ((i : Int) - t) &&& BitVec.ofInt W 7).toNat = (i + 8 - t) % 8 := by
    rw [BitVec.toNat_and, h7, Nat.and_two_pow_sub_one_eq_mod]
    have : (((BitVec.ofInt W ((i : Int) - t)).toNat % 2 ^ 3 : Nat) : Int) = ((i : Int) - t) % 8 := by
      rw [BitVec.toNat_ofInt]
      push_cast
      rw [Int.toNat_of_nonneg (Int.emod_nonneg _ (by positivity))]
      exact Int.emod_emod_of_dvd _ h8
    omega
  rw [h1, BitVec.toInt_eq_toNat_of_lt, hN]
  rw [hN]
  have : 2 ^ 32 ≤ 2 ^ W := Nat.pow_le_pow_right (by decide) hW
  omega

/-- An element of a list. -/
def at64 (l : List U64) (i : Nat) : U64 := l.getD i 0

theorem at64_ok {l : List U64} {i : Nat} (h : i < l.length) : goIdx l i = .ok (at64 l i) := by
  simp [goIdx, at64, h]

theorem at64_val {l : List U64} {i : Nat} (h : i < l.length) : (l.map Val.u64)[i]? = some (.u64 (at64 l i)) := by
  simp [at64, h]

theorem ct_length : _root_.Whirlpool.ct.length = 2048 := by kernel_rfl

theorem ct_elem {x : U64} (h : x.toNat < 2048) (s : St) :
    elemAt (.arr (_root_.Whirlpool.ct.map .u64)) (.u64 x) s = .ok (.u64 (at64 _root_.Whirlpool.ct x.toNat)) s := by
  have hl := ct_length
  generalize _root_.Whirlpool.ct = ct at *
  have h1 : (x.toNat : Int) < 2048 := by omega
  have h2 := at64_val (l := ct) (i := x.toNat) (by omega)
  eval_go [List.length_map, hl, h1, h2]

theorem or_lt (t : Nat) (ht : t < 8) (y : U64) : (BitVec.ofNat 64 (256 * t) ||| (y &&& 0xff#64)).toNat < 2048 := by
  rw [BitVec.toNat_or, BitVec.toNat_and]
  have h1 : y.toNat &&& (0xff#64).toNat < 2 ^ 11 := Nat.lt_of_le_of_lt Nat.and_le_right (by decide)
  have h2 : (BitVec.ofNat 64 (256 * t)).toNat < 2 ^ 11 := by
    rw [BitVec.toNat_ofNat]; omega
  exact Nat.or_lt_two_pow h2 h1

/-- The entry that a byte selects. -/
def entry (l : List U64) (i t : Nat) : U64 :=
  at64 _root_.Whirlpool.ct (BitVec.ofNat 64 (256 * t) ||| (at64 l (if t = 0 then i else (i + 8 - t) % 8) >>> (56 - 8 * t) &&& 0xff#64)).toNat

/-- The XOR of the entries. -/
def look (l : List U64) (i : Nat) : U64 :=
  entry l i 0 ^^^ entry l i 1 ^^^ entry l i 2 ^^^ entry l i 3 ^^^ entry l i 4 ^^^ entry l i 5 ^^^ entry l i 6 ^^^ entry l i 7

theorem look_ok {l : List U64} (hl : l.length = 8) {i : Nat} (hi : i < 8) : _root_.Whirlpool.lookup l i = .ok (look l i) := by
  have hc := ct_length
  have hs (t : Nat) (ht : t < 8) : _root_.Whirlpool.sel l i t = .ok (at64 l (if t = 0 then i else (i + 8 - t) % 8) >>> (56 - 8 * t) &&& 0xff#64) := by
    rw [_root_.Whirlpool.sel, at64_ok (by split <;> omega), Res.ok_bind]
    rfl
  have he (t : Nat) (ht : t < 8) : goIdx _root_.Whirlpool.ct (BitVec.ofNat 64 (256 * t) ||| (at64 l (if t = 0 then i else (i + 8 - t) % 8) >>> (56 - 8 * t) &&& 0xff#64)).toNat =
      .ok (entry l i t) := at64_ok (by rw [hc]; exact or_lt t ht _)
  have h0 := he 0 (by decide)
  rw [show BitVec.ofNat 64 (256 * 0) = 0#64 from rfl, BitVec.zero_or] at h0
  rw [_root_.Whirlpool.lookup]
  rw [hs 0 (by decide), Res.ok_bind, h0, Res.ok_bind]
  rw [hs 1 (by decide), Res.ok_bind]
  erw [he 1 (by decide), Res.ok_bind]
  rw [hs 2 (by decide), Res.ok_bind]
  erw [he 2 (by decide), Res.ok_bind]
  rw [hs 3 (by decide), Res.ok_bind]
  erw [he 3 (by decide), Res.ok_bind]
  rw [hs 4 (by decide), Res.ok_bind]
  erw [he 4 (by decide), Res.ok_bind]
  rw [hs 5 (by decide), Res.ok_bind]
  erw [he 5 (by decide), Res.ok_bind]
  rw [hs 6 (by decide), Res.ok_bind]
  erw [he 6 (by decide), Res.ok_bind]
  rw [hs 7 (by decide), Res.ok_bind]
  erw [he 7 (by decide), Res.ok_bind]
  rfl

/-- The expression that looks up the entries for the variable `nm`. -/
def lookE (nm : Name) : Expr :=
  .bin .xor (.bin .xor (.bin .xor (.bin .xor (.bin .xor (.bin .xor (.bin .xor (.idx (.id (n! "ct")) (.bin .and (.bin .shr (.idx (.id nm) (.id (n! "i"))) (.int 56)) (.int 255))) (.idx (.id (n! "ct")) (.bin .or (.int 256) (.bin .and (.bin .shr (.idx (.id nm) (.bin .and (.bin .sub (.id (n! "i")) (.int 1)) (.int 7))) (.int 48)) (.int 255))))) (.idx (.id (n! "ct")) (.bin .or (.int 512) (.bin .and (.bin .shr (.idx (.id nm) (.bin .and (.bin .sub (.id (n! "i")) (.int 2)) (.int 7))) (.int 40)) (.int 255))))) (.idx (.id (n! "ct")) (.bin .or (.int 768) (.bin .and (.bin .shr (.idx (.id nm) (.bin .and (.bin .sub (.id (n! "i")) (.int 3)) (.int 7))) (.int 32)) (.int 255))))) (.idx (.id (n! "ct")) (.bin .or (.int 1024) (.bin .and (.bin .shr (.idx (.id nm) (.bin .and (.bin .sub (.id (n! "i")) (.int 4)) (.int 7))) (.int 24)) (.int 255))))) (.idx (.id (n! "ct")) (.bin .or (.int 1280) (.bin .and (.bin .shr (.idx (.id nm) (.bin .and (.bin .sub (.id (n! "i")) (.int 5)) (.int 7))) (.int 16)) (.int 255))))) (.idx (.id (n! "ct")) (.bin .or (.int 1536) (.bin .and (.bin .shr (.idx (.id nm) (.bin .and (.bin .sub (.id (n! "i")) (.int 6)) (.int 7))) (.int 8)) (.int 255))))) (.idx (.id (n! "ct")) (.bin .or (.int 1792) (.bin .and (.idx (.id nm) (.bin .and (.bin .sub (.id (n! "i")) (.int 7)) (.int 7))) (.int 255))))

section
variable {C : GoLang.Ctx} (hC : C.pkg = pkg) (hW : 32 ≤ C.W) {env : List (Name × Val)} {nm : Name} {l : List U64} {i : Nat}
  (hn : find nm env = some (.arr (l.map .u64))) (hl : l.length = 8) (hiE : find (n! "i") env = some (.int i)) (hi : i < 8) (hct : find (n! "ct") env = none)
include hC hW hn hl hiE hi hct

theorem eval_look (h : List Val) : eval C (lookE nm) ⟨h, env⟩ = .ok (.u64 (look l i)) ⟨h, env⟩ := by
  have a1 := and7 hW (t := 1) hi (by decide)
  have a2 := and7 hW (t := 2) hi (by decide)
  have a3 := and7 hW (t := 3) hi (by decide)
  have a4 := and7 hW (t := 4) hi (by decide)
  have a5 := and7 hW (t := 5) hi (by decide)
  have a6 := and7 hW (t := 6) hi (by decide)
  have a7 := and7 hW (t := 7) hi (by decide)
  simp only [Int.cast_ofNat_Int] at a1 a2 a3 a4 a5 a6 a7
  have g (k : Nat) : (k % 8 : Nat) < 8 := by omega
  have g' (k : Nat) : ((k % 8 : Nat) : Int) < 8 := by omega
  have hi' : (i : Int) < 8 := by omega
  have hg (k : Nat) (hk : k < 8) : (l.map Val.u64)[k]? = some (.u64 (at64 l k)) := at64_val (by omega)
  have o0 (y : U64) : (y &&& 255#64).toNat < 2048 := by have := or_lt 0 (by decide) y; simpa using this
  have o1 := or_lt 1 (by decide)
  have o2 := or_lt 2 (by decide)
  have o3 := or_lt 3 (by decide)
  have o4 := or_lt 4 (by decide)
  have o5 := or_lt 5 (by decide)
  have o6 := or_lt 6 (by decide)
  have o7 := or_lt 7 (by decide)
  simp only [Nat.reduceMul] at o1 o2 o3 o4 o5 o6 o7
  have g1 : find (n! "ct") pkg.genv = some (.arr (_root_.Whirlpool.ct.map .u64)) := by kernel_rfl
  simp only [lookE]
  eval_go [hC, hn, hiE, hct, g1, a1, a2, a3, a4, a5, a6, a7, hi, hi', g, g', hg, hl, List.length_map, ↓ct_elem, o0, o1, o2, o3, o4, o5, o6, o7]
  simp only [look, entry, if_true, Nat.reduceEqDiff, if_false, Nat.reduceMul, Nat.reduceSub, BitVec.zero_or, BitVec.ushiftRight_zero]

end

/-! ## Loops -/

/-- Steps one after another. -/
def steps {σ : Type} (step : Nat → σ → σ) : Nat → σ → σ
  | 0, s => s
  | n + 1, s => step n (steps step n s)

/-- A loop that counts to `N` and makes a step each time. -/
theorem loop_steps {σ : Type} {cond : M Bool} {body : M Ctl} {post : M Unit} (step : Nat → σ → σ) (I : Nat → σ → Prop) (S : Nat → σ → St) (N : Nat)
    (hs : ∀ i s, i < N → I i s → I (i + 1) (step i s) ∧ cond (S i s) = .ok true (S i s) ∧ ∃ t, body (S i s) = .ok .next t ∧ post t = .ok () (S (i + 1) (step i s)))
    (he : ∀ s, cond (S N s) = .ok false (S N s)) {s : σ} (hI : I 0 s) {n : Nat} (hn : N < n) {st : St} (h0 : st = S 0 s) :
    loop cond body post n st = .ok .next (S N (steps step N s)) ∧ I N (steps step N s) := by
  have hall (i : Nat) (hi : i ≤ N) : I i (steps step i s) := by
    induction i with
    | zero => exact hI
    | succ i ih => exact (hs i _ (by omega) (ih (by omega))).1
  refine ⟨?_, hall N (Nat.le_refl _)⟩
  exact loop_count (fun i => S i (steps step i s)) N (fun i hi => ⟨(hs i _ hi (hall i (by omega))).2.1, (hs i _ hi (hall i (by omega))).2.2⟩) (he _) hn h0

/-- The same for a loop of the model. -/
theorem model_steps {σ ρ : Type} (F : Nat → Nat → σ → Res ρ) (fin : σ → ρ) (step : Nat → σ → σ) (I : σ → Prop) (N : Nat) (h0 : ∀ i s, F 0 i s = .ok (fin s))
    (hI : ∀ i s, i < N → I s → I (step i s)) (hF : ∀ m i s, i < N → I s → F (m + 1) i s = F m (i + 1) (step i s)) {s : σ} (hs : I s) :
    F N 0 s = .ok (fin (steps step N s)) := by
  have h (i : Nat) (hi : i ≤ N) : I (steps step i s) ∧ F N 0 s = F (N - i) i (steps step i s) := by
    induction i with
    | zero => exact ⟨hs, rfl⟩
    | succ i ih =>
      obtain ⟨h1, h2⟩ := ih (by omega)
      refine ⟨hI i _ (by omega) h1, ?_⟩
      rw [h2, show N - i = N - (i + 1) + 1 by omega, hF _ _ _ (by omega) h1]
      rfl
  rw [(h N (Nat.le_refl _)).2, Nat.sub_self, h0]

/-- The variables of `hash`. -/
abbrev envH (x K st L : List U64) (a : Nat) : List (Name × Val) := [(n! "L", .arr (L.map .u64)), (n! "state", .arr (st.map .u64)), (n! "K", .arr (K.map .u64)),
  (n! "x", .arr (x.map .u64)), (n! "c", obj path ty a)]

/-- The context of `hash`. -/
abbrev ctxH (P : Prog) (n : Nat) : GoLang.Ctx := P.ctx n pkg (n! "hash") .nil (run P n)

/-- A loop that counts. -/
def forE (nm : Name) (lim : Expr) (body : Stmts) : Stmt := .for (.define [nm] (.cons (.int 0) .nil)) (.bin .lt (.id nm) lim) (.opAssign .add (.id nm) (.int 1)) body

theorem exec_forI {σ : Type} {C : GoLang.Ctx} (hW : 32 ≤ C.W) {nm : Name} (hB : elemN nm C.boxed = false) (hnm : Nat.beq nm (n! "_") = false) {lim : Expr} {N : Nat} (hN : N < 2 ^ 31)
    {body : Stmts} (step : Nat → σ → σ) (I : Nat → σ → Prop) (H : σ → List Val) (E : σ → List (Name × Val)) (k : Nat) (hE : ∀ s, (E s).length = k)
    (hlim : ∀ i s, eval C lim ⟨H s, (nm, .int i) :: E s⟩ = .ok (.const N) ⟨H s, (nm, .int i) :: E s⟩)
    (hb : ∀ (i : Nat) s, i < N → I i s → I (i + 1) (step i s) ∧ ∃ e, execs C body ⟨H s, (nm, .int i) :: E s⟩ = .ok .next ⟨H (step i s), e ++ (nm, .int i) :: E (step i s)⟩)
    {s : σ} (hI : I 0 s) (hn : N < C.fuel) :
    exec C (forE nm lim body) ⟨H s, E s⟩ = .ok .next ⟨H (steps step N s), E (steps step N s)⟩ ∧ I N (steps step N s) := by
  have h31 : (2 : Int) ^ 31 ≤ 2 ^ (C.W - 1) := by
    exact_mod_cast Nat.pow_le_pow_right (n := 2) (by decide) (by omega : 31 ≤ C.W - 1)
  have hl := loop_steps (cond := evalBool C (.bin .lt (.id nm) lim)) (body := scope (execs C body)) (post := do let _ ← exec C (.opAssign .add (.id nm) (.int 1)); pure ())
    step I (fun i s => ⟨H s, (nm, .int i) :: E s⟩) N (by
      intro i s hi hs
      obtain ⟨h1, e, h2⟩ := hb i s hi hs
      refine ⟨h1, ?_, ⟨H (step i s), (nm, .int i) :: E (step i s)⟩, ?_, ?_⟩
      · have : (i : Int) < N := by omega
        eval_go [Nat.beq_refl, hlim, this]
      · have h3 : ((nm, Val.int i) :: E s).length = ((nm, Val.int i) :: E (step i s)).length := by simp [hE]
        have h4 : (e ++ (nm, Val.int i) :: E (step i s)).drop ((e ++ (nm, Val.int i) :: E (step i s)).length - ((nm, Val.int i) :: E s).length) = (nm, .int i) :: E (step i s) := by
          rw [h3, List.length_append, Nat.add_sub_cancel, List.drop_left]
        simp only [scope, h2, h4]
      · eval_go [Nat.beq_refl, hnm, wrap_succ hi (show (N : Int) < 2 ^ (C.W - 1) by omega) (by omega)]) (by
      intro s
      eval_go [Nat.beq_refl, hlim, Nat.lt_irrefl]) hI hn rfl
  refine ⟨?_, hl.2⟩
  have hi : exec C (.define [nm] (.cons (.int 0) .nil)) ⟨H s, E s⟩ = .ok .next ⟨H s, (nm, .int ((0 : Nat) : Int)) :: E s⟩ := by
    eval_go [hnm, hB]
  have h5 : ((nm, Val.int N) :: E (steps step N s)).drop (((nm, Val.int N) :: E (steps step N s)).length - (E s).length) = E (steps step N s) := by
    simp [hE]
  rw [forE, exec]
  simp only [scope, bind_apply, hi, Out.bind, hl.1, h5]

/-- The same when what holds does not depend on the index. -/
theorem exec_for {σ : Type} {C : GoLang.Ctx} (hW : 32 ≤ C.W) {nm : Name} (hB : elemN nm C.boxed = false) (hnm : Nat.beq nm (n! "_") = false) {lim : Expr} {N : Nat} (hN : N < 2 ^ 31)
    {body : Stmts} (step : Nat → σ → σ) (I : σ → Prop) (H : σ → List Val) (E : σ → List (Name × Val)) (k : Nat) (hE : ∀ s, (E s).length = k)
    (hlim : ∀ i s, eval C lim ⟨H s, (nm, .int i) :: E s⟩ = .ok (.const N) ⟨H s, (nm, .int i) :: E s⟩)
    (hb : ∀ (i : Nat) s, i < N → I s → I (step i s) ∧ ∃ e, execs C body ⟨H s, (nm, .int i) :: E s⟩ = .ok .next ⟨H (step i s), e ++ (nm, .int i) :: E (step i s)⟩)
    {s : σ} (hI : I s) (hn : N < C.fuel) :
    exec C (forE nm lim body) ⟨H s, E s⟩ = .ok .next ⟨H (steps step N s), E (steps step N s)⟩ ∧ I (steps step N s) :=
  exec_forI hW hB hnm hN step (fun _ => I) H E k hE hlim hb hI hn

/-! ## The loops of `hash` -/

/-- Assign to an element of a variable. -/
def setE (nm i : Expr) (e : Expr) : Stmt := .assign (.cons (.idx nm i) .nil) (.cons e .nil)

def keyBody : Stmts := .cons (setE (.id (n! "L")) (.id (n! "i")) (lookE (n! "K"))) .nil

def stateBody : Stmts := .cons (setE (.id (n! "K")) (.id (n! "i")) (.idx (.id (n! "L")) (.id (n! "i")))) (.cons
  (.opAssign .xor (.idx (.id (n! "L")) (.id (n! "i"))) (lookE (n! "state"))) .nil)

def copyBody : Stmts := .cons (setE (.id (n! "state")) (.id (n! "i")) (.idx (.id (n! "L")) (.id (n! "i")))) .nil

def rcStmt : Stmt := .opAssign .xor (.idx (.id (n! "L")) (.int 0)) (.idx (.id (n! "rc")) (.id (n! "r")))

def roundBody : Stmts := .cons (forE (n! "i") (.int 8) keyBody) (.cons rcStmt (.cons (forE (n! "i") (.int 8) stateBody) (.cons (forE (n! "i") (.int 8) copyBody) .nil)))

theorem map_set64 (l : List U64) (i : Nat) (x : U64) : (l.map Val.u64).set i (.u64 x) = (l.set i x).map .u64 := (List.map_set ..).symm

section
variable {P : Prog} (hW : 32 ≤ P.W) {n : Nat} (hn : 10 < n) (h : List Val) (a : Nat) (x : List U64)
include hW hn

/-- The step of the first loop of a round. -/
def keyStep (K : List U64) (i : Nat) (L : List U64) : List U64 := L.set i (look K i)

theorem key_loop {K st L : List U64} (hK : K.length = 8) (hL : L.length = 8) (r : Nat) :
    exec (ctxH P n) (forE (n! "i") (.int 8) keyBody) ⟨h, (n! "r", .int r) :: envH x K st L a⟩ =
      .ok .next ⟨h, (n! "r", .int r) :: envH x K st (steps (keyStep K) 8 L) a⟩ ∧ (steps (keyStep K) 8 L).length = 8 := by
  refine exec_for (N := 8) (σ := List U64) hW rfl (by decide) (by decide) (keyStep K) (fun L => L.length = 8) (fun _ => h) (fun L => (n! "r", .int r) :: envH x K st L a) 6 (fun _ => rfl) ?_ ?_ hL ?_
  · intro i s
    eval_go
  · intro i L hi hL
    refine ⟨by simpa [keyStep] using hL, [], ?_⟩
    have he := eval_look (C := ctxH P n) (env := (n! "i", .int i) :: (n! "r", .int r) :: envH x K st L a) (nm := n! "K") (i := i) rfl hW rfl hK rfl hi rfl h
    have hi' : (i : Int) < 8 := by omega
    simp only [keyBody, setE]
    eval_go [↓he, List.length_map, hL, hi, hi', map_set64, at64_val (l := L) (i := i) (by omega), keyStep]
  · show 8 < n
    omega

/-- The step of the second loop of a round. -/
def stateStep (st : List U64) (i : Nat) (s : List U64 × List U64) : List U64 × List U64 := (s.1.set i (at64 s.2 i), s.2.set i (at64 s.2 i ^^^ look st i))

theorem state_loop {K st L : List U64} (hK : K.length = 8) (hst : st.length = 8) (hL : L.length = 8) (r : Nat) :
    exec (ctxH P n) (forE (n! "i") (.int 8) stateBody) ⟨h, (n! "r", .int r) :: envH x K st L a⟩ =
      .ok .next ⟨h, (n! "r", .int r) :: envH x (steps (stateStep st) 8 (K, L)).1 st (steps (stateStep st) 8 (K, L)).2 a⟩ ∧
      (steps (stateStep st) 8 (K, L)).1.length = 8 ∧ (steps (stateStep st) 8 (K, L)).2.length = 8 := by
  refine exec_for (N := 8) (σ := List U64 × List U64) (s := (K, L)) hW rfl (by decide) (by decide) (stateStep st) (fun s => s.1.length = 8 ∧ s.2.length = 8) (fun _ => h) (fun s => (n! "r", .int r) :: envH x s.1 st s.2 a) 6 (fun _ => rfl) ?_ ?_ ⟨hK, hL⟩ ?_
  · intro i s
    eval_go
  · rintro i ⟨K, L⟩ hi ⟨hK, hL⟩
    dsimp only at hK hL
    refine ⟨by simpa [stateStep] using ⟨hK, hL⟩, [], ?_⟩
    have he := eval_look (C := ctxH P n) (env := (n! "i", .int i) :: (n! "r", .int r) :: envH x (K.set i (at64 L i)) st L a) (nm := n! "state") (i := i) rfl hW rfl hst rfl hi rfl h
    have hi' : (i : Int) < 8 := by omega
    simp only [stateBody, setE]
    eval_go [↓he, List.length_map, hL, hK, hi, hi', map_set64, at64_val (l := L) (i := i) (by omega), at64_val (l := K) (i := i) (by omega), stateStep]
  · show 8 < n
    omega

/-- The step of the third loop of a round. -/
def copyStep (L : List U64) (i : Nat) (st : List U64) : List U64 := st.set i (at64 L i)

theorem copy_loop {K st L : List U64} (hst : st.length = 8) (hL : L.length = 8) (r : Nat) :
    exec (ctxH P n) (forE (n! "i") (.int 8) copyBody) ⟨h, (n! "r", .int r) :: envH x K st L a⟩ =
      .ok .next ⟨h, (n! "r", .int r) :: envH x K (steps (copyStep L) 8 st) L a⟩ ∧ (steps (copyStep L) 8 st).length = 8 := by
  refine exec_for (N := 8) (σ := List U64) hW rfl (by decide) (by decide) (copyStep L) (fun st => st.length = 8) (fun _ => h) (fun st => (n! "r", .int r) :: envH x K st L a) 6 (fun _ => rfl) ?_ ?_ hst ?_
  · intro i s
    eval_go
  · intro i st hi hst
    refine ⟨by simpa [copyStep] using hst, [], ?_⟩
    have hi' : (i : Int) < 8 := by omega
    simp only [copyBody, setE]
    eval_go [List.length_map, hL, hst, hi, hi', map_set64, at64_val (l := L) (i := i) (by omega), at64_val (l := st) (i := i) (by omega), copyStep]
  · show 8 < n
    omega

/-- A round: the key, the state and the scratch array. -/
def roundStep (r : Nat) (s : List U64 × List U64 × List U64) : List U64 × List U64 × List U64 :=
  let L := steps (keyStep s.1) 8 s.2.2
  let L := L.set 0 (at64 L 0 ^^^ at64 _root_.Whirlpool.rc r)
  let t := steps (stateStep s.2.1) 8 (s.1, L)
  (t.1, steps (copyStep t.2) 8 s.2.1, t.2)

theorem round_loop {K st L : List U64} (hK : K.length = 8) (hst : st.length = 8) (hL : L.length = 8) :
    exec (ctxH P n) (forE (n! "r") (.id (n! "rounds")) roundBody) ⟨h, envH x K st L a⟩ =
      .ok .next ⟨h, envH x (steps roundStep 10 (K, st, L)).1 (steps roundStep 10 (K, st, L)).2.1 (steps roundStep 10 (K, st, L)).2.2 a⟩ ∧
      (steps roundStep 10 (K, st, L)).1.length = 8 ∧ (steps roundStep 10 (K, st, L)).2.1.length = 8 ∧ (steps roundStep 10 (K, st, L)).2.2.length = 8 := by
  refine exec_for (N := 10) (σ := List U64 × List U64 × List U64) (s := (K, st, L)) hW rfl (by decide) (by decide) roundStep (fun s => s.1.length = 8 ∧ s.2.1.length = 8 ∧ s.2.2.length = 8) (fun _ => h)
    (fun s => envH x s.1 s.2.1 s.2.2 a) 5 (fun _ => rfl) ?_ ?_ ⟨hK, hst, hL⟩ ?_
  · intro i s
    have g1 : find (n! "rounds") pkg.genv = some (.const 10) := by kernel_rfl
    eval_go [g1]
  · rintro r ⟨K, st, L⟩ hr ⟨hK, hst, hL⟩
    dsimp only at hK hst hL
    obtain ⟨k1, k2⟩ := key_loop hW hn h a x (st := st) hK hL r
    dsimp only [roundStep]
    generalize steps (keyStep K) 8 L = L1 at *
    have hL2 : (L1.set 0 (at64 L1 0 ^^^ at64 _root_.Whirlpool.rc r)).length = 8 := by simpa using k2
    have hrc : exec (ctxH P n) rcStmt ⟨h, (n! "r", .int r) :: envH x K st L1 a⟩ = .ok .next ⟨h, (n! "r", .int r) :: envH x K st (L1.set 0 (at64 L1 0 ^^^ at64 _root_.Whirlpool.rc r)) a⟩ := by
      have g1 : find (n! "rc") pkg.genv = some (.arr (_root_.Whirlpool.rc.map .u64)) := by kernel_rfl
      have hrl : _root_.Whirlpool.rc.length = 10 := by kernel_rfl
      have hr' : (r : Int) < 10 := by omega
      have g2 := at64_val (l := _root_.Whirlpool.rc) (i := r) (by omega)
      generalize _root_.Whirlpool.rc = rc at *
      simp only [rcStmt]
      eval_go [g1, List.length_map, hrl, k2, hr', g2, at64_val (l := L1) (i := 0) (by omega), map_set64, Nat.reduceLT, Int.reduceLT, Int.reduceLE]
    generalize L1.set 0 (at64 L1 0 ^^^ at64 _root_.Whirlpool.rc r) = L2 at *
    obtain ⟨s1, s2, s3⟩ := state_loop hW hn h a x hK hst hL2 r
    generalize steps (stateStep st) 8 (K, L2) = t at *
    obtain ⟨c1, c2⟩ := copy_loop hW hn h a x (K := t.1) hst s3 r
    refine ⟨⟨s2, c2, s3⟩, [], ?_⟩
    simp only [roundBody]
    eval_go [↓k1, ↓hrc, ↓s1, ↓c1]
  · exact hn

end

/-- An element of a list. -/
def at8 (l : List U8) (i : Nat) : U8 := l.getD i 0

theorem at8_ok {l : List U8} {i : Nat} (h : i < l.length) : goIdx l i = .ok (at8 l i) := by
  simp [goIdx, at8, h]

theorem at8_val {l : List U8} {i : Nat} (h : i < l.length) : (l.map Val.u8)[i]? = some (.u8 (at8 l i)) := by
  simp [at8, h]

/-- The big-endian word at `j`. -/
def word (b : List U8) (j : Nat) : U64 :=
  (at8 b j).setWidth 64 <<< 56 ||| (at8 b (j + 1)).setWidth 64 <<< 48 ||| (at8 b (j + 2)).setWidth 64 <<< 40 ||| (at8 b (j + 3)).setWidth 64 <<< 32 |||
    (at8 b (j + 4)).setWidth 64 <<< 24 ||| (at8 b (j + 5)).setWidth 64 <<< 16 ||| (at8 b (j + 6)).setWidth 64 <<< 8 ||| (at8 b (j + 7)).setWidth 64

theorem word_ok {b : List U8} (hb : b.length = 64) {i : Nat} (hi : i < 8) : _root_.Whirlpool.wordAt b (i * 8) = .ok (word b (i * 8)) := by
  rw [_root_.Whirlpool.wordAt, at8_ok (by omega), Res.ok_bind, at8_ok (by omega), Res.ok_bind, at8_ok (by omega), Res.ok_bind, at8_ok (by omega), Res.ok_bind,
    at8_ok (by omega), Res.ok_bind, at8_ok (by omega), Res.ok_bind, at8_ok (by omega), Res.ok_bind, at8_ok (by omega), Res.ok_bind]
  rfl

/-- The body of the first loop. -/
def initBody : Stmts := match Whirlpool.ctx_hash with
  | .func _ _ _ _ _ _ (.cons _ (.cons _ (.cons _ (.cons _ (.cons (.for _ _ _ b) _))))) => b
  | _ => .nil

/-- The body of the last loop. -/
def finalBody : Stmts := .cons (.opAssign .xor (.idx (.sel (.id (n! "c")) (n! "state")) (.id (n! "i"))) (.bin .xor (.idx (.id (n! "state")) (.id (n! "i"))) (.idx (.id (n! "x")) (.id (n! "i"))))) .nil

section
variable {P : Prog} (hW : 32 ≤ P.W) {n : Nat} (hn : 10 < n) {h : List Val} {a : Nat} (ha : a < h.length) {c : Ctx U64} (hs : c.state.length = 8) (hb : c.block.length = 64)
include hW hn ha hs

/-- The step of the first loop: data, key, state. -/
def initStep (c : Ctx U64) (i : Nat) (s : List U64 × List U64 × List U64) : List U64 × List U64 × List U64 :=
  (s.1.set i (word c.block (i * 8)), s.2.1.set i (at64 c.state i), s.2.2.set i (word c.block (i * 8) ^^^ at64 c.state i))

include hb in
theorem init_loop {x K st L : List U64} (hx : x.length = 8) (hK : K.length = 8) (hst : st.length = 8) :
    exec (ctxH P n) (forE (n! "i") (.id (n! "blockSizeU64")) initBody) ⟨h.set a (rep c), envH x K st L a⟩ =
      .ok .next ⟨h.set a (rep c), envH (steps (initStep c) 8 (x, K, st)).1 (steps (initStep c) 8 (x, K, st)).2.1 (steps (initStep c) 8 (x, K, st)).2.2 L a⟩ ∧
      (steps (initStep c) 8 (x, K, st)).1.length = 8 ∧ (steps (initStep c) 8 (x, K, st)).2.1.length = 8 ∧ (steps (initStep c) 8 (x, K, st)).2.2.length = 8 := by
  refine exec_for (N := 8) (σ := List U64 × List U64 × List U64) (s := (x, K, st)) hW rfl (by decide) (by decide) (initStep c) (fun s => s.1.length = 8 ∧ s.2.1.length = 8 ∧ s.2.2.length = 8) (fun _ => h.set a (rep c))
    (fun s => envH s.1 s.2.1 s.2.2 L a) 5 (fun _ => rfl) ?_ ?_ ⟨hx, hK, hst⟩ ?_
  · intro i s
    have g1 : find (n! "blockSizeU64") pkg.genv = some (.const 8) := by kernel_rfl
    eval_go [g1]
  · rintro i ⟨x, K, st⟩ hi ⟨hx, hK, hst⟩
    dsimp only at hx hK hst
    refine ⟨by simpa [initStep] using ⟨hx, hK, hst⟩, [(n! "j", .int (i * 8 : Nat))], ?_⟩
    have hi' : (i : Int) < 8 := by omega
    have h31 : (2 : Int) ^ 31 ≤ 2 ^ (P.W - 1) := by
      exact_mod_cast Nat.pow_le_pow_right (n := 2) (by decide) (by omega : 31 ≤ P.W - 1)
    have hW0 : 0 < P.W := by omega
    have wj : wrap P.W ((i : Int) * 8) = ((i * 8 : Nat) : Int) := by
      rw [show (i : Int) * 8 = ((i * 8 : Nat) : Int) by push_cast; ring]
      exact wrap_nat (by omega) hW0
    have wk (k : Nat) (hk : k < 8) : wrap P.W (((i * 8 : Nat) : Int) + k) = ((i * 8 + k : Nat) : Int) := wrap_add (by omega) hW0
    have w1 := wk 1 (by decide)
    have w2 := wk 2 (by decide)
    have w3 := wk 3 (by decide)
    have w4 := wk 4 (by decide)
    have w5 := wk 5 (by decide)
    have w6 := wk 6 (by decide)
    have w7 := wk 7 (by decide)
    simp only [Int.cast_ofNat_Int] at w1 w2 w3 w4 w5 w6 w7
    have b0 : i * 8 < 64 := by omega
    have b0' : ((i * 8 : Nat) : Int) < 64 := by omega
    have bk (k : Nat) (hk : k < 8) : i * 8 + k < 64 := by omega
    have bk' (k : Nat) (hk : k < 8) : ((i * 8 + k : Nat) : Int) < 64 := by omega
    have g (k : Nat) (hk : k < 64) : (c.block.map Val.u8)[k]? = some (.u8 (at8 c.block k)) := at8_val (by omega)
    have gs (l : List U64) (hl : l.length = 8) (y : U64) : ((l.set i y).map Val.u64)[i]? = some (.u64 y) := by simp [hl, hi]
    simp only [initBody, Whirlpool.ctx_hash]
    eval_go [gs, List.length_set, wj, w1, w2, w3, w4, w5, w6, w7, b0, b0', bk, bk', g, List.length_map, hb, hs, hx, hK, hst, hi, hi', map_set64, ha, List.getElem?_set_self,
      at64_val (l := c.state) (i := i) (by omega), at64_val (l := x) (i := i) (by omega), at64_val (l := K) (i := i) (by omega), at64_val (l := st) (i := i) (by omega), initStep, Nat.reduceLT, word]
  · show 8 < n
    omega

/-- The step of the last loop. -/
def finalStep (st x : List U64) (i : Nat) (cs : List U64) : List U64 := cs.set i (at64 cs i ^^^ (at64 st i ^^^ at64 x i))

theorem final_loop {x K st L : List U64} (hx : x.length = 8) (hst : st.length = 8) :
    exec (ctxH P n) (forE (n! "i") (.id (n! "blockSizeU64")) finalBody) ⟨h.set a (rep c), envH x K st L a⟩ =
      .ok .next ⟨h.set a (rep { c with state := steps (finalStep st x) 8 c.state }), envH x K st L a⟩ ∧ (steps (finalStep st x) 8 c.state).length = 8 := by
  refine exec_for (N := 8) (σ := List U64) (s := c.state) hW rfl (by decide) (by decide) (finalStep st x) (fun s => s.length = 8) (fun s => h.set a (rep { c with state := s }))
    (fun s => envH x K st L a) 5 (fun _ => rfl) ?_ ?_ hs ?_
  · intro i s
    have g1 : find (n! "blockSizeU64") pkg.genv = some (.const 8) := by kernel_rfl
    eval_go [g1]
  · rintro i cs hi hcs
    refine ⟨by simpa [finalStep] using hcs, [], ?_⟩
    have hi' : (i : Int) < 8 := by omega
    simp only [finalBody]
    eval_go [List.length_map, hcs, hx, hst, hi, hi', map_set64, ha, List.getElem?_set_self, List.set_set, List.length_set,
      at64_val (l := cs) (i := i) (by omega), at64_val (l := x) (i := i) (by omega), at64_val (l := st) (i := i) (by omega), finalStep]
  · show 8 < n
    omega

end

/-! ## The model in steps -/

theorem goSet64 {l : List U64} {i : Nat} (h : i < l.length) (x : U64) : goSet l i x = .ok (l.set i x) := by simp [goSet, h]

theorem model_key {K L : List U64} (hK : K.length = 8) (hL : L.length = 8) : _root_.Whirlpool.keyLoop K 8 0 L = .ok (steps (keyStep K) 8 L) := by
  refine model_steps (fun n i L => _root_.Whirlpool.keyLoop K n i L) id (keyStep K) (fun L => L.length = 8) 8 (fun _ _ => rfl) (fun i L _ h => by simpa [keyStep] using h) ?_ hL
  intro m i L hi hL
  simp only [_root_.Whirlpool.keyLoop, look_ok hK hi, Res.ok_bind, goSet64 (l := L) (i := i) (by omega), keyStep]

theorem model_state {K st L : List U64} (hK : K.length = 8) (hst : st.length = 8) (hL : L.length = 8) :
    _root_.Whirlpool.stateLoop st 8 0 K L = .ok (steps (stateStep st) 8 (K, L)) := by
  refine model_steps (fun n i (s : List U64 × List U64) => _root_.Whirlpool.stateLoop st n i s.1 s.2) id (stateStep st) (fun s => s.1.length = 8 ∧ s.2.length = 8) 8 (fun _ _ => rfl)
    (fun i L _ h => by simpa [stateStep] using h) ?_ (s := (K, L)) ⟨hK, hL⟩
  rintro m i ⟨K, L⟩ hi ⟨hK, hL⟩
  dsimp only at hK hL
  simp only [_root_.Whirlpool.stateLoop, look_ok hst hi, Res.ok_bind, goSet64 (l := L) (i := i) (by omega), goSet64 (l := K) (i := i) (by omega), at64_ok (l := L) (i := i) (by omega), stateStep]

theorem model_copy {st L : List U64} (hst : st.length = 8) (hL : L.length = 8) : _root_.Whirlpool.copyLoop L 8 0 st = .ok (steps (copyStep L) 8 st) := by
  refine model_steps (fun n i s => _root_.Whirlpool.copyLoop L n i s) id (copyStep L) (fun s => s.length = 8) 8 (fun _ _ => rfl) (fun i L _ h => by simpa [copyStep] using h) ?_ hst
  intro m i s hi hs
  simp only [_root_.Whirlpool.copyLoop, Res.ok_bind, goSet64 (l := s) (i := i) (by omega), at64_ok (l := L) (i := i) (by omega), copyStep]

theorem steps_inv {σ : Type} {step : Nat → σ → σ} {I : σ → Prop} {N : Nat} (hI : ∀ i s, i < N → I s → I (step i s)) {s : σ} (hs : I s) : I (steps step N s) := by
  have h (i : Nat) (hi : i ≤ N) : I (steps step i s) := by
    induction i with
    | zero => exact hs
    | succ i ih => exact hI i _ (by omega) (ih (by omega))
  exact h N (Nat.le_refl _)

theorem model_round {K st L : List U64} (hK : K.length = 8) (hst : st.length = 8) (hL : L.length = 8) :
    _root_.Whirlpool.roundLoop 10 0 K st L = .ok (steps roundStep 10 (K, st, L)).2.1 := by
  have hkey (K L : List U64) (h : L.length = 8) : (steps (keyStep K) 8 L).length = 8 := steps_inv (I := fun L : List U64 => L.length = 8) (fun i L _ h => by simpa [keyStep] using h) h
  have hstate (st K L : List U64) (hK : K.length = 8) (h : L.length = 8) : (steps (stateStep st) 8 (K, L)).1.length = 8 ∧ (steps (stateStep st) 8 (K, L)).2.length = 8 :=
    steps_inv (I := fun s : List U64 × List U64 => s.1.length = 8 ∧ s.2.length = 8) (fun i L _ h => by simpa [stateStep] using h) ⟨hK, h⟩
  have hcopy (st L : List U64) (h : st.length = 8) : (steps (copyStep L) 8 st).length = 8 := steps_inv (I := fun L : List U64 => L.length = 8) (fun i L _ h => by simpa [copyStep] using h) h
  have hset (L : List U64) (x : U64) (h : L.length = 8) : (L.set 0 x).length = 8 := by simpa using h
  refine model_steps (fun n i (s : List U64 × List U64 × List U64) => _root_.Whirlpool.roundLoop n i s.1 s.2.1 s.2.2) (fun s => s.2.1) roundStep
    (fun s => s.1.length = 8 ∧ s.2.1.length = 8 ∧ s.2.2.length = 8) 10 (fun _ _ => rfl) ?_ ?_ (s := (K, st, L)) ⟨hK, hst, hL⟩
  · rintro r ⟨K, st, L⟩ _ ⟨hK, hst, hL⟩
    dsimp only at hK hst hL
    have h1 := hstate st K _ hK (hset _ (at64 (steps (keyStep K) 8 L) 0 ^^^ at64 _root_.Whirlpool.rc r) (hkey K L hL))
    exact ⟨h1.1, hcopy _ _ hst, h1.2⟩
  · rintro m r ⟨K, st, L⟩ hr ⟨hK, hst, hL⟩
    dsimp only at hK hst hL
    have hrl : _root_.Whirlpool.rc.length = 10 := by kernel_rfl
    have k1 := hkey K L hL
    have hM : _root_.Whirlpool.keyLoop K 8 0 L = .ok (steps (keyStep K) 8 L) := model_key hK hL
    simp only [_root_.Whirlpool.roundLoop, roundStep]
    generalize _root_.Whirlpool.rc = rc at *
    generalize steps (keyStep K) 8 L = L1 at *
    have k2 := hset L1 (at64 L1 0 ^^^ at64 rc r) k1
    have e1 : goSet L1 0 (at64 L1 0 ^^^ at64 rc r) = .ok (L1.set 0 (at64 L1 0 ^^^ at64 rc r)) := goSet64 (by omega) _
    have e2 : goIdx L1 0 = .ok (at64 L1 0) := at64_ok (by omega)
    have e3 : goIdx rc r = .ok (at64 rc r) := at64_ok (by omega)
    simp only [hM, e1, e2, e3, Res.ok_bind]
    generalize L1.set 0 (at64 L1 0 ^^^ at64 rc r) = L2 at *
    have k3 := hstate st K L2 hK k2
    have e4 := model_state hK hst k2
    generalize steps (stateStep st) 8 (K, L2) = t at *
    have e5 := model_copy hst k3.2
    simp only [e4, e5, Res.ok_bind]

theorem model_init {c : Ctx U64} (hs : c.state.length = 8) (hb : c.block.length = 64) {x K st : List U64} (hx : x.length = 8) (hK : K.length = 8) (hst : st.length = 8) :
    _root_.Whirlpool.initLoop c 8 0 x K st = .ok (steps (initStep c) 8 (x, K, st)) := by
  refine model_steps (fun n i (s : List U64 × List U64 × List U64) => _root_.Whirlpool.initLoop c n i s.1 s.2.1 s.2.2) id (initStep c)
    (fun s => s.1.length = 8 ∧ s.2.1.length = 8 ∧ s.2.2.length = 8) 8 (fun _ _ => rfl) (fun i L _ h => by simpa [initStep] using h) ?_ (s := (x, K, st)) ⟨hx, hK, hst⟩
  rintro m i ⟨x, K, st⟩ hi ⟨hx, hK, hst⟩
  dsimp only at hx hK hst
  have h1 (l : List U64) (y : U64) (hl : l.length = 8) : goIdx (l.set i y) i = .ok y := by
    simp [goIdx, hl, hi]
  simp only [_root_.Whirlpool.initLoop, word_ok hb hi, Res.ok_bind, goSet64 (l := x) (i := i) (by omega), goSet64 (l := K) (i := i) (by omega), goSet64 (l := st) (i := i) (by omega),
    at64_ok (l := c.state) (i := i) (by omega), h1 _ _ hx, h1 _ _ hK, initStep]

theorem model_final {st x cs : List U64} (hst : st.length = 8) (hx : x.length = 8) (hcs : cs.length = 8) :
    _root_.Whirlpool.finalLoop st x 8 0 cs = .ok (steps (finalStep st x) 8 cs) := by
  refine model_steps (fun n i s => _root_.Whirlpool.finalLoop st x n i s) id (finalStep st x) (fun s => s.length = 8) 8 (fun _ _ => rfl) (fun i L _ h => by simpa [finalStep] using h) ?_ hcs
  intro m i s hi hs
  simp only [_root_.Whirlpool.finalLoop, Res.ok_bind, goSet64 (l := s) (i := i) (by omega), at64_ok (l := s) (i := i) (by omega), at64_ok (l := st) (i := i) (by omega),
    at64_ok (l := x) (i := i) (by omega), finalStep]

/-! ## `hash` -/

/-- An array variable of zeros. -/
def zeroE (nm : Name) : Stmt := .define [nm] (.cons (.comp (.array (.id (n! "blockSizeU64")) (.name (n! "uint64"))) .nil) .nil)

theorem find_hashS : findFunc ty (n! "hash") pkg.decls = some (.func (n! "c") true ty (n! "hash") .nil .nil (.cons (zeroE (n! "x")) (.cons (zeroE (n! "K")) (.cons (zeroE (n! "state"))
    (.cons (zeroE (n! "L")) (.cons (forE (n! "i") (.id (n! "blockSizeU64")) initBody) (.cons (forE (n! "r") (.id (n! "rounds")) roundBody) (.cons
    (forE (n! "i") (.id (n! "blockSizeU64")) finalBody) (.cons (.assign (.cons (.sel (.id (n! "c")) (n! "bPos")) .nil) (.cons (.int 0) .nil)) .nil))))))))) := by kernel_rfl

theorem run_hash {P : Prog} (hP : findPkg path P.pkgs = some pkg) (hW : 32 ≤ P.W) {h : List Val} {a : Nat} {c : Ctx U64} (ha : h[a]? = some (rep c)) (hs : c.state.length = 8)
    (hb : c.block.length = 64) {n : Nat} (hn : 10 < n) :
    ∃ c', _root_.Whirlpool.hash c = .ok c' ∧ c'.state.length = 8 ∧ c'.block.length = 64 ∧ c'.len = c.len ∧ c'.bPos = 0 ∧
      run P (n + 1) path ty (n! "hash") [obj path ty a] h = .ok [] ⟨h.set a (rep c'), []⟩ := by
  obtain ⟨hal, h2⟩ := List.getElem?_eq_some_iff.1 ha
  have hh : h.set a (rep c) = h := by rw [← h2, List.set_getElem_self]
  have hz : _root_.Whirlpool.zero8.length = 8 := by kernel_rfl
  obtain ⟨i1, i2, i3, i4⟩ := init_loop hW hn hal hs hb (L := _root_.Whirlpool.zero8) hz hz hz
  have m1 := model_init hs hb hz hz hz
  obtain ⟨⟨x, K, st⟩, ht⟩ : ∃ t, t = steps (initStep c) 8 (_root_.Whirlpool.zero8, _root_.Whirlpool.zero8, _root_.Whirlpool.zero8) := ⟨_, rfl⟩
  rw [← ht] at i1 i2 i3 i4 m1
  dsimp only at i1 i2 i3 i4
  obtain ⟨r1, r2, r3, r4⟩ := round_loop hW hn (h.set a (rep c)) a x i3 i4 hz
  have m2 := model_round i3 i4 hz
  obtain ⟨⟨K', st', L'⟩, ht'⟩ : ∃ t, t = steps roundStep 10 (K, st, _root_.Whirlpool.zero8) := ⟨_, rfl⟩
  rw [← ht'] at r1 r2 r3 r4 m2
  dsimp only at r1 r2 r3 r4 m2
  obtain ⟨f1, f2⟩ := final_loop hW hn hal hs (K := K') (L := L') i2 r3
  have m3 := model_final r3 i2 hs
  generalize steps (finalStep st' x) 8 c.state = cs at *
  refine ⟨{ c with state := cs, bPos := 0 }, ?_, f2, hb, rfl, rfl, ?_⟩
  · rw [_root_.Whirlpool.hash, m1, Res.ok_bind]
    dsimp only
    erw [m2, Res.ok_bind, m3, Res.ok_bind]
    rfl
  · have hzE (nm : Name) (hnm : Nat.beq nm (n! "_") = false) (e : List (Name × Val)) (he : find (n! "blockSizeU64") e = none) :
        exec (ctxH P n) (zeroE nm) ⟨h, e⟩ = .ok .next ⟨h, (nm, .arr (_root_.Whirlpool.zero8.map .u64)) :: e⟩ := by
      have g1 : find (n! "blockSizeU64") pkg.genv = some (.const 8) := by kernel_rfl
      simp only [zeroE]
      eval_go [g1, hnm, he]
      rfl
    rw [run_func hP find_hashS]
    rw [hh] at i1 r1 f1
    eval_go [↓hzE, ↓i1, ↓r1, ↓f1, hal, List.getElem?_set_self, List.set_set]
    rfl

end Source.Whirlpool
