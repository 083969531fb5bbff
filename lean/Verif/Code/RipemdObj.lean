import Verif.Code.Block
import Verif.Code.Ripemd5

/-!
# The code of package `ripemd`: the methods
-/
namespace Source.Ripemd
open GoLang BlockHash Source.Block

/-- Running the function `hash` does what `H` does to the object. -/
def RunsHash (P : Prog) (hash : Name) (stateLen : Nat) (H : Ctx U32 → Res (Ctx U32)) : Prop :=
  ∀ {h : List Val} {a : Nat} {c : Ctx U32}, h[a]? = some (rep hash stateLen c) → c.state.length = 10 → c.block.length = 64 → ∀ {n : Nat}, 18 < n →
    ∃ t c', H c = .ok c' ∧ c'.state.length = 10 ∧ c'.block.length = 64 ∧ c'.len = c.len ∧ c'.bPos = 0 ∧
      run P (n + 1) path 0 hash [obj path ty a] h = .ok [] ⟨h.set a (rep hash stateLen c') ++ t, []⟩

/-- What holds of the states of an object. -/
def Inv (c : Ctx U32) : Prop := c.state.length = 10 ∧ c.block.length = 64 ∧ c.bPos < 64

theorem part (hash : Name) (stateLen : Nat) (st : List U32) (len : U64) (bPos : Nat) :
    Part [.fld (n! "block")] (fun b => rep hash stateLen ⟨st, len, b, bPos⟩) := ⟨fun _ => rfl, fun _ _ => rfl⟩

/-- The variables of `Write`. -/
abbrev envW (v : Val) (m s n a : Nat) : List (Name × Val) :=
  [(n! "space", .int s), (n! "nToWrite", .int m), (n! "err", .nil), (n! "n", .int n), (n! "p", v), (n! "c", obj path ty a)]

section
variable {P : Prog} (hP : findPkg path P.pkgs = some pkg) (hW : 32 ≤ P.W) {hash : Name} {stateLen : Nat} {H : Ctx U32 → Res (Ctx U32)}
include hP hW

theorem run_Write (hH : RunsHash P hash stateLen H) {h : List Val} {a : Nat} {c : Ctx U32} {v : Val} {b : List U8} (ha : h[a]? = some (rep hash stateLen c)) (hc : Inv c)
    (hv : IsBytes h v b) (hne : base v ≠ some a) (hl : (b.length : Int) < 2 ^ (P.W - 1)) {n : Nat} (hn : b.length + 20 < n) :
    ∃ t c', BlockHash.write H c b = .ok (c', b.length, false) ∧ Inv c' ∧
      run P (n + 1) path ty (n! "Write") [obj path ty a, v] h = .ok [.int b.length, .nil] ⟨h.set a (rep hash stateLen c') ++ t, []⟩ := by
  have hW0 : 0 < P.W := by omega
  have h31 : (2 : Int) ^ 31 ≤ 2 ^ (P.W - 1) := by
    exact_mod_cast Nat.pow_le_pow_right (n := 2) (by decide) (by omega : 31 ≤ P.W - 1)
  have hR := elem_repo hP
  obtain ⟨hst, hbl, hbp⟩ := hc
  have hah := lt_of_get ha
  have hpl := hv.has.plain
  have hlen := hv.has.len
  have hsp : wrap P.W (64 - (c.bPos : Int)) = (64 - c.bPos : Nat) := by
    rw [wrap_eq (by omega) (by omega) hW0]
    omega
  rw [run_func hP find_Write]
  eval_go [hpl, hlen, ha, lt_of_get ha, hsp]
  have h10 : c.len + BitVec.ofInt 64 (b.length : Int) = c.len + BitVec.ofNat 64 b.length := by rw [BitVec.ofInt_natCast]
  rw [h10]
  obtain ⟨c₀, hc₀⟩ : ∃ c₀ : Ctx U32, c₀ = { c with len := c.len + BitVec.ofNat 64 b.length } := ⟨_, rfl⟩
  have hwr : BlockHash.write H c b = (writeLoop H (b.length + 1) c₀ b b.length (64 - c₀.bPos) >>= fun c => .ok (c, b.length, false)) := by
    rw [hc₀]
    rfl
  obtain ⟨R, hR0⟩ : ∃ R, R = writeLoop H (b.length + 1) c₀ b b.length (64 - c₀.bPos) := ⟨_, rfl⟩
  rw [← hR0] at hwr
  generalize hlp : loop _ _ _ _ _ = o
  obtain ⟨t, c', hm, hi', ho⟩ : ∃ t c', R = .ok c' ∧ Inv c' ∧
      ((∃ v' m s, o = .ok .next ⟨h.set a (rep hash stateLen c') ++ t, envW v' m s b.length a⟩) ∨
      ∃ v' m s, o = .ok (.ret [.int b.length, .nil]) ⟨h.set a (rep hash stateLen c') ++ t, envW v' m s b.length a⟩) := by
    refine loop_post (α := List Val × Ctx U32 × Val × List U8)
      (fun o => ∃ t c', R = .ok c' ∧ Inv c' ∧
        ((∃ v' m s, o = .ok .next ⟨h.set a (rep hash stateLen c') ++ t, envW v' m s b.length a⟩) ∨
        ∃ v' m s, o = .ok (.ret [.int b.length, .nil]) ⟨h.set a (rep hash stateLen c') ++ t, envW v' m s b.length a⟩))
      (fun x => Inv x.2.1 ∧ IsBytes (h.set a (rep hash stateLen x.2.1) ++ x.1) x.2.2.1 x.2.2.2 ∧ base x.2.2.1 ≠ some a ∧ x.2.2.2.length ≤ b.length ∧
        ∃ f, x.2.2.2.length < f ∧ R = writeLoop H f x.2.1 x.2.2.2 x.2.2.2.length (64 - x.2.1.bPos))
      (fun x => ⟨h.set a (rep hash stateLen x.2.1) ++ x.1, envW x.2.2.1 x.2.2.2.length (64 - x.2.1.bPos) b.length a⟩)
      (fun x => x.2.2.2.length) ?_ ([], c₀, v, b) ?_ (by simp only; omega) ?_ hlp
    · clear hlp hwr ha hv hne hpl hlen hst hbl hbp hsp h10 hc₀
      rintro ⟨t₁, c₁, v₁, b₁⟩ k ⟨⟨hst, hbl, hbp⟩, hv, hne, hle, f, hf, hm⟩ hk ih
      simp only at hst hbl hbp hv hne hle hf hm hk ih ⊢
      obtain ⟨f, rfl⟩ : ∃ g, f = g + 1 := ⟨f - 1, by omega⟩
      have hpl := hv.has.plain
      have hal : a < h.length := hah
      have ha₁ : (h.set a (rep hash stateLen c₁) ++ t₁)[a]? = some (rep hash stateLen c₁) := by
        rw [List.getElem?_append_left (by simp [hal]), List.getElem?_set_self hal]
      have hget (x : Val) : (h.set a x ++ t₁)[a]? = some x := by
        rw [List.getElem?_append_left (by simp [hal]), List.getElem?_set_self hal]
      have hset (x y : Val) : (h.set a y ++ t₁).set a x = h.set a x ++ t₁ := by
        rw [List.set_append_left _ _ (by simp [hal]), List.set_set]
      have hblk : (c₁.block.map Val.u8).length = 64 := by simp [hbl]
      have hbp1 : (c₁.bPos : Int) < 65 := by omega
      have hbp2 : c₁.bPos ≤ 64 := by omega
      have hel := elems_of hv
      rw [writeLoop] at hm
      by_cases h0 : 0 < b₁.length
      · have h0' : (0 : Int) < (b₁.length : Int) := by omega
        rw [if_pos h0] at hm
        by_cases hgt : b₁.length < 64 - c₁.bPos
        · have hadd : wrap P.W ((c₁.bPos : Int) + b₁.length) = (c₁.bPos + b₁.length : Nat) := wrap_add (by omega) hW0
          have hcp := (part hash stateLen c₁.state c₁.len c₁.bPos).copy (cap := 64 - c₁.bPos) ha₁ b₁ (off := c₁.bPos) (len := 64 - c₁.bPos) (by omega)
          rw [List.take_of_length_le (by omega), hset] at hcp
          rw [if_pos hgt, put_copy (by omega), List.take_of_length_le (by omega)] at hm
          rw [loop_ret (vs := [.int b.length, .nil]) (s₁ := ⟨h.set a (rep hash stateLen c₁) ++ t₁, envW v₁ b₁.length (64 - c₁.bPos) b.length a⟩)
            (s₂ := ⟨h.set a (rep hash stateLen ⟨c₁.state, c₁.len, put c₁.block c₁.bPos b₁, c₁.bPos + b₁.length⟩) ++ t₁,
              envW v₁ b₁.length (64 - c₁.bPos) b.length a⟩)]
          · exact ⟨t₁, _, hm, ⟨hst, by simp only; rw [put_length (by omega), hbl], by simp only; omega⟩, .inr ⟨v₁, _, _, rfl⟩⟩
          · eval_go [h0', envW]
          · eval_go [envW, hgt, hget, hset, Nat.zero_add, hadd, hpl, ↓hel, hbp1, hbp2, hblk, ↓hcp]
        · rw [if_neg hgt, slice_front (by omega), Res.ok_bind, put_copy (by omega), Res.ok_bind] at hm
          have hadd : wrap P.W ((c₁.bPos : Int) + (64 - c₁.bPos : Nat)) = 64 := by
            rw [wrap_add (by omega) hW0]
            omega
          have hsub : wrap P.W ((b₁.length : Int) - (64 - c₁.bPos : Nat)) = (b₁.length - (64 - c₁.bPos) : Nat) := wrap_sub (by omega) (by omega) hW0
          obtain ⟨v₂, hs₂, hv₂, hn₂⟩ := bytes_upto hv (k := 64 - c₁.bPos) (by omega)
          obtain ⟨v₃, hs₃, hv₃, hn₃⟩ := bytes_from hv (k := 64 - c₁.bPos) (by omega)
          have hel₂ := elems_of hv₂
          have hpl₂ := hv₂.has.plain
          have hpl₃ := hv₃.has.plain
          have hab := able hv
          have hcp := (part hash stateLen c₁.state c₁.len c₁.bPos).copy (cap := 64 - c₁.bPos) ha₁ (b₁.take (64 - c₁.bPos)) (off := c₁.bPos) (len := 64 - c₁.bPos) (by omega)
          rw [hset] at hcp
          rw [hbl] at hm
          obtain ⟨B, hB⟩ : ∃ B, B = put c₁.block c₁.bPos ((b₁.take (64 - c₁.bPos)).take (64 - c₁.bPos)) := ⟨_, rfl⟩
          have hBl : B.length = 64 := by rw [hB, put_length (by simp; omega), hbl]
          rw [← hB] at hcp hm
          rw [show c₁.bPos + (64 - c₁.bPos) = 64 by omega] at hm
          obtain ⟨t₂, c₃, hH₁, hs3, hb3, hl3, hp3, hrun⟩ := hH (c := ⟨c₁.state, c₁.len, B, 64⟩) (hget (rep hash stateLen ⟨c₁.state, c₁.len, B, 64⟩)) hst hBl (n := n - 1) (by omega)
          rw [show n - 1 + 1 = n by omega, hset, List.append_assoc] at hrun
          have e64 : (64 - c₃.bPos : Nat) = 64 := by omega
          rw [hH₁, Res.ok_bind, slice_back (by omega), Res.ok_bind] at hm
          rw [loop_next (s₁ := ⟨h.set a (rep hash stateLen c₁) ++ t₁, envW v₁ b₁.length (64 - c₁.bPos) b.length a⟩)
            (s₂ := ⟨h.set a (rep hash stateLen c₃) ++ (t₁ ++ t₂), envW v₃ (b₁.drop (64 - c₁.bPos)).length (64 - c₃.bPos) b.length a⟩)
            (s₃ := ⟨h.set a (rep hash stateLen c₃) ++ (t₁ ++ t₂), envW v₃ (b₁.drop (64 - c₁.bPos)).length (64 - c₃.bPos) b.length a⟩)]
          · refine ih (t₁ ++ t₂, c₃, v₃, b₁.drop (64 - c₁.bPos)) ⟨⟨hs3, hb3, by simp only; omega⟩, ?_, by simp only; rw [hn₃]; exact hne, by simp; omega, f, by simp; omega, ?_⟩
              (by simp; omega)
            · have := (bytes_set hv₃ (by rw [hn₃]; exact hne) (rep hash stateLen c₃)).append t₂
              rwa [hset, List.append_assoc] at this
            · rw [hm]
              simp only [hp3, List.length_drop]
              rfl
          · eval_go [h0', envW]
          · dsimp only [rep, Int.cast_ofNat_Int] at hrun
            eval_go [envW, hgt, hget, hset, Nat.zero_add, hadd, hpl, hpl₂, hpl₃, ↓hel₂, ↓hs₂, ↓hs₃, hab, hbp1, hbp2, hblk, ↓hcp, hR, ↓hrun, hsub, List.length_drop, e64]
          · eval_go
      · rw [if_neg h0] at hm
        have h0' : ¬ (0 : Int) < (b₁.length : Int) := by omega
        rw [loop_false (s₁ := ⟨h.set a (rep hash stateLen c₁) ++ t₁, envW v₁ b₁.length (64 - c₁.bPos) b.length a⟩)]
        · exact ⟨t₁, c₁, hm, ⟨hst, hbl, hbp⟩, .inl ⟨v₁, _, _, rfl⟩⟩
        · eval_go [h0', envW]
    · subst hc₀
      refine ⟨⟨hst, hbl, hbp⟩, ?_, hne, Nat.le_refl _, b.length + 1, Nat.lt_succ_self _, hR0⟩
      rw [List.append_nil]
      exact bytes_set hv hne _
    · subst hc₀
      simp
  clear hlp
  refine ⟨t, c', by rw [hwr, hm]; rfl, hi', ?_⟩
  rcases ho with ⟨v', m, s, rfl⟩ | ⟨v', m, s, rfl⟩ <;> eval_go [envW]

omit hP hW in
/-- A word of a table of initial values. -/
theorem iv_ok {tab : List U8} (ht : tab.length = 20) {i : Nat} (hi : i < 5) : _root_.Ripemd.ivAt tab i = .ok (.ofNat 32 (beNat (tab.drop (i * 4)))) := by
  unfold _root_.Ripemd.ivAt
  rw [slice_back (by omega), Res.ok_bind, be_eq (by simp; omega)]

omit hP hW in
theorem slice_iv {tab : List U8} (ht : tab.length = 20) {i : Nat} (hi : i < 5) (s : St) :
    slicing (.str tab) (some (.int (i * 4 : Nat))) none s = .ok (.str (tab.drop (i * 4))) s := by
  have h1 : i * 4 < tab.length + 1 := by omega
  have h2 : i * 4 ≤ tab.length := by omega
  eval_go [h1, h2]
  rw [List.take_of_length_le (by simp)]

omit hP hW in
theorem read_iv {tab : List U8} (ht : tab.length = 20) {i : Nat} (hi : i < 5) (H : List Val) (e : List (Name × Val)) :
    readUint true 4 (.slice H.length [] 0 (tab.drop (i * 4)).length (tab.drop (i * 4)).length) ⟨H ++ [.arr ((tab.drop (i * 4)).map .u8)], e⟩ =
      .ok (beNat (tab.drop (i * 4))) ⟨H ++ [.arr ((tab.drop (i * 4)).map .u8)], e⟩ := by
  have := read_be (h := H ++ [.arr ((tab.drop (i * 4)).map .u8)]) (a := H.length) (p := []) (off := 0) (len := (tab.drop (i * 4)).length)
    (cap := (tab.drop (i * 4)).length) (get_last _ _) (l := tab.drop (i * 4)) rfl (by simp; omega) (by simp) e
  rwa [List.drop_zero] at this

/-- The variables of the loops of `Reset`. -/
abbrev envR (i n a : Nat) : List (Name × Val) := [(n! "i", .int i), (n! "n", .int n), (n! "c", obj path ty a)]

theorem run_Reset (hS : P.std = stdlib) (hB : elemN (n! "encoding/binary") (P.pkgs.map Pkg.path) = false) {h : List Val} {a : Nat} {c : Ctx U32}
    (ha : h[a]? = some (rep hash stateLen c)) (hst : c.state.length = 10) (hle : stateLen ≤ 10) {n : Nat} (hn : 6 < n) :
    ∃ t st, _root_.Ripemd.reset ⟨H, stateLen⟩ c = .ok ⟨st, 0, c.block, 0⟩ ∧ st.length = 10 ∧
      run P (n + 1) path ty (n! "Reset") [obj path ty a] h = .ok [] ⟨h.set a (rep hash stateLen ⟨st, 0, c.block, 0⟩) ++ t, []⟩ := by
  have hW0 : 0 < P.W := by omega
  have h31 : (2 : Int) ^ 31 ≤ 2 ^ (P.W - 1) := by
    exact_mod_cast Nat.pow_le_pow_right (n := 2) (by decide) (by omega : 31 ≤ P.W - 1)
  have hah := lt_of_get ha
  have hrs : ∀ st, (if stateLen > 5 then _root_.Ripemd.resetLoop2 (stateLen / 2) (stateLen / 2) 0 c.state else _root_.Ripemd.resetLoop1 stateLen 0 c.state) = .ok st →
      _root_.Ripemd.reset ⟨H, stateLen⟩ c = .ok ⟨st, 0, c.block, 0⟩ := by
    intro st hst
    unfold _root_.Ripemd.reset
    simp only
    split at hst <;> rename_i hh
    · rw [if_pos hh, hst]
      rfl
    · rw [if_neg hh, hst]
      rfl
  rw [run_func hP find_Reset]
  by_cases h5 : 5 < stateLen
  · have h5' : (5 : Int) < (stateLen : Int) := by omega
    have hdiv : wrap P.W (Int.tdiv (stateLen : Int) 2) = (stateLen / 2 : Nat) := by
      rw [← wrap_nat (W := P.W) (i := stateLen / 2) (by omega) hW0]
      rfl
    rw [if_pos h5] at hrs
    eval_go [ha, h5', hdiv]
    obtain ⟨R, hR0⟩ : ∃ R, R = _root_.Ripemd.resetLoop2 (stateLen / 2) (stateLen / 2) 0 c.state := ⟨_, rfl⟩
    rw [← hR0] at hrs
    generalize hlp : loop _ _ _ _ _ = o
    obtain ⟨t, st, hm, hs, rfl⟩ : ∃ t st, R = .ok st ∧ st.length = 10 ∧
        o = .ok .next ⟨h.set a (rep hash stateLen { c with state := st }) ++ t, envR (stateLen / 2) (stateLen / 2) a⟩ := by
      refine loop_post (α := Nat × List U32 × List Val)
        (fun o => ∃ t st, R = .ok st ∧ st.length = 10 ∧ o = .ok .next ⟨h.set a (rep hash stateLen { c with state := st }) ++ t, envR (stateLen / 2) (stateLen / 2) a⟩)
        (fun x => x.1 ≤ stateLen / 2 ∧ x.2.1.length = 10 ∧ R = _root_.Ripemd.resetLoop2 (stateLen / 2) (stateLen / 2 - x.1) x.1 x.2.1)
        (fun x => ⟨h.set a (rep hash stateLen { c with state := x.2.1 }) ++ x.2.2, envR x.1 (stateLen / 2) a⟩) (fun x => stateLen / 2 - x.1) ?_ (0, c.state, [])
        ⟨Nat.zero_le _, hst, hR0⟩ (by simp only; omega) ?_ hlp
      · clear hlp hst
        rintro ⟨i, st, t⟩ k ⟨hi, hst, hm⟩ hk ih
        simp only at hi hst hm hk ih ⊢
        by_cases hlt : i < stateLen / 2
        · have hi5 : i < 5 := by omega
          obtain ⟨m, hm'⟩ : ∃ m, stateLen / 2 - i = m + 1 := ⟨stateLen / 2 - i - 1, by omega⟩
          rw [hm', _root_.Ripemd.resetLoop2, iv_ok (tab := _root_.Ripemd.iv) rfl hi5, Res.ok_bind, goSet_lt (by omega), Res.ok_bind, iv_ok (tab := _root_.Ripemd.iv2) rfl hi5, Res.ok_bind, goSet_lt (by simp; omega), Res.ok_bind] at hm
          have hw4 : wrap P.W ((i : Int) * 4) = (i * 4 : Nat) := by
            rw [← wrap_nat (W := P.W) (i := i * 4) (by omega) hW0]
            rfl
          have hlt' : (i : Int) < 10 := by omega
          have hget (x : Val) (l : List Val) : (h.set a x ++ t ++ l)[a]? = some x := by
            rw [List.append_assoc, List.getElem?_append_left (by simp [hah]), List.getElem?_set_self hah]
          have hset (x y : Val) (l : List Val) : (h.set a y ++ t ++ l).set a x = h.set a x ++ t ++ l := by
            rw [List.append_assoc, List.set_append_left _ _ (by simp [hah]), List.set_set, List.append_assoc]
          have hget0 (x : Val) : (h.set a x ++ t)[a]? = some x := by have := hget x []; rwa [List.append_nil] at this
          have hget2 (x : Val) (l l' : List Val) : (h.set a x ++ t ++ l ++ l')[a]? = some x := by
            rw [List.append_assoc (h.set a x ++ t), hget]
          have hset2 (x y : Val) (l l' : List Val) : (h.set a y ++ t ++ l ++ l').set a x = h.set a x ++ t ++ l ++ l' := by
            rw [List.append_assoc (h.set a y ++ t), hset, List.append_assoc (h.set a x ++ t)]
          have hsl (j : Nat) (hj : j < 10) (st : List U32) (hst : st.length = 10) : ∃ x, (st.map Val.u32)[j]? = some (.u32 x) := ⟨st[j]'(by omega), by simp⟩
          have hml : (st.map Val.u32).length = 10 := by simp [hst]
          obtain ⟨x₁, hx₁⟩ := hsl i (by omega) st hst
          have hms (j : Nat) (st : List U32) (x : U32) : (st.map Val.u32).set j (.u32 x) = (st.set j x).map .u32 := by rw [List.map_set]
          have hwa : wrap P.W ((i : Int) + (stateLen / 2 : Nat)) = (i + stateLen / 2 : Nat) := wrap_add (by omega) hW0
          obtain ⟨x₂, hx₂⟩ := hsl (i + stateLen / 2) (by omega) (st.set i (.ofNat 32 (beNat (_root_.Ripemd.iv.drop (i * 4))))) (by simp [hst])
          have hwb : ((i + stateLen / 2 : Nat) : Int) < 10 := by omega
          have hml2 : ((st.set i (BitVec.ofNat 32 (beNat (_root_.Ripemd.iv.drop (i * 4))))).map Val.u32).length = 10 := by simp [hst]
          rw [loop_next (s₁ := ⟨h.set a (rep hash stateLen { c with state := st }) ++ t, envR i (stateLen / 2) a⟩)
            (s₂ := ⟨h.set a (rep hash stateLen { c with state := (st.set i (.ofNat 32 (beNat (_root_.Ripemd.iv.drop (i * 4))))).set (i + stateLen / 2) (.ofNat 32 (beNat (_root_.Ripemd.iv2.drop (i * 4)))) }) ++ (t ++ [.arr ((_root_.Ripemd.iv.drop (i * 4)).map .u8)] ++ [.arr ((_root_.Ripemd.iv2.drop (i * 4)).map .u8)]), envR i (stateLen / 2) a⟩)
            (s₃ := ⟨h.set a (rep hash stateLen { c with state := (st.set i (.ofNat 32 (beNat (_root_.Ripemd.iv.drop (i * 4))))).set (i + stateLen / 2) (.ofNat 32 (beNat (_root_.Ripemd.iv2.drop (i * 4)))) }) ++ (t ++ [.arr ((_root_.Ripemd.iv.drop (i * 4)).map .u8)] ++ [.arr ((_root_.Ripemd.iv2.drop (i * 4)).map .u8)]), envR (i + 1) (stateLen / 2) a⟩)]
          · refine ih (i + 1, _, _) ⟨by simp only; omega, by simp [hst], ?_⟩ (by simp only; omega)
            rw [hm]
            simp only
            rw [show stateLen / 2 - (i + 1) = m by omega]
          · eval_go [envR, hlt]
          · rw [← List.append_assoc, ← List.append_assoc]
            eval_go [envR, hget0, hget, hset, hget2, hset2, hw4, hlt', ↓slice_iv (tab := _root_.Ripemd.iv) rfl hi5, ↓slice_iv (tab := _root_.Ripemd.iv2) rfl hi5, hS, hB, std_be32,
              ↓read_iv (tab := _root_.Ripemd.iv) rfl hi5, ↓read_iv (tab := _root_.Ripemd.iv2) rfl hi5, hml, hx₁, hms, hwa, hwb, hx₂, hml2]
          · eval_go [envR, wrap_succ hlt (show ((stateLen / 2 : Nat) : Int) < _ by omega) hW0]
        · have hie : i = stateLen / 2 := by omega
          rw [hie] at hm ⊢
          rw [loop_false (s₁ := ⟨h.set a (rep hash stateLen { c with state := st }) ++ t, envR (stateLen / 2) (stateLen / 2) a⟩)]
          · refine ⟨t, st, ?_, hst, rfl⟩
            rw [hm, Nat.sub_self]
            rfl
          · eval_go [envR, Nat.lt_irrefl]
      · obtain ⟨_, h2⟩ := List.getElem?_eq_some_iff.1 ha
        simp only [List.append_nil]
        rw [← h2, List.set_getElem_self]
        rfl
    clear hlp
    have hget (x : Val) : (h.set a x ++ t)[a]? = some x := by
      rw [List.getElem?_append_left (by simp [hah]), List.getElem?_set_self hah]
    have hset (x y : Val) : (h.set a y ++ t).set a x = h.set a x ++ t := by
      rw [List.set_append_left _ _ (by simp [hah]), List.set_set]
    refine ⟨t, st, hrs st hm, hs, ?_⟩
    eval_go [envR, hget, hset]
    rfl
  · have h5' : ¬ (5 : Int) < (stateLen : Int) := by omega
    rw [if_neg h5] at hrs
    eval_go [ha, h5']
    obtain ⟨R, hR0⟩ : ∃ R, R = _root_.Ripemd.resetLoop1 stateLen 0 c.state := ⟨_, rfl⟩
    rw [← hR0] at hrs
    generalize hlp : loop _ _ _ _ _ = o
    obtain ⟨t, st, hm, hs, rfl⟩ : ∃ t st, R = .ok st ∧ st.length = 10 ∧
        o = .ok .next ⟨h.set a (rep hash stateLen { c with state := st }) ++ t, envR (stateLen) (stateLen) a⟩ := by
      refine loop_post (α := Nat × List U32 × List Val)
        (fun o => ∃ t st, R = .ok st ∧ st.length = 10 ∧ o = .ok .next ⟨h.set a (rep hash stateLen { c with state := st }) ++ t, envR (stateLen) (stateLen) a⟩)
        (fun x => x.1 ≤ stateLen ∧ x.2.1.length = 10 ∧ R = _root_.Ripemd.resetLoop1 (stateLen - x.1) x.1 x.2.1)
        (fun x => ⟨h.set a (rep hash stateLen { c with state := x.2.1 }) ++ x.2.2, envR x.1 (stateLen) a⟩) (fun x => stateLen - x.1) ?_ (0, c.state, [])
        ⟨Nat.zero_le _, hst, hR0⟩ (by simp only; omega) ?_ hlp
      · clear hlp hst
        rintro ⟨i, st, t⟩ k ⟨hi, hst, hm⟩ hk ih
        simp only at hi hst hm hk ih ⊢
        by_cases hlt : i < stateLen
        · have hi5 : i < 5 := by omega
          obtain ⟨m, hm'⟩ : ∃ m, stateLen - i = m + 1 := ⟨stateLen - i - 1, by omega⟩
          rw [hm', _root_.Ripemd.resetLoop1, iv_ok (tab := _root_.Ripemd.iv) rfl hi5, Res.ok_bind, goSet_lt (by omega), Res.ok_bind] at hm
          have hw4 : wrap P.W ((i : Int) * 4) = (i * 4 : Nat) := by
            rw [← wrap_nat (W := P.W) (i := i * 4) (by omega) hW0]
            rfl
          have hlt' : (i : Int) < 10 := by omega
          have hget (x : Val) (l : List Val) : (h.set a x ++ t ++ l)[a]? = some x := by
            rw [List.append_assoc, List.getElem?_append_left (by simp [hah]), List.getElem?_set_self hah]
          have hset (x y : Val) (l : List Val) : (h.set a y ++ t ++ l).set a x = h.set a x ++ t ++ l := by
            rw [List.append_assoc, List.set_append_left _ _ (by simp [hah]), List.set_set, List.append_assoc]
          have hget0 (x : Val) : (h.set a x ++ t)[a]? = some x := by have := hget x []; rwa [List.append_nil] at this
          have hget2 (x : Val) (l l' : List Val) : (h.set a x ++ t ++ l ++ l')[a]? = some x := by
            rw [List.append_assoc (h.set a x ++ t), hget]
          have hset2 (x y : Val) (l l' : List Val) : (h.set a y ++ t ++ l ++ l').set a x = h.set a x ++ t ++ l ++ l' := by
            rw [List.append_assoc (h.set a y ++ t), hset, List.append_assoc (h.set a x ++ t)]
          have hsl (j : Nat) (hj : j < 10) (st : List U32) (hst : st.length = 10) : ∃ x, (st.map Val.u32)[j]? = some (.u32 x) := ⟨st[j]'(by omega), by simp⟩
          have hml : (st.map Val.u32).length = 10 := by simp [hst]
          obtain ⟨x₁, hx₁⟩ := hsl i (by omega) st hst
          have hms (j : Nat) (st : List U32) (x : U32) : (st.map Val.u32).set j (.u32 x) = (st.set j x).map .u32 := by rw [List.map_set]
          rw [loop_next (s₁ := ⟨h.set a (rep hash stateLen { c with state := st }) ++ t, envR i (stateLen) a⟩)
            (s₂ := ⟨h.set a (rep hash stateLen { c with state := st.set i (.ofNat 32 (beNat (_root_.Ripemd.iv.drop (i * 4)))) }) ++ (t ++ [.arr ((_root_.Ripemd.iv.drop (i * 4)).map .u8)]), envR i (stateLen) a⟩)
            (s₃ := ⟨h.set a (rep hash stateLen { c with state := st.set i (.ofNat 32 (beNat (_root_.Ripemd.iv.drop (i * 4)))) }) ++ (t ++ [.arr ((_root_.Ripemd.iv.drop (i * 4)).map .u8)]), envR (i + 1) (stateLen) a⟩)]
          · refine ih (i + 1, _, _) ⟨by simp only; omega, by simp [hst], ?_⟩ (by simp only; omega)
            rw [hm]
            simp only
            rw [show stateLen - (i + 1) = m by omega]
          · eval_go [envR, hlt]
          · rw [← List.append_assoc]
            eval_go [envR, hget0, hget, hset, hget2, hset2, hw4, hlt', ↓slice_iv (tab := _root_.Ripemd.iv) rfl hi5, ↓slice_iv (tab := _root_.Ripemd.iv2) rfl hi5, hS, hB, std_be32,
              ↓read_iv (tab := _root_.Ripemd.iv) rfl hi5, ↓read_iv (tab := _root_.Ripemd.iv2) rfl hi5, hml, hx₁, hms]
          · eval_go [envR, wrap_succ hlt (show ((stateLen : Nat) : Int) < _ by omega) hW0]
        · have hie : i = stateLen := by omega
          rw [hie] at hm ⊢
          rw [loop_false (s₁ := ⟨h.set a (rep hash stateLen { c with state := st }) ++ t, envR (stateLen) (stateLen) a⟩)]
          · refine ⟨t, st, ?_, hst, rfl⟩
            rw [hm, Nat.sub_self]
            rfl
          · eval_go [envR, Nat.lt_irrefl]
      · obtain ⟨_, h2⟩ := List.getElem?_eq_some_iff.1 ha
        simp only [List.append_nil]
        rw [← h2, List.set_getElem_self]
        rfl
    clear hlp
    have hget (x : Val) : (h.set a x ++ t)[a]? = some x := by
      rw [List.getElem?_append_left (by simp [hah]), List.getElem?_set_self hah]
    have hset (x y : Val) : (h.set a y ++ t).set a x = h.set a x ++ t := by
      rw [List.set_append_left _ _ (by simp [hah]), List.set_set]
    refine ⟨t, st, hrs st hm, hs, ?_⟩
    eval_go [envR, hget, hset]
    rfl

end
end Source.Ripemd
