import Verif.Code.Whirlpool

/-!
# The code of package `whirlpool`: the methods
-/
namespace Source.Whirlpool
open GoLang BlockHash Source.Block

theorem find_Write : findFunc ty (n! "Write") pkg.decls = some Whirlpool.ctx_Write := by kernel_rfl
theorem find_Reset : findFunc ty (n! "Reset") pkg.decls = some Whirlpool.ctx_Reset := by kernel_rfl
theorem find_Size : findFunc ty (n! "Size") pkg.decls = some Whirlpool.ctx_Size := by kernel_rfl
theorem find_BlockSize : findFunc ty (n! "BlockSize") pkg.decls = some Whirlpool.ctx_BlockSize := by kernel_rfl
theorem find_New : findFunc 0 (n! "New") pkg.decls = some Whirlpool.New := by kernel_rfl

/-- What holds of the states of an object. -/
def Inv (c : Ctx U64) : Prop := c.state.length = 8 ∧ c.block.length = 64 ∧ c.bPos < 64

theorem part (st : List U64) (len : U64) (bPos : Nat) : Part [.fld (n! "block")] (fun b => rep ⟨st, len, b, bPos⟩) := ⟨fun _ => rfl, fun _ _ => rfl⟩

/-- The variables of `Write`. -/
abbrev envW (v : Val) (m s n a : Nat) : List (Name × Val) :=
  [(n! "space", .int s), (n! "nToWrite", .int m), (n! "err", .nil), (n! "n", .int n), (n! "p", v), (n! "c", obj path ty a)]

section
variable {P : Prog} (hP : findPkg path P.pkgs = some pkg) (hW : 32 ≤ P.W)
include hP hW

theorem run_Write {h : List Val} {a : Nat} {c : Ctx U64} {v : Val} {b : List U8} (ha : h[a]? = some (rep c)) (hc : Inv c)
    (hv : IsBytes h v b) (hne : base v ≠ some a) (hl : (b.length : Int) < 2 ^ (P.W - 1)) {n : Nat} (hn : b.length + 20 < n) :
    ∃ c', BlockHash.write _root_.Whirlpool.hash c b = .ok (c', b.length, false) ∧ Inv c' ∧
      run P (n + 1) path ty (n! "Write") [obj path ty a, v] h = .ok [.int b.length, .nil] ⟨h.set a (rep c'), []⟩ := by
  have hW0 : 0 < P.W := by omega
  have h31 : (2 : Int) ^ 31 ≤ 2 ^ (P.W - 1) := by
    exact_mod_cast Nat.pow_le_pow_right (n := 2) (by decide) (by omega : 31 ≤ P.W - 1)
  have hR := elem_repo hP
  obtain ⟨hst, hbl, hbp⟩ := hc
  have hah := lt_of_get ha
  have hpl := hv.has.plain
  have hlen := hv.has.len
  have hsp : wrap P.W (64 - (c.bPos : Int)) = (64 - c.bPos : Nat) := by
    rw [wrap_eq (by omega) (by omega) hW0]
    omega
  rw [run_func hP find_Write]
  eval_go [hpl, hlen, ha, lt_of_get ha, hsp]
  have h10 : c.len + BitVec.ofInt 64 (b.length : Int) = c.len + BitVec.ofNat 64 b.length := by rw [BitVec.ofInt_natCast]
  rw [h10]
  obtain ⟨c₀, hc₀⟩ : ∃ c₀ : Ctx U64, c₀ = { c with len := c.len + BitVec.ofNat 64 b.length } := ⟨_, rfl⟩
  have hwr : BlockHash.write _root_.Whirlpool.hash c b = (writeLoop _root_.Whirlpool.hash (b.length + 1) c₀ b b.length (64 - c₀.bPos) >>= fun c => .ok (c, b.length, false)) := by
    rw [hc₀]
    rfl
  obtain ⟨R, hR0⟩ : ∃ R, R = writeLoop _root_.Whirlpool.hash (b.length + 1) c₀ b b.length (64 - c₀.bPos) := ⟨_, rfl⟩
  rw [← hR0] at hwr
  generalize hlp : loop _ _ _ _ _ = o
  obtain ⟨c', hm, hi', ho⟩ : ∃ c', R = .ok c' ∧ Inv c' ∧
      ((∃ v' m s, o = .ok .next ⟨h.set a (rep c'), envW v' m s b.length a⟩) ∨
      ∃ v' m s, o = .ok (.ret [.int b.length, .nil]) ⟨h.set a (rep c'), envW v' m s b.length a⟩) := by
    refine loop_post (α := Ctx U64 × Val × List U8)
      (fun o => ∃ c', R = .ok c' ∧ Inv c' ∧
        ((∃ v' m s, o = .ok .next ⟨h.set a (rep c'), envW v' m s b.length a⟩) ∨
        ∃ v' m s, o = .ok (.ret [.int b.length, .nil]) ⟨h.set a (rep c'), envW v' m s b.length a⟩))
      (fun x => Inv x.1 ∧ IsBytes (h.set a (rep x.1)) x.2.1 x.2.2 ∧ base x.2.1 ≠ some a ∧ x.2.2.length ≤ b.length ∧
        ∃ f, x.2.2.length < f ∧ R = writeLoop _root_.Whirlpool.hash f x.1 x.2.2 x.2.2.length (64 - x.1.bPos))
      (fun x => ⟨h.set a (rep x.1), envW x.2.1 x.2.2.length (64 - x.1.bPos) b.length a⟩)
      (fun x => x.2.2.length) ?_ (c₀, v, b) ?_ (by simp only; omega) ?_ hlp
    · clear hlp hwr ha hv hne hpl hlen hst hbl hbp hsp h10 hc₀
      rintro ⟨c₁, v₁, b₁⟩ k ⟨⟨hst, hbl, hbp⟩, hv, hne, hle, f, hf, hm⟩ hk ih
      simp only at hst hbl hbp hv hne hle hf hm hk ih ⊢
      obtain ⟨f, rfl⟩ : ∃ g, f = g + 1 := ⟨f - 1, by omega⟩
      have hpl := hv.has.plain
      have hal : a < h.length := hah
      have ha₁ : (h.set a (rep c₁))[a]? = some (rep c₁) := by
        exact List.getElem?_set_self hal
      have hget (x : Val) : (h.set a x)[a]? = some x := by
        exact List.getElem?_set_self hal
      have hset (x y : Val) : (h.set a y).set a x = h.set a x := by
        exact List.set_set ..
      have hblk : (c₁.block.map Val.u8).length = 64 := by simp [hbl]
      have hbp1 : (c₁.bPos : Int) < 65 := by omega
      have hbp2 : c₁.bPos ≤ 64 := by omega
      have hel := elems_of hv
      rw [writeLoop] at hm
      by_cases h0 : 0 < b₁.length
      · have h0' : (0 : Int) < (b₁.length : Int) := by omega
        rw [if_pos h0] at hm
        by_cases hgt : b₁.length < 64 - c₁.bPos
        · have hadd : wrap P.W ((c₁.bPos : Int) + b₁.length) = (c₁.bPos + b₁.length : Nat) := wrap_add (by omega) hW0
          have hcp := (part c₁.state c₁.len c₁.bPos).copy (cap := 64 - c₁.bPos) ha₁ b₁ (off := c₁.bPos) (len := 64 - c₁.bPos) (by omega)
          rw [List.take_of_length_le (by omega), hset] at hcp
          rw [if_pos hgt, put_copy (by omega), List.take_of_length_le (by omega)] at hm
          rw [loop_ret (vs := [.int b.length, .nil]) (s₁ := ⟨h.set a (rep c₁), envW v₁ b₁.length (64 - c₁.bPos) b.length a⟩)
            (s₂ := ⟨h.set a (rep ⟨c₁.state, c₁.len, put c₁.block c₁.bPos b₁, c₁.bPos + b₁.length⟩),
              envW v₁ b₁.length (64 - c₁.bPos) b.length a⟩)]
          · exact ⟨_, hm, ⟨hst, by simp only; rw [put_length (by omega), hbl], by simp only; omega⟩, .inr ⟨v₁, _, _, rfl⟩⟩
          · eval_go [h0', envW]
          · eval_go [envW, hgt, hget, hset, Nat.zero_add, hadd, hpl, ↓hel, hbp1, hbp2, hblk, ↓hcp]
        · rw [if_neg hgt, slice_front (by omega), Res.ok_bind, put_copy (by omega), Res.ok_bind] at hm
          have hadd : wrap P.W ((c₁.bPos : Int) + (64 - c₁.bPos : Nat)) = 64 := by
            rw [wrap_add (by omega) hW0]
            omega
          have hsub : wrap P.W ((b₁.length : Int) - (64 - c₁.bPos : Nat)) = (b₁.length - (64 - c₁.bPos) : Nat) := wrap_sub (by omega) (by omega) hW0
          obtain ⟨v₂, hs₂, hv₂, hn₂⟩ := bytes_upto hv (k := 64 - c₁.bPos) (by omega)
          obtain ⟨v₃, hs₃, hv₃, hn₃⟩ := bytes_from hv (k := 64 - c₁.bPos) (by omega)
          have hel₂ := elems_of hv₂
          have hpl₂ := hv₂.has.plain
          have hpl₃ := hv₃.has.plain
          have hab := able hv
          have hcp := (part c₁.state c₁.len c₁.bPos).copy (cap := 64 - c₁.bPos) ha₁ (b₁.take (64 - c₁.bPos)) (off := c₁.bPos) (len := 64 - c₁.bPos) (by omega)
          rw [hset] at hcp
          rw [hbl] at hm
          obtain ⟨B, hB⟩ : ∃ B, B = put c₁.block c₁.bPos ((b₁.take (64 - c₁.bPos)).take (64 - c₁.bPos)) := ⟨_, rfl⟩
          have hBl : B.length = 64 := by rw [hB, put_length (by simp; omega), hbl]
          rw [← hB] at hcp hm
          rw [show c₁.bPos + (64 - c₁.bPos) = 64 by omega] at hm
          obtain ⟨c₃, hH₁, hs3, hb3, hl3, hp3, hrun⟩ := run_hash hP hW (c := ⟨c₁.state, c₁.len, B, 64⟩) (hget (rep ⟨c₁.state, c₁.len, B, 64⟩)) hst hBl (n := n - 1) (by omega)
          rw [show n - 1 + 1 = n by omega, hset] at hrun
          have e64 : (64 - c₃.bPos : Nat) = 64 := by omega
          rw [hH₁, Res.ok_bind, slice_back (by omega), Res.ok_bind] at hm
          rw [loop_next (s₁ := ⟨h.set a (rep c₁), envW v₁ b₁.length (64 - c₁.bPos) b.length a⟩)
            (s₂ := ⟨h.set a (rep c₃), envW v₃ (b₁.drop (64 - c₁.bPos)).length (64 - c₃.bPos) b.length a⟩)
            (s₃ := ⟨h.set a (rep c₃), envW v₃ (b₁.drop (64 - c₁.bPos)).length (64 - c₃.bPos) b.length a⟩)]
          · refine ih (c₃, v₃, b₁.drop (64 - c₁.bPos)) ⟨⟨hs3, hb3, by simp only; omega⟩, ?_, by simp only; rw [hn₃]; exact hne, by simp; omega, f, by simp; omega, ?_⟩
              (by simp; omega)
            · have := (bytes_set hv₃ (by rw [hn₃]; exact hne) (rep c₃))
              rwa [hset] at this
            · rw [hm]
              simp only [hp3, List.length_drop]
              rfl
          · eval_go [h0', envW]
          · dsimp only [rep, Int.cast_ofNat_Int] at hrun
            eval_go [envW, hgt, hget, hset, Nat.zero_add, hadd, hpl, hpl₂, hpl₃, ↓hel₂, ↓hs₂, ↓hs₃, hab, hbp1, hbp2, hblk, ↓hcp, hR, ↓hrun, hsub, List.length_drop, e64]
          · eval_go
      · rw [if_neg h0] at hm
        have h0' : ¬ (0 : Int) < (b₁.length : Int) := by omega
        rw [loop_false (s₁ := ⟨h.set a (rep c₁), envW v₁ b₁.length (64 - c₁.bPos) b.length a⟩)]
        · exact ⟨c₁, hm, ⟨hst, hbl, hbp⟩, .inl ⟨v₁, _, _, rfl⟩⟩
        · eval_go [h0', envW]
    · subst hc₀
      refine ⟨⟨hst, hbl, hbp⟩, ?_, hne, Nat.le_refl _, b.length + 1, Nat.lt_succ_self _, hR0⟩
      exact bytes_set hv hne _
    · subst hc₀
      simp
  clear hlp
  refine ⟨c', by rw [hwr, hm]; rfl, hi', ?_⟩
  rcases ho with ⟨v', m, s, rfl⟩ | ⟨v', m, s, rfl⟩ <;> eval_go [envW]


/-- The body of the loop of `Reset`. -/
def resetBody : Stmts := .cons (.assign (.cons (.idx (.sel (.id (n! "c")) (n! "state")) (.id (n! "i"))) .nil) (.cons (.int 0) .nil)) .nil

omit hP hW in
theorem find_ResetS : findFunc ty (n! "Reset") pkg.decls = some (.func (n! "c") true ty (n! "Reset") .nil .nil (.cons (forE (n! "i") (.id (n! "blockSizeU64")) resetBody)
    (.cons (.assign (.cons (.sel (.id (n! "c")) (n! "lenBytes")) .nil) (.cons (.int 0) .nil)) (.cons (.assign (.cons (.sel (.id (n! "c")) (n! "bPos")) .nil) (.cons (.int 0) .nil)) .nil)))) := by kernel_rfl

theorem run_Reset {h : List Val} {a : Nat} {c : Ctx U64} (ha : h[a]? = some (rep c)) (hs : c.state.length = 8) {n : Nat} (hn : 10 < n) :
    ∃ st, _root_.Whirlpool.reset c = .ok ⟨st, 0, c.block, 0⟩ ∧ st.length = 8 ∧ run P (n + 1) path ty (n! "Reset") [obj path ty a] h = .ok [] ⟨h.set a (rep ⟨st, 0, c.block, 0⟩), []⟩ := by
  obtain ⟨hal, h2⟩ := List.getElem?_eq_some_iff.1 ha
  have hh : h.set a (rep c) = h := by rw [← h2, List.set_getElem_self]
  have hl := exec_for (C := P.ctx n pkg (n! "Reset") .nil (run P n)) (nm := n! "i") (lim := .id (n! "blockSizeU64")) (body := resetBody) (N := 8) (σ := List U64) (s := c.state) hW rfl (by decide) (by decide)
    (fun i s => s.set i 0#64) (fun s => s.length = 8) (fun s => h.set a (rep { c with state := s })) (fun s => [(n! "c", obj path ty a)]) 1 (fun _ => rfl)
    (by
      intro i s
      have g1 : find (n! "blockSizeU64") pkg.genv = some (.const 8) := by kernel_rfl
      eval_go [g1])
    (by
      rintro i cs hi hcs
      refine ⟨by simpa using hcs, [], ?_⟩
      have hi' : (i : Int) < 8 := by omega
      simp only [resetBody]
      eval_go [List.length_map, hcs, hi, hi', map_set64, hal, List.getElem?_set_self, List.set_set, List.length_set, at64_val (l := cs) (i := i) (by omega)])
    hs (show 8 < n by omega)
  have hm : _root_.Whirlpool.resetLoop 8 0 c.state = .ok (steps (fun i (s : List U64) => s.set i 0#64) 8 c.state) := by
    refine model_steps (fun n i s => _root_.Whirlpool.resetLoop n i s) id (fun i (s : List U64) => s.set i 0#64) (fun s => s.length = 8) 8 (fun _ _ => rfl) (fun i L _ h => by simpa using h) ?_ hs
    intro m i s hi hs
    simp only [_root_.Whirlpool.resetLoop, Res.ok_bind, goSet64 (l := s) (i := i) (by omega)]
  rw [hh] at hl
  generalize steps (fun i (s : List U64) => s.set i 0#64) 8 c.state = st at *
  refine ⟨st, ?_, hl.2, ?_⟩
  · rw [_root_.Whirlpool.reset, hm, Res.ok_bind]
    rfl
  · rw [run_func hP find_ResetS]
    eval_go [↓hl.1, List.getElem?_set_self, hal, List.set_set, List.length_set]
    rfl

theorem run_New (h : List Val) {n : Nat} (hn : 12 < n) :
    ∃ st, _root_.Whirlpool.new = .ok ⟨st, 0, List.replicate 64 0#8, 0⟩ ∧ st.length = 8 ∧
      run P (n + 1) path 0 (n! "New") [] h = .ok [obj path ty h.length] ⟨h ++ [rep ⟨st, 0, List.replicate 64 0#8, 0⟩], []⟩ := by
  obtain ⟨st, h1, h2, hrun⟩ := run_Reset hP hW (h := h ++ [rep ⟨List.replicate 8 0#64, 0, List.replicate 64 0#8, 0⟩])
    (a := h.length) (List.getElem?_concat_length ..) (by simp) (n := n - 1) (by omega)
  have hset (x y : Val) : (h ++ [x]).set h.length y = h ++ [y] := by simp
  rw [show n - 1 + 1 = n by omega, hset] at hrun
  refine ⟨st, h1, h2, ?_⟩
  simp only [rep, List.map_replicate, Int.cast_ofNat_Int] at hrun
  simp only [rep, List.map_replicate, Int.cast_ofNat_Int]
  rw [run_func hP find_New]
  have g1 : find (n! "blockSizeU64") pkg.genv = some (.const 8) := by kernel_rfl
  have g2 : find (n! "blockSizeBytes") pkg.genv = some (.const 64) := by kernel_rfl
  eval_go [g1, g2]
  erw [hrun]
  eval_go

theorem run_Size {h : List Val} {a : Nat} (n : Nat) :
    run P (n + 1) path ty (n! "Size") [obj path ty a] h = .ok [.int (64 : Nat)] ⟨h, []⟩ := by
  have h31 : (2 : Int) ^ 31 ≤ 2 ^ (P.W - 1) := by
    exact_mod_cast Nat.pow_le_pow_right (n := 2) (by decide) (by omega : 31 ≤ P.W - 1)
  have hk : wrap P.W 64 = 64 := wrap_nat (i := 64) (by omega) (by omega)
  have g2 : find (n! "digestSizeBytes") pkg.genv = some (.const 64) := by kernel_rfl
  rw [run_func hP find_Size]
  eval_go [hk, g2]

theorem run_BlockSize {h : List Val} {a : Nat} (n : Nat) :
    run P (n + 1) path ty (n! "BlockSize") [obj path ty a] h = .ok [.int (64 : Nat)] ⟨h, []⟩ := by
  have h31 : (2 : Int) ^ 31 ≤ 2 ^ (P.W - 1) := by
    exact_mod_cast Nat.pow_le_pow_right (n := 2) (by decide) (by omega : 31 ≤ P.W - 1)
  have hk : wrap P.W 64 = 64 := wrap_nat (i := 64) (by omega) (by omega)
  have g2 : find (n! "blockSizeBytes") pkg.genv = some (.const 64) := by kernel_rfl
  rw [run_func hP find_BlockSize]
  eval_go [hk, g2]

end
end Source.Whirlpool
