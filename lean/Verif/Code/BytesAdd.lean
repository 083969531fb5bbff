import Verif.Code.Bytes

/-!
# The code of package `bytes`: addition
-/
namespace Source.Bytes
open GoLang

set_option linter.unusedSimpArgs false

/-! ## The standard library -/

theorem std_get_le32 (v : Val) : stdlib (n! "encoding/binary") (n! "LittleEndian") (n! "Uint32") [v] = (do return .u32 (.ofNat 32 (← readUint false 4 v))) := by kernel_rfl

theorem std_put_le32 (v : Val) (x : BitVec 32) : stdlib (n! "encoding/binary") (n! "LittleEndian") (n! "PutUint32") [v, .u32 x] = putUint false 4 v x.toNat := by kernel_rfl

theorem std_get_be32 (v : Val) : stdlib (n! "encoding/binary") (n! "BigEndian") (n! "Uint32") [v] = (do return .u32 (.ofNat 32 (← readUint true 4 v))) := by kernel_rfl

theorem std_put_be32 (v : Val) (x : BitVec 32) : stdlib (n! "encoding/binary") (n! "BigEndian") (n! "PutUint32") [v, .u32 x] = putUint true 4 v x.toNat := by kernel_rfl

theorem std_get_le16 (v : Val) : stdlib (n! "encoding/binary") (n! "LittleEndian") (n! "Uint16") [v] = (do return .u16 (.ofNat 16 (← readUint false 2 v))) := by kernel_rfl

theorem std_put_le16 (v : Val) (x : BitVec 16) : stdlib (n! "encoding/binary") (n! "LittleEndian") (n! "PutUint16") [v, .u16 x] = putUint false 2 v x.toNat := by kernel_rfl

theorem std_get_be16 (v : Val) : stdlib (n! "encoding/binary") (n! "BigEndian") (n! "Uint16") [v] = (do return .u16 (.ofNat 16 (← readUint true 2 v))) := by kernel_rfl

theorem std_put_be16 (v : Val) (x : BitVec 16) : stdlib (n! "encoding/binary") (n! "BigEndian") (n! "PutUint16") [v, .u16 x] = putUint true 2 v x.toNat := by kernel_rfl

section
variable {P : Prog} (hP : findPkg path P.pkgs = some pkg) {L : Layout} {h : List Val} {m : Mem}
variable (hS : P.std = stdlib) (hE : elemN (n! "errors") (P.pkgs.map Pkg.path) = false) (hB : elemN (n! "encoding/binary") (P.pkgs.map Pkg.path) = false)
include hP hS

omit hP hS in
theorem map_ok {α β : Type} (f : α → β) (a : α) : f <$> Res.ok a = .ok (f a) := rfl

omit hP hS in
theorem oob0 {v : Val} {s : Slice} (hs : SliceAt L v s) (h0 : ¬ 0 < s.len) (st : St) : elemAt v (.const 0) st = .panic st.heap := by
  rcases hs with ⟨rfl, -⟩ | ⟨a, p, off, cap, rfl, -⟩
  · simp [go]
  · simp [go, show s.len = 0 by omega]

omit hS in
theorem run_addEq8 (hV : View L h m) {vs vb : Val} {s b : Slice} (hs : SliceAt L vs s) (hb : Reads h m vb b) (c : BitVec 8) {n : Nat} :
    Ends L h (fun c => [.u8 c]) (_root_.Bytes.addEq8 m s b c) (run P (n + 1) path 0 (n! "addEq8") [vs, vb, .u8 c] h) := by
  have hvs := hs.plain
  have hvb := hb.plain
  have hlb := hb.len
  rw [run_func hP find_addEq8]
  by_cases h0 : 0 < s.len
  · obtain ⟨l, hl1, hl2⟩ := hs.loc (i := 0) h0 (j := .const 0) rfl
    obtain ⟨hld, hst⟩ := hl2 h m hV
    have hat := (reads hV hs).at0 h0
    by_cases hb0 : 0 < b.len
    · have hb0' : (0 : Int) < (b.len : Int) := by omega
      have hbt := hb.at0 hb0
      obtain ⟨h₂, m₂, hm₂, hV₂, hF₂, hst⟩ := hst ((BitVec.setWidth 16 (m s.base) + BitVec.setWidth 16 (m b.base) + (c &&& 1#8).setWidth 16).setWidth 8)
      eval_go [hvs, hvb, hlb, hb0', hat, hbt, hl1, hst]
      simp only [_root_.Bytes.addEq8, _root_.Bytes.head16, Slice.get, h0, hb0, hm₂, if_true, gt_iff_lt, Nat.add_zero, Res.ok_bind, map_ok]
      exact ⟨h₂, rfl, hV₂, hF₂⟩
    · have hb0' : ¬ (0 : Int) < (b.len : Int) := by omega
      obtain ⟨h₂, m₂, hm₂, hV₂, hF₂, hst⟩ := hst ((BitVec.setWidth 16 (m s.base) + 0#16 + (c &&& 1#8).setWidth 16).setWidth 8)
      eval_go [hvs, hvb, hlb, hb0', hat, hl1, hst]
      simp only [_root_.Bytes.addEq8, _root_.Bytes.head16, Slice.get, h0, hb0, hm₂, if_true, if_false, gt_iff_lt, Nat.add_zero, Res.ok_bind, map_ok]
      exact ⟨h₂, rfl, hV₂, hF₂⟩
  · have hat := oob0 hs h0
    eval_go [hvs, hvb, hat]
    rw [_root_.Bytes.addEq8, Slice.get, if_neg h0]
    exact ⟨h, rfl, .refl ..⟩

include hB in
theorem run_addEq32LE (hW : 32 ≤ P.W) (hV : View L h m) {vs vb : Val} {s b : Slice} (hs : SliceAt L vs s) (hb : Reads h m vb b) (c : BitVec 8) {n : Nat} (hn : 8 ≤ n) :
    Ends L h (fun c => [.u8 c]) (_root_.Bytes.addEq32LE m s b c) (run P (n + 1) path 0 (n! "addEq32LE") [vs, vb, .u8 c] h) := by
  have hvs := hs.plain
  have hvb := hb.plain
  have hlb := hb.len
  rw [run_func hP find_addEq32LE]
  by_cases h0 : 4 ≤ s.len
  · obtain ⟨y, hy, fr⟩ := get_le32 hV hs h0
    simp only [_root_.Bytes.addEq32LE, hy, Res.ok_bind]
    obtain ⟨q, hq⟩ : ∃ q, q = if b.len < 4 then b.len else 4 := ⟨_, rfl⟩
    have hqb : q ≤ b.len := by split at hq <;> omega
    have hqk : q ≤ 4 := by split at hq <;> omega
    rw [← hq]
    by_cases hlt : b.len < 4
    on_goal 1 =>
      have hlt' : (b.len : Int) < 4 := by omega
      eval_go [hvs, hvb, hlb, hlt', fr, hB, hS, std_get_le32, std_put_le32]
      rw [if_pos hlt] at hq
      rw [← hq]
      clear hlt' hlt hq
    on_goal 2 =>
      have hlt' : ¬ (b.len : Int) < 4 := by omega
      eval_go [hvs, hvb, hlb, hlt', fr, hB, hS, std_get_le32, std_put_le32]
      rw [if_neg hlt] at hq
      rw [show (4 : Int) = (q : Nat) by rw [hq]; rfl]
      clear hlt' hlt hq
    all_goals
      clear fr hlb
      generalize hA : BitVec.setWidth 64 (BitVec.ofNat 32 y) = A
      generalize hlp : loop _ _ _ _ _ = out
      obtain ⟨x, rfl, hx⟩ : ∃ x, out = .ok .next ⟨h, [(n! "i", .int q), (n! "n", .int q), (n! "b64", .u64 x), (n! "a64", .u64 A), (n! "carry", .u8 0), (n! "carryBit", .u8 c), (n! "b", vb), (n! "sum", vs)]⟩ ∧ _root_.Bytes.gatherLE m b q 0 0#64 = .ok x := by
        refine loop_post (α := Nat × BitVec 64)
          (fun out => ∃ x, out = .ok .next ⟨h, [(n! "i", .int q), (n! "n", .int q), (n! "b64", .u64 x), (n! "a64", .u64 A), (n! "carry", .u8 0), (n! "carryBit", .u8 c), (n! "b", vb), (n! "sum", vs)]⟩ ∧ _root_.Bytes.gatherLE m b q 0 0#64 = .ok x)
          (fun x => x.1 ≤ q ∧ _root_.Bytes.gatherLE m b q 0 0#64 = _root_.Bytes.gatherLE m b (q - x.1) x.1 x.2)
          (fun x => ⟨h, [(n! "i", .int x.1), (n! "n", .int q), (n! "b64", .u64 x.2), (n! "a64", .u64 A), (n! "carry", .u8 0), (n! "carryBit", .u8 c), (n! "b", vb), (n! "sum", vs)]⟩) (fun x => q - x.1) ?_ (0, 0#64) ⟨by simp, rfl⟩ (by simp; omega) rfl hlp
        clear hlp
        rintro ⟨i, x⟩ r ⟨hi, e₁⟩ hr ih
        simp only at e₁ hr ih hi ⊢
        by_cases hiq : i < q
        · have hiq' : (i : Int) < (q : Int) := by omega
          have hat := hb.elem (i := i) (by omega)
          have hp : (2 : Int) ^ 31 ≤ 2 ^ (P.W - 1) := by
            have := Nat.pow_le_pow_right (n := 2) (by decide) (show 31 ≤ P.W - 1 by omega)
            exact_mod_cast this
          have hw := wrap_succ hiq (by omega) (show 0 < P.W by omega)
          have hw8 : wrap P.W (8 * (i : Int)) = (8 * i : Nat) := by
            rw [← wrap_nat (W := P.W) (i := 8 * i) (by omega) (by omega)]; simp
          rw [loop_next (s₁ := ⟨h, [(n! "i", .int i), (n! "n", .int q), (n! "b64", .u64 x), (n! "a64", .u64 A), (n! "carry", .u8 0), (n! "carryBit", .u8 c), (n! "b", vb), (n! "sum", vs)]⟩)
            (s₂ := ⟨h, [(n! "i", .int i), (n! "n", .int q), (n! "b64", .u64 (x + (m (b.base + i)).setWidth 64 <<< (8 * i))), (n! "a64", .u64 A), (n! "carry", .u8 0), (n! "carryBit", .u8 c), (n! "b", vb), (n! "sum", vs)]⟩)
            (s₃ := ⟨h, [(n! "i", .int (i + 1 : Nat)), (n! "n", .int q), (n! "b64", .u64 (x + (m (b.base + i)).setWidth 64 <<< (8 * i))), (n! "a64", .u64 A), (n! "carry", .u8 0), (n! "carryBit", .u8 c), (n! "b", vb), (n! "sum", vs)]⟩)]
          · refine ih (i + 1, x + (m (b.base + i)).setWidth 64 <<< (8 * i)) ⟨hiq, ?_⟩ (by show q - (i + 1) < _; omega)
            rw [e₁, show q - i = q - (i + 1) + 1 by omega, _root_.Bytes.gatherLE]
            simp only [Slice.get, show i < b.len by omega, if_true, Res.ok_bind]
          all_goals eval_go [hvs, hvb, hiq', hat, hw8, hw, show ¬ ((8 * i : Nat) : Int) < 0 by omega]
        · obtain rfl : i = q := by omega
          rw [loop_false (s₁ := ⟨h, [(n! "i", .int i), (n! "n", .int i), (n! "b64", .u64 x), (n! "a64", .u64 A), (n! "carry", .u8 0), (n! "carryBit", .u8 c), (n! "b", vb), (n! "sum", vs)]⟩)]
          · exact ⟨x, rfl, by simpa [_root_.Bytes.gatherLE] using e₁⟩
          · eval_go [hvs, hvb, decide_false, hiq]
      clear hlp
      obtain ⟨h₂, m₂, hm₂, hV₂, hF₂, fp⟩ := put_le32 hV hs h0 ((A + x + (c &&& 1#8).setWidth 64).setWidth 32)
      simp only [hx, Res.ok_bind, hm₂]
      eval_go [hvs, hvb, fp, hB, hS, std_get_le32, std_put_le32]
      exact ⟨h₂, rfl, hV₂, hF₂⟩
  · have fr := hs.read_panic false h0
    eval_go [hvs, hvb, fr, hB, hS, std_get_le32, std_put_le32]
    simp only [_root_.Bytes.addEq32LE, _root_.Bytes.leUint32, Slice.get, show ¬ 3 < s.len by omega, if_false, Res.panic_bind]
    exact ⟨h, rfl, .refl ..⟩

include hB in
theorem run_addEq32BE (hW : 32 ≤ P.W) (hV : View L h m) {vs vb : Val} {s b : Slice} (hs : SliceAt L vs s) (hb : Reads h m vb b) (c : BitVec 8) {n : Nat} (hn : 8 ≤ n) :
    Ends L h (fun c => [.u8 c]) (_root_.Bytes.addEq32BE m s b c) (run P (n + 1) path 0 (n! "addEq32BE") [vs, vb, .u8 c] h) := by
  have hvs := hs.plain
  have hvb := hb.plain
  have hlb := hb.len
  rw [run_func hP find_addEq32BE]
  by_cases h0 : 4 ≤ s.len
  · obtain ⟨y, hy, fr⟩ := get_be32 hV hs h0
    simp only [_root_.Bytes.addEq32BE, hy, Res.ok_bind]
    obtain ⟨q, hq⟩ : ∃ q, q = if b.len < 4 then b.len else 4 := ⟨_, rfl⟩
    have hqb : q ≤ b.len := by split at hq <;> omega
    have hqk : q ≤ 4 := by split at hq <;> omega
    rw [← hq]
    by_cases hlt : b.len < 4
    on_goal 1 =>
      have hlt' : (b.len : Int) < 4 := by omega
      eval_go [hvs, hvb, hlb, hlt', fr, hB, hS, std_get_be32, std_put_be32]
      rw [if_pos hlt] at hq
      rw [← hq]
      clear hlt' hlt hq
    on_goal 2 =>
      have hlt' : ¬ (b.len : Int) < 4 := by omega
      eval_go [hvs, hvb, hlb, hlt', fr, hB, hS, std_get_be32, std_put_be32]
      rw [if_neg hlt] at hq
      rw [show (4 : Int) = (q : Nat) by rw [hq]; rfl]
      clear hlt' hlt hq
    all_goals
      clear fr hlb
      generalize hA : BitVec.setWidth 64 (BitVec.ofNat 32 y) = A
      generalize hlp : loop _ _ _ _ _ = out
      obtain ⟨x, rfl, hx⟩ : ∃ x, out = .ok .next ⟨h, [(n! "i", .int q), (n! "n", .int q), (n! "b64", .u64 x), (n! "a64", .u64 A), (n! "carry", .u8 0), (n! "carryBit", .u8 c), (n! "b", vb), (n! "sum", vs)]⟩ ∧ _root_.Bytes.gatherBE m b q 0 0#64 = .ok x := by
        refine loop_post (α := Nat × BitVec 64)
          (fun out => ∃ x, out = .ok .next ⟨h, [(n! "i", .int q), (n! "n", .int q), (n! "b64", .u64 x), (n! "a64", .u64 A), (n! "carry", .u8 0), (n! "carryBit", .u8 c), (n! "b", vb), (n! "sum", vs)]⟩ ∧ _root_.Bytes.gatherBE m b q 0 0#64 = .ok x)
          (fun x => x.1 ≤ q ∧ _root_.Bytes.gatherBE m b q 0 0#64 = _root_.Bytes.gatherBE m b (q - x.1) x.1 x.2)
          (fun x => ⟨h, [(n! "i", .int x.1), (n! "n", .int q), (n! "b64", .u64 x.2), (n! "a64", .u64 A), (n! "carry", .u8 0), (n! "carryBit", .u8 c), (n! "b", vb), (n! "sum", vs)]⟩) (fun x => q - x.1) ?_ (0, 0#64) ⟨by simp, rfl⟩ (by simp; omega) rfl hlp
        clear hlp
        rintro ⟨i, x⟩ r ⟨hi, e₁⟩ hr ih
        simp only at e₁ hr ih hi ⊢
        by_cases hiq : i < q
        · have hiq' : (i : Int) < (q : Int) := by omega
          have hat := hb.elem (i := i) (by omega)
          have hp : (2 : Int) ^ 31 ≤ 2 ^ (P.W - 1) := by
            have := Nat.pow_le_pow_right (n := 2) (by decide) (show 31 ≤ P.W - 1 by omega)
            exact_mod_cast this
          have hw := wrap_succ hiq (by omega) (show 0 < P.W by omega)
          have hw8 : wrap P.W (8 * (i : Int)) = (8 * i : Nat) := by
            rw [← wrap_nat (W := P.W) (i := 8 * i) (by omega) (by omega)]; simp
          rw [loop_next (s₁ := ⟨h, [(n! "i", .int i), (n! "n", .int q), (n! "b64", .u64 x), (n! "a64", .u64 A), (n! "carry", .u8 0), (n! "carryBit", .u8 c), (n! "b", vb), (n! "sum", vs)]⟩)
            (s₂ := ⟨h, [(n! "i", .int i), (n! "n", .int q), (n! "b64", .u64 (x <<< 8 ||| (m (b.base + i)).setWidth 64)), (n! "a64", .u64 A), (n! "carry", .u8 0), (n! "carryBit", .u8 c), (n! "b", vb), (n! "sum", vs)]⟩)
            (s₃ := ⟨h, [(n! "i", .int (i + 1 : Nat)), (n! "n", .int q), (n! "b64", .u64 (x <<< 8 ||| (m (b.base + i)).setWidth 64)), (n! "a64", .u64 A), (n! "carry", .u8 0), (n! "carryBit", .u8 c), (n! "b", vb), (n! "sum", vs)]⟩)]
          · refine ih (i + 1, x <<< 8 ||| (m (b.base + i)).setWidth 64) ⟨hiq, ?_⟩ (by show q - (i + 1) < _; omega)
            rw [e₁, show q - i = q - (i + 1) + 1 by omega, _root_.Bytes.gatherBE]
            simp only [Slice.get, show i < b.len by omega, if_true, Res.ok_bind]
          all_goals eval_go [hvs, hvb, hiq', hat, hw8, hw, show ¬ ((8 * i : Nat) : Int) < 0 by omega]
        · obtain rfl : i = q := by omega
          rw [loop_false (s₁ := ⟨h, [(n! "i", .int i), (n! "n", .int i), (n! "b64", .u64 x), (n! "a64", .u64 A), (n! "carry", .u8 0), (n! "carryBit", .u8 c), (n! "b", vb), (n! "sum", vs)]⟩)]
          · exact ⟨x, rfl, by simpa [_root_.Bytes.gatherBE] using e₁⟩
          · eval_go [hvs, hvb, decide_false, hiq]
      clear hlp
      obtain ⟨h₂, m₂, hm₂, hV₂, hF₂, fp⟩ := put_be32 hV hs h0 ((A + x + (c &&& 1#8).setWidth 64).setWidth 32)
      simp only [hx, Res.ok_bind, hm₂]
      eval_go [hvs, hvb, fp, hB, hS, std_get_be32, std_put_be32]
      exact ⟨h₂, rfl, hV₂, hF₂⟩
  · have fr := hs.read_panic true h0
    eval_go [hvs, hvb, fr, hB, hS, std_get_be32, std_put_be32]
    simp only [_root_.Bytes.addEq32BE, _root_.Bytes.beUint32, Slice.get, show ¬ 3 < s.len by omega, if_false, Res.panic_bind]
    exact ⟨h, rfl, .refl ..⟩

include hB in
theorem run_addEq16LE (hW : 32 ≤ P.W) (hV : View L h m) {vs vb : Val} {s b : Slice} (hs : SliceAt L vs s) (hb : Reads h m vb b) (c : BitVec 8) {n : Nat} (hn : 8 ≤ n) :
    Ends L h (fun c => [.u8 c]) (_root_.Bytes.addEq16LE m s b c) (run P (n + 1) path 0 (n! "addEq16LE") [vs, vb, .u8 c] h) := by
  have hvs := hs.plain
  have hvb := hb.plain
  have hlb := hb.len
  rw [run_func hP find_addEq16LE]
  by_cases h0 : 2 ≤ s.len
  · obtain ⟨y, hy, fr⟩ := get_le16 hV hs h0
    simp only [_root_.Bytes.addEq16LE, hy, Res.ok_bind]
    obtain ⟨q, hq⟩ : ∃ q, q = if b.len < 2 then b.len else 2 := ⟨_, rfl⟩
    have hqb : q ≤ b.len := by split at hq <;> omega
    have hqk : q ≤ 2 := by split at hq <;> omega
    rw [← hq]
    by_cases hlt : b.len < 2
    on_goal 1 =>
      have hlt' : (b.len : Int) < 2 := by omega
      eval_go [hvs, hvb, hlb, hlt', fr, hB, hS, std_get_le16, std_put_le16]
      rw [if_pos hlt] at hq
      rw [← hq]
      clear hlt' hlt hq
    on_goal 2 =>
      have hlt' : ¬ (b.len : Int) < 2 := by omega
      eval_go [hvs, hvb, hlb, hlt', fr, hB, hS, std_get_le16, std_put_le16]
      rw [if_neg hlt] at hq
      rw [show (2 : Int) = (q : Nat) by rw [hq]; rfl]
      clear hlt' hlt hq
    all_goals
      clear fr hlb
      generalize hA : BitVec.setWidth 32 (BitVec.ofNat 16 y) = A
      generalize hlp : loop _ _ _ _ _ = out
      obtain ⟨x, rfl, hx⟩ : ∃ x, out = .ok .next ⟨h, [(n! "n", .int q), (n! "i", .int q), (n! "b32", .u32 x), (n! "a32", .u32 A), (n! "carry", .u8 0), (n! "carryBit", .u8 c), (n! "b", vb), (n! "sum", vs)]⟩ ∧ _root_.Bytes.gatherLE m b q 0 0#32 = .ok x := by
        refine loop_post (α := Nat × BitVec 32)
          (fun out => ∃ x, out = .ok .next ⟨h, [(n! "n", .int q), (n! "i", .int q), (n! "b32", .u32 x), (n! "a32", .u32 A), (n! "carry", .u8 0), (n! "carryBit", .u8 c), (n! "b", vb), (n! "sum", vs)]⟩ ∧ _root_.Bytes.gatherLE m b q 0 0#32 = .ok x)
          (fun x => x.1 ≤ q ∧ _root_.Bytes.gatherLE m b q 0 0#32 = _root_.Bytes.gatherLE m b (q - x.1) x.1 x.2)
          (fun x => ⟨h, [(n! "n", .int q), (n! "i", .int x.1), (n! "b32", .u32 x.2), (n! "a32", .u32 A), (n! "carry", .u8 0), (n! "carryBit", .u8 c), (n! "b", vb), (n! "sum", vs)]⟩) (fun x => q - x.1) ?_ (0, 0#32) ⟨by simp, rfl⟩ (by simp; omega) rfl hlp
        clear hlp
        rintro ⟨i, x⟩ r ⟨hi, e₁⟩ hr ih
        simp only at e₁ hr ih hi ⊢
        by_cases hiq : i < q
        · have hiq' : (i : Int) < (q : Int) := by omega
          have hat := hb.elem (i := i) (by omega)
          have hp : (2 : Int) ^ 31 ≤ 2 ^ (P.W - 1) := by
            have := Nat.pow_le_pow_right (n := 2) (by decide) (show 31 ≤ P.W - 1 by omega)
            exact_mod_cast this
          have hw := wrap_succ hiq (by omega) (show 0 < P.W by omega)
          have hw8 : wrap P.W (8 * (i : Int)) = (8 * i : Nat) := by
            rw [← wrap_nat (W := P.W) (i := 8 * i) (by omega) (by omega)]; simp
          rw [loop_next (s₁ := ⟨h, [(n! "n", .int q), (n! "i", .int i), (n! "b32", .u32 x), (n! "a32", .u32 A), (n! "carry", .u8 0), (n! "carryBit", .u8 c), (n! "b", vb), (n! "sum", vs)]⟩)
            (s₂ := ⟨h, [(n! "n", .int q), (n! "i", .int i), (n! "b32", .u32 (x + (m (b.base + i)).setWidth 32 <<< (8 * i))), (n! "a32", .u32 A), (n! "carry", .u8 0), (n! "carryBit", .u8 c), (n! "b", vb), (n! "sum", vs)]⟩)
            (s₃ := ⟨h, [(n! "n", .int q), (n! "i", .int (i + 1 : Nat)), (n! "b32", .u32 (x + (m (b.base + i)).setWidth 32 <<< (8 * i))), (n! "a32", .u32 A), (n! "carry", .u8 0), (n! "carryBit", .u8 c), (n! "b", vb), (n! "sum", vs)]⟩)]
          · refine ih (i + 1, x + (m (b.base + i)).setWidth 32 <<< (8 * i)) ⟨hiq, ?_⟩ (by show q - (i + 1) < _; omega)
            rw [e₁, show q - i = q - (i + 1) + 1 by omega, _root_.Bytes.gatherLE]
            simp only [Slice.get, show i < b.len by omega, if_true, Res.ok_bind]
          all_goals eval_go [hvs, hvb, hiq', hat, hw8, hw, show ¬ ((8 * i : Nat) : Int) < 0 by omega]
        · obtain rfl : i = q := by omega
          rw [loop_false (s₁ := ⟨h, [(n! "n", .int i), (n! "i", .int i), (n! "b32", .u32 x), (n! "a32", .u32 A), (n! "carry", .u8 0), (n! "carryBit", .u8 c), (n! "b", vb), (n! "sum", vs)]⟩)]
          · exact ⟨x, rfl, by simpa [_root_.Bytes.gatherLE] using e₁⟩
          · eval_go [hvs, hvb, decide_false, hiq]
      clear hlp
      obtain ⟨h₂, m₂, hm₂, hV₂, hF₂, fp⟩ := put_le16 hV hs h0 ((A + x + (c &&& 1#8).setWidth 32).setWidth 16)
      simp only [hx, Res.ok_bind, hm₂]
      eval_go [hvs, hvb, fp, hB, hS, std_get_le16, std_put_le16]
      exact ⟨h₂, rfl, hV₂, hF₂⟩
  · have fr := hs.read_panic false h0
    eval_go [hvs, hvb, fr, hB, hS, std_get_le16, std_put_le16]
    simp only [_root_.Bytes.addEq16LE, _root_.Bytes.leUint16, Slice.get, show ¬ 1 < s.len by omega, if_false, Res.panic_bind]
    exact ⟨h, rfl, .refl ..⟩

include hB in
theorem run_addEq16BE (hW : 32 ≤ P.W) (hV : View L h m) {vs vb : Val} {s b : Slice} (hs : SliceAt L vs s) (hb : Reads h m vb b) (c : BitVec 8) {n : Nat} (hn : 8 ≤ n) :
    Ends L h (fun c => [.u8 c]) (_root_.Bytes.addEq16BE m s b c) (run P (n + 1) path 0 (n! "addEq16BE") [vs, vb, .u8 c] h) := by
  have hvs := hs.plain
  have hvb := hb.plain
  have hlb := hb.len
  rw [run_func hP find_addEq16BE]
  by_cases h0 : 2 ≤ s.len
  · obtain ⟨y, hy, fr⟩ := get_be16 hV hs h0
    simp only [_root_.Bytes.addEq16BE, hy, Res.ok_bind]
    obtain ⟨q, hq⟩ : ∃ q, q = if b.len < 2 then b.len else 2 := ⟨_, rfl⟩
    have hqb : q ≤ b.len := by split at hq <;> omega
    have hqk : q ≤ 2 := by split at hq <;> omega
    rw [← hq]
    by_cases hlt : b.len < 2
    on_goal 1 =>
      have hlt' : (b.len : Int) < 2 := by omega
      eval_go [hvs, hvb, hlb, hlt', fr, hB, hS, std_get_be16, std_put_be16]
      rw [if_pos hlt] at hq
      rw [← hq]
      clear hlt' hlt hq
    on_goal 2 =>
      have hlt' : ¬ (b.len : Int) < 2 := by omega
      eval_go [hvs, hvb, hlb, hlt', fr, hB, hS, std_get_be16, std_put_be16]
      rw [if_neg hlt] at hq
      rw [show (2 : Int) = (q : Nat) by rw [hq]; rfl]
      clear hlt' hlt hq
    all_goals
      clear fr hlb
      generalize hA : BitVec.setWidth 32 (BitVec.ofNat 16 y) = A
      generalize hlp : loop _ _ _ _ _ = out
      obtain ⟨x, rfl, hx⟩ : ∃ x, out = .ok .next ⟨h, [(n! "n", .int q), (n! "i", .int q), (n! "b32", .u32 x), (n! "a32", .u32 A), (n! "carry", .u8 0), (n! "carryBit", .u8 c), (n! "b", vb), (n! "sum", vs)]⟩ ∧ _root_.Bytes.gatherBE m b q 0 0#32 = .ok x := by
        refine loop_post (α := Nat × BitVec 32)
          (fun out => ∃ x, out = .ok .next ⟨h, [(n! "n", .int q), (n! "i", .int q), (n! "b32", .u32 x), (n! "a32", .u32 A), (n! "carry", .u8 0), (n! "carryBit", .u8 c), (n! "b", vb), (n! "sum", vs)]⟩ ∧ _root_.Bytes.gatherBE m b q 0 0#32 = .ok x)
          (fun x => x.1 ≤ q ∧ _root_.Bytes.gatherBE m b q 0 0#32 = _root_.Bytes.gatherBE m b (q - x.1) x.1 x.2)
          (fun x => ⟨h, [(n! "n", .int q), (n! "i", .int x.1), (n! "b32", .u32 x.2), (n! "a32", .u32 A), (n! "carry", .u8 0), (n! "carryBit", .u8 c), (n! "b", vb), (n! "sum", vs)]⟩) (fun x => q - x.1) ?_ (0, 0#32) ⟨by simp, rfl⟩ (by simp; omega) rfl hlp
        clear hlp
        rintro ⟨i, x⟩ r ⟨hi, e₁⟩ hr ih
        simp only at e₁ hr ih hi ⊢
        by_cases hiq : i < q
        · have hiq' : (i : Int) < (q : Int) := by omega
          have hat := hb.elem (i := i) (by omega)
          have hp : (2 : Int) ^ 31 ≤ 2 ^ (P.W - 1) := by
            have := Nat.pow_le_pow_right (n := 2) (by decide) (show 31 ≤ P.W - 1 by omega)
            exact_mod_cast this
          have hw := wrap_succ hiq (by omega) (show 0 < P.W by omega)
          have hw8 : wrap P.W (8 * (i : Int)) = (8 * i : Nat) := by
            rw [← wrap_nat (W := P.W) (i := 8 * i) (by omega) (by omega)]; simp
          rw [loop_next (s₁ := ⟨h, [(n! "n", .int q), (n! "i", .int i), (n! "b32", .u32 x), (n! "a32", .u32 A), (n! "carry", .u8 0), (n! "carryBit", .u8 c), (n! "b", vb), (n! "sum", vs)]⟩)
            (s₂ := ⟨h, [(n! "n", .int q), (n! "i", .int i), (n! "b32", .u32 (x <<< 8 ||| (m (b.base + i)).setWidth 32)), (n! "a32", .u32 A), (n! "carry", .u8 0), (n! "carryBit", .u8 c), (n! "b", vb), (n! "sum", vs)]⟩)
            (s₃ := ⟨h, [(n! "n", .int q), (n! "i", .int (i + 1 : Nat)), (n! "b32", .u32 (x <<< 8 ||| (m (b.base + i)).setWidth 32)), (n! "a32", .u32 A), (n! "carry", .u8 0), (n! "carryBit", .u8 c), (n! "b", vb), (n! "sum", vs)]⟩)]
          · refine ih (i + 1, x <<< 8 ||| (m (b.base + i)).setWidth 32) ⟨hiq, ?_⟩ (by show q - (i + 1) < _; omega)
            rw [e₁, show q - i = q - (i + 1) + 1 by omega, _root_.Bytes.gatherBE]
            simp only [Slice.get, show i < b.len by omega, if_true, Res.ok_bind]
          all_goals eval_go [hvs, hvb, hiq', hat, hw8, hw, show ¬ ((8 * i : Nat) : Int) < 0 by omega]
        · obtain rfl : i = q := by omega
          rw [loop_false (s₁ := ⟨h, [(n! "n", .int i), (n! "i", .int i), (n! "b32", .u32 x), (n! "a32", .u32 A), (n! "carry", .u8 0), (n! "carryBit", .u8 c), (n! "b", vb), (n! "sum", vs)]⟩)]
          · exact ⟨x, rfl, by simpa [_root_.Bytes.gatherBE] using e₁⟩
          · eval_go [hvs, hvb, decide_false, hiq]
      clear hlp
      obtain ⟨h₂, m₂, hm₂, hV₂, hF₂, fp⟩ := put_be16 hV hs h0 ((A + x + (c &&& 1#8).setWidth 32).setWidth 16)
      simp only [hx, Res.ok_bind, hm₂]
      eval_go [hvs, hvb, fp, hB, hS, std_get_be16, std_put_be16]
      exact ⟨h₂, rfl, hV₂, hF₂⟩
  · have fr := hs.read_panic true h0
    eval_go [hvs, hvb, fr, hB, hS, std_get_be16, std_put_be16]
    simp only [_root_.Bytes.addEq16BE, _root_.Bytes.beUint16, Slice.get, show ¬ 1 < s.len by omega, if_false, Res.panic_bind]
    exact ⟨h, rfl, .refl ..⟩

end
end Source.Bytes
