import Verif.Lang.HashCode
import Verif.Source.Luhn
import Verif.Model.Checksum

/-!
# The code of package `luhn`
-/
namespace Source.Luhn
open GoLang

abbrev path : Name := n! "github.com/gnabgib/gnablib-go/checksum/luhn"

/-- The package. -/
def pkg : Pkg := ⟨path, importTable file.imports, file.decls, [], []⟩

theorem loaded : loadPkg stdlib path [file] [] = some pkg := by kernel_rfl

theorem text : loadText path [src] [] = some pkg := by
  simp only [loadText, parseAll, parsed, Option.bind_some, Option.map_some, loaded]

theorem find_Checksum : findFunc 0 (n! "Checksum") pkg.decls = some Checksum := by kernel_rfl

/-- The number of decimal digits; zero has none. -/
def digs (n : Nat) : Nat := if n = 0 then 0 else digs (n / 10) + 1
termination_by n
decreasing_by omega

theorem digs_le : ∀ (k n : Nat), n < 10 ^ k → digs n ≤ k
  | 0, n, h => by
    rw [Nat.pow_zero] at h
    rw [digs, if_pos (by omega)]; exact Nat.le_refl _
  | k + 1, n, h => by
    rw [digs]
    split
    · omega
    · exact Nat.succ_le_succ (digs_le k (n / 10) (by rw [Nat.pow_succ] at h; omega))

/-- One round of the loop removes a digit. -/
theorem digs_shrinks {i : BitVec 64} (h : i > 0) : digs ((i - i % 10#64) / 10#64).toNat < digs i.toNat := by
  have h0 : 0 < i.toNat := by simpa [BitVec.lt_def] using h
  have h1 : (i - i % 10#64).toNat = i.toNat - i.toNat % 10 := by
    rw [BitVec.toNat_sub_of_le (by rw [BitVec.le_def, BitVec.toNat_umod]; exact Nat.mod_le _ _), BitVec.toNat_umod]
    rfl
  have h2 : ((i - i % 10#64) / 10#64).toNat = i.toNat / 10 := by
    rw [BitVec.toNat_udiv, h1]
    show (i.toNat - i.toNat % 10) / 10 = _
    omega
  rw [h2, digs.eq_def i.toNat, if_neg (by omega)]
  omega

theorem run_Checksum {P : Prog} (hP : findPkg path P.pkgs = some pkg) (h : List Val) (i : BitVec 64) {n : Nat} (hn : 20 < n) :
    run P (n + 1) path 0 (n! "Checksum") [.u64 i] h = .ok [.u8 (_root_.Luhn.Checksum i)] ⟨h, []⟩ := by
  rw [run_func hP find_Checksum]
  eval_go
  generalize hr : loop _ _ _ _ _ = r
  obtain ⟨m, rfl⟩ := loop_ex (fun _ => True)
    (fun x : BitVec 64 × BitVec 64 × BitVec 64 => ⟨h, [(n! "mul", .u64 x.2.2), (n! "ret", .u64 x.2.1), (n! "i", .u64 x.1)]⟩)
    (fun x (m : BitVec 64) => .ok .next ⟨h, [(n! "mul", .u64 m), (n! "ret", .u64 (_root_.Luhn.loop x.1 x.2.1 x.2.2)), (n! "i", .u64 0)]⟩)
    (fun x => digs x.1.toNat) (by
      rintro ⟨i, r, m⟩ n' - hm ih
      rw [loop, _root_.Luhn.loop]
      by_cases hi : 0#64 < i
      · eval_go [hi]
        exact ih ((i - i % 10#64) / 10#64, _, _) trivial (digs_shrinks hi)
      · have : i = 0#64 := BitVec.eq_of_toNat_eq (by simpa [BitVec.lt_def] using hi)
        eval_go [hi, this]
        exact ⟨_, rfl⟩) (i, 0, 2) trivial
    (Nat.lt_of_le_of_lt (digs_le 20 _ (Nat.lt_trans i.isLt (by decide))) hn) rfl hr
  eval_go
  rfl

end Source.Luhn
