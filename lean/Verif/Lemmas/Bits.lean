import Verif.Go.Basic

/-! Facts about bytes and bits used by the lemma files of several packages. -/

namespace Bits

theorem forall_u8 {P : U8 → Prop} (h : ∀ n : Fin 256, P (BitVec.ofFin n)) : ∀ b : U8, P b :=
  fun b => h b.toFin

theorem or_shift (x y n : Nat) (hx : x < 2 ^ n) : x ||| (y <<< n) = x + 2 ^ n * y := by
  rw [Nat.or_comm, Nat.shiftLeft_eq, Nat.mul_comm y, Nat.add_comm]
  exact (Nat.two_pow_add_eq_or_of_lt hx y).symm

end Bits
