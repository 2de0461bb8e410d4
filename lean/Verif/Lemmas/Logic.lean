import Verif.Expr
/-!
# Bitwise `&` and `|` on the numbers where they agree with the logical operators
-/

namespace PyDice

theorem bitAnd_small (x y : Int) (hx : x = 0 ∨ x = 1) (hy : y = 0 ∨ y = 1) : pyBitAnd x y ≠ 0 ↔ 0 < x ∧ 0 < y := by
  rcases hx with rfl | rfl <;> rcases hy with rfl | rfl <;> decide

theorem bitOr_nonneg (x y : Int) (hx : 0 ≤ x) (hy : 0 ≤ y) : pyBitOr x y ≠ 0 ↔ 0 < x ∨ 0 < y := by
  obtain ⟨a, rfl⟩ := Int.eq_ofNat_of_zero_le hx
  obtain ⟨b, rfl⟩ := Int.eq_ofNat_of_zero_le hy
  have h1 : ∀ n : Nat, -1 - (n : Int) = Int.negSucc n := fun n => by omega
  have h2 : pyBitOr a b = ((a ||| b : Nat) : Int) := by
    unfold pyBitOr
    rw [h1, h1]
    simp only [pyBitAnd]
    omega
  rw [h2]
  have : a ||| b = 0 ↔ a = 0 ∧ b = 0 := Nat.or_eq_zero_iff
  omega

end PyDice
