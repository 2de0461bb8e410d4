import Verif.Float
/-!
# What double precision arithmetic should be (independent of the rounding code)
-/

namespace PyDice

/-- The number is a finite double up to its range: 53 significant bits, spacing at least `2 ** -1074`. -/
def IsDouble (x : ℚ) : Prop := ∃ m e : ℤ, |m| < 2 ^ 53 ∧ -1074 ≤ e ∧ x = (m : ℚ) * (2 : ℚ) ^ e

/-- The last bit of the significand is 0. -/
def EvenDouble (x : ℚ) : Prop :=
  ∃ m e : ℤ, |m| < 2 ^ 53 ∧ -1074 ≤ e ∧ (2 ^ 52 ≤ |m| ∨ e = -1074) ∧ x = (m : ℚ) * (2 : ℚ) ^ e ∧ Even m

/-- `x` is the correct rounding of `q`: no double is nearer, and on a tie `x` is the even one. -/
def RoundsTo (q x : ℚ) : Prop :=
  IsDouble x ∧ (∀ y, IsDouble y → |q - x| ≤ |q - y|) ∧ (∀ y, IsDouble y → y ≠ x → |q - y| = |q - x| → EvenDouble x)

end PyDice
