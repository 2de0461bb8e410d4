import Verif.Py
import Mathlib.Algebra.Order.Field.Rat
import Mathlib.Data.Rat.Floor
/-!
# Python's `float`: IEEE 754 double precision

A finite `float` is the rational number it stands for.  An operation on floats is the exact operation followed by `toDouble`.
Simplifications: signed zeros are not told apart; infinities and NaN do not occur, as the modelled code only produces numbers for
which Python raises `OverflowError` before that or which stay in range.
-/

namespace PyDice

/-- `2 ** e` as a rational number. -/
def pow2 : Int → ℚ
  | .ofNat n => ((2 ^ n : Nat) : ℚ)
  | .negSucc n => 1 / ((2 ^ (n + 1) : Nat) : ℚ)

/-- The exponent `e` with `2 ** e <= |q| < 2 ** (e + 1)`. -/
def expo (q : ℚ) : Int :=
  let e : Int := (Nat.log2 q.num.natAbs : Int) - (Nat.log2 q.den : Int)
  if pow2 e ≤ |q| then e else e - 1

/-- The nearest integer, ties to even. -/
def roundEven (q : ℚ) : Int :=
  let f := q.floor
  if q - f < 1 / 2 then f else if 1 / 2 < q - f then f + 1 else if f % 2 = 0 then f else f + 1

/-- The exponent of the unit in the last place: 53 significant bits, but never below the subnormal spacing `2 ** -1074`. -/
def ulpExp (q : ℚ) : Int := if expo q - 52 < -1074 then -1074 else expo q - 52

/-- Round to nearest double, ties to even. -/
def toDouble (q : ℚ) : ℚ := if q = 0 then 0 else (roundEven (q / pow2 (ulpExp q)) : ℚ) * pow2 (ulpExp q)

/-- `float(q)`: `OverflowError` when the rounded number leaves the range.  Models `int -> float` conversion
    (`PyLong_AsDouble`) and `int / int` (`long_true_divide`), which are correctly rounded in CPython. -/
def toFloat (q : ℚ) : Res ℚ := if pow2 1024 ≤ |toDouble q| then .error .overflow else .ok (toDouble q)

end PyDice
