import Verif.FloatPlot
import Verif.Spec.Float
import Mathlib.Data.Rat.Defs
/-!
# What a histogram shows (independent of how its data is made)

Matplotlib draws for `axis.hist(xs, weights=ws, bins=bins)` one bar between each bin edge and the next.  Its height is the sum of
the weights of the `xs` in the half-open interval; the last interval includes its right edge.  (The sum is taken exactly here.)
-/

namespace PyDice

open Classical in
/-- The bar with number `i` reaches from `a` to `b` and is `h` high. -/
def BarIs (p : HistData) (i : Nat) (a b h : ℚ) : Prop :=
  p.bins[i]? = some a ∧ p.bins[i + 1]? = some b ∧
    h = (((p.xs.zip p.weights).filter fun q =>
      decide (a ≤ (q.1 : ℚ) ∧ ((q.1 : ℚ) < b ∨ (i + 2 = p.bins.length ∧ (q.1 : ℚ) = b)))).map Prod.snd).sum

/-- The histogram shows the integers from `lo` to `hi`, each as one bar of width 1 around it with height `f v`, and nothing else. -/
def ShowsRange (p : HistData) (lo hi : Int) (f : Int → ℚ) : Prop :=
  (p.bins.length : Int) = hi - lo + 2 ∧
  ∀ v : Int, lo ≤ v → v ≤ hi → BarIs p (v - lo).toNat ((v : ℚ) - 1 / 2) ((v : ℚ) + 1 / 2) (f v)

/-- A vertical line at `x` from 0 to 1.1 times (in doubles) the largest of the heights. -/
def LineIs (line : Option (List ℚ × List ℚ)) (x : ℚ) (heights : List ℚ) : Prop :=
  ∃ m c t, m ∈ heights ∧ (∀ h ∈ heights, h ≤ m) ∧ RoundsTo (11 / 10) c ∧ RoundsTo (m * c) t ∧ line = some ([x, x], [0, t])

end PyDice
