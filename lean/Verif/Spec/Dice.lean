import Verif.DiceText
/-!
# Specification vocabulary for dice: tuples of faces, written out
-/

namespace PyDice

/-- The faces of a die, each listed as often as its weight says. -/
def facesOf (table : List (Int × Nat)) : List Int := table.flatMap fun p => List.replicate p.2 p.1

/-- All ways to write down `n` of the listed things in order. -/
def tuples {α : Type} (fs : List α) : Nat → List (List α)
  | 0 => [[]]
  | n + 1 => fs.flatMap fun f => (tuples fs n).map (f :: ·)

/-- The sum of the `k` highest dice. -/
def sumHighest (k : Nat) (dice : List Int) : Int := ((dice.mergeSort (fun a b => decide (b ≤ a))).take k).sum

/-- The sum of the `k` lowest dice. -/
def sumLowest (k : Nat) (dice : List Int) : Int := ((dice.mergeSort (fun a b => decide (a ≤ b))).take k).sum

/-- How many of the tuples of `n` dice have score `v`. -/
def tupleCount (table : List (Int × Nat)) (n : Nat) (score : List Int → Int) (v : Int) : Nat :=
  ((tuples (facesOf table) n).filter (fun dice => decide (score dice = v))).length

end PyDice
