import Verif.Spec.Program
/-!
# Specification vocabulary for the estimated cost
-/

namespace PyDice

/-- What one leaf costs: 2 for a constant, dice times faces for dice, dice times counted dice times faces for a keep or drop
    term that leaves some dice out (nothing special when none is left out, 2 when all are), and for a variable its entry in the
    price list. -/
def Expr.leafPrices (price : Str → Int) : Expr → List Int
  | .paren e => e.leafPrices price
  | .not e => e.leafPrices price
  | .abs e => e.leafPrices price
  | .assign _ e => e.leafPrices price
  | .add a b => a.leafPrices price ++ b.leafPrices price
  | .sub a b => a.leafPrices price ++ b.leafPrices price
  | .mul a b => a.leafPrices price ++ b.leafPrices price
  | .div a b => a.leafPrices price ++ b.leafPrices price
  | .bin _ a b => a.leafPrices price ++ b.leafPrices price
  | .minmax _ a b => a.leafPrices price ++ b.leafPrices price
  | .constInt _ => [2]
  | .constBin _ => [2]
  | .getVar x => [price x]
  | .dice t => [t.number * t.table.length]
  | .dropKeep t => [
      if t.number ≤ t.counted then (t.number * t.table.length : Int)
      else if t.counted = 0 then 2
      else t.number * t.counted * t.table.length]

/-- No `!` and no assignment inside, and every keep or drop term has at least one die and was built from a text. -/
def Expr.Priced : Expr → Prop
  | .paren e => e.Priced
  | .not _ => False
  | .abs e => e.Priced
  | .assign _ _ => False
  | .add a b => a.Priced ∧ b.Priced
  | .sub a b => a.Priced ∧ b.Priced
  | .mul a b => a.Priced ∧ b.Priced
  | .div a b => a.Priced ∧ b.Priced
  | .bin _ a b => a.Priced ∧ b.Priced
  | .minmax _ a b => a.Priced ∧ b.Priced
  | .constInt _ => True
  | .constBin _ => True
  | .getVar _ => True
  | .dice _ => True
  | .dropKeep t => 1 ≤ t.number ∧ ∃ form, mkDropKeep form = .ok t

end PyDice
