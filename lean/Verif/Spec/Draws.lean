import Verif.RandF
import Verif.Expr
/-!
# How many dice a program rolls, and how heavy they are
-/

namespace PyDice

/-- The computation draws at most `D` times, and never from more than `W` numbers. -/
inductive Rand.Draws {α : Type} (W : Nat) : Nat → Rand α → Prop where
  | pure (D : Nat) (a : α) : Rand.Draws W D (.pure a)
  | draw (D n : Nat) (k : Nat → Rand α) : 0 < n → n ≤ W → (∀ x < n, Rand.Draws W D (k x)) → Rand.Draws W (D + 1) (.draw n k)

/-- The sum of the weights of a die's faces. -/
def weightSum (table : List (Int × Nat)) : Nat := (table.map Prod.snd).sum

/-- The number of dice an expression rolls. -/
def Expr.diceRolled : Expr → Nat
  | .paren e => e.diceRolled
  | .not e => e.diceRolled
  | .dropKeep t => match t.simplified with
    | .dice d => d.number
    | .zero => 0
    | .none => t.number
  | .dice t => t.number
  | .constInt _ => 0
  | .constBin _ => 0
  | .add a b => a.diceRolled + b.diceRolled
  | .sub a b => a.diceRolled + b.diceRolled
  | .mul a b => a.diceRolled + b.diceRolled
  | .div a b => a.diceRolled + b.diceRolled
  | .bin _ a b => a.diceRolled + b.diceRolled
  | .minmax _ a b => a.diceRolled + b.diceRolled
  | .abs e => e.diceRolled
  | .assign _ e => e.diceRolled
  | .getVar _ => 0

/-- No die's weights add up to more than `W`. -/
def Expr.WeightsWithin (W : Nat) : Expr → Prop
  | .paren e => e.WeightsWithin W
  | .not e => e.WeightsWithin W
  | .dropKeep t => match t.simplified with
    | .dice d => weightSum d.table ≤ W
    | .zero => True
    | .none => weightSum t.table ≤ W
  | .dice t => weightSum t.table ≤ W
  | .constInt _ => True
  | .constBin _ => True
  | .add a b => a.WeightsWithin W ∧ b.WeightsWithin W
  | .sub a b => a.WeightsWithin W ∧ b.WeightsWithin W
  | .mul a b => a.WeightsWithin W ∧ b.WeightsWithin W
  | .div a b => a.WeightsWithin W ∧ b.WeightsWithin W
  | .bin _ a b => a.WeightsWithin W ∧ b.WeightsWithin W
  | .minmax _ a b => a.WeightsWithin W ∧ b.WeightsWithin W
  | .abs e => e.WeightsWithin W
  | .assign _ e => e.WeightsWithin W
  | .getVar _ => True

end PyDice
