import Verif.Spec.Cost
import Verif.Spec.Dist
/-!
# Specification vocabulary for sizes and work
-/

namespace PyDice

/-- The faces lie within a stretch of integers no longer than their number, and there is one. -/
def Gapless (table : List (Int × Nat)) : Prop :=
  table ≠ [] ∧ ∃ lo : Int, ∀ p ∈ table, lo ≤ p.1 ∧ p.1 < lo + table.length

/-- No variables, no products and quotients, no keep and drop; every dice term has a die, and its faces have no gaps. -/
def Expr.Tame : Expr → Prop
  | .paren e => e.Tame
  | .not e => e.Tame
  | .abs e => e.Tame
  | .add a b => a.Tame ∧ b.Tame
  | .sub a b => a.Tame ∧ b.Tame
  | .bin _ a b => a.Tame ∧ b.Tame
  | .minmax _ a b => a.Tame ∧ b.Tame
  | .constInt _ => True
  | .constBin _ => True
  | .dice t => 1 ≤ t.number ∧ Gapless t.table
  | .dropKeep _ => False
  | .mul _ _ => False
  | .div _ _ => False
  | .assign _ _ => False
  | .getVar _ => False

/-- No variables. -/
def Expr.Nameless : Expr → Prop
  | .paren e => e.Nameless
  | .not e => e.Nameless
  | .abs e => e.Nameless
  | .add a b => a.Nameless ∧ b.Nameless
  | .sub a b => a.Nameless ∧ b.Nameless
  | .mul a b => a.Nameless ∧ b.Nameless
  | .div a b => a.Nameless ∧ b.Nameless
  | .bin _ a b => a.Nameless ∧ b.Nameless
  | .minmax _ a b => a.Nameless ∧ b.Nameless
  | .constInt _ => True
  | .constBin _ => True
  | .dice _ => True
  | .dropKeep _ => True
  | .assign _ _ => False
  | .getVar _ => False

/-- The two operands of an expression, and what joins them. -/
def Expr.joined : Expr → Option (BinOp × Expr × Expr)
  | .add a b => some (.add, a, b)
  | .sub a b => some (.sub, a, b)
  | .mul a b => some (.mul, a, b)
  | .div a b => some (.floordiv, a, b)
  | .bin op a b => some (op.toBinOp, a, b)
  | .minmax isMax a b => some (if isMax then .max else .min, a, b)
  | _ => none

/-- The die `1d[0,2^i]`: 0 or a power of two. -/
def bitDie (i : Nat) : DiceTerm := ⟨'1' :: 'd' :: '[' :: '0' :: ',' :: natStr (2 ^ i) ++ [']'], [(0, 1), ((2 : Int) ^ i, 1)], 1⟩

/-- `1d[0,1] + 1d[0,2] + ... + 1d[0,2^m]`. -/
def bitSum : Nat → Expr
  | 0 => .dice (bitDie 0)
  | m + 1 => .add (bitSum m) (.dice (bitDie (m + 1)))

/-- The sum of the prices of the leaves. -/
def Expr.bill (e : Expr) : Int := (e.leafPrices fun _ => 0).sum

section
variable [R : PyRuntime]

/-- The number of entries of the table of outcomes. -/
def Dist.size (d : Dist) : Nat := d.resultMap.length

/-- The number of different values. -/
def Dist.valueCount (d : Dist) : Nat := d.getResultMap.length

end

end PyDice
