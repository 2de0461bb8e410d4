import Verif.Constraint
/-!
# `src/probability_distribution/probability_outcome.py`
-/

namespace PyDice

/-- The binary operators of `ProbabilityOutcome` (`probability_outcome.py:57-91, 97-101`). -/
inductive BinOp where
  | add | sub | mul | floordiv | eq | ne | lt | le | gt | ge | and | or | max | min
  deriving DecidableEq, Repr

/-- `_binary_to_int` (`probability_outcome.py:53-55`). -/
def binaryToInt (b : Bool) : Int := if b then 1 else 0

/-- `_value_to_binary_value` (`probability_outcome.py:49-51`). -/
def valueToBinary (v : Int) : Bool := decide (v > 0)

/-- The new value computed by `_combine` (`probability_outcome.py:34-42`) with the combination function and the
    `binary_values` flag of each operator (`:57-101`); booleans become 0/1.  `//` raises `ZeroDivisionError` on a zero
    divisor and otherwise rounds towards minus infinity, as Python's `operator.floordiv`. -/
def BinOp.apply : BinOp → Int → Int → Res Int
  | .add, x, y => .ok (x + y)
  | .sub, x, y => .ok (x - y)
  | .mul, x, y => .ok (x * y)
  | .floordiv, x, y => if y = 0 then .error .zeroDivision else .ok (x.fdiv y)
  | .eq, x, y => .ok (binaryToInt (decide (x = y)))
  | .ne, x, y => .ok (binaryToInt (decide (x ≠ y)))
  | .lt, x, y => .ok (binaryToInt (decide (x < y)))
  | .le, x, y => .ok (binaryToInt (decide (x ≤ y)))
  | .gt, x, y => .ok (binaryToInt (decide (x > y)))
  | .ge, x, y => .ok (binaryToInt (decide (x ≥ y)))
  | .and, x, y => .ok (binaryToInt (valueToBinary x && valueToBinary y))
  | .or, x, y => .ok (binaryToInt (valueToBinary x || valueToBinary y))
  | .max, x, y => .ok (if y > x then y else x)
  | .min, x, y => .ok (if y < x then y else x)

section
variable [R : PyRuntime]

/-- `ProbabilityOutcome` (`probability_outcome.py:8-22`).  Simplification: the `TypeError` for a non-integer value cannot
    occur, values are integers by type. -/
structure Outcome where
  value : Int
  cs : CSet

/-- `ProbabilityOutcome.__eq__` (`probability_outcome.py:117-120`), used by `dict` together with `__hash__` (`:112-115`, which
    is a function of what `__eq__` compares). -/
instance : BEq Outcome := ⟨fun a b => decide (a.value = b.value) && csEq a.cs b.cs⟩

/-- `ProbabilityOutcome.is_possible` (`probability_outcome.py:46-47`). -/
def Outcome.isPossible (o : Outcome) : Bool := csPossible o.cs

/-- `ProbabilityOutcome._combine` (`probability_outcome.py:24-44`): first the value, then the constraint sets. -/
def Outcome.combine (op : BinOp) (a b : Outcome) : Res Outcome := do
  let v ← op.apply a.value b.value
  let cs ← combineSets a.cs b.cs
  return ⟨v, cs⟩

/-- `ProbabilityOutcome.not_operator` (`probability_outcome.py:93-95`). -/
def Outcome.notOp (o : Outcome) : Outcome := ⟨if valueToBinary o.value then 0 else 1, o.cs⟩

/-- `ProbabilityOutcome.__abs__` (`probability_outcome.py:103-104`). -/
def Outcome.absOp (o : Outcome) : Outcome := ⟨if o.value < 0 then -o.value else o.value, o.cs⟩

/-- `ProbabilityOutcomeFactory.create_empty` (`probability_outcome_factory.py:16-17`). -/
def createEmpty (v : Int) : Res Outcome := do return ⟨v, ← createConstraintSet⟩

end

end PyDice
