import Verif.Spec.Program
/-!
# How often a value is counted when every use of a line counts its ways again (specification)
-/

namespace PyDice

/-- The runs of the program with distinct values of the lines; the weight multiplies the number of ways to each line's value, once for
    every use of the line by the expression (once for a line that is not used). -/
def usedRuns (p : Program) (e : Expr) : List (Env × Nat) := powRuns p ((uses p e).map fun u => if u = 0 then 1 else u) Env.empty

/-- The weight of a value of the expression. -/
def usedCount (p : Program) (e : Expr) (v : Int) : Nat := ((usedRuns p e).map fun r => r.2 * (ways e r.1).count (some v)).sum

/-- The weight of all values together. -/
def usedTotal (p : Program) (e : Expr) : Nat := ((usedRuns p e).map fun r => r.2 * (ways e r.1).length).sum

end PyDice
