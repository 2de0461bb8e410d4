import Verif.Dist
import Verif.Spec.Constraint
import Mathlib.Data.Rat.Floor
/-!
# Specification vocabulary for distributions (independent of the combination code)
-/

namespace PyDice

/-- `v` is what operator `op` should give on `x` and `y`. -/
def OpYields : BinOp → Int → Int → Int → Prop
  | .add, x, y, v => v = x + y
  | .sub, x, y, v => v = x - y
  | .mul, x, y, v => v = x * y
  | .floordiv, x, y, v => y ≠ 0 ∧ v = ⌊(x : ℚ) / (y : ℚ)⌋
  | .eq, x, y, v => (x = y ∧ v = 1) ∨ (x ≠ y ∧ v = 0)
  | .ne, x, y, v => (x ≠ y ∧ v = 1) ∨ (x = y ∧ v = 0)
  | .lt, x, y, v => (x < y ∧ v = 1) ∨ (y ≤ x ∧ v = 0)
  | .le, x, y, v => (x ≤ y ∧ v = 1) ∨ (y < x ∧ v = 0)
  | .gt, x, y, v => (y < x ∧ v = 1) ∨ (x ≤ y ∧ v = 0)
  | .ge, x, y, v => (y ≤ x ∧ v = 1) ∨ (x < y ∧ v = 0)
  | .and, x, y, v => ((0 < x ∧ 0 < y) ∧ v = 1) ∨ (¬ (0 < x ∧ 0 < y) ∧ v = 0)
  | .or, x, y, v => ((0 < x ∨ 0 < y) ∧ v = 1) ∨ (¬ (0 < x ∨ 0 < y) ∧ v = 0)
  | .max, x, y, v => (v = x ∨ v = y) ∧ x ≤ v ∧ y ≤ v
  | .min, x, y, v => (v = x ∨ v = y) ∧ v ≤ x ∧ v ≤ y

/-- `sum of count * f(key)` over the items of a dict. -/
def wsum {κ M : Type} [AddCommMonoid M] (l : List (κ × Nat)) (f : κ → M) : M := (l.map fun p => p.2 • f p.1).sum

/-- The count stored for a key, 0 when missing. -/
def countOf (m : List (Int × Nat)) (v : Int) : Nat := (dictGet? m v).getD 0

/-- The key occurs. -/
def hasKey {ν : Type} (m : List (Int × ν)) (v : Int) : Prop := v ∈ m.map Prod.fst

open Classical in
/-- The weighted number of pairs of outcomes on which `op` gives `v`, computed from two result maps only. -/
noncomputable def pairCount (op : BinOp) (m n : List (Int × Nat)) (v : Int) : Nat :=
  (m.map fun p => (n.map fun q => if OpYields op p.1 q.1 v then p.2 * q.2 else 0).sum).sum

/-- What `not` should give. -/
def NotYields (x v : Int) : Prop := (0 < x ∧ v = 0) ∨ (x ≤ 0 ∧ v = 1)
/-- What the absolute value should give. -/
def AbsYields (x v : Int) : Prop := v = |x|

open Classical in
/-- The sum of the counts of all values related to `v`. -/
noncomputable def imageCount (Y : Int → Int → Prop) (m : List (Int × Nat)) (v : Int) : Nat :=
  (m.map fun p => if Y p.1 v then p.2 else 0).sum

section
variable [R : PyRuntime]

/-- The object was made by the class constructor (`ProbabilityDistribution.__init__`). -/
def Dist.Constructed (d : Dist) : Prop := ∃ m, d = mkDist m

/-- The distribution is not tied to any variable: every assignment agrees with every outcome. -/
def Dist.Untied (d : Dist) : Prop := ∀ p ∈ d.resultMap, ∀ ω, Sat ω p.1.cs

/-- Every outcome carries at least one constraint (`ConstraintSet.__init__` refuses the empty set). -/
def Dist.Proper (d : Dist) : Prop := ∀ p ∈ d.resultMap, PyRuntime.iter p.1.cs ≠ []

open Classical in
/-- The count of `v` among the outcomes whose constraints agree with the assignment. -/
noncomputable def Dist.countGiven (d : Dist) (ω : Str → Int) (v : Int) : Nat :=
  wsum d.resultMap (fun o => if Sat ω o.cs ∧ o.value = v then 1 else 0)

open Classical in
/-- The weighted number of pairs of outcomes that agree with the assignment and on which `op` gives `v`. -/
noncomputable def pairCountGiven (op : BinOp) (a b : Dist) (ω : Str → Int) (v : Int) : Nat :=
  (a.resultMap.map fun p => (b.resultMap.map fun q =>
    if (Sat ω p.1.cs ∧ Sat ω q.1.cs) ∧ OpYields op p.1.value q.1.value v then p.2 * q.2 else 0).sum).sum

end

end PyDice
