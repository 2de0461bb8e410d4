import Verif.Lemmas.SourceHash
/-!
# C80: the texts of `__hash__` and of the remaining printing methods do what the model says

`hs` and `hi` are any hashes of strings and of numbers.
-/
namespace PyDice
open Source PyRuntime

section
variable [R : PyRuntime] (hs : Str → Hash) (hi : Int → Hash)

/-- `constraint/constraint_set.py:56-60`. -/
theorem C80_constraint_set_hash (s : CSet) : Hashes hs hi Text.ConstraintSet.__hash__ (.cset s) (csHash hs s) := csHash_text hs hi s
/-- `probability_distribution/probability_outcome.py:112-115`. -/
theorem C80_outcome_hash (o : Outcome) : Hashes hs hi Text.ProbabilityOutcome.__hash__ (.outcome o) (o.codeHash hs hi) := outcomeHash_text hs hi o
/-- `constraint/null_constraint.py:20-21`. -/
theorem C80_null_hash : Hashes hs hi Text.NullConstraint.__hash__ (.con .null) (Constraint.null.codeHash hs) := conHash_null hs hi
/-- `constraint/impossible_constraint.py:20-21`. -/
theorem C80_impossible_hash : Hashes hs hi Text.ImpossibleConstraint.__hash__ (.con .impossible) (Constraint.impossible.codeHash hs) := conHash_imp hs hi
/-- `constraint/var_value_constraint.py:49-50`. -/
theorem C80_var_hash (c : Constraint) : Hashes hs hi Text.VarValueConstraint.__hash__ (.con c) (c.codeHash hs) := conHash_var hs hi c

/-- `constraint/constraint_merger.py:53-57`. -/
theorem C80_merger_prints : Prints hs hi Text.ConstraintMerger.__str__ .merger "ConstraintMerger".toList ∧
    Prints hs hi Text.ConstraintMerger.__repr__ .merger "ConstraintMerger".toList := ⟨merger_str hs hi, merger_repr hs hi⟩
/-- `probability_distribution/probability_outcome.py:109-110`. -/
theorem C80_outcome_repr (o : Outcome) : Prints hs hi Text.ProbabilityOutcome.__repr__ (.outcome o) o.text := outcome_repr hs hi o
/-- `probability_distribution/probability_distribution.py:376-380`. -/
theorem C80_distribution_prints (d : Dist) : Prints hs hi Text.ProbabilityDistribution.__str__ (.dist d) d.text ∧
    Prints hs hi Text.ProbabilityDistribution.__repr__ (.dist d) d.text := ⟨dist_str hs hi d, dist_repr hs hi d⟩

end

section
attribute [local instance] listRuntime
/-- With hashes that count letters, a constraint changes the hash of a set. -/
example : csHash (fun s => BitVec.ofNat 64 s.length) (PyRuntime.insert (empty : CSet) .null) ≠ csHash (fun s => BitVec.ofNat 64 s.length) (empty : CSet) := by decide +kernel
end

end PyDice
