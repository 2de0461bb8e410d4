import Verif.Lemmas.SourceMessage
import Verif.Source.All
/-!
# C81: the messages of the exceptions in the source texts are those of the model

C72 to C79 show where a method raises an exception of which class; here are the arguments of the exceptions.
-/
namespace PyDice
open PyRuntime Source

section
variable [R : PyRuntime]

/-- `probability_distribution/probability_distribution.py:268-338,352-362`: an operator with an operand of another class. -/
theorem C81_distribution (op : BinOp) (i : Nat) (a : DistP) (x : PyObj) (h : ∀ j b, x ≠ .dist j b) :
    ∃ c t, Says (distMethod op) [("self", .obj (.py (.dist i a))), ("other", .obj (.py x)), ("ProbabilityDistribution", .obj (.cls distClass))] [(c, t)] ∧
      DistP.binop op a x = .error (.own c t) := by
  refine ⟨.type, some ("No ".toList ++ op.methodName ++ " between ".toList ++ distClass ++ (" and ".toList ++ x.cls)), ?_, ?_⟩
  · rw [← message_assoc, ← List.append_nil x.cls]
    unfold Says
    cases op <;> krfl
  · cases x <;> first | exact absurd rfl (h _ _) | exact congrArg (fun t => Except.error (Exc.own Err.type (some t))) (List.append_assoc _ _ _)

/-- `probability_distribution/probability_outcome.py:24-34`: the same for outcomes; `combination_function` is the function of the operator. -/
theorem C81_outcome (op : BinOp) (a : OutcomeP) (x : PyObj) (h : ∀ b, x ≠ .outcome b) :
    ∃ c t, Says Text.ProbabilityOutcome._combine
        [("self", .obj (.py (.outcome a))), ("combination_function", .obj (.fn op.funName)), ("other", .obj (.py x))] [(c, t)] ∧
      OutcomeP.combine op a x = .error (.own c t) := by
  refine ⟨.type, some ("No ".toList ++ op.funName ++ " between ProbabilityOutcome and ".toList ++ x.cls ++ ".".toList), ?_, ?_⟩
  · rw [← message_assoc]
    unfold Says
    krfl
  · cases x <;> first | exact absurd rfl (h _) | rfl

/-- `probability_distribution/probability_outcome.py:117-120`: `==`. -/
theorem C81_outcome_eq (a : OutcomeP) (x : PyObj) (h : ∀ b, x ≠ .outcome b) :
    ∃ c t, Says Text.ProbabilityOutcome.__eq__ [("self", .obj (.py (.outcome a))), ("other", .obj (.py x))] [(c, t)] ∧ a.eqPy x = .error (.own c t) := by
  refine ⟨.type, some ("No == between ProbabilityOutcome and ".toList ++ x.cls ++ ".".toList), ?_, ?_⟩
  · rw [List.append_assoc]
    unfold Says
    krfl
  · cases x <;> first | exact absurd rfl (h _) | rfl

/-- `probability_distribution/probability_outcome.py:9-11`: the constructor. -/
theorem C81_outcome_init (x : PyObj) (h : ∀ n, x ≠ .num n) (cs : CSet) :
    ∃ c t, Says Text.ProbabilityOutcome.__init__ [("value", .obj (.py x)), ("constraint_set", .obj (.py (.cset cs)))] [(c, t)] ∧
      mkOutcomeP x cs = .error (.own c t) := by
  refine ⟨.type, some "can not have a bool value for a probability outcome".toList, ?_, ?_⟩
  · unfold Says
    krfl
  · cases x <;> first | exact absurd rfl (h _) | rfl

/-- `constraint/var_value_constraint.py:36-47`: both exceptions of `merge`; the first is the one that is raised when `can_merge` says no. -/
theorem C81_merge (n : Str) (vs : List Int) (x : PyObj) :
    ∃ c t t', Says Text.VarValueConstraint.merge [("self", .obj (.py (.constraint (.varValue n vs)))), ("other", .obj (.py x))] [(c, t), (c, t')] ∧
      (Constraint.canMergeP (.varValue n vs) x = false → Constraint.mergeP (.varValue n vs) x = .error (.own c t)) := by
  refine ⟨.value, some ("can not merge ".toList ++ x.text ++ " with ".toList ++ (Constraint.varValue n vs).text),
    some ("can not merge ".toList ++ x.text ++ " with ".toList ++ (Constraint.varValue n vs).text ++ " however can_merge returned true".toList), ?_, ?_⟩
  · rw [← message_assoc, message_nil]
    unfold Says
    krfl
  · intro h
    simp [Constraint.mergeP, h]

/-- `constraint/constraint_set.py:10-15`: the constructor. -/
theorem C81_constraint_set : ∃ c t, Says Text.ConstraintSet.__init__ [] [(c, t)] ∧ mkConstraintSetP [] = .error (.own c t) := by
  refine ⟨.value, some "can not build an empty constraint set. use a null constraint.".toList, ?_, rfl⟩
  unfold Says
  krfl

/-- `probability_distribution/probability_distribution_state.py:36-44`: names that are not known. -/
theorem C81_state (s : State) (name : Str) :
    (∃ c t, Says Text.ProbabilityDistributionState.get_constant [("name", .str name)] [(c, t)] ∧
      (dictGet? s.constants name = none → s.getConstantX name = .error (.own c t))) ∧
    ∃ c t, Says Text.ProbabilityDistributionState.get_var [("name", .str name)] [(c, t)] ∧
      (dictGet? s.var name = none → s.getVarX name = .error (.own c t)) := by
  constructor
  · refine ⟨.key, some (noConstantText name), ?_, ?_⟩
    · unfold noConstantText
      rw [List.append_assoc]
      unfold Says
      krfl
    · intro h
      simp [State.getConstantX, h]
  · refine ⟨.key, some (noVarText name), ?_, ?_⟩
    · unfold noVarText
      rw [List.append_assoc]
      unfold Says
      krfl
    · intro h
      simp [State.getVarX, h]

/-- `expression/integer_division_expression.py:33-49`: division by what may be zero. -/
theorem C81_division (a b : Expr) :
    Says Text.IntegerDivisionExpression.roll [("self", .obj (.expr (.div a b)))] [(.zeroDivision, none)] ∧
    Says Text.IntegerDivisionExpression.max [("self", .obj (.expr (.div a b)))] [(.zeroDivision, some (couldBeZeroText a b))] ∧
    Says Text.IntegerDivisionExpression.min [("self", .obj (.expr (.div a b)))] [(.zeroDivision, some (couldBeZeroText a b))] := by
  unfold Says couldBeZeroText
  refine ⟨?_, ?_, ?_⟩ <;> krfl

omit R in
/-- These are all the functions with a `raise` statement; the last two are in C79. -/
theorem C81_all : (Text.all.filter fun f => !(raisesIn f.2.body).isEmpty).map Prod.fst =
    ["VarValueConstraint.merge", "ConstraintSet.__init__", "ProbabilityOutcome.__init__", "ProbabilityOutcome._combine", "ProbabilityOutcome.__eq__"] ++
    ["__add__", "__sub__", "__mul__", "__floordiv__", "__equal__", "__not_equal__", "__lt__", "__le__", "__gt__", "__ge__", "__and__", "__or__",
      "max_operator", "min_operator"].map ("ProbabilityDistribution." ++ ·) ++
    ["ProbabilityDistributionState.get_constant", "ProbabilityDistributionState.get_var", "IntegerDivisionExpression.roll",
      "IntegerDivisionExpression.max", "IntegerDivisionExpression.min", "PythonDiceParser.__init__", "PythonDiceLexer.lex"] := by
  decide +kernel

end

/-! ### Concrete cases -/

section
attribute [local instance] listRuntime

/-- An operand that is no distribution and no outcome: the number 5. -/
example : (∀ j b, PyObj.num (.int 5) ≠ .dist j b) ∧ ∀ b, PyObj.num (.int 5) ≠ .outcome b := ⟨nofun, nofun⟩
/-- A value that is no number. -/
example : ∀ n, PyObj.other "<class 'str'>".toList "x".toList ≠ .num n := nofun
/-- A constraint that cannot be merged. -/
example : Constraint.canMergeP (.varValue ['x'] [1]) (.constraint (.varValue ['y'] [1])) = false := by decide
/-- A name that is not known. -/
example : dictGet? State.new.constants ['x'] = none ∧ dictGet? State.new.var ['x'] = none := ⟨rfl, rfl⟩
/-- The message of `5` added to a distribution. -/
example : ∃ t, DistP.binop .add ⟨[], 0⟩ (.num (.int 5)) = .error (.own .type (some t)) := ⟨_, rfl⟩
end

end PyDice
