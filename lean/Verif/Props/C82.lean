import Verif.Spec.SourceClass
import Verif.Source.Run
/-!
# C82: collaborators handed to the constructors are the ones used

The classes take their collaborators as optional arguments.  The texts of the constructors keep the object they are given, whatever it is, and put
the default collaborator only where none is given.  In Python an argument left out and an argument `None` are the same here; the evaluator fills
in the defaults of the signature, so the arguments are all written out.
-/
namespace PyDice
open PyRuntime Source

section
variable [R : PyRuntime] (fl : ℚ → Res ℚ) (rd : ℚ → ℚ) (fu : Nat)
local notation "W" => world fl rd fu

/-- An argument that may be left out. -/
def injectedArg (o : Option Obj) : V := match o with
  | none => .none
  | some o => .obj o

/-- What the field should hold: the object given, or else a new default collaborator. -/
def injected (o : Option Obj) (default : String) : V := match o with
  | none => .obj (.svc default)
  | some o => .obj o

/-- The constructor leaves exactly these fields behind and returns nothing. -/
def LeavesFields (f : PyFun) (args : List (Option Obj)) (fields : List (String × V)) : Prop :=
  f.runIn W [] (.none :: args.map injectedArg) [] = pure (.none, fields.map fun p => ("self." ++ p.1, p.2))

/-- `probability_distribution/probability_outcome_factory.py:11-14`. -/
theorem C82_outcome_factory (v : Option Obj) :
    LeavesFields fl rd fu Text.ProbabilityOutcomeFactory.__init__ [v] [("_constraint_set_factory", injected v "ConstraintSetFactory")] := by
  unfold LeavesFields
  cases v <;> rfl

/-- `probability_distribution/probability_distribution_factory.py:14-17`. -/
theorem C82_distribution_factory (v : Option Obj) :
    LeavesFields fl rd fu Text.ProbabilityDistributionFactory.__init__ [v] [("_probability_outcome_factory", injected v "ProbabilityOutcomeFactory")] := by
  unfold LeavesFields
  cases v <;> rfl

/-- `constraint/constraint_set_factory.py:13-26`. -/
theorem C82_constraint_set_factory (v w : Option Obj) :
    LeavesFields fl rd fu Text.ConstraintSetFactory.__init__ [v, w]
      [("_constraint_merger", injected w "ConstraintMerger"), ("_constraint_factory", injected v "ConstraintFactory")] := by
  unfold LeavesFields
  cases v <;> cases w <;> rfl

/-- `probability_distribution/probability_distribution_state_factory.py:19-30`. -/
theorem C82_state_factory (v w : Option Obj) :
    LeavesFields fl rd fu Text.ProbabilityDistributionStateFactory.__init__ [v, w]
      [("_probability_distribution_factory", injected v "ProbabilityDistributionFactory"), ("_constraint_factory", injected w "ConstraintFactory")] := by
  unfold LeavesFields
  cases v <;> cases w <;> rfl

/-- `python_dice_interpreter.py:25-42` with a parser and a state: no state and no parser is made, whichever factories come along with them. -/
theorem C82_interpreter (p s : Obj) (f d : Option Obj) :
    LeavesFields fl rd fu Text.PythonDiceInterpreter.__init__ [some p, some s, f, d]
      [("_parser", .obj p), ("_state", .obj s), ("_probability_distribution_factory", injected d "ProbabilityDistributionFactory")] := by
  unfold LeavesFields
  cases d <;> cases f <;> rfl

end

/-! ### Concrete cases -/

section
attribute [local instance] listRuntime
example : injected (some (.svc "Mine")) "ConstraintFactory" = .obj (.svc "Mine") ∧
    injected none "ConstraintFactory" = .obj (.svc "ConstraintFactory") := ⟨rfl, rfl⟩
end

end PyDice
