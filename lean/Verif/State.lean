import Verif.Dist
import Verif.Text
/-!
# `src/probability_distribution/probability_distribution_state.py`
-/

namespace PyDice
open PyRuntime

section
variable [R : PyRuntime]

/-- `ProbabilityDistributionState` (`probability_distribution_state.py:15-22`): `_var`, `_constants`, `_number_of_times_set`. -/
structure State where
  var : List (Str × Dist)
  constants : List (Str × Int)
  timesSet : List (Str × Nat)

/-- `ProbabilityDistributionStateFactory.create_new_empty_set` (`probability_distribution_state_factory.py:32-36`). -/
def State.new : State := ⟨[], [], []⟩

/-- `has_constant` (`probability_distribution_state.py:30-31`). -/
def State.hasConstant (s : State) (name : Str) : Bool := (dictGet? s.constants name).isSome

/-- `has_var` (`probability_distribution_state.py:33-34`). -/
def State.hasVar (s : State) (name : Str) : Bool := (dictGet? s.var name).isSome

/-- `get_constant` (`probability_distribution_state.py:36-39`). -/
def State.getConstant (s : State) (name : Str) : Res Int :=
  match dictGet? s.constants name with
  | some v => .ok v
  | none => .error .key

/-- `get_var` (`probability_distribution_state.py:41-44`). -/
def State.getVar (s : State) (name : Str) : Res Dist :=
  match dictGet? s.var name with
  | some v => .ok v
  | none => .error .key

/-- The counter update of `set_constant` and `set_var` (`probability_distribution_state.py:48-50, 57-59`). -/
def bump (t : List (Str × Nat)) (name : Str) : List (Str × Nat) := safeAdd t name 1

/-- `set_constant` (`probability_distribution_state.py:46-50`). -/
def State.setConstant (s : State) (name : Str) (v : Int) : State :=
  { s with constants := dictSet s.constants name v, timesSet := bump s.timesSet name }

/-- `f"{name}_{k}"` (`probability_distribution_state.py:61`). -/
def versionName (name : Str) (k : Nat) : Str := name ++ '_' :: natStr k

/-- `copy.deepcopy(outcome)` followed by `constraint_set.add_constraint(x in {value})`
    (`probability_distribution_state.py:64-68`; `constraint_factory.py` `var_value_constraint`). -/
def tagOutcome (newName : Str) (o : Outcome) : Res Outcome := do
  let cs ← addConstraint (deepcopy o.cs) (.varValue newName [o.value])
  return ⟨o.value, cs⟩

/-- The loop of `set_var` (`probability_distribution_state.py:63-69`); item assignment overwrites. -/
def tagLoop (newName : Str) : List (Outcome × Nat) → List (Outcome × Nat) → Res (List (Outcome × Nat))
  | [], acc => .ok acc
  | (o, n) :: rest, acc => do
    let o' ← tagOutcome newName o
    tagLoop newName rest (dictSet acc o' n)

/-- `set_var` (`probability_distribution_state.py:52-70`).  The counter is updated before anything can fail. -/
def State.setVar (s : State) (name : Str) (d : Dist) : Res Unit × State :=
  let times := bump s.timesSet name
  let s' := { s with timesSet := times }
  let newName := versionName name ((dictGet? times name).getD 0)
  match tagLoop newName d.getConstraintResultMap [] with
  | .error e => (.error e, s')
  | .ok m => (.ok (), { s' with var := dictSet s.var name (mkDist m) })

end

end PyDice
