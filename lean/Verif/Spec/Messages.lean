import Verif.Spec.Expr
/-!
# Looking at variables and setting them, in order (specification)
-/

namespace PyDice

/-- A place in the memory: the distribution or the constant of a name. -/
inductive Slot where
  | var (name : Str)
  | const (name : Str)
  deriving DecidableEq, Repr

/-- One step: look at a place or fill it. -/
inductive Step where
  | look (p : Slot)
  | fill (p : Slot)
  deriving DecidableEq, Repr

/-- The first place that is looked at while nothing is there. -/
def firstMissing : (Slot → Bool) → List Step → Option Slot
  | _, [] => none
  | has, .look p :: rest => if has p then firstMissing has rest else some p
  | has, .fill p :: rest => firstMissing (fun q => decide (q = p) || has q) rest

/-- What is there after the steps. -/
def filled : (Slot → Bool) → List Step → Slot → Bool
  | has, [] => has
  | has, .look _ :: rest => filled has rest
  | has, .fill p :: rest => filled (fun q => decide (q = p) || has q) rest

/-- What a `KeyError` says about a place. -/
def Slot.complaint : Slot → Str
  | .var n => "Var named ".toList ++ n ++ " not in state.".toList
  | .const n => "Constant named ".toList ++ n ++ " not in state.".toList

/-- The steps of computing the distribution. -/
def Expr.distSteps : Expr → List Step
  | .paren e => e.distSteps
  | .not e => e.distSteps
  | .dropKeep _ => []
  | .dice _ => []
  | .constInt _ => []
  | .constBin _ => []
  | .add a b => a.distSteps ++ b.distSteps
  | .sub a b => a.distSteps ++ b.distSteps
  | .mul a b => a.distSteps ++ b.distSteps
  | .div a b => a.distSteps ++ b.distSteps
  | .bin _ a b => a.distSteps ++ b.distSteps
  | .minmax _ a b => a.distSteps ++ b.distSteps
  | .abs e => e.distSteps
  | .assign x e => e.distSteps ++ [.fill (.var x)]
  | .getVar n => [.look (.var n)]

/-- The steps of `max` and `min`: the operands of MIN and MAX one by one, the divisor of a division beforehand, everything else through
    the distribution; an assignment goes through its expression twice. -/
def Expr.extremeSteps : Expr → List Step
  | .paren e => e.extremeSteps
  | .not e => e.distSteps
  | .dropKeep _ => []
  | .dice _ => []
  | .constInt _ => []
  | .constBin _ => []
  | .add a b => a.distSteps ++ b.distSteps
  | .sub a b => a.distSteps ++ b.distSteps
  | .mul a b => a.distSteps ++ b.distSteps
  | .div a b => b.distSteps ++ (a.distSteps ++ b.distSteps)
  | .bin _ a b => a.distSteps ++ b.distSteps
  | .minmax _ a b => a.extremeSteps ++ b.extremeSteps
  | .abs e => e.distSteps
  | .assign x e => e.extremeSteps ++ (.fill (.const x) :: (e.distSteps ++ [.fill (.var x)]))
  | .getVar n => [.look (.const n)]

/-- The steps of the cost. -/
def Expr.costSteps : Expr → List Step
  | .paren e => e.costSteps
  | .not e => e.costSteps
  | .dropKeep _ => []
  | .dice _ => []
  | .constInt _ => []
  | .constBin _ => []
  | .add a b => a.costSteps ++ b.costSteps
  | .sub a b => a.costSteps ++ b.costSteps
  | .mul a b => a.costSteps ++ b.costSteps
  | .div a b => a.costSteps ++ b.costSteps
  | .bin _ a b => a.costSteps ++ b.costSteps
  | .minmax _ a b => a.costSteps ++ b.costSteps
  | .abs e => e.costSteps
  | .assign x e => e.costSteps ++ [.fill (.const x)]
  | .getVar n => [.look (.const n)]

/-- The steps of a roll: the divisor before the dividend. -/
def Expr.rollSteps : Expr → List Step
  | .paren e => e.rollSteps
  | .not e => e.rollSteps
  | .dropKeep _ => []
  | .dice _ => []
  | .constInt _ => []
  | .constBin _ => []
  | .add a b => a.rollSteps ++ b.rollSteps
  | .sub a b => a.rollSteps ++ b.rollSteps
  | .mul a b => a.rollSteps ++ b.rollSteps
  | .div a b => b.rollSteps ++ a.rollSteps
  | .bin _ a b => a.rollSteps ++ b.rollSteps
  | .minmax _ a b => a.rollSteps ++ b.rollSteps
  | .abs e => e.rollSteps
  | .assign x e => e.rollSteps ++ [.fill (.const x)]
  | .getVar n => [.look (.const n)]

/-- The steps of lines, each followed by filling its `stdout`. -/
def linesSteps (steps : Expr → List Step) (out : List Step) (es : List Expr) : List Step := es.flatMap fun e => steps e ++ out

/-- The divisions that stand under nothing but brackets, MIN, MAX and assignments. -/
def Expr.outerDivs : Expr → List (Expr × Expr)
  | .paren e => e.outerDivs
  | .div a b => [(a, b)]
  | .minmax _ a b => a.outerDivs ++ b.outerDivs
  | .assign _ e => e.outerDivs
  | _ => []

/-- The expression and everything inside it. -/
def Expr.parts : Expr → List Expr
  | .paren e => .paren e :: e.parts
  | .not e => .not e :: e.parts
  | .dropKeep t => [.dropKeep t]
  | .dice t => [.dice t]
  | .constInt t => [.constInt t]
  | .constBin t => [.constBin t]
  | .add a b => .add a b :: (a.parts ++ b.parts)
  | .sub a b => .sub a b :: (a.parts ++ b.parts)
  | .mul a b => .mul a b :: (a.parts ++ b.parts)
  | .div a b => .div a b :: (a.parts ++ b.parts)
  | .bin op a b => .bin op a b :: (a.parts ++ b.parts)
  | .minmax k a b => .minmax k a b :: (a.parts ++ b.parts)
  | .abs e => .abs e :: e.parts
  | .assign x e => .assign x e :: e.parts
  | .getVar n => [.getVar n]

section
variable [R : PyRuntime]

/-- What is there in a state. -/
def State.has (s : State) : Slot → Bool
  | .var n => (dictGet? s.var n).isSome
  | .const n => (dictGet? s.constants n).isSome

end

end PyDice
