import Mathlib.Data.Int.Bitwise
import Verif.Spec.Program
/-!
# What rolls mean, with the idea of truth that rolls have (specification)

Like `ways`, but the logical operators work as they do on rolled numbers: `!` takes every number but 0 for true, `OR` asks whether a
number is not 0, and `AND` asks whether the two numbers have a binary digit 1 in common.  Dice that cannot be thrown (no face has a
positive weight) fail.  Nothing here refers to distributions, constraints or states.
-/

namespace PyDice

/-- The value of an operator on rolled numbers; `none` for a division by zero. -/
def rollOpValue : BinOp → Int → Int → Option Int
  | .and, x, y => some (if Int.land x y = 0 then 0 else 1)
  | .or, x, y => some (if x = 0 ∧ y = 0 then 0 else 1)
  | op, x, y => opValue op x y

/-- The number of dice that count is fixed to zero by the text: nothing is thrown. -/
def DropKeepTerm.idle (t : DropKeepTerm) : Prop := (t.keep = true ∧ t.count = 0 ∧ 0 < t.number) ∨ (t.keep = false ∧ t.number ≤ t.count)

instance (t : DropKeepTerm) : Decidable t.idle := by unfold DropKeepTerm.idle; infer_instance

/-- The equally likely results of rolling an expression, for given values of the variables: one for every way its dice can fall.
    `none` is a failure (division by zero, a variable without value, dice that cannot be thrown). -/
def rollWays : Expr → Env → List (Option Int)
  | .paren e, env => rollWays e env
  | .not e, env => (rollWays e env).map (Option.map fun x => if x = 0 then 1 else 0)
  | .dropKeep t, _ =>
    if t.idle then [some 0] else if facesOf t.table = [] then [none]
    else (tuples (facesOf t.table) t.number).map fun dice => some (t.result dice)
  | .dice t, _ =>
    if facesOf t.table = [] then [none] else (tuples (facesOf t.table) t.number).map fun dice => some dice.sum
  | .constInt text, _ => [(pyInt text).toOption]
  | .constBin text, _ => [some (if text = ['T', 'r', 'u', 'e'] then 1 else 0)]
  | .add a b, env => combineWays (rollOpValue .add) (rollWays a env) (rollWays b env)
  | .sub a b, env => combineWays (rollOpValue .sub) (rollWays a env) (rollWays b env)
  | .mul a b, env => combineWays (rollOpValue .mul) (rollWays a env) (rollWays b env)
  | .div a b, env => combineWays (rollOpValue .floordiv) (rollWays a env) (rollWays b env)
  | .bin op a b, env => combineWays (rollOpValue op.toBinOp) (rollWays a env) (rollWays b env)
  | .minmax isMax a b, env => combineWays (rollOpValue (if isMax then .max else .min)) (rollWays a env) (rollWays b env)
  | .abs e, env => (rollWays e env).map (Option.map fun x => |x|)
  | .assign _ e, env => rollWays e env
  | .getVar name, env => [env name]

/-- Every drop or keep term is what the constructor makes of some text. -/
def Expr.Made : Expr → Prop
  | .paren e => e.Made
  | .not e => e.Made
  | .dropKeep t => ∃ form, mkDropKeep form = .ok t
  | .dice _ => True
  | .constInt _ => True
  | .constBin _ => True
  | .add a b => a.Made ∧ b.Made
  | .sub a b => a.Made ∧ b.Made
  | .mul a b => a.Made ∧ b.Made
  | .div a b => a.Made ∧ b.Made
  | .bin _ a b => a.Made ∧ b.Made
  | .minmax _ a b => a.Made ∧ b.Made
  | .abs e => e.Made
  | .assign _ e => e.Made
  | .getVar _ => True

/-- A line of any program: `VAR x = e`, or just `e`. -/
abbrev AnyLine := Option Str × Expr

/-- The expression of the line. -/
def AnyLine.expr : AnyLine → Expr
  | (some x, e) => .assign x e
  | (none, e) => e

/-- The values after a line gave the value: its variable has it, and so has `stdout`. -/
def Env.after (env : Env) (x : Option Str) (v : Int) : Env :=
  (match x with | none => env | some x => env.set x (some v)).set stdoutName (some v)

/-- The values of the variables (`stdout` among them) after rolling the lines one after the other, once for every way all the dice can
    fall; `none` when a line fails. -/
def runRolls : List AnyLine → Env → List (Option Env)
  | [], env => [some env]
  | (x, e) :: p, env => (rollWays e env).flatMap fun
    | none => List.replicate (runRolls p Env.empty).length none
    | some v => runRolls p (env.after x v)

/-- The equally likely results of rolling the lines: the value of the last one. -/
def progRolls (p : List AnyLine) : List (Option Int) := (runRolls p Env.empty).map fun o => o.bind fun env => env stdoutName

end PyDice
