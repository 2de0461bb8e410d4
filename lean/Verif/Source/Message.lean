import Verif.Source.Semantics
import Verif.Source.Text
import Verif.Dynamic
/-!
# The world in which the arguments of exceptions are evaluated

The evaluator raises by class and leaves the arguments of an exception alone.  Here they are: `raisesIn` collects the `raise` statements of a body, and
`Says` evaluates their arguments.
-/
namespace PyDice.Source
open PyRuntime

/-- The `raise` statements of a body in the order of the text: the class and the arguments. -/
def raisesIn : PyS → List (String × PyE)
  | .seq s rest => raisesIn s ++ raisesIn rest
  | .defn _ _ body rest => raisesIn body ++ raisesIn rest
  | .raise (.callName c args) => [(c, args)]
  | .raise e => [("", e)]
  | .ifs _ t e => raisesIn t ++ raisesIn e
  | .for_ _ _ body => raisesIn body
  | .while_ _ body => raisesIn body
  | .tryx body _ _ handler => raisesIn body ++ raisesIn handler
  | .throw e => [("", e)]
  | _ => []

/-- The classes that are raised. -/
def classOf : String → Option Err
  | "ValueError" => some .value
  | "TypeError" => some .type
  | "KeyError" => some .key
  | "ZeroDivisionError" => some .zeroDivision
  | _ => none

section
variable [R : PyRuntime]

/-- The objects that messages mention. -/
inductive MObj where
  /-- any object of `Verif/Dynamic.lean` -/
  | py (x : PyObj)
  /-- an expression -/
  | expr (e : Expr)
  /-- a class, by its printed form -/
  | cls (text : Str)
  /-- a function, by its name -/
  | fn (name : Str)

/-- Objects are not compared here. -/
instance : BEq MObj := ⟨fun _ _ => false⟩

/-- `str(x)`. -/
def msgStr : MObj → Res Str
  | .py x => .ok x.text
  | .expr e => .ok e.str
  | .cls t => .ok t
  | .fn _ => .error .type

/-- The world of messages. -/
def msgWorld : World MObj Res where
  raise e := .error e
  attr
    | .fn n, "__name__" => .ok (.str n)
    | _, _ => .error .type
  setAttr _ _ _ := .error .type
  method o f args := match f, args with
    | "__str__", [] => do return (.str (← msgStr o), none)
    | _, _ => .error .type
  func
    | ["type"], [.obj (.py x)] => .ok (.obj (.cls x.cls))
    | _, _ => .error .type
  bin _ _ _ := .error .type
  cmp _ _ _ := .error .type
  getItem _ _ := .error .type
  setItem _ _ _ := .error .type
  contains _ _ := .error .type
  iter _ := .error .type
  truth _ := .ok true
  str := msgStr
  strFl _ := .error .type
  mkSet _ := .error .type
  isInst _ _ := false
  callLam _ _ _ := .error .type
  toFl q := .ok q
  rnd q := q
  fuel := 0
  throw _ := .error .type
  attempt _ _ := .error .type

/-- The class of an exception and its `args[0]` (`none`: raised without arguments). -/
def said (env : Env MObj) (p : String × PyE) : Option (Err × Option Str) :=
  match classOf p.1, p.2 with
  | some c, .nil => some (c, none)
  | some c, .cons e .nil => match evalE msgWorld [] e env with
    | .ok (.str s, _) => some (c, some s)
    | _ => none
  | _, _ => none

/-- With these values of the variables, the `raise` statements of `f` are, in the order of the text, those of the list: each class with its message. -/
def Says (f : PyFun) (env : Env MObj) (l : List (Err × Option Str)) : Prop := (raisesIn f.body).map (said env) = l.map some

/-- The text of each operator of a distribution. -/
def distMethod : BinOp → PyFun
  | .add => Text.ProbabilityDistribution.__add__
  | .sub => Text.ProbabilityDistribution.__sub__
  | .mul => Text.ProbabilityDistribution.__mul__
  | .floordiv => Text.ProbabilityDistribution.__floordiv__
  | .eq => Text.ProbabilityDistribution.__equal__
  | .ne => Text.ProbabilityDistribution.__not_equal__
  | .lt => Text.ProbabilityDistribution.__lt__
  | .le => Text.ProbabilityDistribution.__le__
  | .gt => Text.ProbabilityDistribution.__gt__
  | .ge => Text.ProbabilityDistribution.__ge__
  | .and => Text.ProbabilityDistribution.__and__
  | .or => Text.ProbabilityDistribution.__or__
  | .max => Text.ProbabilityDistribution.max_operator
  | .min => Text.ProbabilityDistribution.min_operator

end
end PyDice.Source
