import Verif.Source.World
/-!
# What it means that a function's text does what the model says

`Verif/Source/Text.lean` holds the bodies of the project's functions as syntax trees, `Verif/Source/Semantics.lean` says how such trees run and
`Verif/Source/World.lean` what the objects and library functions are.
-/
namespace PyDice.Source
open PyRuntime

section
variable [R : PyRuntime]

/-- The world of the model, with lambdas. -/
def world (toFl : ℚ → Res ℚ) (rnd : ℚ → ℚ) (fuel : Nat) : World Obj RollM := (world0 toFl rnd fuel).tie

variable (W : World Obj RollM)

/-- Running the function on the arguments is `r`: the same draws, the same state changes, the same result or exception. -/
def Gives (f : PyFun) (args : List V) (r : RollM V) : Prop := PyFun.run W f args = r

/-- The constructor `f`, run on the arguments (after `self`), sets the fields named, in this order, to what the object `o` of the model has under
    these names, and nothing else. -/
def Builds (f : PyFun) (args : List V) (o : Obj) (names : List String) : Prop :=
  f.runIn W [] (.none :: args) [] = (do let vs ← mapVals (attrObj o) names; pure (.none, (names.map ("self." ++ ·)).zip vs))

/-- A symbol of the parser's stack as a value. -/
def symV : PyDice.Val → V
  | .tok t => .obj (.token t.text)
  | .expr e => .obj (.expr e)

/-- The production function `f`, run on the state and the symbols of a right-hand side, makes the expression the model's production `n` makes. -/
def Produces (f : PyFun) (n : Nat) (syms : List PyDice.Val) : Prop :=
  Prod.fst <$> f.runIn W [] [.obj .state, .list (syms.map symV)]
      [("probability_distribution_factory", .obj (.svc "ProbabilityDistributionFactory"))] =
    (fun e => .obj (.expr e)) <$> liftR (build n syms)

/-- The listed names, if the value is a set of names. -/
def namesOf : V → Option (List Str)
  | .obj o => asNames o
  | _ => none

/-- The function gives a set of names: the listed ones. -/
def GivesNames (f : PyFun) (args : List V) (l : List Str) : Prop := namesOf <$> PyFun.run W f args = pure (some l)

end
end PyDice.Source
