import Verif.Spec.State
import Verif.Spec.Expr
/-!
# Vocabulary about runs of programs (specification)
-/

namespace PyDice

section
variable [R : PyRuntime]

/-- What it means that evaluating the expression in the first state gives a value and the second state, in one of the modes. -/
def StepRel := Expr → State → Int → State → Prop

/-- Rolling, for some draws. -/
def rollStep : StepRel := fun e s v s' => Rand.Possible (.ok v, s') (e.roll s)
/-- `max` or `min`. -/
def extremeStep (isMax : Bool) : StepRel := fun e s v s' => e.extreme isMax s = (.ok v, s')

/-- The value noted as the constant `stdout`. -/
def State.setStdout (s : State) (v : Int) : State := { s with constants := dictSet s.constants stdoutName v }

/-- A successful run of a program: the expressions and the values of the lines in order.  Between lines the value is noted as the
    constant `stdout`. -/
inductive LinesRun (parse : Str → Res Expr) (step : StepRel) : State → List Str → List (Expr × Int) → State → Prop where
  | nil (s : State) : LinesRun parse step s [] [] s
  | cons {s s1 s2 : State} {l : Str} {ls : List Str} {e : Expr} {v : Int} {tr : List (Expr × Int)} (hp : parse l = .ok e)
      (hs : step e s v s1) (h : LinesRun parse step (s1.setStdout v) ls tr s2) : LinesRun parse step s (l :: ls) ((e, v) :: tr) s2

/-- The same for distributions; the distribution is noted as the variable `stdout`. -/
inductive DistRun (parse : Str → Res Expr) : State → List Str → List (Expr × Dist) → State → Prop where
  | nil (s : State) : DistRun parse s [] [] s
  | cons {s s1 s2 : State} {l : Str} {ls : List Str} {e : Expr} {d : Dist} {tr : List (Expr × Dist)} (hp : parse l = .ok e)
      (hs : e.dist s = (.ok d, s1)) (h : DistRun parse { s1 with var := dictSet s1.var stdoutName d } ls tr s2) :
      DistRun parse s (l :: ls) ((e, d) :: tr) s2

/-- The dict agrees with what a program computed: `stdout` is the last value, a name last assigned by a whole line has the value of
    that line, and a name that is not assigned has the value it had before. -/
structure Reports (before after : List (Str × Int)) (tr : List (Expr × Int)) : Prop where
  stdout : ∃ e v, tr.getLast? = some (e, v) ∧ dictGet? after stdoutName = some v
  assigned : ∀ x, x ≠ stdoutName → ∀ pre e v post, tr = pre ++ (.assign x e, v) :: post → (∀ p ∈ post, x ∉ p.1.assigned) →
    dictGet? after x = some v
  untouched : ∀ x, x ≠ stdoutName → (∀ p ∈ tr, x ∉ p.1.assigned) → dictGet? after x = dictGet? before x

end

end PyDice
