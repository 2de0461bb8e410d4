import Verif.Spec.Algebra
import Verif.Interp
/-!
# Results with the same numbers
-/

namespace PyDice

section
variable [R : PyRuntime]

/-- Two distributions list the same values, with the same counts and the same total. -/
structure SameCounts (d d' : Dist) : Prop where
  counts : ∀ v, countOf d.getResultMap v = countOf d'.getResultMap v
  keys : ∀ v, hasKey d.getResultMap v ↔ hasKey d'.getResultMap v
  total : d.outcomeCount = d'.outcomeCount

/-- Both raise the same error, or both give a distribution with the same numbers. -/
inductive SameResult : Res Dist → Res Dist → Prop where
  | ok {d d' : Dist} (h : SameCounts d d') : SameResult (.ok d) (.ok d')
  | error (e : Err) : SameResult (.error e) (.error e)

/-- Both calls raise the same error, or both return a dict with distributions under `"stdout"` that have the same numbers. -/
inductive SameOutput : Res (List (Str × Dist)) → Res (List (Str × Dist)) → Prop where
  | ok {m m' : List (Str × Dist)} {d d' : Dist} (h : dictGet? m stdoutName = some d) (h' : dictGet? m' stdoutName = some d')
      (hd : SameCounts d d') : SameOutput (.ok m) (.ok m')
  | error (e : Err) : SameOutput (.error e) (.error e)

/-- The number under `"stdout"`, or the error. -/
def outputOf (r : Res (List (Str × Int))) : Res (Option Int) := r.map fun m => dictGet? m stdoutName

/-- A function of the value of a run; zero for a run that raises. -/
def okValue (φ : Int → ℚ) : Res Int × State → ℚ
  | (.ok v, _) => φ v
  | (.error _, _) => 0

/-- A function of the number that a call of `roll` returns under `"stdout"`; zero for a call that raises. -/
def outputValue (φ : Int → ℚ) : Res (List (Str × Int)) × State → ℚ
  | (.ok m, _) => ((dictGet? m stdoutName).map φ).getD 0
  | (.error _, _) => 0

end

end PyDice
