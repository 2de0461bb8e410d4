import Verif.Float
import Verif.Interp
/-!
# The figures a distribution reports, in floats

`Verif/Dist.lean` computes the figures of `probability_distribution.py` exactly.  Here they are computed as the code does, in
double precision.
-/

namespace PyDice

section
variable [R : PyRuntime]

/-- `get_dict_form` (`probability_distribution.py:236-237`). -/
def Dist.getDictFormF (d : Dist) : Res (List (Int × ℚ)) :=
  d.getResultMap.mapM (fun p =>
    if d.outcomeCount = 0 then .error .zeroDivision else do return (p.1, ← toFloat ((p.2 : ℚ) / (d.outcomeCount : ℚ))))

/-- `average` (`probability_distribution.py:193-197`). -/
def Dist.averageF (d : Dist) : Res ℚ :=
  let total := d.getResultMap.foldl (fun t p => t + p.1 * (p.2 : Int)) (0 : Int)
  if d.outcomeCount = 0 then .error .zeroDivision else toFloat ((total : ℚ) / (d.outcomeCount : ℚ))

/-- The loop of `at_least` (`probability_distribution.py:205-207`).  The int 1 at the start and the int 0 for missing keys are
    numbers like any other; dividing by 1 changes nothing. -/
def atLeastLoopF (h : List (Int × ℚ)) : List Int → ℚ → List (Int × ℚ) → List (Int × ℚ)
  | [], _, acc => acc
  | v :: rest, above, acc =>
    atLeastLoopF h rest (toDouble (above - (dictGet? h v).getD 0)) (dictSet acc v (toDouble (above / 1)))

/-- `at_least` (`probability_distribution.py:199-208`). -/
def Dist.atLeastF (d : Dist) : Res (List (Int × ℚ)) := do
  let h ← getHistogramForm (← d.getDictFormF)
  let keys := (h.map Prod.fst).mergeSort (fun a b => decide (a ≤ b))
  return atLeastLoopF h keys 1 []

/-- The loop of `at_most` (`probability_distribution.py:216-218`). -/
def atMostLoopF (h : List (Int × ℚ)) : List Int → ℚ → List (Int × ℚ) → List (Int × ℚ)
  | [], _, acc => acc
  | v :: rest, below, acc =>
    let below' := toDouble (below + (dictGet? h v).getD 0)
    atMostLoopF h rest below' (dictSet acc v (toDouble (below' / 1)))

/-- `at_most` (`probability_distribution.py:210-219`). -/
def Dist.atMostF (d : Dist) : Res (List (Int × ℚ)) := do
  let h ← getHistogramForm (← d.getDictFormF)
  let keys := (h.map Prod.fst).mergeSort (fun a b => decide (a ≤ b))
  return atMostLoopF h keys 0 []

/-- `get_probability_distributions_dict` (`python_dice_interpreter.py:71-78`). -/
def interpDictFormsF (parse : Str → Res Expr) (lines : List Str) : EvalM (List (Str × List (Int × ℚ))) := do
  let d ← interpDists parse lines
  EvalM.ofRes (mapValues Dist.getDictFormF d)

/-- `get_average` (`python_dice_interpreter.py:89-96`). -/
def interpAveragesF (parse : Str → Res Expr) (lines : List Str) : EvalM (List (Str × ℚ)) := do
  let d ← interpDists parse lines
  EvalM.ofRes (mapValues Dist.averageF d)

end

end PyDice
