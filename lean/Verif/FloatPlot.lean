import Verif.FloatDist
/-!
# The plots in floats

`Verif/Dist.lean` computes what is handed to matplotlib exactly and leaves out the average line.  Here it is computed as the code
does, in double precision, up to the calls of matplotlib.  The label of the average line is left out: it is the printed form of a
float.
-/

namespace PyDice

/-- `value - 0.5` and `value + 0.5` for an int `value` (`probability_distribution.py:136-137`): the int is converted to a float
    first, which raises `OverflowError` when it is too large. -/
def shiftF (v : Int) (by' : ℚ) : Res ℚ := do
  let x ← toFloat (v : ℚ)
  return toDouble (x + by')

/-- What `_make_histogram` hands to matplotlib: the arguments of `axis.hist`, and the x and y values of the average line. -/
structure Picture where
  hist : HistData
  line : Option (List ℚ × List ℚ)
  deriving DecidableEq

/-- `max(values)` of a list of floats (`probability_distribution.py:145`). -/
def maxF : List ℚ → Res ℚ
  | [] => .error .value
  | y :: ys => .ok (ys.foldl (fun m y => if m < y then y else m) y)

/-- `_make_histogram` up to the calls of matplotlib (`probability_distribution.py:129-152`). -/
def makeHistogramF (xs : List Int) (ys : List ℚ) (average : Option ℚ) : Res Picture := do
  let (xs, ys) ← sortedZip xs ys
  let bins ← xs.mapM (fun v => shiftF v (-(1 / 2)))
  match xs.getLast? with
  | none => .error .index
  | some last =>
    let top ← shiftF last (1 / 2)
    match average with
    | none => return ⟨⟨xs, ys, bins ++ [top]⟩, none⟩
    | some a =>
      let maxHeight ← maxF ys
      return ⟨⟨xs, ys, bins ++ [top]⟩, some ([a, a], [0, toDouble (maxHeight * toDouble (11 / 10))])⟩

section
variable [R : PyRuntime]

/-- `get_histogram` (`probability_distribution.py:38-41`). -/
def Dist.histogramF (d : Dist) : Res Picture := do
  let h ← getHistogramForm (← d.getDictFormF)
  let xs := h.map Prod.fst
  let a ← d.averageF
  makeHistogramF xs (lookupAll h xs) (some a)

/-- `get_at_least_histogram` (`probability_distribution.py:43-46`). -/
def Dist.atLeastHistogramF (d : Dist) : Res Picture := do
  let h ← d.atLeastF
  let xs := h.map Prod.fst
  let a ← d.averageF
  makeHistogramF xs (lookupAll h xs) (some a)

/-- `get_at_most_histogram` (`probability_distribution.py:48-51`). -/
def Dist.atMostHistogramF (d : Dist) : Res Picture := do
  let h ← d.atMostF
  let xs := h.map Prod.fst
  let a ← d.averageF
  makeHistogramF xs (lookupAll h xs) (some a)

/-- `y_value_calculator` (`probability_distribution.py:59-65`): a missing key leaves the number as it is. -/
def yValueF (h h' : List (Int × ℚ)) (x : Int) : ℚ :=
  let value := match dictGet? h x with
    | some y => toDouble (0 + y)
    | none => 0
  match dictGet? h' x with
    | some y => toDouble (value - y)
    | none => value

/-- `get_compare_histogram` (`probability_distribution.py:53-67`). -/
def Dist.compareHistogramF (d e : Dist) : Res Picture := do
  let h ← getHistogramForm (← d.getDictFormF)
  let h' ← getHistogramForm (← e.getDictFormF)
  let xs := h.map Prod.fst ++ h'.map Prod.fst
  makeHistogramF xs (xs.map (yValueF h h')) none

/-- `get_compare` (`probability_distribution.py:69-87`). -/
def Dist.compareF (d e : Dist) : Res ((List Int × List ℚ) × (List Int × List ℚ)) := do
  let h ← getHistogramForm (← d.getDictFormF)
  let h' ← getHistogramForm (← e.getDictFormF)
  makeLinePlot h h'

/-- `get_compare_at_least` (`probability_distribution.py:89-107`). -/
def Dist.compareAtLeastF (d e : Dist) : Res ((List Int × List ℚ) × (List Int × List ℚ)) := do
  let h ← d.atLeastF
  let h' ← e.atLeastF
  makeLinePlot h h'

/-- `get_compare_at_most` (`probability_distribution.py:109-127`). -/
def Dist.compareAtMostF (d e : Dist) : Res ((List Int × List ℚ) × (List Int × List ℚ)) := do
  let h ← d.atMostF
  let h' ← e.atMostF
  makeLinePlot h h'

/-- `get_histogram` of the interpreter (`python_dice_interpreter.py:98-103`). -/
def interpHistogramF (parse : Str → Res Expr) (lines : List Str) : EvalM Picture := do
  let d ← interpHistogramDist parse lines
  EvalM.ofRes d.histogramF

/-- `get_at_least_histogram` of the interpreter (`python_dice_interpreter.py:105-110`). -/
def interpAtLeastHistogramF (parse : Str → Res Expr) (lines : List Str) : EvalM Picture := do
  let d ← interpHistogramDist parse lines
  EvalM.ofRes d.atLeastHistogramF

/-- `get_at_most_histogram` of the interpreter (`python_dice_interpreter.py:112-117`). -/
def interpAtMostHistogramF (parse : Str → Res Expr) (lines : List Str) : EvalM Picture := do
  let d ← interpHistogramDist parse lines
  EvalM.ofRes d.atMostHistogramF

end

end PyDice
