import Verif.Outcome
import Mathlib.Algebra.Order.Field.Rat
import Mathlib.Algebra.BigOperators.Group.List.Basic
/-!
# `src/probability_distribution/probability_distribution.py`

Simplification: Python floats are exact rationals.
-/

namespace PyDice

/-- `max(iterable)` on ints: `ValueError` when empty. -/
def listMax : List Int → Res Int
  | [] => .error .value
  | x :: t => .ok (t.foldl (fun m y => if y > m then y else m) x)

/-- `min(iterable)` on ints: `ValueError` when empty. -/
def listMin : List Int → Res Int
  | [] => .error .value
  | x :: t => .ok (t.foldl (fun m y => if y < m then y else m) x)

/-- `range(lo, hi)`. -/
def pyRange (lo hi : Int) : List Int := (List.range (hi - lo).toNat).map (fun i : Nat => lo + (i : Int))

/-- `_get_histogram_form` (`probability_distribution.py:239-247`). -/
def getHistogramForm (base : List (Int × ℚ)) : Res (List (Int × ℚ)) :=
  let itemList := base.mergeSort (fun a b => decide (a.1 ≤ b.1))
  match itemList.head?, itemList.getLast? with
  | some lo, some hi => .ok ((pyRange lo.1 (hi.1 + 1)).foldl
      (fun d i => if (dictGet? d i).isSome then d else dictSet d i 0) base)
  | _, _ => .error .index

section
variable [R : PyRuntime]

/-- A `ProbabilityDistribution` object: `_result_map` and `_outcome_count` (`probability_distribution.py:20-22`). -/
structure Dist where
  resultMap : List (Outcome × Nat)
  outcomeCount : Nat

/-- `ProbabilityDistribution.__init__` on a dict with outcome keys (`probability_distribution.py:15-36`). -/
def mkDist (m : List (Outcome × Nat)) : Dist :=
  let rm := m.foldl (fun d p => safeAdd d p.1 p.2) []
  ⟨rm, rm.foldl (fun c p => c + p.2) 0⟩

/-- `ProbabilityDistribution.__init__` on a dict with int keys (`probability_distribution.py:30-32`): every key becomes an
    outcome tied to nothing. -/
def mkDistInt (m : List (Int × Nat)) : Res Dist := do
  let os ← m.mapM (fun p => do return ((← createEmpty p.1), p.2))
  return mkDist os

/-- `get_result_map` (`probability_distribution.py:221-231`). -/
def Dist.getResultMap (d : Dist) : List (Int × Nat) :=
  d.resultMap.foldl (fun m p => safeAdd m p.1.value p.2) []

/-- `get_constraint_result_map` (`probability_distribution.py:233-234`). -/
def Dist.getConstraintResultMap (d : Dist) : List (Outcome × Nat) := d.resultMap

/-- `max` (`probability_distribution.py:183-184`). -/
def Dist.max (d : Dist) : Res Int := listMax (d.getResultMap.map Prod.fst)

/-- `min` (`probability_distribution.py:186-187`). -/
def Dist.min (d : Dist) : Res Int := listMin (d.getResultMap.map Prod.fst)

/-- `contains_zero` (`probability_distribution.py:189-191`); `result_map != 0` is always true. -/
def Dist.containsZero (d : Dist) : Bool := (dictGet? d.getResultMap 0).isSome && true

/-- `average` (`probability_distribution.py:193-197`). -/
def Dist.average (d : Dist) : Res ℚ :=
  let total := d.getResultMap.foldl (fun t p => t + p.1 * (p.2 : Int)) (0 : Int)
  if d.outcomeCount = 0 then .error .zeroDivision else .ok ((total : ℚ) / (d.outcomeCount : ℚ))

/-- `get_dict_form` (`probability_distribution.py:236-237`). -/
def Dist.getDictForm (d : Dist) : Res (List (Int × ℚ)) :=
  d.getResultMap.mapM (fun p =>
    if d.outcomeCount = 0 then .error .zeroDivision else .ok (p.1, (p.2 : ℚ) / (d.outcomeCount : ℚ)))

/-- The loop of `at_least` (`probability_distribution.py:205-207`). -/
def atLeastLoop (h : List (Int × ℚ)) : List Int → ℚ → List (Int × ℚ) → List (Int × ℚ)
  | [], _, acc => acc
  | v :: rest, above, acc =>
    atLeastLoop h rest (above - (dictGet? h v).getD 0) (dictSet acc v (above / 1))

/-- `at_least` (`probability_distribution.py:199-208`). -/
def Dist.atLeast (d : Dist) : Res (List (Int × ℚ)) := do
  let h ← getHistogramForm (← d.getDictForm)
  let keys := (h.map Prod.fst).mergeSort (fun a b => decide (a ≤ b))
  return atLeastLoop h keys 1 []

/-- The loop of `at_most` (`probability_distribution.py:216-218`). -/
def atMostLoop (h : List (Int × ℚ)) : List Int → ℚ → List (Int × ℚ) → List (Int × ℚ)
  | [], _, acc => acc
  | v :: rest, below, acc =>
    let below' := below + (dictGet? h v).getD 0
    atMostLoop h rest below' (dictSet acc v (below' / 1))

/-- `at_most` (`probability_distribution.py:210-219`). -/
def Dist.atMost (d : Dist) : Res (List (Int × ℚ)) := do
  let h ← getHistogramForm (← d.getDictForm)
  let keys := (h.map Prod.fst).mergeSort (fun a b => decide (a ≤ b))
  return atMostLoop h keys 0 []

/-- The pairs visited by the two nested loops of `_combine_distributions` (`probability_distribution.py:261-262`), in order. -/
def pairsOf {α β : Type} (a : List α) (b : List β) : List (α × β) := a.flatMap fun p => b.map fun q => (p, q)

/-- `_combine_distributions` (`probability_distribution.py:249-266`): the loop body over the visited pairs. -/
def combineLoop (op : BinOp) : List ((Outcome × Nat) × (Outcome × Nat)) → List (Outcome × Nat) →
    Res (List (Outcome × Nat))
  | [], acc => .ok acc
  | (p, q) :: rest, acc => do
    let o ← Outcome.combine op p.1 q.1
    if o.isPossible then combineLoop op rest (safeAdd acc o (p.2 * q.2)) else combineLoop op rest acc

/-- The operators `__add__` ... `__or__`, `max_operator`, `min_operator` (`probability_distribution.py:268-338, 352-362`).
    Simplification: no `TypeError` for foreign operands. -/
def Dist.binop (op : BinOp) (a b : Dist) : Res Dist := do
  let m ← combineLoop op (pairsOf a.resultMap b.getConstraintResultMap) []
  return mkDist m

/-- `not_operator` (`probability_distribution.py:340-350`). -/
def Dist.notOp (d : Dist) : Dist := mkDist (d.resultMap.foldl (fun m p => safeAdd m p.1.notOp p.2) [])

/-- `__abs__` (`probability_distribution.py:364-374`). -/
def Dist.absOp (d : Dist) : Dist := mkDist (d.resultMap.foldl (fun m p => safeAdd m p.1.absOp p.2) [])

end

/-- `(list(t) for t in zip(*sorted(zip(xs, ys))))` as used by `_make_histogram` and `_make_line_plot`
    (`probability_distribution.py:135, 168-169`).  Tuples are ordered lexicographically; unpacking the two lists raises
    `ValueError` when there is nothing to unpack. -/
def sortedZip (xs : List Int) (ys : List ℚ) : Res (List Int × List ℚ) :=
  let s := (xs.zip ys).mergeSort (fun a b => decide (a.1 < b.1 ∨ (a.1 = b.1 ∧ a.2 ≤ b.2)))
  if s.length = 0 then .error .value else .ok (s.map Prod.fst, s.map Prod.snd)

/-- The arguments handed to `axis.hist`: x values, weights and bins (`probability_distribution.py:135-140`). -/
structure HistData where
  xs : List Int
  weights : List ℚ
  bins : List ℚ
  deriving DecidableEq

/-- `_make_histogram` up to the call of matplotlib (`probability_distribution.py:129-140`). -/
def makeHistogram (xs : List Int) (ys : List ℚ) : Res HistData := do
  let (xs, ys) ← sortedZip xs ys
  let bins := xs.map (fun v : Int => (v : ℚ) - 1 / 2)
  match xs.getLast? with
  | some last => return ⟨xs, ys, bins ++ [(last : ℚ) + 1 / 2]⟩
  | none => .error .index

/-- `[data[x] for x in xs]` where every `x` is a key. -/
def lookupAll (data : List (Int × ℚ)) (xs : List Int) : List ℚ := xs.map (fun x => (dictGet? data x).getD 0)

section
variable [R : PyRuntime]

/-- `get_histogram` (`probability_distribution.py:38-41`); the average line is dropped. -/
def Dist.histogramData (d : Dist) : Res HistData := do
  let h ← getHistogramForm (← d.getDictForm)
  let xs := h.map Prod.fst
  let _ ← d.average
  makeHistogram xs (lookupAll h xs)

/-- `get_at_least_histogram` (`probability_distribution.py:43-46`). -/
def Dist.atLeastHistogramData (d : Dist) : Res HistData := do
  let h ← d.atLeast
  let xs := h.map Prod.fst
  let _ ← d.average
  makeHistogram xs (lookupAll h xs)

/-- `get_at_most_histogram` (`probability_distribution.py:48-51`). -/
def Dist.atMostHistogramData (d : Dist) : Res HistData := do
  let h ← d.atMost
  let xs := h.map Prod.fst
  let _ ← d.average
  makeHistogram xs (lookupAll h xs)

/-- `get_compare_histogram` (`probability_distribution.py:53-67`): the keys of both distributions one after the other. -/
def Dist.compareHistogramData (d e : Dist) : Res HistData := do
  let h ← getHistogramForm (← d.getDictForm)
  let h' ← getHistogramForm (← e.getDictForm)
  let xs := h.map Prod.fst ++ h'.map Prod.fst
  makeHistogram xs (xs.map fun x : Int => (dictGet? h x).getD 0 - (dictGet? h' x).getD 0)

/-- The two lines plotted by `_make_line_plot` (`probability_distribution.py:160-172`). -/
def makeLinePlot (h h' : List (Int × ℚ)) : Res ((List Int × List ℚ) × (List Int × List ℚ)) := do
  let l ← sortedZip (h.map Prod.fst) (lookupAll h (h.map Prod.fst))
  let l' ← sortedZip (h'.map Prod.fst) (lookupAll h' (h'.map Prod.fst))
  return (l, l')

/-- `get_compare` (`probability_distribution.py:69-87`). -/
def Dist.compareData (d e : Dist) : Res ((List Int × List ℚ) × (List Int × List ℚ)) := do
  let h ← getHistogramForm (← d.getDictForm)
  let h' ← getHistogramForm (← e.getDictForm)
  makeLinePlot h h'

/-- `get_compare_at_least` (`probability_distribution.py:89-107`). -/
def Dist.compareAtLeastData (d e : Dist) : Res ((List Int × List ℚ) × (List Int × List ℚ)) := do
  let h ← d.atLeast
  let h' ← e.atLeast
  makeLinePlot h h'

/-- `get_compare_at_most` (`probability_distribution.py:109-127`). -/
def Dist.compareAtMostData (d e : Dist) : Res ((List Int × List ℚ) × (List Int × List ℚ)) := do
  let h ← d.atMost
  let h' ← e.atMost
  makeLinePlot h h'

end

end PyDice
