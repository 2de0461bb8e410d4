import Verif.Lemmas.SourcePlot
import Verif.Spec.SourceClass
import Verif.Lemmas.SourcePlotFloat
/-!
# C78: the texts of the methods that draw do what the model says

`_make_histogram` and `_make_line_plot` run in a world in which the calls of matplotlib, `io` and Pillow are written down; the methods that
call these two run in the world of C72 to C77.
-/
namespace PyDice
open PyRuntime Source

section
variable (fl : ℚ → Res ℚ) (rd : ℚ → ℚ) (fs : ℚ → Str)
set_option linter.unusedSimpArgs false
set_option maxHeartbeats 1000000
local notation "P" => plotWorld fl rd fs

/-- `probability_distribution/probability_distribution.py:159-181`: which calls are made, in which order and with which arguments. -/
theorem C78_make_line_plot (xs : List Int) (ys : List PyNum) (xs' : List Int) (ys' : List PyNum) (a b : Str) :
    Draws P Text.ProbabilityDistribution._make_line_plot
      [.list (xs.map .int), .list (ys.map PyNum.val), .list (xs'.map .int), .list (ys'.map PyNum.val), .str a, .str b]
      ((fun p => lineCalls p a b) <$> makeLinesG xs ys xs' ys') := by
  unfold Draws
  cases hs : (xs.zip ys).mergeSort leN with
  | nil => 
    simp [src, Text.ProbabilityDistribution._make_line_plot, zipV_num, makeLinesG, sortedPairs_eq, hs, zipRows, setNames]
    rfl
  | cons p t => cases hs' : (xs'.zip ys').mergeSort leN with
    | nil => 
      have h1 := zipRows_num (Ω := PObj) p t
      have g1 := rows_num fl rd fs (p :: t)
      simp only [List.map_cons] at h1 g1
      have h0 : zipRows ([] : List (List (Source.Val PObj))) = [] := rfl
      simp [src, Text.ProbabilityDistribution._make_line_plot, zipV_num, makeLinesG, sortedPairs_eq, hs, hs', h0, setNames, h1, g1]
      rfl
    | cons p' t' =>
      have h1 := zipRows_num (Ω := PObj) p t
      have h2 := zipRows_num (Ω := PObj) p' t'
      have g1 := rows_num fl rd fs (p :: t)
      have g2 := rows_num fl rd fs (p' :: t')
      simp only [List.map_cons] at h1 h2 g1 g2
      simp [src, Text.ProbabilityDistribution._make_line_plot, zipV_num, makeLinesG, sortedPairs_eq, hs, hs', h1, h2, g1, g2, setNames]
      change _ = drawing (Except.ok (lineCalls ⟨p.1 :: t.map Prod.fst, p.2 :: t.map Prod.snd, p'.1 :: t'.map Prod.fst, p'.2 :: t'.map Prod.snd⟩ a b))
      simp [lineCalls, axisCalls, saveCalls, Function.comp_def]

/-- `probability_distribution/probability_distribution.py:129-157`, with an average and without; `fs` is how a float is printed in the label of the
    average line. -/
theorem C78_make_histogram (xs : List Int) (ys : List PyNum) (avg : Option ℚ) :
    Draws P Text.ProbabilityDistribution._make_histogram ([.list (xs.map .int), .list (ys.map PyNum.val)] ++ avgV avg)
      (histCalls fs <$> makeHistG fl rd xs ys avg) := by
  unfold Draws
  cases hs : (xs.zip ys).mergeSort leN with
  | nil => 
    cases avg <;> simp [src, avgV, constV, Text.ProbabilityDistribution._make_histogram, zipV_num, makeHistG, sortedPairs_eq, hs, zipRows, setNames] <;> rfl
  | cons p t =>
    have h1 := zipRows_num (Ω := PObj) p t
    have g1 := rows_num fl rd fs (p :: t)
    have b1 := bins_text fl rd fs ((p :: t).map Prod.fst)
    have m1 := maxV_num fl rd fs p.2 (t.map Prod.snd)
    have hz : ((p :: t).map Prod.fst).getLast? = some (((p :: t).map Prod.fst).getLast (by simp)) := List.getLast?_eq_some_getLast _
    have hz' : pyLast ((p :: t).map Prod.fst) = .ok (((p :: t).map Prod.fst).getLast (by simp)) := by unfold pyLast; rw [hz]
    have hi := index_last (Source.Val.int (Ω := PObj)) ((p :: t).map Prod.fst)
    rw [hz'] at hi
    have hM : makeHistG fl rd xs ys avg = (do
        let bins ← ((p :: t).map Prod.fst).mapM (lowG fl rd)
        match ((p :: t).map Prod.fst).getLast? with
        | some last =>
          let top ← highG fl rd last
          match avg with
          | none => return ⟨(p :: t).map Prod.fst, (p :: t).map Prod.snd, bins ++ [top], none⟩
          | some a => return ⟨(p :: t).map Prod.fst, (p :: t).map Prod.snd, bins ++ [top], some (a, ← heightG fl rd (maxN (t.map Prod.snd) p.2))⟩
        | none => .error .index) := by
      unfold makeHistG
      rw [sortedPairs_eq, hs]
      rfl
    rw [hz] at hM
    generalize ((p :: t).map Prod.fst).getLast (by simp) = z at hz hz' hi hM
    generalize ((p :: t).map Prod.fst).mapM (lowG fl rd) = B at b1 hM
    simp only [List.map_cons, List.map_map, Function.comp_def] at h1 g1 b1 m1 hi
    rw [hM]
    clear hM
    simp only [List.map_cons]
    cases avg with
    | none =>
      simp [src, avgV, constV, Text.ProbabilityDistribution._make_histogram, zipV_num, hs, h1, g1, setNames, b1, hi]
      cases B with
      | error e => rfl
      | ok bins =>
        simp [src, highG]
        cases fl z with
        | error e => rfl
        | ok x =>
          simp [src, histCalls, axisCalls, saveCalls, Function.comp_def]
          rfl
    | some a =>
      simp [src, avgV, constV, Text.ProbabilityDistribution._make_histogram, zipV_num, hs, h1, g1, setNames, b1, hi, m1]
      cases B with
      | error e => rfl
      | ok bins =>
        simp [src, highG]
        cases fl z with
        | error e => rfl
        | ok x =>
          have hm : binOp P BOp.mul (maxN (t.map Prod.snd) p.2).val (.flt (rd (11 / 10))) =
              .flt <$> plotR (heightG fl rd (maxN (t.map Prod.snd) p.2)) := by
            cases maxN (t.map Prod.snd) p.2 <;> simp [heightG, PyNum.val, PyNum.float, binOp, toNum, src, plotR_bind, plotR_map]
          simp [hm, src, strV]
          cases heightG fl rd (maxN (t.map Prod.snd) p.2) with
          | error e => rfl
          | ok y => 
            simp [src, histCalls, axisCalls, saveCalls, Function.comp_def]
            rfl
end

section
variable [R : PyRuntime] (fl : ℚ → Res ℚ) (rd : ℚ → ℚ) (fu : Nat)
set_option linter.unusedSimpArgs false
set_option maxHeartbeats 1000000
local notation "W" => world fl rd fu

/-- `probability_distribution/probability_distribution.py:38-41`. -/
theorem C78_histogram (d : Dist) :
    Gives W Text.ProbabilityDistribution.get_histogram [dV d] ((fun p => .obj (.drawn p)) <$> liftR (histogramG fl rd d)) := by
  simp [src, Gives, Text.ProbabilityDistribution.get_histogram, histogramG, liftR_bind, histV_histN, liftR_map]
  refine congrArg _ (funext fun base => congrArg _ (funext fun h => ?_))
  have := lookComp_text fl rd fu h "histogram_data" (by decide) [("self", .obj (.dist d)), ("histogram_data", .dict (encN h)),
    ("x_values", .list ((h.map Prod.fst).map .int))] rfl (h.map Prod.fst) (fun _ hk => hk)
  simp only [List.map_map] at this
  have hm := callMake fl rd fu d (h.map Prod.fst) (lookupN h (h.map Prod.fst))
  simp only [List.map_map] at hm
  simp [this, Env.get?, Env.set, callAverage, hm]

/-- `probability_distribution/probability_distribution.py:43-46`. -/
theorem C78_at_least_histogram (d : Dist) :
    Gives W Text.ProbabilityDistribution.get_at_least_histogram [dV d] ((fun p => .obj (.drawn p)) <$> liftR (atLeastHistogramG fl rd d)) := by
  simp [src, Gives, Text.ProbabilityDistribution.get_at_least_histogram, atLeastHistogramG, liftR_bind, encQ_encN, liftR_map]
  refine congrArg _ (funext fun base => ?_)
  generalize fltN base = h
  have := lookComp_text fl rd fu h "histogram_data" (by decide) [("self", .obj (.dist d)), ("histogram_data", .dict (encN h)),
    ("x_values", .list ((h.map Prod.fst).map .int))] rfl (h.map Prod.fst) (fun _ hk => hk)
  simp only [List.map_map] at this
  have hm := callMake fl rd fu d (h.map Prod.fst) (lookupN h (h.map Prod.fst))
  simp only [List.map_map] at hm
  simp [this, Env.get?, Env.set, callAverage, hm]

/-- `probability_distribution/probability_distribution.py:48-51`. -/
theorem C78_at_most_histogram (d : Dist) :
    Gives W Text.ProbabilityDistribution.get_at_most_histogram [dV d] ((fun p => .obj (.drawn p)) <$> liftR (atMostHistogramG fl rd d)) := by
  simp [src, Gives, Text.ProbabilityDistribution.get_at_most_histogram, atMostHistogramG, liftR_bind, encQ_encN, liftR_map]
  refine congrArg _ (funext fun base => ?_)
  generalize fltN base = h
  have := lookComp_text fl rd fu h "histogram_data" (by decide) [("self", .obj (.dist d)), ("histogram_data", .dict (encN h)),
    ("x_values", .list ((h.map Prod.fst).map .int))] rfl (h.map Prod.fst) (fun _ hk => hk)
  simp only [List.map_map] at this
  have hm := callMake fl rd fu d (h.map Prod.fst) (lookupN h (h.map Prod.fst))
  simp only [List.map_map] at hm
  simp [this, Env.get?, Env.set, callAverage, hm]


/-- `probability_distribution/probability_distribution.py:69-87`, with no, one or two labels given. -/
theorem C78_compare (d d' : Dist) (l : List Str) (hl : l.length ≤ 2) :
    Gives W Text.ProbabilityDistribution.get_compare ([dV d, dV d'] ++ l.map .str)
      ((fun p => .obj (.lines p (l[0]?.getD "This distribution".toList) (l[1]?.getD "other distribution".toList))) <$> liftR (compareG fl d d')) := by
  match l, hl with
  | [], _ | [a], _ | [a, b], _ =>
    simp [src, Gives, Text.ProbabilityDistribution.get_compare, compareG, linesOf, liftR_bind, histV_histN, liftR_map]
    refine congrArg _ (funext fun _ => congrArg _ (funext fun h => congrArg _ (funext fun _ => congrArg _ (funext fun h' => ?_))))
    have h1 := fun env he => lookComp_text fl rd fu h "this_at_least_data" (by decide) env he (h.map Prod.fst) (fun _ hk => hk)
    have h2 := fun env he => lookComp_text fl rd fu h' "other_at_least_data" (by decide) env he (h'.map Prod.fst) (fun _ hk => hk)
    have hm := callLines fl rd fu d (h.map Prod.fst) (lookupN h (h.map Prod.fst)) (h'.map Prod.fst) (lookupN h' (h'.map Prod.fst))
    simp only [List.map_map] at h1 h2 hm
    simp [h1, h2, Env.get?, Env.set, hm, iterV]

/-- `probability_distribution/probability_distribution.py:89-107`. -/
theorem C78_compare_at_least (d d' : Dist) (l : List Str) (hl : l.length ≤ 2) :
    Gives W Text.ProbabilityDistribution.get_compare_at_least ([dV d, dV d'] ++ l.map .str)
      ((fun p => .obj (.lines p (l[0]?.getD "This distribution".toList) (l[1]?.getD "other distribution".toList))) <$> liftR (compareAtLeastG fl rd d d')) := by
  match l, hl with
  | [], _ | [a], _ | [a, b], _ =>
    simp [src, Gives, Text.ProbabilityDistribution.get_compare_at_least, compareAtLeastG, linesOf, liftR_bind, encQ_encN, liftR_map]
    refine congrArg _ (funext fun h => congrArg _ (funext fun h' => ?_))
    generalize fltN h = h
    generalize fltN h' = h'
    have h1 := fun env he => lookComp_text fl rd fu h "this_at_least_data" (by decide) env he (h.map Prod.fst) (fun _ hk => hk)
    have h2 := fun env he => lookComp_text fl rd fu h' "other_at_least_data" (by decide) env he (h'.map Prod.fst) (fun _ hk => hk)
    have hm := callLines fl rd fu d (h.map Prod.fst) (lookupN h (h.map Prod.fst)) (h'.map Prod.fst) (lookupN h' (h'.map Prod.fst))
    simp only [List.map_map] at h1 h2 hm
    simp [h1, h2, Env.get?, Env.set, hm, iterV]

/-- `probability_distribution/probability_distribution.py:109-127`. -/
theorem C78_compare_at_most (d d' : Dist) (l : List Str) (hl : l.length ≤ 2) :
    Gives W Text.ProbabilityDistribution.get_compare_at_most ([dV d, dV d'] ++ l.map .str)
      ((fun p => .obj (.lines p (l[0]?.getD "This distribution".toList) (l[1]?.getD "other distribution".toList))) <$> liftR (compareAtMostG fl rd d d')) := by
  match l, hl with
  | [], _ | [a], _ | [a, b], _ =>
    simp [src, Gives, Text.ProbabilityDistribution.get_compare_at_most, compareAtMostG, linesOf, liftR_bind, encQ_encN, liftR_map]
    refine congrArg _ (funext fun h => congrArg _ (funext fun h' => ?_))
    generalize fltN h = h
    generalize fltN h' = h'
    have h1 := fun env he => lookComp_text fl rd fu h "this_at_most_data" (by decide) env he (h.map Prod.fst) (fun _ hk => hk)
    have h2 := fun env he => lookComp_text fl rd fu h' "other_at_most_data" (by decide) env he (h'.map Prod.fst) (fun _ hk => hk)
    have hm := callLines fl rd fu d (h.map Prod.fst) (lookupN h (h.map Prod.fst)) (h'.map Prod.fst) (lookupN h' (h'.map Prod.fst))
    simp only [List.map_map] at h1 h2 hm
    simp [h1, h2, Env.get?, Env.set, hm, iterV]

/-- `probability_distribution/probability_distribution.py:53-67`, with its nested function. -/
theorem C78_compare_histogram (d d' : Dist) :
    Gives W Text.ProbabilityDistribution.get_compare_histogram [dV d, dV d'] ((fun p => .obj (.drawn p)) <$> liftR (compareHistogramG fl rd d d')) := by
  simp [src, Gives, Text.ProbabilityDistribution.get_compare_histogram, compareHistogramG, liftR_bind, histV_histN, liftR_map]
  refine congrArg _ (funext fun _ => congrArg _ (funext fun h => congrArg _ (funext fun _ => congrArg _ (funext fun h' => ?_))))
  have hy := fun a b c => yComp_text fl rd fu h h' a b c (h.map Prod.fst ++ h'.map Prod.fst)
  have hm := fun ys ys' => callMake' fl rd fu d (h.map Prod.fst ++ h'.map Prod.fst) (ys ++ ys')
  simp [yBody, liftR_bind, liftR_map] at hy hm
  simp [hy, hm, Env.get?, Env.set]
/-- With arithmetic on doubles the numbers drawn are those of the model `FloatPlot`. -/
theorem C78_numbers (d d' : Dist) :
    HistPic.picture <$> histogramG toFloat toDouble d = d.histogramF ∧
    HistPic.picture <$> atLeastHistogramG toFloat toDouble d = d.atLeastHistogramF ∧
    HistPic.picture <$> atMostHistogramG toFloat toDouble d = d.atMostHistogramF ∧
    HistPic.picture <$> compareHistogramG toFloat toDouble d d' = d.compareHistogramF d' ∧
    LinePic.pair <$> compareG toFloat d d' = d.compareF d' ∧
    LinePic.pair <$> compareAtLeastG toFloat toDouble d d' = d.compareAtLeastF d' ∧
    LinePic.pair <$> compareAtMostG toFloat toDouble d d' = d.compareAtMostF d' :=
  ⟨histogramG_floats d, atLeastHistogramG_floats d, atMostHistogramG_floats d, compareHistogramG_floats d d', compareG_floats d d',
    compareAtLeastG_floats d d', compareAtMostG_floats d d'⟩

end

section
attribute [local instance] listRuntime

example : ["one".toList].length ≤ 2 := by decide

/-- Nothing to draw: unpacking the two lists raises `ValueError`. -/
example : PyFun.run (plotWorld .ok id (fun _ => [])) Text.ProbabilityDistribution._make_histogram [.list [], .list []] = plotRaise .value := by
  refine (C78_make_histogram .ok id (fun _ => []) [] [] none).trans ?_
  simp [makeHistG, sortedPairs]
  rfl

/-- Two lines of one point each. -/
example : PyFun.run (plotWorld .ok id (fun _ => [])) Text.ProbabilityDistribution._make_line_plot
      [.list [.int 1], .list [.int 1], .list [.int 2], .list [.int 1], .str ['a'], .str ['b']] =
    drawing (.ok (lineCalls ⟨[1], [.i 1], [2], [.i 1]⟩ ['a'] ['b'])) := by
  refine (C78_make_line_plot .ok id (fun _ => []) [1] [.i 1] [2] [.i 1] ['a'] ['b']).trans ?_
  simp [makeLinesG, sortedPairs]
  rfl

/-- A distribution without outcomes raises `IndexError`. -/
example : PyFun.run (world .ok id 0) Text.ProbabilityDistribution.get_histogram [dV (mkDist [])] State.new = .pure (.error .index, State.new) := by
  have e : histogramG .ok id (mkDist []) = .error .index := by
    change (histN [] >>= _) = _
    simp [histN]
    rfl
  refine (congrFun (C78_histogram .ok id 0 (mkDist [])) State.new).trans ?_
  rw [e]
  rfl

end
end PyDice
