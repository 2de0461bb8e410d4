import Verif.Lemmas.Rename
import Verif.Parser
/-!
# C51: nothing a session shows depends on set orders; C52: nor, but for the names, on what the variables are called
-/

namespace PyDice
open PyRuntime

/-- C51: the answers of a session are the same whatever the order in which sets are listed: two runs with different hash seeds give, for
    the same random draws, the same dicts in the same order, the same distributions, floats and exceptions. -/
theorem C51_order (R₁ R₂ : PyRuntime) (parse : Str → Res Expr) (calls : List Call) :
    @session R₁ parse calls = @session R₂ parse calls := (session_eq (R := R₁) parse calls).trans (session_eq (R := R₂) parse calls).symm

/-- C51: every figure and every drawing of a distribution is made of its values with their counts and the total. -/
theorem C51_seen (R₁ R₂ : PyRuntime) {d e : @Dist R₁} {d' e' : @Dist R₂} (hd : @Dist.seen R₁ d = @Dist.seen R₂ d') (he : @Dist.seen R₁ e = @Dist.seen R₂ e') :
    @Dist.max R₁ d = @Dist.max R₂ d' ∧ @Dist.min R₁ d = @Dist.min R₂ d' ∧ @Dist.containsZero R₁ d = @Dist.containsZero R₂ d' ∧
    @Dist.averageF R₁ d = @Dist.averageF R₂ d' ∧ @Dist.getDictFormF R₁ d = @Dist.getDictFormF R₂ d' ∧ @Dist.atLeastF R₁ d = @Dist.atLeastF R₂ d' ∧ @Dist.atMostF R₁ d = @Dist.atMostF R₂ d' ∧
    @Dist.average R₁ d = @Dist.average R₂ d' ∧ @Dist.getDictForm R₁ d = @Dist.getDictForm R₂ d' ∧ @Dist.atLeast R₁ d = @Dist.atLeast R₂ d' ∧ @Dist.atMost R₁ d = @Dist.atMost R₂ d' ∧
    @Dist.histogramData R₁ d = @Dist.histogramData R₂ d' ∧ @Dist.atLeastHistogramData R₁ d = @Dist.atLeastHistogramData R₂ d' ∧
    @Dist.atMostHistogramData R₁ d = @Dist.atMostHistogramData R₂ d' ∧ @Dist.compareHistogramData R₁ d e = @Dist.compareHistogramData R₂ d' e' ∧
    @Dist.compareData R₁ d e = @Dist.compareData R₂ d' e' ∧ @Dist.compareAtLeastData R₁ d e = @Dist.compareAtLeastData R₂ d' e' ∧
    @Dist.compareAtMostData R₁ d e = @Dist.compareAtMostData R₂ d' e' := by
  obtain ⟨h1, h2⟩ := Prod.mk.inj hd
  obtain ⟨g1, g2⟩ := Prod.mk.inj he
  have f1 : @Dist.getDictForm R₁ d = @Dist.getDictForm R₂ d' := by unfold Dist.getDictForm; rw [h1, h2]
  have f2 : @Dist.getDictForm R₁ e = @Dist.getDictForm R₂ e' := by unfold Dist.getDictForm; rw [g1, g2]
  have f3 : @Dist.getDictFormF R₁ d = @Dist.getDictFormF R₂ d' := by unfold Dist.getDictFormF; rw [h1, h2]
  have f4 : @Dist.atLeast R₁ d = @Dist.atLeast R₂ d' := by unfold Dist.atLeast; rw [f1]
  have f5 : @Dist.atMost R₁ d = @Dist.atMost R₂ d' := by unfold Dist.atMost; rw [f1]
  have f6 : @Dist.atLeast R₁ e = @Dist.atLeast R₂ e' := by unfold Dist.atLeast; rw [f2]
  have f7 : @Dist.atMost R₁ e = @Dist.atMost R₂ e' := by unfold Dist.atMost; rw [f2]
  have f8 : @Dist.average R₁ d = @Dist.average R₂ d' := by unfold Dist.average; rw [h1, h2]
  refine ⟨?_, ?_, ?_, ?_, f3, ?_, ?_, f8, f1, f4, f5, ?_, ?_, ?_, ?_, ?_, ?_, ?_⟩
  · unfold Dist.max; rw [h1]
  · unfold Dist.min; rw [h1]
  · unfold Dist.containsZero; rw [h1]
  · unfold Dist.averageF; rw [h1, h2]
  · unfold Dist.atLeastF; rw [f3]
  · unfold Dist.atMostF; rw [f3]
  · unfold Dist.histogramData; rw [f1, f8]
  · unfold Dist.atLeastHistogramData; rw [f4, f8]
  · unfold Dist.atMostHistogramData; rw [f5, f8]
  · unfold Dist.compareHistogramData; rw [f1, f2]
  · unfold Dist.compareData; rw [f1, f2]
  · unfold Dist.compareAtLeastData; rw [f4, f6]
  · unfold Dist.compareAtMostData; rw [f5, f7]

/-- C52: renaming the variables in all lines renames the keys of the answers and changes nothing else. -/
theorem C52_rename [R : PyRuntime] (parse : Str → Res Expr) {σ : Str → Str} (hσ : Function.Injective σ)
    (hstdout : σ stdoutName = stdoutName) (τ : Str → Str) (calls : List Call)
    (hτ : ∀ c ∈ calls, ∀ l ∈ c.lines, parse (τ l) = (parse l).map (Expr.rename σ)) :
    session parse (calls.map (Call.mapLines τ)) = Rand.map (List.map (Answer.rename σ)) (session parse calls) := by
  rw [session_eq, session_eq]
  exact ren_session hσ hstdout calls hτ ⟨[], [], []⟩

/-! ### Examples -/

/-- `x` and `y` exchanged. -/
def swapXY (n : Str) : Str := if n = "x".toList then "y".toList else if n = "y".toList then "x".toList else n

theorem swapXY_injective : Function.Injective swapXY := by
  have h : ∀ n, swapXY (swapXY n) = n := by
    intro n
    unfold swapXY
    by_cases h1 : n = "x".toList
    · subst h1; decide
    · by_cases h2 : n = "y".toList
      · subst h2; decide
      · rw [if_neg h1, if_neg h2, if_neg h1, if_neg h2]
  intro a b hab
  rw [← h a, ← h b, hab]

/-- The letters `x` and `y` exchanged in a text. -/
def swapText (l : Str) : Str := l.map fun c => if c = 'x' then 'y' else if c = 'y' then 'x' else c

/-- A session with two variables, one set again while the other depends on it. -/
def twinCalls : List Call :=
  [.dists ["VAR x = d2".toList, "VAR y = x + d2".toList, "VAR x = x * y".toList, "y - x".toList], .roll ["VAR y = d2".toList],
   .extreme true ["VAR x = 3".toList, "x + y".toList], .averages ["x > y".toList], .cost ["y".toList], .histogram ["z".toList]]

-- the hypotheses of C52 hold for the default parser and such lines
example : (∀ c ∈ twinCalls, ∀ l ∈ c.lines, parse (swapText l) = (parse l).map (Expr.rename swapXY)) ∧
    swapXY stdoutName = stdoutName ∧ twinCalls.map (Call.mapLines swapText) ≠ [] := by
  refine ⟨?_, by decide, by decide⟩
  decide +kernel

/-- Why `stdout` must keep its name: a variable of that name is overwritten by the next line. -/
theorem C52_stdout_counterexample : ∃ _ : PyRuntime,
    ((interpDists parse ["VAR x = 2".toList, "3".toList, "x".toList] State.new).1.map fun d =>
      (dictGet? d stdoutName).map Dist.getResultMap) = .ok (some [(2, 1)]) ∧
    ((interpDists parse ["VAR stdout = 2".toList, "3".toList, "stdout".toList] State.new).1.map fun d =>
      (dictGet? d stdoutName).map Dist.getResultMap) = .ok (some [(3, 1)]) := ⟨listRuntime, by decide +kernel⟩

/-- One way a random computation can go. -/
def Rand.first {α : Type} : Rand α → α
  | .pure a => a
  | .draw _ k => (k 0).first

/-- The counts in the answer of `get_probability_distributions`. -/
def Answer.counts : Answer → List (String × List (Int × Nat))
  | .dists (.ok d) => d.map fun p => (String.ofList p.1, p.2.1)
  | _ => []

/-- Two variables added. -/
def twoCalls : List Call := [.dists ["VAR x = d2".toList, "VAR y = d2".toList, "x + y".toList]]

/-- The orders of the constraints in the distribution of the last line. -/
def listings (R : PyRuntime) : Res (List (List Constraint)) :=
  (@interpHistogramDist R parse ["VAR x = d2".toList, "VAR y = d2".toList, "x + y".toList] (@State.new R)).1.map
    fun d => d.resultMap.map fun p => R.iter p.1.cs

-- the two runtimes hold the constraints in different orders, and show the same
example : (listings listRuntime).map List.head? =
      .ok (some [.varValue "x_1".toList [1], .varValue "y_1".toList [1]]) ∧
    (listings revRuntime).map List.head? =
      .ok (some [.varValue "y_1".toList [1], .varValue "x_1".toList [1]]) := by
  decide +kernel

example : (@session listRuntime parse twoCalls).first.map Answer.counts =
      [[("x", [(1, 1), (2, 1)]), ("stdout", [(2, 1), (3, 2), (4, 1)]), ("y", [(1, 1), (2, 1)])]] ∧
    (@session revRuntime parse twoCalls).first.map Answer.counts =
      [[("x", [(1, 1), (2, 1)]), ("stdout", [(2, 1), (3, 2), (4, 1)]), ("y", [(1, 1), (2, 1)])]] := by
  decide +kernel

-- the same with the names exchanged
example : (@session listRuntime parse (twoCalls.map (Call.mapLines swapText))).first.map Answer.counts =
      [[("y", [(1, 1), (2, 1)]), ("stdout", [(2, 1), (3, 2), (4, 1)]), ("x", [(1, 1), (2, 1)])]] := by
  decide +kernel

end PyDice
