import Verif.Lemmas.Naming
import Verif.Props.C50
import Verif.Parser
/-!
# C54: naming a part of an expression that is used once changes nothing
-/

namespace PyDice
open PyRuntime

section
variable [R : PyRuntime]

/-! ### Expressions -/

/-- C54: in a state the interpreter can reach, store a part of an expression under a name that the other parts do not read, and read
    the name where the part was: the same error, or the same values with the same counts and the same total. -/
theorem C54_dist (parse : Str → Res Expr) (s : State) (h : Reachable parse s) (p : Pat) (hp : p.holes.Nodup) (es : Nat → Expr)
    (hn : ∀ j, (es j).NoAssign) (i : Nat) (x : Str) (hx : ∀ j ∈ p.holes, j ≠ i → x ∉ (es j).reads) (de : Dist) (t : State)
    (ht : (Expr.assign x (es i)).dist s = (.ok de, t)) :
    SameResult ((p.fill es).dist s).1 ((p.fill (Function.update es i (.getVar x))).dist t).1 := by
  have hs := tidy_reachable parse h
  obtain ⟨h1, rfl⟩ := assign_dist_parts (hn i) ht
  refine named_dist hs ?_ (named_setVar s x de) p hp hn (by simpa using hx) h1
  have := (keeps_dist (.assign x (es i)) s hs).1
  rw [ht] at this
  exact this

/-- C54: when the line that stores the part raises, so does the whole expression. -/
theorem C54_dist_raises (s t : State) (p : Pat) (es : Nat → Expr) (hn : ∀ j, (es j).NoAssign) (i : Nat) (hi : i ∈ p.holes) (x : Str)
    (er : Err) (ht : (Expr.assign x (es i)).dist s = (.error er, t)) : ∃ er', (p.fill es).dist s = (.error er', s) := by
  have hst := noAssign_dist (fill_noAssign p fun j _ => hn j) s
  rcases hr : (p.fill es).dist s with ⟨r, s'⟩
  rw [hr] at hst
  obtain rfl : s' = s := hst
  cases r with
  | error er' => exact ⟨er', rfl⟩
  | ok d =>
    obtain ⟨di, h1⟩ := fill_defined p (fun j _ => hn j) hr i hi
    have h2 : (Expr.assign x (es i)).dist s' = (.ok di, (s'.setVar x di).2) := by
      show ((es i).dist >>= fun d => EvalM.setVar x d >>= fun _ => pure d) s' = _
      rw [evalBind_ok h1]
      exact evalBind_ok (s' := (s'.setVar x di).2) (a := ()) (by unfold EvalM.setVar; rw [setVar_eq])
    rw [h2] at ht
    cases ht

/-- C54 for `max` and `min`. -/
theorem C54_extreme (parse : Str → Res Expr) (isMax : Bool) (s : State) (h : Reachable parse s) (p : Pat) (hp : p.holes.Nodup)
    (es : Nat → Expr) (hn : ∀ j, (es j).NoAssign) (i : Nat) (x : Str) (hx : ∀ j ∈ p.holes, j ≠ i → x ∉ (es j).reads) (v : Int) (t : State)
    (ht : (Expr.assign x (es i)).extreme isMax s = (.ok v, t)) :
    ((p.fill (Function.update es i (.getVar x))).extreme isMax t).1 = ((p.fill es).extreme isMax s).1 := by
  have hs := tidy_reachable parse h
  obtain ⟨de, h1, h2, rfl⟩ := assign_extreme_parts (hn i) ht
  refine (named_extreme isMax hs ?_ (named_setBoth s x v de) p hp hn (by simpa using hx) h2 h1 ?_).symm
  · have := (keeps_extreme isMax (.assign x (es i)) s hs).1
    rw [ht] at this
    exact this
  · rw [setVar_eq]
    simp [State.setConstant, get_set]

/-- C54 for `roll`: rolling the part, storing the number and rolling the rest gives every value with the same probability as rolling the
    whole; more generally, every function of the value has the same expected value (runs that raise count as zero). -/
theorem C54_roll (s : State) (p : Pat) (hp : p.holes.Nodup) (es : Nat → Expr) (hn : ∀ j, (es j).NoAssign) (i : Nat) (hi : i ∈ p.holes)
    (x : Str) (hx : ∀ j ∈ p.holes, j ≠ i → x ∉ (es j).reads) (φ : Int → ℚ) :
    (((Expr.assign x (es i)).roll >>= fun _ => (p.fill (Function.update es i (.getVar x))).roll) s).expect (okValue φ) =
      ((p.fill es).roll s).expect (okValue φ) := by
  rw [expect_assign_roll (hn i)]
  refine named_roll (X := [x]) (fun v => ?_) (fun v n hnX => ?_) p hp hi hn (by simpa using hx) φ
  · simp [State.setConstant, get_set]
  · have : x ≠ n := fun he => hnX (by simp [he])
    simp [State.setConstant, get_set, this]

/-! ### Calls -/

/-- C54 for `get_probability_distributions`: two lines, `VAR x = part` and the rest, against one line with the whole. -/
theorem C54_call_dists (parse : Str → Res Expr) (s : State) (h : Reachable parse s) (p : Pat) (hp : p.holes.Nodup) (es : Nat → Expr)
    (hn : ∀ j, (es j).NoAssign) (i : Nat) (x : Str) (hxs : x ≠ stdoutName)
    (hx : ∀ j ∈ p.holes, j ≠ i → x ∉ (es j).reads ∧ stdoutName ∉ (es j).reads) (part rest whole : Str)
    (h1 : parse part = .ok (.assign x (es i))) (h2 : parse rest = .ok (p.fill (Function.update es i (.getVar x))))
    (h3 : parse whole = .ok (p.fill es)) (m : List (Str × Dist)) (t : State) (ht : interpDists parse [part] s = (.ok m, t)) :
    SameOutput (interpDists parse [whole] s).1 (interpDists parse [part, rest] s).1 := by
  have hs := tidy_reachable parse h
  rw [interpDists_one h1] at ht
  rcases hr : (Expr.assign x (es i)).dist s with ⟨r, u⟩
  rw [hr] at ht
  cases r with
  | error er => cases ht
  | ok de =>
    obtain ⟨h4, rfl⟩ := assign_dist_parts (hn i) hr
    rw [interpDists_two h1 hr, interpDists_one h3, interpDists_one h2]
    have hN := (named_setVar s x de).stdoutVar hxs de
    have hu := (keeps_dist (.assign x (es i)) s hs).1
    rw [hr] at hu
    have hde := (keeps_dist (.assign x (es i)) s hs).2.2 de (by rw [hr])
    rw [hr] at hde
    have key := named_dist hs (tidyState_stdout hu hde) hN p hp hn
      (fun j hj hji n hX => by
        simp only [List.mem_cons, List.not_mem_nil, or_false] at hX
        rcases hX with rfl | rfl
        · exact (hx j hj hji).1
        · exact (hx j hj hji).2) h4
    revert key
    generalize (p.fill es).dist s = r1
    generalize (p.fill (Function.update es i (.getVar x))).dist _ = r2
    obtain ⟨r1, w1⟩ := r1
    obtain ⟨r2, w2⟩ := r2
    intro key
    cases key with
    | ok hd => exact .ok (d := _) (d' := _) (by simp [get_set]) (by simp [get_set]) hd
    | error er => exact .error er

/-- C54 for the histograms, which store nothing under `"stdout"`. -/
theorem C54_call_histogram (parse : Str → Res Expr) (s : State) (h : Reachable parse s) (p : Pat) (hp : p.holes.Nodup) (es : Nat → Expr)
    (hn : ∀ j, (es j).NoAssign) (i : Nat) (x : Str) (hx : ∀ j ∈ p.holes, j ≠ i → x ∉ (es j).reads) (part rest whole : Str)
    (h1 : parse part = .ok (.assign x (es i))) (h2 : parse rest = .ok (p.fill (Function.update es i (.getVar x))))
    (h3 : parse whole = .ok (p.fill es)) (d : Dist) (t : State) (ht : interpHistogramDist parse [part] s = (.ok d, t)) :
    SameResult (interpHistogramDist parse [whole] s).1 (interpHistogramDist parse [part, rest] s).1 := by
  rw [histogram_one h1] at ht
  rw [histogram_two h1 ht, histogram_one h3, histogram_one h2]
  exact C54_dist parse s h p hp es hn i x hx d t ht

/-- C54 for `max` and `min`: the same number under `"stdout"`, or the same error. -/
theorem C54_call_extreme (parse : Str → Res Expr) (isMax : Bool) (s : State) (h : Reachable parse s) (p : Pat) (hp : p.holes.Nodup)
    (es : Nat → Expr) (hn : ∀ j, (es j).NoAssign) (i : Nat) (x : Str) (hxs : x ≠ stdoutName)
    (hx : ∀ j ∈ p.holes, j ≠ i → x ∉ (es j).reads ∧ stdoutName ∉ (es j).reads) (part rest whole : Str)
    (h1 : parse part = .ok (.assign x (es i))) (h2 : parse rest = .ok (p.fill (Function.update es i (.getVar x))))
    (h3 : parse whole = .ok (p.fill es)) (m : List (Str × Int)) (t : State) (ht : interpExtreme parse isMax [part] s = (.ok m, t)) :
    outputOf (interpExtreme parse isMax [part, rest] s).1 = outputOf (interpExtreme parse isMax [whole] s).1 := by
  have hs := tidy_reachable parse h
  rw [interpExtreme_one h1] at ht
  rcases hr : (Expr.assign x (es i)).extreme isMax s with ⟨r, u⟩
  rw [hr] at ht
  cases r with
  | error er => cases ht
  | ok v =>
    obtain ⟨de, h4, h5, rfl⟩ := assign_extreme_parts (hn i) hr
    rw [interpExtreme_two h1 hr, interpExtreme_one h3, interpExtreme_one h2]
    have hN := (named_setBoth s x v de).stdoutConstant v
    have hu := (keeps_extreme isMax (.assign x (es i)) s hs).1
    rw [hr] at hu
    have key := named_extreme isMax hs (t := { ((s.setConstant x v).setVar x de).2 with
        constants := dictSet ((s.setConstant x v).setVar x de).2.constants stdoutName v }) hu hN p hp hn
      (fun j hj hji n hX => by
        simp only [List.mem_cons, List.not_mem_nil, or_false] at hX
        rcases hX with rfl | rfl
        · exact (hx j hj hji).1
        · exact (hx j hj hji).2) h5 h4 (by
          show dictGet? (dictSet ((s.setConstant x v).setVar x de).2.constants stdoutName v) x = some v
          rw [setVar_eq]
          simp [State.setConstant, get_set, Ne.symm hxs])
    revert key
    generalize (p.fill es).extreme isMax s = r1
    generalize (p.fill (Function.update es i (.getVar x))).extreme isMax _ = r2
    obtain ⟨r1, w1⟩ := r1
    obtain ⟨r2, w2⟩ := r2
    intro key
    obtain rfl : r1 = r2 := key
    cases r1 with
    | ok a => simp [outputOf, Except.map, storeInt, get_set]
    | error er => rfl

/-- C54 for `roll`: every value under `"stdout"` has the same probability. -/
theorem C54_call_roll (parse : Str → Res Expr) (s : State) (p : Pat) (hp : p.holes.Nodup) (es : Nat → Expr) (hn : ∀ j, (es j).NoAssign)
    (i : Nat) (hi : i ∈ p.holes) (x : Str) (hxs : x ≠ stdoutName)
    (hx : ∀ j ∈ p.holes, j ≠ i → x ∉ (es j).reads ∧ stdoutName ∉ (es j).reads) (part rest whole : Str)
    (h1 : parse part = .ok (.assign x (es i))) (h2 : parse rest = .ok (p.fill (Function.update es i (.getVar x))))
    (h3 : parse whole = .ok (p.fill es)) (φ : Int → ℚ) :
    (interpRoll parse [part, rest] s).expect (outputValue φ) = (interpRoll parse [whole] s).expect (outputValue φ) := by
  rw [interpRoll_one h3, interpRoll_two h1 h2 (hn i)]
  refine named_roll (X := [x, stdoutName]) (fun v => ?_) (fun v n hnX => ?_) p hp hi hn
    (fun j hj hji n hX => by
      simp only [List.mem_cons, List.not_mem_nil, or_false] at hX
      rcases hX with rfl | rfl
      · exact (hx j hj hji).1
      · exact (hx j hj hji).2) φ
  · simp [State.setConstant, get_set, Ne.symm hxs]
  · simp only [List.mem_cons, List.not_mem_nil, or_false, not_or] at hnX
    simp [State.setConstant, get_set, Ne.symm hnX.1, Ne.symm hnX.2]

end

/-! ### Cases -/

section
attribute [local instance] listRuntime

/-- `MAX(a, b) // 2` -/
def halfMax : Pat := .bin .floordiv (.bin .max patA patB) (.const 2)

/-- The state after `VAR y = d3 - 2`. -/
def yState : State := ((Expr.assign ['y'] (.sub (.dice ⟨"d3".toList, ones [1, 2, 3], 1⟩) (.constInt ['2']))).dist State.new).2

/-- The parts `2d2 + y` and `y`. -/
def yHoles (i : Nat) : Expr := if i = 0 then .add (.dice twoD2) (.getVar ['y']) else .getVar ['y']

/-- `VAR x = 2d2 + y` and then `MAX(x, y) // 2`, against `MAX(2d2 + y, y) // 2`, where both parts read `y`: the conditions of `C54_dist`
    hold, and both sides have these counts. -/
example : Reachable parse yState ∧ halfMax.holes.Nodup ∧ (∀ j, (yHoles j).NoAssign) ∧ 0 ∈ halfMax.holes ∧
    (∀ j ∈ halfMax.holes, j ≠ 0 → ['x'] ∉ (yHoles j).reads ∧ stdoutName ∉ (yHoles j).reads) ∧
    ((halfMax.fill yHoles).dist yState).1.toOption.map Dist.getResultMap = some [(0, 1), (1, 7), (2, 4)] ∧
    ((halfMax.fill (Function.update yHoles 0 (.getVar ['x']))).dist ((Expr.assign ['x'] (yHoles 0)).dist yState).2).1.toOption.map
      Dist.getResultMap = some [(0, 1), (1, 7), (2, 4)] := by
  refine ⟨.exprDist _ .new, by decide, ?_, by decide, ?_, by decide +kernel, by decide +kernel⟩
  · intro j
    unfold yHoles
    split <;> simp [Expr.NoAssign]
  · intro j _ hj
    simp only [yHoles, if_neg hj]
    decide

/-- The same for `max`: 2 on both sides. -/
example : ((Expr.assign ['x'] (.dice twoD2)).extreme true State.new).1 = .ok 4 ∧
    ((halfMax.fill fun _ => .dice twoD2).extreme true State.new).1 = .ok 2 ∧
    ((halfMax.fill (Function.update (fun _ => .dice twoD2) 0 (.getVar ['x']))).extreme true
      ((Expr.assign ['x'] (.dice twoD2)).extreme true State.new).2).1 = .ok 2 := by decide +kernel

/-- Three lines of text as in the theorems about calls. -/
example : parse "VAR x = 2d2".toList = .ok (.assign ['x'] (.dice twoD2)) ∧
    parse "MAX(x, d3) // 2".toList = .ok (halfMax.fill (Function.update (fun i => if i = 0 then .dice twoD2 else .dice ⟨"d3".toList, ones [1, 2, 3], 1⟩)
      0 (.getVar ['x']))) ∧
    parse "MAX(2d2, d3) // 2".toList = .ok (halfMax.fill fun i => if i = 0 then .dice twoD2 else .dice ⟨"d3".toList, ones [1, 2, 3], 1⟩) := by
  decide +kernel

/-- A roll: both programs give 1 with probability 3/4. -/
example : (interpRoll parse ["VAR x = 2d2".toList, "x // 2".toList] State.new).expect (outputValue fun v => if v = 1 then 1 else 0) = 3 / 4 ∧
    (interpRoll parse ["2d2 // 2".toList] State.new).expect (outputValue fun v => if v = 1 then 1 else 0) = 3 / 4 := by
  decide +kernel

end

/-- A part that is used twice must not be named: `d2 - d2` is 0, 1 or -1, but after `VAR x = d2` the difference `x - x` is 0 (and
    counts only 2 outcomes). -/
theorem C54_twice_counterexample : ∃ (_ : PyRuntime) (e : Expr), e.NoAssign ∧
    (((Pat.bin .sub patA patA).fill fun _ => e).dist State.new).1.toOption.map Dist.getResultMap = some [(0, 2), (-1, 1), (1, 1)] ∧
    (((Pat.bin .sub patA patA).fill fun _ => .getVar ['x']).dist ((Expr.assign ['x'] e).dist State.new).2).1.toOption.map
      Dist.getResultMap = some [(0, 2)] :=
  ⟨listRuntime, .dice ⟨"d2".toList, ones [1, 2], 1⟩, trivial, by decide +kernel, by decide +kernel⟩

end PyDice
