import Verif.Lemmas.Extreme
/-!
# C23 max() and min() bound every possible result; C24 max() and min() are attained
-/

namespace PyDice
open PyRuntime

section
variable [R : PyRuntime]

/-! ### C23

Full statement: after any programs run in max (min) mode, no outcome of an expression's distribution is above `max()` (below
`min()`).  It is false for dice terms without dice (`C23_zero_dice_counterexample`), after nested assignments
(`C23_nested_counterexample`) and for the name `stdout` (`C23_stdout_counterexample`).  Proved: straight-line programs of `VAR` lines
and assignment-free expressions with at least one die per term and one face per die, not naming `stdout`. -/

/-- After a straight-line program in max (min) mode, `max()` (`min()`) and the distribution succeed for the same expressions: those in
    which constants are numbers, variables have been assigned, and no divisor can be zero in any run of the program. -/
theorem C23_defined_partial (isMax : Bool) (p : Program) (e : Expr) (hp : Straight p) (he : e.Straight) (s : State)
    (hs : ExtremeSession isMax p s) :
    ((∃ v s', e.extreme isMax s = (.ok v, s')) ↔ Defined p e) ∧ ((∃ d s', e.dist s = (.ok d, s')) ↔ Defined p e) := by
  obtain ⟨g, hg, rfl, hm, _, hf, _, hn⟩ := extremeSession_lines hs hp
  have h2 := dist_defined hg hm e he
  refine ⟨⟨?_, ?_⟩, h2⟩
  · rintro ⟨v, s', hv⟩; exact extreme_defined hg hm hn e he v s' hv
  · intro h
    obtain ⟨d, s', hd⟩ := h2.mpr h
    obtain ⟨v, hv, _⟩ := extreme_sound hg hm hf e he d s' hd
    exact ⟨v, s, hv⟩

/-- C23: after a straight-line program in max (min) mode, no outcome of the distribution is above `max()` (below `min()`). -/
theorem C23_partial (isMax : Bool) (p : Program) (e : Expr) (hp : Straight p) (he : e.Straight) (s : State)
    (hs : ExtremeSession isMax p s) (d : Dist) (s1 : State) (hd : e.dist s = (.ok d, s1)) (v : Int) (s2 : State)
    (hv : e.extreme isMax s = (.ok v, s2)) : ∀ x, hasKey d.getResultMap x → if isMax then x ≤ v else v ≤ x := by
  obtain ⟨g, hg, rfl, hm, _, hf, _⟩ := extremeSession_lines hs hp
  obtain ⟨v', h1, h2, _⟩ := extreme_sound hg hm hf e he d s1 hd
  rw [hv] at h1
  cases h1
  exact h2

/-- C23 in terms of the runs of the program: whatever the dice show, the value of the expression is at most `max()` (at least
    `min()`). -/
theorem C23_values_partial (isMax : Bool) (p : Program) (e : Expr) (hp : Straight p) (he : e.Straight) (s : State)
    (hs : ExtremeSession isMax p s) (v : Int) (s2 : State) (hv : e.extreme isMax s = (.ok v, s2)) :
    ∀ env ∈ runs p Env.empty, ∀ x ∈ vals e env, if isMax then x ≤ v else v ≤ x := by
  intro env henv x hx
  obtain ⟨d, s1, hd⟩ := (C23_defined_partial isMax p e hp he s hs).2.mpr ((C23_defined_partial isMax p e hp he s hs).1.mp ⟨v, s2, hv⟩)
  obtain ⟨g, hg, rfl, hm, _⟩ := extremeSession_lines hs hp
  refine C23_partial isMax _ e hp he s hs d s1 hd v s2 hv x ((hasKey_run hg hm he hd x).mpr ?_)
  obtain ⟨ω, h3, rfl⟩ := (mem_runs hg _).mp henv
  exact ⟨ω, h3, hx⟩

/-- C23 for the interpreter: `max` (`min`) of a program by a new interpreter succeeds exactly when its distributions can be computed
    by a new interpreter, and bounds the outcomes of the latter. -/
theorem C23_interp_partial (parse : Str → Res Expr) (isMax : Bool) (lines : List Str) (last : Str) (p : Program) (e : Expr)
    (hp : Straight p) (he : e.Straight) (hlines : lines.map parse = p.map (fun l => .ok (.assign l.1 l.2)))
    (hlast : parse last = .ok e) (vs : List (Str × Int)) (s1 : State)
    (hv : interpExtreme parse isMax (lines ++ [last]) State.new = (.ok vs, s1)) (ds : List (Str × Dist)) (s2 : State)
    (hd : interpDists parse (lines ++ [last]) State.new = (.ok ds, s2)) :
    ∃ v d, dictGet? vs stdoutName = some v ∧ dictGet? ds stdoutName = some d ∧
      ∀ x, hasKey d.getResultMap x → if isMax then x ≤ v else v ≤ x := by
  obtain ⟨v, t1, t2, h1, h2, h3⟩ := interpExtreme_last parse hlast hv
  obtain ⟨d, u1, u2, g1, g2, g3, _⟩ := interpDists_last parse hlast hd
  refine ⟨v, d, h3, g3, fun x hx => ?_⟩
  obtain ⟨tr, h4⟩ := (extremeLines_ok parse isMax lines State.new t1).mp h1
  obtain ⟨tr', g4⟩ := (distLines_ok parse lines State.new u1).mp g1
  have hs : ExtremeSession isMax p t1 := by simpa using session_extremes parse h4 ExtremeSession.new hlines
  have hs' : Session p u1 := by simpa using session_dists parse g4 Session.new hlines
  obtain ⟨env, k1, k2⟩ := (session_values hp he hs' g2 x).mp hx
  exact C23_values_partial isMax p e hp he t1 hs v t2 h2 env k1 x k2

/-! ### C24

Full statement: `max()` and `min()` are possible outcomes.  It is false for the minimum of a `MAX` and the maximum of a `MIN` whose
operands share a variable (`C24_counterexample`).  Proved: when no such `MAX` or `MIN` occurs outside of other operators
(`Apart`), in the expression and in the lines. -/

/-- C24: after a straight-line program in max (min) mode, `max()` (`min()`) is an outcome of the distribution, unless it was
    computed through the maximum of a `MIN` (minimum of a `MAX`) whose operands share a variable. -/
theorem C24_partial (isMax : Bool) (p : Program) (e : Expr) (hp : Straight p) (he : e.Straight) (hap : ApartProgram isMax p)
    (hae : Apart isMax p e) (s : State) (hs : ExtremeSession isMax p s) (d : Dist) (s1 : State) (hd : e.dist s = (.ok d, s1)) (v : Int)
    (s2 : State) (hv : e.extreme isMax s = (.ok v, s2)) : hasKey d.getResultMap v := by
  obtain ⟨g, hg, rfl, hm, _, hf, hat, _⟩ := extremeSession_lines hs hp
  obtain ⟨v', h1, _, h3⟩ := extreme_sound hg hm hf e he d s1 hd
  rw [hv] at h1
  cases h1
  exact h3 (hat hap) hae

/-- C24 in terms of the runs of the program. -/
theorem C24_values_partial (isMax : Bool) (p : Program) (e : Expr) (hp : Straight p) (he : e.Straight) (hap : ApartProgram isMax p)
    (hae : Apart isMax p e) (s : State) (hs : ExtremeSession isMax p s) (v : Int) (s2 : State)
    (hv : e.extreme isMax s = (.ok v, s2)) : ∃ env ∈ runs p Env.empty, v ∈ vals e env := by
  obtain ⟨d, s1, hd⟩ := (C23_defined_partial isMax p e hp he s hs).2.mpr ((C23_defined_partial isMax p e hp he s hs).1.mp ⟨v, s2, hv⟩)
  exact (session_values hp he hs.session hd v).mp (C24_partial isMax p e hp he hap hae s hs d s1 hd v s2 hv)

/-- C24 for the interpreter. -/
theorem C24_interp_partial (parse : Str → Res Expr) (isMax : Bool) (lines : List Str) (last : Str) (p : Program) (e : Expr)
    (hp : Straight p) (he : e.Straight) (hap : ApartProgram isMax p) (hae : Apart isMax p e)
    (hlines : lines.map parse = p.map (fun l => .ok (.assign l.1 l.2))) (hlast : parse last = .ok e) (vs : List (Str × Int))
    (s1 : State) (hv : interpExtreme parse isMax (lines ++ [last]) State.new = (.ok vs, s1)) (ds : List (Str × Dist)) (s2 : State)
    (hd : interpDists parse (lines ++ [last]) State.new = (.ok ds, s2)) :
    ∃ v d, dictGet? vs stdoutName = some v ∧ dictGet? ds stdoutName = some d ∧ hasKey d.getResultMap v := by
  obtain ⟨v, t1, t2, h1, h2, h3⟩ := interpExtreme_last parse hlast hv
  obtain ⟨d, u1, u2, g1, g2, g3, _⟩ := interpDists_last parse hlast hd
  refine ⟨v, d, h3, g3, ?_⟩
  obtain ⟨tr, h4⟩ := (extremeLines_ok parse isMax lines State.new t1).mp h1
  obtain ⟨tr', g4⟩ := (distLines_ok parse lines State.new u1).mp g1
  have hs : ExtremeSession isMax p t1 := by simpa using session_extremes parse h4 ExtremeSession.new hlines
  have hs' : Session p u1 := by simpa using session_dists parse g4 Session.new hlines
  exact (session_values hp he hs' g2 v).mpr (C24_values_partial isMax p e hp he hap hae t1 hs v t2 h2)

/-- Without variables nothing is shared: `max()` and `min()` of an expression without assignments that reads no variable are
    possible outcomes of its distribution and bound all others, in every state. -/
theorem C24_variable_free_partial (isMax : Bool) (e : Expr) (hn : e.NoAssign) (hr : e.reads = []) (hf : e.Faces) (s : State) (d : Dist)
    (s1 : State) (hd : e.dist s = (.ok d, s1)) : ∃ v, e.extreme isMax s = (.ok v, s) ∧ hasKey d.getResultMap v ∧
      ∀ x, hasKey d.getResultMap x → if isMax then x ≤ v else v ≤ x := by
  have he : e.Straight := ⟨hn, by simp [hr], hf⟩
  have hap : ∀ e : Expr, Apart isMax [] e := by
    intro e
    induction e with
    | paren e ih => exact ih
    | minmax k a b iha ihb => exact ⟨.inr (fun i hi => absurd hi (by simp)), iha, ihb⟩
    | _ => trivial
  have hs : Matches ([] : List Line) ({ s with var := [], constants := [] } : State) := fun n _ => by simp [dictGet?, stored]
  obtain ⟨r, hr1⟩ := dist_varSteady s e hn
  have hcon : e.contained = [] := by rw [C35_contained e hn, hr]
  have hd' : e.dist ({ s with var := [], constants := [] } : State) = (.ok d, { s with var := [], constants := [] }) := by
    have h1 := hr1 s (fun _ _ => rfl)
    have h2 := hr1 { s with var := [], constants := [] } (fun n hn => by simp [hcon] at hn)
    rw [hd] at h1
    rw [h2]
    exact Prod.ext (Prod.mk.inj h1).1.symm rfl
  obtain ⟨v, h1, h2, h3⟩ := extreme_sound (isMax := isMax) Good.nil hs (fun n _ V hV => by simp [stored] at hV) e he d _ hd'
  refine ⟨v, ?_, h3 (fun n _ V hV => by simp [stored] at hV) (hap e), h2⟩
  rw [extreme_free hn hr isMax s { s with var := [], constants := [] }, h1]

end

/-! ### Refutations and examples -/

/-- C23 does not hold for dice terms without dice: the maximum of `0d6` is 0, but its distribution goes up to 6. -/
theorem C23_zero_dice_counterexample [PyRuntime] (s : State) : ∃ t d, mkDice "0d6".toList = .ok t ∧
    (Expr.dice t).dist s = (.ok d, s) ∧ (Expr.dice t).extreme true s = (.ok 0, s) ∧ hasKey d.getResultMap 6 := by
  obtain ⟨d, a, b, h1, h2, h3, h4, h5⟩ := C13_max_min ⟨"0d6".toList, ones [1, 2, 3, 4, 5, 6], 1⟩ (by decide) (by decide)
  refine ⟨⟨"0d6".toList, ones [1, 2, 3, 4, 5, 6], 0⟩, d, by decide +kernel, ?_, rfl, ?_⟩
  · show (DiceTerm.dist _, s) = _
    rw [C12_zero_dice _ rfl, h1]
  · have : b = 6 := by
      have h6 : DiceTerm.extreme true ⟨"0d6".toList, ones [1, 2, 3, 4, 5, 6], 1⟩ = .ok 6 := by decide +kernel
      have := h3.symm.trans h6
      cases this; rfl
    rw [← this]
    exact ((C09_max_min d b).1.mp h5).1

/-- The lines of the next example, as the parser builds them. -/
def nestedLines : Str → Res Expr := fun l =>
  if l = "VAR x = d4".toList then .ok (.assign ['x'] (.dice ⟨"d4".toList, ones [1, 2, 3, 4], 1⟩))
  else if l = "(VAR x = d6) + 0".toList then
    .ok (.add (.paren (.assign ['x'] (.dice ⟨"d6".toList, ones [1, 2, 3, 4, 5, 6], 1⟩))) (.constInt ['0']))
  else if l = "x".toList then .ok (.getVar ['x'])
  else .error .value

/-- C23 does not hold after nested assignments: `max` of `VAR x = d4`, `(VAR x = d6) + 0`, `x` is 4, but the distribution of the same
    lines goes up to 6 (the sum takes its maximum from its distribution, and computing that sets the variable but not the
    constant). -/
theorem C23_nested_counterexample : ∃ (R : PyRuntime) (vs : List (Str × Int)) (s1 : @State R) (ds : List (Str × @Dist R))
    (s2 : @State R) (d : @Dist R),
    @interpExtreme R nestedLines true ["VAR x = d4".toList, "(VAR x = d6) + 0".toList, "x".toList] (@State.new R) = (.ok vs, s1) ∧
    dictGet? vs stdoutName = some 4 ∧
    @interpDists R nestedLines ["VAR x = d4".toList, "(VAR x = d6) + 0".toList, "x".toList] (@State.new R) = (.ok ds, s2) ∧
    dictGet? ds stdoutName = some d ∧ @Dist.getResultMap R d = [(1, 1), (2, 1), (3, 1), (4, 1), (5, 1), (6, 1)] := by
  let R := listRuntime
  obtain ⟨vs, h1, h2⟩ := evalOk (x := interpExtreme nestedLines true ["VAR x = d4".toList, "(VAR x = d6) + 0".toList, "x".toList] State.new)
    (fun vs => dictGet? vs stdoutName) (y := some 4) (by decide +kernel)
  obtain ⟨ds, h3, h4⟩ := evalOk (x := interpDists nestedLines ["VAR x = d4".toList, "(VAR x = d6) + 0".toList, "x".toList] State.new)
    (fun ds => (dictGet? ds stdoutName).map Dist.getResultMap) (y := some [(1, 1), (2, 1), (3, 1), (4, 1), (5, 1), (6, 1)])
    (by decide +kernel)
  obtain ⟨d, h5, h6⟩ := Option.map_eq_some_iff.mp h4
  exact ⟨R, vs, _, ds, _, d, h1, h2, h3, h5, h6⟩

/-- The lines of the next example, as the parser builds them. -/
def stdoutLines : Str → Res Expr := fun l =>
  if l = "VAR stdout = d4".toList then .ok (.assign stdoutName (.dice ⟨"d4".toList, ones [1, 2, 3, 4], 1⟩))
  else if l = "2".toList then .ok (.constInt ['2'])
  else .error .value

/-- C23 does not hold for the name `stdout`: after `max` of the lines `VAR stdout = d4` and `2`, the maximum of `stdout` is 2, but its
    distribution goes up to 4. -/
theorem C23_stdout_counterexample : ∃ (R : PyRuntime) (vs : List (Str × Int)) (s : @State R) (d : @Dist R) (s' : @State R),
    @interpExtreme R stdoutLines true ["VAR stdout = d4".toList, "2".toList] (@State.new R) = (.ok vs, s) ∧
    @Expr.extreme R true (.getVar stdoutName) s = (.ok 2, s') ∧ @Expr.dist R (.getVar stdoutName) s = (.ok d, s') ∧
    @Dist.getResultMap R d = [(1, 1), (2, 1), (3, 1), (4, 1)] := by
  let R := listRuntime
  obtain ⟨vs, h1, _⟩ := evalOk (x := interpExtreme stdoutLines true ["VAR stdout = d4".toList, "2".toList] State.new)
    (fun vs => dictGet? vs stdoutName) (y := some 2) (by decide +kernel)
  obtain ⟨v, h3, h4⟩ := evalOk (x := Expr.extreme true (.getVar stdoutName)
    (interpExtreme stdoutLines true ["VAR stdout = d4".toList, "2".toList] State.new).2) id (y := 2) (by decide +kernel)
  obtain ⟨d, h5, h6⟩ := evalOk (x := Expr.dist (.getVar stdoutName)
    (interpExtreme stdoutLines true ["VAR stdout = d4".toList, "2".toList] State.new).2) Dist.getResultMap
    (y := [(1, 1), (2, 1), (3, 1), (4, 1)]) (by decide +kernel)
  cases h4
  exact ⟨R, vs, _, d, _, h1, h3, h5, h6⟩

/-- `VAR x = d2`. -/
def progX : Program := [(['x'], .dice ⟨"d2".toList, ones [1, 2], 1⟩)]

/-- `MAX(x, 3 - x)`. -/
def maxX : Expr := .minmax true (.getVar ['x']) (.sub (.constInt ['3']) (.getVar ['x']))

theorem straight_progX : Straight progX := by
  intro l hl
  simp only [progX, List.mem_singleton] at hl
  subst hl
  exact ⟨by decide, trivial, by decide, by decide, by decide⟩

theorem straight_maxX : maxX.Straight := ⟨⟨trivial, trivial, trivial⟩, by decide, trivial, trivial, trivial⟩

/-- C24 does not hold: after `VAR x = d2` the minimum of `MAX(x, 3 - x)` is 1, but the expression is 2 whatever the die shows, and
    that is what the distribution says. -/
theorem C24_counterexample : (∃ (R : PyRuntime) (s : @State R) (d : @Dist R), @ExtremeSession R false progX s ∧
    @Expr.extreme R false maxX s = (.ok 1, s) ∧ @Expr.dist R maxX s = (.ok d, s) ∧ @Dist.getResultMap R d = [(2, 2)]) ∧
    ∀ env ∈ runs progX Env.empty, ∀ x ∈ vals maxX env, x = 2 := by
  refine ⟨?_, by decide +kernel⟩
  let R := listRuntime
  obtain ⟨_, h1, _⟩ := evalOk (x := (Expr.assign ['x'] (.dice ⟨"d2".toList, ones [1, 2], 1⟩)).extreme false State.new)
    id (y := 1) (by decide +kernel)
  obtain ⟨v, h2, h3⟩ := evalOk (x := maxX.extreme false
    ((Expr.assign ['x'] (.dice ⟨"d2".toList, ones [1, 2], 1⟩)).extreme false State.new).2) id (y := 1) (by decide +kernel)
  obtain ⟨d, h4, h5⟩ := evalOk (x := maxX.dist
    ((Expr.assign ['x'] (.dice ⟨"d2".toList, ones [1, 2], 1⟩)).extreme false State.new).2) Dist.getResultMap (y := [(2, 2)])
    (by decide +kernel)
  have hs := ExtremeSession.step ExtremeSession.new h1
  have hn : maxX.NoAssign := ⟨trivial, trivial, trivial⟩
  rw [noAssign_extreme hn] at h2
  rw [noAssign_dist hn] at h4
  cases h3
  exact ⟨R, _, d, hs, h2, h4, h5⟩

/-- The condition of `C24_partial` excludes it ... -/
example : ¬ Apart false progX maxX := by
  rintro ⟨h | h, _⟩
  · cases h
  · have := h 0 (by decide)
    revert this; decide

/-- ... but its maximum is fine, as is the minimum of `MAX(x, d6)`. -/
example : Apart true progX maxX ∧ Apart false progX (.minmax true (.getVar ['x']) (.dice ⟨"d6".toList, ones [1, 2, 3, 4, 5, 6], 1⟩)) := by
  refine ⟨⟨.inl rfl, trivial, trivial⟩, .inr ?_, trivial, trivial⟩
  intro i hi
  have : i = 0 := by simp [progX] at hi; omega
  subst this; decide

/-- The theorems apply to that: sessions exist, and the values are as the theorems say. -/
example : let _ := listRuntime
    ∃ s d v, ExtremeSession true progX s ∧ maxX.dist s = (.ok d, s) ∧ maxX.extreme true s = (.ok v, s) ∧ d.getResultMap = [(2, 2)] ∧
      v = 2 := by
  intro _
  obtain ⟨_, h1, _⟩ := evalOk (x := (Expr.assign ['x'] (.dice ⟨"d2".toList, ones [1, 2], 1⟩)).extreme true State.new)
    id (y := 2) (by decide +kernel)
  obtain ⟨v, h2, h3⟩ := evalOk (x := maxX.extreme true
    ((Expr.assign ['x'] (.dice ⟨"d2".toList, ones [1, 2], 1⟩)).extreme true State.new).2) id (y := 2) (by decide +kernel)
  obtain ⟨d, h4, h5⟩ := evalOk (x := maxX.dist
    ((Expr.assign ['x'] (.dice ⟨"d2".toList, ones [1, 2], 1⟩)).extreme true State.new).2) Dist.getResultMap (y := [(2, 2)])
    (by decide +kernel)
  have hn : maxX.NoAssign := ⟨trivial, trivial, trivial⟩
  rw [noAssign_extreme hn] at h2
  rw [noAssign_dist hn] at h4
  exact ⟨_, d, v, ExtremeSession.step ExtremeSession.new h1, h4, h2, h5, h3⟩

example : ApartProgram true progX := by
  intro before x e after h
  have : before = [] := by
    cases before with
    | nil => rfl
    | cons b bs => simp [progX] at h
  subst this
  simp only [progX, List.nil_append, List.cons.injEq, Prod.mk.injEq] at h
  obtain ⟨⟨_, rfl⟩, _⟩ := h
  trivial

/-- `Defined`: `3 // x` after `VAR x = d2` is, `3 // (x - 1)` is not. -/
example : Defined progX (.div (.constInt ['3']) (.getVar ['x'])) ∧
    ¬ Defined progX (.div (.constInt ['3']) (.sub (.getVar ['x']) (.constInt ['1']))) := by
  refine ⟨⟨⟨3, by decide⟩, by simp [Defined, progX], by decide +kernel⟩, ?_⟩
  rintro ⟨_, _, h⟩
  revert h; decide +kernel

end PyDice
