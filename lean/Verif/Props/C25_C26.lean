import Verif.Lemmas.Law
/-!
# C25 Reused variables: exactly the consistent outcomes are possible; C26 Reused variables: probabilities are exact
-/

namespace PyDice
open PyRuntime

section
variable [R : PyRuntime]

/-! ### C25

Full statement: after any program of `VAR` lines, the possible values of any expression are exactly those of the consistent runs.
Missing: expressions or lines that read or assign `stdout` (there it is false: `C25_counterexample`), that contain nested
assignments, dice terms with no dice (`0d6`, whose distribution is that of `1d6`: `C23_zero_dice_counterexample`) and dice terms
without faces (`d0`). -/

/-- C25: the possible values of an expression after a straight-line program are exactly the values it takes when every line has one
    of its possible values, given the values of the earlier lines, and the variables have the values of their latest lines. -/
theorem C25_partial (p : Program) (e : Expr) (hp : Straight p) (he : e.Straight) (s s' : State) (hs : Session p s) (d : Dist)
    (hd : e.dist s = (.ok d, s')) (v : Int) : hasKey d.getResultMap v ↔ ∃ env ∈ runs p Env.empty, v ∈ vals e env := by
  obtain ⟨g, hg, rfl, hm, _⟩ := session_lines hs hp
  rw [hasKey_run hg hm he hd]
  constructor
  · rintro ⟨ω, h1, h2⟩
    exact ⟨_, (mem_runs hg _).mpr ⟨ω, h1, rfl⟩, h2⟩
  · rintro ⟨env, h1, h2⟩
    obtain ⟨ω, h3, rfl⟩ := (mem_runs hg _).mp h1
    exact ⟨ω, h3, h2⟩

/-- C25: when no face has weight zero, the possible values are those that come up for some way the program's dice fall, and for no
    way does the evaluation fail. -/
theorem C25_weighted_partial (p : Program) (e : Expr) (hp : Straight p) (he : e.Straight) (hwp : ∀ l ∈ p, l.2.Weighted)
    (hwe : e.Weighted) (s s' : State) (hs : Session p s) (d : Dist) (hd : e.dist s = (.ok d, s')) :
    (∀ v, hasKey d.getResultMap v ↔ some v ∈ progWays p e) ∧ none ∉ progWays p e := by
  have hsup := C25_partial p e hp he s s' hs d hd
  obtain ⟨g, hg, rfl, hm, _⟩ := session_lines hs hp
  have hwg : ∀ l ∈ g, l.e.Weighted := by
    intro l hl
    have : ∀ g : List Line, l ∈ g → (l.x, l.e) ∈ programOf g := by
      intro g
      induction g with
      | nil => simp
      | cons k g ih =>
        intro h
        rcases List.mem_cons.mp h with rfl | h
        · simp [programOf]
        · simp [programOf, ih h]
    exact hwp _ (this g hl)
  have hno : ∀ o ∈ progWays (programOf g) e, ∃ env ∈ runs (programOf g) Env.empty, ∃ v ∈ vals e env, o = some v := by
    intro o ho
    obtain ⟨env, h1, h2⟩ := List.mem_flatMap.mp ho
    obtain ⟨ω, h3, rfl⟩ := envWays_runs hg env h1
    obtain ⟨v, h4, h5⟩ := (expr_run hg hm he hd h3).2.2 o h2
    exact ⟨_, (mem_runs hg _).mpr ⟨ω, h3, rfl⟩, v, h4, h5⟩
  constructor
  · intro v
    rw [hsup]
    constructor
    · rintro ⟨env, h1, h2⟩
      exact List.mem_flatMap.mpr ⟨env, runs_envWays hg hwg env h1, weighted_vals e hwe env v h2⟩
    · intro h
      obtain ⟨env, h1, w, h2, h3⟩ := hno _ h
      cases h3
      exact ⟨env, h1, h2⟩
  · intro h
    obtain ⟨env, h1, w, h2, h3⟩ := hno _ h
    cases h3

/-- C25 for the interpreter: a new interpreter is given `VAR` lines and a final line. -/
theorem C25_interp_partial (parse : Str → Res Expr) (lines : List Str) (last : Str) (p : Program) (e : Expr) (hp : Straight p)
    (he : e.Straight) (hlines : lines.map parse = p.map (fun l => .ok (.assign l.1 l.2))) (hlast : parse last = .ok e)
    (dict : List (Str × Dist)) (s' : State) (h : interpDists parse (lines ++ [last]) State.new = (.ok dict, s')) :
    ∃ d, dictGet? dict stdoutName = some d ∧ ∀ v, hasKey d.getResultMap v ↔ ∃ env ∈ runs p Env.empty, v ∈ vals e env := by
  obtain ⟨d, s1, s2, h1, h2, h3, _⟩ := interpDists_last parse hlast h
  refine ⟨d, h3, fun v => ?_⟩
  obtain ⟨tr, h4⟩ := (distLines_ok parse lines State.new s1).mp h1
  have := session_dists parse h4 Session.new hlines
  exact C25_partial p e hp he s1 s2 (by simpa using this) d h2 v

/-! ### C26

Full statement: after any program of `VAR` lines, `get_dict_form()` gives every value its probability when every line is rolled once
and reused.  It is false (`C26_counterexample`): the number of ways a line's value comes about enters once for every use of the line
(`C26_law`).  It holds when every line is used at most once or has equally likely values (`C26_partial`). -/

/-- The counts the code computes, for every straight-line program: the number of ways to a line's value is raised to the number of
    times the line is used, directly or through other lines. -/
theorem C26_law (p : Program) (e : Expr) (hp : Straight p) (he : e.Straight) (s s' : State) (hs : Session p s) (d : Dist)
    (hd : e.dist s = (.ok d, s')) (v : Int) : unusedWays p e * countOf d.getResultMap v =
      ((powRuns p ((uses p e).map fun u => if u = 0 then 1 else u) Env.empty).map fun r => r.2 * (ways e r.1).count (some v)).sum := by
  obtain ⟨g, hg, rfl, hm, _⟩ := session_lines hs hp
  rw [countOf_getResultMap, exact_total hg hm he hd]
  simp only [waySum_count]

/-- C26: when every line is used at most once or has equally likely values, the reported probability of every value is the number of
    ways to it divided by the number of all ways, and no way fails.  (`progWays p e ≠ []`: no die has all its faces at weight zero.) -/
theorem C26_partial (p : Program) (e : Expr) (hp : Straight p) (he : e.Straight) (hq : Gentle p e) (s s' : State) (hs : Session p s)
    (d : Dist) (hd : e.dist s = (.ok d, s')) (hw : progWays p e ≠ []) :
    ∃ f, d.getDictForm = .ok f ∧ none ∉ progWays p e ∧
      ∀ v, (dictGet? f v).getD 0 = ((progWays p e).count (some v) : ℚ) / ((progWays p e).length : ℚ) := by
  obtain ⟨g, hg, rfl, hm, _⟩ := session_lines hs hp
  have hgh : GentleH g e.reads := gentleH g e.reads hq
  obtain ⟨B, C, hB, hC0, hC⟩ := gentle_factors hg hm he hd hgh hw
  have hno : none ∉ progWays (programOf g) e := by
    intro ho
    obtain ⟨env, h1, h2⟩ := List.mem_flatMap.mp ho
    obtain ⟨ω, h3, rfl⟩ := envWays_runs hg env h1
    obtain ⟨v, h4, h5⟩ := (expr_run hg hm he hd h3).2.2 _ h2
    cases h5
  have hcons : d.Constructed := (expr_tidy hg hm he hd).constructed
  have h1 := hC (fun _ => 1)
  rw [E_one d hcons, waySum_length _ hno] at h1
  have hv := fun v => hC (fun x => if x = v then 1 else 0)
  simp only [← countOf_getResultMap, waySum_count] at hv
  have hlen : (progWays (programOf g) e).length ≠ 0 := fun h0 => hw (List.length_eq_zero_iff.mp h0)
  have hN : d.outcomeCount ≠ 0 := by
    intro h0
    rw [h0, mul_zero] at h1
    exact mul_ne_zero hC0 hlen h1.symm
  refine ⟨_, getDictForm_eq d hN, hno, fun v => ?_⟩
  rw [dictGet_dictForm]
  have q1 : (B : ℚ) * (d.outcomeCount : ℚ) = C * ((progWays (programOf g) e).length : ℚ) := by exact_mod_cast h1
  have q2 : (B : ℚ) * (countOf d.getResultMap v : ℚ) = C * ((progWays (programOf g) e).count (some v) : ℚ) := by
    exact_mod_cast hv v
  have n1 : (B : ℚ) ≠ 0 := by exact_mod_cast hB
  have n2 : (d.outcomeCount : ℚ) ≠ 0 := by exact_mod_cast hN
  have n3 : ((progWays (programOf g) e).length : ℚ) ≠ 0 := by exact_mod_cast hlen
  rw [div_eq_div_iff n2 n3]
  apply mul_left_cancel₀ n1
  calc (B : ℚ) * ((countOf d.getResultMap v : ℚ) * ((progWays (programOf g) e).length : ℚ))
      = (B * countOf d.getResultMap v) * ((progWays (programOf g) e).length : ℚ) := by ring
    _ = (C * ((progWays (programOf g) e).length : ℚ)) * (progWays (programOf g) e).count (some v) := by rw [q2]; ring
    _ = _ := by rw [← q1]; ring

/-- C26 for the interpreter: a new interpreter is given `VAR` lines and a final line. -/
theorem C26_interp_partial (parse : Str → Res Expr) (lines : List Str) (last : Str) (p : Program) (e : Expr) (hp : Straight p)
    (he : e.Straight) (hq : Gentle p e) (hw : progWays p e ≠ [])
    (hlines : lines.map parse = p.map (fun l => .ok (.assign l.1 l.2))) (hlast : parse last = .ok e)
    (dict : List (Str × Dist)) (s' : State) (h : interpDists parse (lines ++ [last]) State.new = (.ok dict, s')) :
    ∃ d f, dictGet? dict stdoutName = some d ∧ d.getDictForm = .ok f ∧
      ∀ v, (dictGet? f v).getD 0 = ((progWays p e).count (some v) : ℚ) / ((progWays p e).length : ℚ) := by
  obtain ⟨d, s1, s2, h1, h2, h3, _⟩ := interpDists_last parse hlast h
  obtain ⟨tr, h4⟩ := (distLines_ok parse lines State.new s1).mp h1
  have := session_dists parse h4 Session.new hlines
  obtain ⟨f, h5, _, h6⟩ := C26_partial p e hp he hq s1 s2 (by simpa using this) d h2 hw
  exact ⟨d, f, h3, h5, h6⟩

end

/-! ### Refutations and examples -/

/-- `2d2` as the parser builds it. -/
def twoD2 : DiceTerm := ⟨"2d2".toList, ones [1, 2], 2⟩

/-- `VAR a = 2d2`. -/
def prog2d2 : Program := [(['a'], .dice twoD2)]

/-- `a + a`. -/
def aPlusA : Expr := .add (.getVar ['a']) (.getVar ['a'])

example : mkDice "2d2".toList = .ok twoD2 := by decide +kernel

theorem straight_prog2d2 : Straight prog2d2 := by
  intro l hl
  simp only [prog2d2, List.mem_singleton] at hl
  subst hl
  exact ⟨by decide, trivial, by decide, by decide, by decide⟩

theorem straight_aPlusA : aPlusA.Straight := ⟨⟨trivial, trivial⟩, by decide, trivial, trivial⟩

/-- C26 does not hold: after `VAR a = 2d2` the expression `a + a` is 4 with probability 1/4, but 1/6 is reported, whatever the set
    order. -/
theorem C26_counterexample [R : PyRuntime] (s s' : State) (hs : Session prog2d2 s) (d : Dist) (hd : aPlusA.dist s = (.ok d, s')) :
    (∃ f, d.getDictForm = .ok f ∧ (dictGet? f 4).getD 0 = 1 / 6) ∧
      ((progWays prog2d2 aPlusA).count (some 4) : ℚ) / ((progWays prog2d2 aPlusA).length : ℚ) = 1 / 4 := by
  have hl := C26_law prog2d2 aPlusA straight_prog2d2 straight_aPlusA s s' hs d hd
  have h4 : countOf d.getResultMap 4 = 1 := by
    have := hl 4
    rw [show unusedWays prog2d2 aPlusA = 1 by decide +kernel, one_mul] at this
    rw [this]; decide +kernel
  have hN : d.outcomeCount = 6 := by
    obtain ⟨g, hg, hp, hm, _⟩ := session_lines hs straight_prog2d2
    rw [← E_one d (expr_tidy hg hm straight_aPlusA hd).constructed]
    have := exact_total hg hm straight_aPlusA hd (fun _ => 1)
    rw [hp, show unusedWays prog2d2 aPlusA = 1 by decide +kernel, one_mul] at this
    rw [this]; decide +kernel
  constructor
  · refine ⟨_, getDictForm_eq d (by omega), ?_⟩
    rw [dictGet_dictForm, h4, hN]; norm_num
  · rw [show (progWays prog2d2 aPlusA).count (some 4) = 1 by decide +kernel,
      show (progWays prog2d2 aPlusA).length = 4 by decide +kernel]; norm_num

/-- There is such a session. -/
example : let _ := listRuntime
    ∃ s s' d, Session prog2d2 s ∧ aPlusA.dist s = (.ok d, s') ∧ d.getResultMap = [(4, 1), (6, 4), (8, 1)] := by
  intro _
  exact ⟨_, _, _, Session.dist (x := ['a']) (e := .dice twoD2) Session.new rfl, rfl, by decide +kernel⟩

/-- The same `VAR` line used once: nothing is squared, the conditions of `C26_partial` hold and so does its conclusion. -/
example : Gentle prog2d2 (.add (.getVar ['a']) (.constInt ['1'])) := by
  intro before x d after h
  right; left
  have : before = [] := by
    cases before with
    | nil => rfl
    | cons b bs => simp [prog2d2] at h
  subst this
  decide

/-- A line with equally likely values used twice: `VAR a = d6; a + a`. -/
example : Gentle [(['a'], .dice ⟨"d6".toList, ones [1, 2, 3, 4, 5, 6], 1⟩)] aPlusA := by
  intro before x d after h
  right; right
  have : before = [] := by
    cases before with
    | nil => rfl
    | cons b bs => simp at h
  subst this
  simp only [List.nil_append, List.cons.injEq, Prod.mk.injEq] at h
  obtain ⟨⟨_, rfl⟩, _⟩ := h
  exact ⟨1, by decide +kernel⟩

example : let _ := listRuntime
    ∃ s s' d, Session [(['a'], .dice ⟨"d3".toList, ones [1, 2, 3], 1⟩), (['b'], .sub (.getVar ['a']) (.constInt ['2']))] s ∧
      (Expr.mul (.getVar ['a']) (.getVar ['b'])).dist s = (.ok d, s') ∧ d.getResultMap = [(-1, 1), (0, 1), (3, 1)] := by
  intro _
  obtain ⟨_, h1, _⟩ := evalOk (x := (Expr.assign ['a'] (.dice ⟨"d3".toList, ones [1, 2, 3], 1⟩)).dist State.new)
    Dist.getResultMap (y := [(1, 1), (2, 1), (3, 1)]) (by decide +kernel)
  obtain ⟨_, h2, _⟩ := evalOk (x := (Expr.assign ['b'] (.sub (.getVar ['a']) (.constInt ['2']))).dist
    ((Expr.assign ['a'] (.dice ⟨"d3".toList, ones [1, 2, 3], 1⟩)).dist State.new).2)
    Dist.getResultMap (y := [(-1, 1), (0, 1), (1, 1)]) (by decide +kernel)
  obtain ⟨d, h3, h4⟩ := evalOk (x := (Expr.mul (.getVar ['a']) (.getVar ['b'])).dist
    ((Expr.assign ['b'] (.sub (.getVar ['a']) (.constInt ['2']))).dist
      ((Expr.assign ['a'] (.dice ⟨"d3".toList, ones [1, 2, 3], 1⟩)).dist State.new).2).2)
    Dist.getResultMap (y := [(-1, 1), (0, 1), (3, 1)]) (by decide +kernel)
  exact ⟨_, _, d, Session.dist (p := [(['a'], .dice ⟨"d3".toList, ones [1, 2, 3], 1⟩)]) (Session.dist Session.new h1) h2, h3, h4⟩

/-- The values in the runs of that program. -/
example : (runs [(['a'], .dice ⟨"d3".toList, ones [1, 2, 3], 1⟩), (['b'], .sub (.getVar ['a']) (.constInt ['2']))] Env.empty).flatMap
    (vals (.mul (.getVar ['a']) (.getVar ['b']))) = [-1, 0, 3] := by decide +kernel

/-- C25 does not extend to the name `stdout`: after the line `VAR a = d2`, whose result is stored as `stdout`, the expression
    `stdout - a` is reported to be able to be 1, although the two are the same roll. -/
theorem C25_counterexample : ∃ (R : PyRuntime) (parse : Str → Res Expr) (dict : List (Str × @Dist R)) (s' : @State R) (d : @Dist R),
    parse "VAR a = d2".toList = .ok (.assign ['a'] (.dice ⟨"d2".toList, ones [1, 2], 1⟩)) ∧
    parse "stdout - a".toList = .ok (.sub (.getVar stdoutName) (.getVar ['a'])) ∧
    @interpDists R parse ["VAR a = d2".toList, "stdout - a".toList] (@State.new R) = (.ok dict, s') ∧
    dictGet? dict stdoutName = some d ∧ @Dist.getResultMap R d = [(0, 2), (-1, 1), (1, 1)] := by
  refine ⟨listRuntime, fun l => if l = "VAR a = d2".toList then .ok (.assign ['a'] (.dice ⟨"d2".toList, ones [1, 2], 1⟩)) else
    .ok (.sub (.getVar stdoutName) (.getVar ['a'])), _, _, _, by decide, by decide, rfl, rfl, by decide +kernel⟩

end PyDice
