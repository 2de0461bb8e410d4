import Verif.Lemmas.Runs
/-!
# C30 Interpreter results; C31 Programs can be split; C32 Failures keep earlier effects; C33 Returned dictionaries
-/

namespace PyDice
open PyRuntime

section
variable [R : PyRuntime] (parse : Str → Res Expr)

/-! ### C30 -/

/-- C30: whatever the draws, `roll` of a non-empty program returns a dict that reports the values computed by its lines. -/
theorem C30_roll (lines : List Str) (hl : lines ≠ []) (s s' : State) (dict : List (Str × Int))
    (h : Rand.Possible (.ok dict, s') (interpRoll parse lines s)) :
    ∃ tr, LinesRun parse rollStep s lines tr s' ∧ Reports s.constants dict tr := by
  obtain ⟨h1, rfl⟩ := (interpRoll_ok parse).mp h
  obtain ⟨tr, htr⟩ := (rollLines_ok parse _ _ _).mp h1
  obtain ⟨a, b, c⟩ := linesRun_reports parse rollLaws htr
  have hne : tr ≠ [] := by
    rintro rfl; cases htr; exact hl rfl
  refine ⟨tr, htr, ?_⟩
  unfold constantsReturned
  rw [if_neg hl]
  exact ⟨a hne, b, c⟩

/-- C30 for `max` and `min`. -/
theorem C30_extreme (isMax : Bool) (lines : List Str) (hl : lines ≠ []) (s s' : State) (dict : List (Str × Int))
    (h : interpExtreme parse isMax lines s = (.ok dict, s')) :
    ∃ tr, LinesRun parse (extremeStep isMax) s lines tr s' ∧ Reports s.constants dict tr := by
  obtain ⟨h1, rfl⟩ := (interpExtreme_ok parse).mp h
  obtain ⟨tr, htr⟩ := (extremeLines_ok parse isMax _ _ _).mp h1
  obtain ⟨a, b, c⟩ := linesRun_reports parse (extremeLaws isMax) htr
  have hne : tr ≠ [] := by
    rintro rfl; cases htr; exact hl rfl
  refine ⟨tr, htr, ?_⟩
  unfold constantsReturned
  rw [if_neg hl]
  exact ⟨a hne, b, c⟩

/-- C30: conversely every run of the lines is a possible outcome of the call. -/
theorem C30_every_run (lines : List Str) (s s' : State) (tr : List (Expr × Int)) :
    (LinesRun parse rollStep s lines tr s' → Rand.Possible (.ok (constantsReturned lines s'), s') (interpRoll parse lines s)) ∧
    (∀ isMax, LinesRun parse (extremeStep isMax) s lines tr s' →
      interpExtreme parse isMax lines s = (.ok (constantsReturned lines s'), s')) :=
  ⟨fun h => (interpRoll_ok parse).mpr ⟨(rollLines_ok parse _ _ _).mpr ⟨tr, h⟩, rfl⟩,
    fun isMax h => (interpExtreme_ok parse).mpr ⟨(extremeLines_ok parse isMax _ _ _).mpr ⟨tr, h⟩, rfl⟩⟩

/-- C30: the empty program returns an empty dict and changes nothing. -/
theorem C30_empty (s : State) : interpRoll parse [] s = .pure (.ok [], s) ∧ ∀ isMax, interpExtreme parse isMax [] s = (.ok [], s) :=
  ⟨rfl, fun _ => rfl⟩

/-! ### C31 -/

/-- C31 for `roll`, as random computations (the same draws give the same results). -/
theorem C31_roll (p q : List Str) (hq : q ≠ []) :
    interpRoll parse (p ++ q) = (do let _ ← interpRoll parse p; interpRoll parse q) := by
  rw [interpRoll_eq, interpRoll_eq, interpRoll_eq, rollLines_append, rollBind_assoc, rollBind_assoc, rollEnd_append p hq]
  simp only [rollEnd_bind]

/-- C31 for `max` and `min`. -/
theorem C31_extreme (isMax : Bool) (p q : List Str) (hq : q ≠ []) :
    interpExtreme parse isMax (p ++ q) = (do let _ ← interpExtreme parse isMax p; interpExtreme parse isMax q) := by
  rw [interpExtreme_eq, interpExtreme_eq, interpExtreme_eq, extremeLines_append, evalBind_assoc, evalBind_assoc, extremeEnd_append p hq]
  simp only [extremeEnd_bind]

/-- C31 for `get_probability_distributions`. -/
theorem C31_dists (p q : List Str) (hq : q ≠ []) :
    interpDists parse (p ++ q) = (do let _ ← interpDists parse p; interpDists parse q) := by
  rw [interpDists_eq, interpDists_eq, interpDists_eq, distLines_append, evalBind_assoc, evalBind_assoc, distEnd_append p hq]
  simp only [distEnd_bind]

/-- C31 for `get_probability_distributions_dict` and `get_average`: unless the first of the two calls raises, the second returns
    what the single call returns and leaves the same state. -/
theorem C31_dictForms_averages (p q : List Str) (hq : q ≠ []) (s s1 : State) :
    (∀ r, interpDictForms parse p s = (.ok r, s1) → interpDictForms parse (p ++ q) s = interpDictForms parse q s1) ∧
    (∀ r, interpAverages parse p s = (.ok r, s1) → interpAverages parse (p ++ q) s = interpAverages parse q s1) := by
  constructor
  · intro r h
    obtain ⟨d, s2, h1, h2⟩ := evalBind_eq_ok.mp h
    obtain ⟨_, rfl⟩ := Prod.mk.inj h2
    unfold interpDictForms
    rw [C31_dists parse p q hq, evalBind_assoc, evalBind_ok h1]
  · intro r h
    obtain ⟨d, s2, h1, h2⟩ := evalBind_eq_ok.mp h
    obtain ⟨_, rfl⟩ := Prod.mk.inj h2
    unfold interpAverages
    rw [C31_dists parse p q hq, evalBind_assoc, evalBind_ok h1]

/-- C31 for the histogram methods: the distribution drawn, and the state. -/
theorem C31_histogram (p q : List Str) (hq : q ≠ []) :
    interpHistogramDist parse (p ++ q) = (do let _ ← interpHistogramDist parse p; interpHistogramDist parse q) := by
  unfold interpHistogramDist
  rw [lastDist_append]
  congr 1
  funext d
  exact lastDist_irrelevant parse hq _ _

/-- C31 for `get_estimated_cost`: the costs add up. -/
theorem C31_cost (p q : List Str) :
    interpCost parse (p ++ q) = (do let a ← interpCost parse p; let b ← interpCost parse q; return a + b) := by
  unfold interpCost
  rw [costLines_append]
  congr 1
  funext c
  exact costLines_offset parse q c

/-! ### C32 -/

/-- C32 for `roll`: when it raises, some line raised; the lines before it ran; and if that line has no assignment inside it or
    only an outermost one, the state is the one before that line. -/
theorem C32_roll (lines : List Str) (s s' : State) (er : Err) (h : Rand.Possible (.error er, s') (interpRoll parse lines s)) :
    ∃ pre l post s1 dict, lines = pre ++ l :: post ∧ Rand.Possible (.ok dict, s1) (interpRoll parse pre s) ∧
      Rand.Possible (.error er, s') (rollLine parse l s1) ∧ ((∀ e, parse l = .ok e → e.TopAssign) → s' = s1) := by
  rcases possible_bind_error.mp h with h | ⟨_, s2, _, h2⟩
  · obtain ⟨pre, l, post, s1, rfl, h1, h2⟩ := rollLines_error parse _ _ _ _ h
    refine ⟨pre, l, post, s1, _, rfl, (interpRoll_ok parse).mpr ⟨h1, rfl⟩, h2, fun ht => ?_⟩
    rcases rollLine_error parse h2 with ⟨_, rfl⟩ | ⟨e, he, h3⟩
    · rfl
    · exact fail_roll (ht e he) h3
  · cases (Prod.mk.inj (Rand.possible_pure.mp h2)).1

/-- C32 for the distribution methods. -/
theorem C32_dists (lines : List Str) (s s' : State) (er : Err) (h : interpDists parse lines s = (.error er, s')) :
    ∃ pre l post s1 dict, lines = pre ++ l :: post ∧ interpDists parse pre s = (.ok dict, s1) ∧
      distLine parse l s1 = (.error er, s') ∧ ((∀ e, parse l = .ok e → e.TopAssign) → s' = s1) := by
  rcases evalBind_eq_error.mp h with h | ⟨_, s2, _, h2⟩
  · obtain ⟨pre, l, post, s1, rfl, h1, h2⟩ := distLines_error parse _ _ _ _ h
    refine ⟨pre, l, post, s1, _, rfl, evalBind_eq_ok.mpr ⟨(), s1, h1, rfl⟩, h2, fun ht => ?_⟩
    rcases distLine_error parse h2 with ⟨_, rfl⟩ | ⟨e, he, h3⟩
    · rfl
    · exact fail_dist (ht e he) h3
  · cases (Prod.mk.inj h2).1

/-- C32: the dict and average methods leave the state that `get_probability_distributions` leaves, whether they raise or not. -/
theorem C32_dists_alike (lines : List Str) (s : State) :
    (interpDictForms parse lines s).2 = (interpDists parse lines s).2 ∧ (interpAverages parse lines s).2 = (interpDists parse lines s).2 := by
  unfold interpDictForms interpAverages
  rw [evalBind, evalBind]
  rcases interpDists parse lines s with ⟨r, s1⟩
  cases r <;> exact ⟨rfl, rfl⟩

/-- C32 for the histogram methods. -/
theorem C32_histogram (lines : List Str) (s s' : State) (er : Err) (h : interpHistogramDist parse lines s = (.error er, s')) :
    ∃ pre l post s1 d, lines = pre ++ l :: post ∧ interpHistogramDist parse pre s = (.ok d, s1) ∧
      (parse l = .error er ∨ ∃ e, parse l = .ok e ∧ e.dist s1 = (.error er, s')) ∧
      ((∀ e, parse l = .ok e → e.TopAssign) → s' = s1) := by
  obtain ⟨pre, l, post, s1, d, rfl, h1, h2⟩ := lastDist_error parse _ _ _ _ _ h
  refine ⟨pre, l, post, s1, d, rfl, h1, ?_, fun ht => ?_⟩
  · rcases h2 with h2 | h2
    · exact Or.inl h2.1
    · exact Or.inr h2
  · rcases h2 with ⟨_, rfl⟩ | ⟨e, he, h3⟩
    · rfl
    · exact fail_dist (ht e he) h3

/-- C32 for `get_estimated_cost`. -/
theorem C32_cost (lines : List Str) (s s' : State) (er : Err) (h : interpCost parse lines s = (.error er, s')) :
    ∃ pre l post s1 c, lines = pre ++ l :: post ∧ interpCost parse pre s = (.ok c, s1) ∧
      (parse l = .error er ∨ ∃ e, parse l = .ok e ∧ e.cost s1 = (.error er, s')) ∧
      ((∀ e, parse l = .ok e → e.TopAssign) → s' = s1) := by
  obtain ⟨pre, l, post, s1, d, rfl, h1, h2⟩ := costLines_error parse _ _ _ _ _ h
  refine ⟨pre, l, post, s1, d, rfl, h1, ?_, fun ht => ?_⟩
  · rcases h2 with h2 | h2
    · exact Or.inl h2.1
    · exact Or.inr h2
  · rcases h2 with ⟨_, rfl⟩ | ⟨e, he, h3⟩
    · rfl
    · exact fail_cost (ht e he) h3

/-- C32 for `max` and `min`: the lines before the failing one ran.  The failing line either changed nothing, or it is `VAR x = e`
    whose value was computed and stored as the constant `x` before its distribution raised.

    The full statement would be `s' = s1` whenever the failing line has at most an outermost assignment; it is refuted by
    `C32_extreme_counterexample`, and holds under the conditions of `C32_extreme_session_partial`. -/
theorem C32_extreme_partial (isMax : Bool) (lines : List Str) (s s' : State) (er : Err)
    (h : interpExtreme parse isMax lines s = (.error er, s')) :
    ∃ pre l post s1 dict, lines = pre ++ l :: post ∧ interpExtreme parse isMax pre s = (.ok dict, s1) ∧
      extremeLine parse isMax l s1 = (.error er, s') ∧
      ((∀ e, parse l = .ok e → e.TopAssign) → s' = s1 ∨
        ∃ x e v, parse l = .ok (.assign x e) ∧ e.extreme isMax s1 = (.ok v, s1) ∧ s' = s1.setConstant x v ∧
          (e.dist s').1 = .error er) := by
  rcases evalBind_eq_error.mp h with h | ⟨_, s2, _, h2⟩
  · obtain ⟨pre, l, post, s1, rfl, h1, h2⟩ := extremeLines_error parse isMax _ _ _ _ h
    refine ⟨pre, l, post, s1, _, rfl, (interpExtreme_ok parse).mpr ⟨h1, rfl⟩, h2, fun ht => ?_⟩
    rcases extremeLine_error parse h2 with ⟨_, rfl⟩ | ⟨e, he, h3⟩
    · exact Or.inl rfl
    · rcases fail_extreme (ht e he) h3 with rfl | ⟨x, e', v, rfl, h4, h5, h6⟩
      · exact Or.inl rfl
      · exact Or.inr ⟨x, e', v, he, h4, h5, h6⟩
  · cases (Prod.mk.inj h2).1

/-- C32 for `max` and `min`, in full, in sessions in which every constant but `stdout` has a distribution (for instance from a new
    state, using `max`, `min` and the distribution methods only), and for programs that do not read a variable `stdout`. -/
theorem C32_extreme_session_partial (isMax : Bool) (lines : List Str) (s s' : State) (er : Err) (hs : Reachable parse s)
    (hpair : ∀ n, n ≠ stdoutName → s.hasConstant n = true → s.hasVar n = true)
    (hlines : ∀ l ∈ lines, ∀ e, parse l = .ok e → e.TopAssign ∧ e.Built ∧ stdoutName ∉ e.reads)
    (h : interpExtreme parse isMax lines s = (.error er, s')) :
    ∃ pre l post dict, lines = pre ++ l :: post ∧ interpExtreme parse isMax pre s = (.ok dict, s') ∧
      extremeLine parse isMax l s' = (.error er, s') := by
  have hP : Paired s := by
    intro n hn ⟨v, hv⟩
    have := hpair n hn (by simp [State.hasConstant, hv])
    unfold State.hasVar at this
    exact Option.isSome_iff_exists.mp this
  obtain ⟨pre, l, post, s1, dict, rfl, h1, h2, h3⟩ := C32_extreme_partial parse isMax lines s s' er h
  have hmem : ∀ l' ∈ pre, ∀ e, parse l' = .ok e → e.TopAssign := fun l' hl' e he => (hlines l' (by simp [hl']) e he).1
  have hl := hlines l (by simp)
  have hP1 : Paired s1 := paired_extremeLines parse isMax pre s s1 hmem hP ((interpExtreme_ok parse).mp h1).1
  have hT1 : TidyState s1 := by
    have := (keeps_interpExtreme parse isMax pre s (tidy_reachable parse hs)).1
    rwa [h1] at this
  rcases h3 (fun e he => (hl e he).1) with rfl | ⟨x, e, v, he, h4, rfl, h6⟩
  · exact ⟨pre, l, post, dict, rfl, h1, h2⟩
  · exfalso
    obtain ⟨ht, hb, hr⟩ := hl _ he
    have hne : e.NoAssign := ht
    obtain ⟨d, hd⟩ := dist_ok_of_extreme_ok isMax hT1 hP1 e hne hb hr v (by rw [h4])
    obtain ⟨r, hr'⟩ := dist_steady s1 e hne
    have e1 := hr' s1 (agree_refl _ s1)
    have e1' : r = .ok d := by rw [e1] at hd; exact hd
    have hxr : ∀ t : State, t.var = s1.var → (e.dist t).1 = r := by
      intro t htv
      obtain ⟨r2, h7⟩ := dist_varSteady s1 e hne
      have h8 := h7 s1 (fun _ _ => rfl)
      rw [e1] at h8
      rw [h7 t (fun n _ => by rw [htv]), (Prod.mk.inj h8).1]
    rw [hxr (s1.setConstant x v) rfl, e1'] at h6
    cases h6

end

/-- C32 is violated by `max` / `min`: `max(["6", "VAR x = stdout"])` on a new interpreter raises in its second line, but leaves the
    constant `x` set. -/
theorem C32_extreme_counterexample : ∃ (R : PyRuntime) (parse : Str → Res Expr) (lines : List Str) (s1 s' : @State R) (er : Err)
    (dict : List (Str × Int)), (∀ l e, parse l = .ok e → e.TopAssign) ∧
      @interpExtreme R parse true lines (@State.new R) = (.error er, s') ∧
      @interpExtreme R parse true (lines.take 1) (@State.new R) = (.ok dict, s1) ∧ lines.length = 2 ∧
      @State.getConstant R s' ['x'] = .ok 6 ∧ @State.getConstant R s1 ['x'] = .error .key := by
  refine ⟨listRuntime, fun l => if l = ['6'] then .ok (.constInt ['6']) else .ok (.assign ['x'] (.getVar stdoutName)),
    [['6'], "VAR x = stdout".toList], _, _, _, _, ?_, rfl, rfl, rfl, rfl, rfl⟩
  intro l e h
  dsimp only at h
  split at h <;> · cases h; exact trivial

section
variable [R : PyRuntime] (parse : Str → Res Expr)

/-! ### C33 -/

/-- C33 for the distribution methods: the dict returned is the caller's own; no later state changes it (there is nothing in it that
    refers to the state). -/
theorem C33_dists (lines : List Str) (s s' : State) (o : OwnDict Dist) (h : interpDistsObject parse lines s = (.ok o, s')) :
    interpDists parse lines s = (.ok o.content, s') := by
  obtain ⟨d, s1, h1, h2⟩ := evalBind_eq_ok.mp h
  obtain ⟨h3, rfl⟩ := Prod.mk.inj h2
  cases h3
  exact h1

/-- C33: what `interpRoll` and `interpExtreme` show is the content of the returned object at the moment of return. -/
theorem C33_content (lines : List Str) (s s' : State) :
    (∀ o, Rand.Possible (.ok o, s') (interpRollObject parse lines s) ↔ o = dictReturned lines ∧
      Rand.Possible (.ok (o.content s'), s') (interpRoll parse lines s)) ∧
    (∀ isMax o, interpExtremeObject parse isMax lines s = (.ok o, s') ↔ o = dictReturned lines ∧
      interpExtreme parse isMax lines s = (.ok (o.content s'), s')) := by
  have hc : (dictReturned lines).content s' = constantsReturned lines s' := by
    unfold dictReturned constantsReturned
    split <;> rfl
  constructor
  · intro o
    rw [interpRoll_ok]
    constructor
    · intro h
      obtain ⟨_, s1, h1, h2⟩ := possible_bind_ok.mp h
      obtain ⟨h3, rfl⟩ := Prod.mk.inj (Rand.possible_pure.mp h2)
      cases h3
      exact ⟨rfl, h1, hc⟩
    · rintro ⟨rfl, h1, _⟩
      exact possible_bind_ok.mpr ⟨(), s', h1, .pure⟩
  · intro isMax o
    rw [interpExtreme_ok]
    constructor
    · intro h
      obtain ⟨_, s1, h1, h2⟩ := evalBind_eq_ok.mp h
      obtain ⟨h3, rfl⟩ := Prod.mk.inj h2
      cases h3
      exact ⟨rfl, h1, hc⟩
    · rintro ⟨rfl, h1, _⟩
      exact evalBind_eq_ok.mpr ⟨(), s', h1, rfl⟩

/-- C33 for `roll`, `max` and `min`: the dict returned by a non-empty program always shows the current constants of the state.

    The full statement would be `(dictReturned lines).content s' = (dictReturned lines).content s` for every later state `s'`; it
    is refuted by `C33_counterexample`.  It holds if the later calls are of the distribution and histogram methods. -/
theorem C33_alias_partial (lines : List Str) (hl : lines ≠ []) (s : State) : (dictReturned lines).content s = s.constants ∧
    ∀ later : List Str, (dictReturned lines).content (interpDists parse later s).2 = (dictReturned lines).content s ∧
      (dictReturned lines).content (interpDictForms parse later s).2 = (dictReturned lines).content s ∧
      (dictReturned lines).content (interpAverages parse later s).2 = (dictReturned lines).content s ∧
      (dictReturned lines).content (interpHistogramDist parse later s).2 = (dictReturned lines).content s := by
  have hd : ∀ s, (dictReturned lines).content s = s.constants := by
    intro s; unfold dictReturned; rw [if_neg hl]; rfl
  have h1 : ∀ later, Rel SameConstants (distLines parse later) := by
    intro later
    induction later with
    | nil => exact rel_pure pre_sameConstants _
    | cons l ls ih =>
      exact rel_bind pre_sameConstants (rel_bind pre_sameConstants (rel_ofRes pre_sameConstants _) (fun e =>
        rel_bind pre_sameConstants (sameConstants_dist e) (fun d s => rfl))) (fun _ => ih)
  have h2 : ∀ later, Rel SameConstants (interpDists parse later) := fun later =>
    rel_bind pre_sameConstants (h1 later) (fun _ s => rfl)
  have h3 : ∀ later d, Rel SameConstants (lastDist parse later d) := by
    intro later
    induction later with
    | nil => intro d; exact rel_pure pre_sameConstants _
    | cons l ls ih =>
      intro d
      exact rel_bind pre_sameConstants (rel_ofRes pre_sameConstants _) (fun e =>
        rel_bind pre_sameConstants (sameConstants_dist e) (fun d => ih d))
  refine ⟨hd s, fun later => ⟨?_, ?_, ?_, ?_⟩⟩
  · rw [hd, hd]; exact h2 later s
  · rw [hd, hd, (C32_dists_alike parse later s).1]; exact h2 later s
  · rw [hd, hd, (C32_dists_alike parse later s).2]; exact h2 later s
  · rw [hd, hd]; exact h3 later _ s

end

/-- C33 is violated by `roll`: after `roll(["1"])` and `roll(["2"])` the dict returned by the first call says 2. -/
theorem C33_counterexample : ∃ (R : PyRuntime) (parse : Str → Res Expr) (s1 s2 : @State R) (o o' : IntDict),
    Rand.Possible (.ok o, s1) (@interpRollObject R parse [['1']] (@State.new R)) ∧
    Rand.Possible (.ok o', s2) (@interpRollObject R parse [['2']] s1) ∧
    dictGet? (@IntDict.content R s1 o) stdoutName = some 1 ∧ dictGet? (@IntDict.content R s2 o) stdoutName = some 2 :=
  ⟨listRuntime, fun l => .ok (.constInt l), @State.mk listRuntime [] [(stdoutName, 1)] [], @State.mk listRuntime [] [(stdoutName, 2)] [],
    .constants, .constants, .pure, .pure, rfl, rfl⟩

/-! ### Examples -/

/-- A program of three lines in `max` mode: its run, and what it reports. -/
example : let _ := listRuntime
    let parse : Str → Res Expr := fun l => if l = ['a'] then .ok (.assign ['x'] (.constInt ['4'])) else
      if l = ['b'] then .ok (.add (.getVar ['x']) (.constInt ['1'])) else .error .value
    (interpExtreme parse true [['a'], ['b']] State.new).1 = .ok [(['x'], 4), (stdoutName, 5)] ∧
      (interpExtreme parse true [['a'], ['c'], ['b']] State.new).1 = .error .value ∧
      (interpExtreme parse true [['a'], ['c'], ['b']] State.new).2.constants = [(['x'], 4), (stdoutName, 4)] := by
  decide +kernel

/-- Two lines rolled with a die in the first. -/
example : let _ := listRuntime
    let parse : Str → Res Expr := fun l => if l = ['a'] then .ok (.assign ['x'] (.dice ⟨"d2".toList, ones [1, 2], 1⟩)) else
      .ok (.add (.getVar ['x']) (.getVar ['x']))
    Rand.Possible (.ok [(['x'], 2), (stdoutName, 4)], @State.mk listRuntime [] [(['x'], 2), (stdoutName, 4)] [(['x'], 1)])
      (interpRoll parse [['a'], ['b']] State.new) := by
  exact .draw 1 (by decide) .pure

end PyDice
