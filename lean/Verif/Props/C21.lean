import Verif.Lemmas.RollExact
import Verif.Props.C25_C26
/-!
# C21 roll() of an expression follows the reported distribution

Full statement: for any expression without variables, `roll()` returns `v` with probability `get_dict_form()[v]`.  It is false where
`AND`, `OR` and `!` read other values than 0 and 1 (`C21_counterexample`, see C22) and for dice terms without dice
(`C20_zero_dice_counterexample`).  The law of rolls itself is given without such conditions (`C21_law`, `C21_session_law`), and
`C21_exact` and `C21_interp_exact` say exactly for which expressions and programs the two agree.
-/

namespace PyDice
open PyRuntime

section
variable [R : PyRuntime]

/-- The law of a roll, for every assignment-free expression and state: every result has the probability it has among the equally
    likely ways the dice can fall, the variables having the values of the constants.  (Failures count as `none`.) -/
theorem C21_roll_law (e : Expr) (hn : e.NoAssign) (hl : e.Loaded) (env : Env) (ht : Truthful env e) (s : State)
    (hr : ∀ n ∈ e.reads, env n = dictGet? s.constants n) (o : Option Int) :
    (e.roll s).prob (fun r => decide (r.1.toOption = o)) = ((ways e env).count o : ℚ) / ((ways e env).length : ℚ) := by
  rw [← avg_count]
  refine (roll_law env s e hn hl ht hr _ (if decide ((none : Option Int) = o) then 1 else 0) ?_).trans ?_
  · exact fun err => rfl
  · apply avg_congr
    intro x _
    cases x <;> rfl

/-- C21: an expression without variables, whose logical operators are applied to truth values only, rolls `v` with the probability
    its distribution gives to `v`. -/
theorem C21_partial (e : Expr) (hn : e.NoAssign) (hr : e.reads = []) (hl : e.Loaded) (ht : Truthful Env.empty e) (s s1 : State)
    (d : Dist) (hd : e.dist s = (.ok d, s1)) : ∃ f, d.getDictForm = .ok f ∧
      ∀ v, (e.roll s).prob (fun r => decide (r.1.toOption = some v)) = (dictGet? f v).getD 0 := by
  have hd' : e.dist ({ s with var := [] } : State) = (.ok d, { s with var := [] }) := by
    rw [dist_free hn hr _ s, hd]
  have hs := session_nil s
  have he : e.Straight := ⟨hn, by simp [hr], hl.faces⟩
  have hw : progWays [] e = ways e Env.empty := by simp [progWays, envWays]
  obtain ⟨f, h1, _, h2⟩ := C26_partial [] e (by simp [Straight]) he (by intro before x d after h; simp at h) _ _ hs d hd'
    (by rw [hw]; exact loaded_ways e _ hl)
  refine ⟨f, h1, fun v => ?_⟩
  rw [h2, hw]
  exact C21_roll_law e hn hl Env.empty ht s (by simp [hr]) (some v)

/-- With variables: rolling a straight-line program with a new interpreter gives every value the probability it has when every line
    is rolled once and reused (provided no division by zero can occur in the lines: `C21_interp_partial`). -/
theorem C21_program_law (parse : Str → Res Expr) (lines : List Str) (last : Str) (p : Program) (e : Expr) (hp : Straight p)
    (he : e.Straight) (hlp : ∀ l ∈ p, l.2.Loaded) (hle : e.Loaded) (htp : TruthfulProgram p)
    (hte : ∀ env ∈ envWays p Env.empty, Truthful env e)
    (hno : ∀ before x d after, p = before ++ (x, d) :: after → ∀ env ∈ envWays before Env.empty, none ∉ ways d env)
    (hlines : lines.map parse = p.map (fun l => .ok (.assign l.1 l.2))) (hlast : parse last = .ok e) (o : Option Int) :
    (interpRoll parse (lines ++ [last]) State.new).prob (fun r => decide (stdoutOf r = o)) =
      ((progWays p e).count o : ℚ) / ((progWays p e).length : ℚ) := by
  rw [← avg_count]
  exact interpRoll_law parse lines last p e hp he hlp hle
    (fun before x d after h env henv => ⟨htp before x d after h env henv, hno before x d after h env henv⟩) hte hlines hlast
    (fun x => if decide (x = o) then 1 else 0)

/-- C21 for programs: when the distributions of a straight-line program can be computed, and every line is used at most once or has
    equally likely values, then `roll` of the program by a new interpreter returns `v` with the probability that the distribution
    computed by a new interpreter reports. -/
theorem C21_interp_partial (parse : Str → Res Expr) (lines : List Str) (last : Str) (p : Program) (e : Expr) (hp : Straight p)
    (he : e.Straight) (hlp : ∀ l ∈ p, l.2.Loaded) (hle : e.Loaded) (htp : TruthfulProgram p)
    (hte : ∀ env ∈ envWays p Env.empty, Truthful env e) (hq : Gentle p e)
    (hlines : lines.map parse = p.map (fun l => .ok (.assign l.1 l.2))) (hlast : parse last = .ok e)
    (dict : List (Str × Dist)) (s' : State) (h : interpDists parse (lines ++ [last]) State.new = (.ok dict, s')) :
    ∃ d f, dictGet? dict stdoutName = some d ∧ d.getDictForm = .ok f ∧
      ∀ v, (interpRoll parse (lines ++ [last]) State.new).prob (fun r => decide (stdoutOf r = some v)) = (dictGet? f v).getD 0 := by
  obtain ⟨d0, s1, s2, h1, h2, h3, _⟩ := interpDists_last parse hlast h
  obtain ⟨tr, h4⟩ := (distLines_ok parse lines State.new s1).mp h1
  have hsess : Session p s1 := by simpa using session_dists parse h4 Session.new hlines
  obtain ⟨g, hg, hgp, hm, _⟩ := session_lines hsess hp
  have hsm : Smooth p Env.empty := by
    have := lines_smooth hg (by rw [hgp]; exact htp)
    rwa [hgp] at this
  have hw : progWays p e ≠ [] := program_ways hlp hle
  obtain ⟨d, f, k1, k2, k3⟩ := C26_interp_partial parse lines last p e hp he hq hw hlines hlast dict s' h
  refine ⟨d, f, k1, k2, fun v => ?_⟩
  rw [k3]
  exact C21_program_law parse lines last p e hp he hlp hle htp hte
    (fun before x d after h env henv => (hsm before x d after h env henv).2) hlines hlast (some v)

/-- The law of a roll, for every assignment-free expression and every state, without conditions on dice or operators: every result
    has the probability it has among the equally likely ways the dice can fall, with the idea of truth that rolls have.  (Failures
    count as `none`.) -/
theorem C21_law (e : Expr) (hn : e.NoAssign) (hm : e.Made) (s : State) (o : Option Int) :
    (e.roll s).prob (fun r => decide (r.1.toOption = o)) =
      ((rollWays e (dictGet? s.constants)).count o : ℚ) / ((rollWays e (dictGet? s.constants)).length : ℚ) := by
  rw [← avg_count]
  refine (roll_exact (dictGet? s.constants) s e hn hm (fun _ _ => rfl) _ (if decide ((none : Option Int) = o) then 1 else 0) ?_).trans ?_
  · exact fun err => rfl
  · apply avg_congr
    intro x _
    cases x <;> rfl

/-- The law of a run of the interpreter, for all lines (with or without `VAR`), in every state: for every set `Q` of answers (the
    returned dictionary as a function, or `none` for an exception) the probability of `Q` is the share of `Q` among the equally likely
    ways all the dice of all the lines can fall, each line being rolled once and its value used by the later lines. -/
theorem C21_session_law (parse : Str → Res Expr) (lines : List Str) (p : List AnyLine) (s : State)
    (hlines : lines.map parse = p.map (fun l => .ok l.expr)) (hp : ∀ l ∈ p, l.2.NoAssign ∧ l.2.Made) (hne : lines ≠ [])
    (Q : Option Env → Bool) :
    (interpRoll parse lines s).prob (fun r => Q (r.1.toOption.map dictGet?)) =
      ((runRolls p (dictGet? s.constants)).countP Q : ℚ) / ((runRolls p (dictGet? s.constants)).length : ℚ) := by
  refine (interpRoll_exact parse lines p s hlines hp hne (fun o => if Q o then 1 else 0)).trans ?_
  unfold avg
  congr 1
  generalize runRolls p (dictGet? s.constants) = l
  induction l with
  | nil => simp
  | cons a l ih =>
    rw [List.map_cons, List.sum_cons, ih, List.countP_cons]
    by_cases h : Q a <;> simp [h, add_comm]

/-- The value reported for the last line, by a new interpreter. -/
theorem C21_stdout_law (parse : Str → Res Expr) (lines : List Str) (p : List AnyLine)
    (hlines : lines.map parse = p.map (fun l => .ok l.expr)) (hp : ∀ l ∈ p, l.2.NoAssign ∧ l.2.Made) (hne : lines ≠ [])
    (o : Option Int) :
    (interpRoll parse lines State.new).prob (fun r => decide (stdoutOf r = o)) =
      ((progRolls p).count o : ℚ) / ((progRolls p).length : ℚ) := by
  rw [← avg_count]
  unfold progRolls
  rw [avg_of_map]
  refine Eq.trans ?_ (interpRoll_exact parse lines p State.new hlines hp hne
    (fun x => if decide ((x.bind fun env => env stdoutName) = o) then 1 else 0))
  refine congrArg (fun F => Rand.expect F (interpRoll parse lines State.new)) ?_
  funext r
  rcases r with ⟨r | r, s'⟩ <;> rfl

/-- C21, exactly: an expression without variables rolls every `v` with the probability its distribution gives to `v` if and only if
    the two ideas of truth give every `v` equally often. -/
theorem C21_exact (e : Expr) (hn : e.NoAssign) (hr : e.reads = []) (hl : e.Loaded) (s s1 : State)
    (d : Dist) (hd : e.dist s = (.ok d, s1)) : ∃ f, d.getDictForm = .ok f ∧
      ((∀ v, (e.roll s).prob (fun r => decide (r.1.toOption = some v)) = (dictGet? f v).getD 0) ↔
        ∀ v, (rollWays e Env.empty).count (some v) = (ways e Env.empty).count (some v)) := by
  have hd' : e.dist ({ s with var := [] } : State) = (.ok d, { s with var := [] }) := by
    rw [dist_free hn hr _ s, hd]
  have hs := session_nil s
  have he : e.Straight := ⟨hn, by simp [hr], hl.faces⟩
  have hw : progWays [] e = ways e Env.empty := by simp [progWays, envWays]
  obtain ⟨f, hf, _, hcount⟩ := C26_partial [] e (by simp [Straight]) he (by intro before x d after h; simp at h) _ _ hs d hd'
    (by rw [hw]; exact loaded_ways e _ hl)
  refine ⟨f, hf, forall_congr' fun v => ?_⟩
  have hlaw : (e.roll s).prob (fun r => decide (r.1.toOption = some v)) =
      ((rollWays e Env.empty).count (some v) : ℚ) / ((rollWays e Env.empty).length : ℚ) := by
    rw [← avg_count]
    refine (roll_exact Env.empty s e hn hl.made (fun n hn => by simp [hr] at hn) _
      (if decide ((none : Option Int) = some v) then 1 else 0) ?_).trans ?_
    · exact fun err => rfl
    · apply avg_congr
      intro x _
      cases x <;> rfl
  rw [hlaw, hcount, hw, rollWays_ways_length Env.empty Env.empty e hl]
  have h0 : ((ways e Env.empty).length : ℚ) ≠ 0 := by
    have := List.length_pos_iff.mpr (loaded_ways e Env.empty hl)
    exact_mod_cast (Nat.ne_of_gt this)
  rw [div_left_inj' h0]
  exact Nat.cast_inj

/-- C21 for programs, exactly: where the distributions of a straight-line program can be computed and every line is used at most once
    or has equally likely values, `roll` of the program returns every `v` with the reported probability if and only if the two ideas of
    truth give every `v` equally often. -/
theorem C21_interp_exact (parse : Str → Res Expr) (lines : List Str) (last : Str) (p : Program) (e : Expr) (hp : Straight p)
    (he : e.Straight) (hlp : ∀ l ∈ p, l.2.Loaded) (hle : e.Loaded) (hq : Gentle p e)
    (hlines : lines.map parse = p.map (fun l => .ok (.assign l.1 l.2))) (hlast : parse last = .ok e)
    (dict : List (Str × Dist)) (s' : State) (h : interpDists parse (lines ++ [last]) State.new = (.ok dict, s')) :
    ∃ d f, dictGet? dict stdoutName = some d ∧ d.getDictForm = .ok f ∧
      ((∀ v, (interpRoll parse (lines ++ [last]) State.new).prob (fun r => decide (stdoutOf r = some v)) = (dictGet? f v).getD 0) ↔
        ∀ v, (progRolls (p.map (fun l => (some l.1, l.2)) ++ [(none, e)])).count (some v) = (progWays p e).count (some v)) := by
  have hw : progWays p e ≠ [] := program_ways hlp hle
  obtain ⟨d, f, k1, k2, k3⟩ := C26_interp_partial parse lines last p e hp he hq hw hlines hlast dict s' h
  refine ⟨d, f, k1, k2, forall_congr' fun v => ?_⟩
  have hl := runRolls_linesOf_length p e hlp hle
  have hlaw := C21_stdout_law parse (lines ++ [last]) (linesOf p e)
    (by
      unfold linesOf
      rw [List.map_append, List.map_append, hlines, List.map_map]
      simp [hlast, AnyLine.expr, Function.comp_def])
    (by
      intro l hl
      unfold linesOf at hl
      rcases List.mem_append.mp hl with h | h
      · obtain ⟨l', h1, rfl⟩ := List.mem_map.mp h
        exact ⟨(hp l' h1).2.noAssign, (hlp l' h1).made⟩
      · rw [List.mem_singleton.mp h]; exact ⟨he.noAssign, hle.made⟩)
    (by simp) (some v)
  rw [hlaw, k3]
  have hlen : (progRolls (linesOf p e)).length = (progWays p e).length := by
    unfold progRolls; rw [List.length_map, hl]
  rw [hlen]
  have h0 : ((progWays p e).length : ℚ) ≠ 0 := by
    have := List.length_pos_iff.mpr hw
    exact_mod_cast (Nat.ne_of_gt this)
  rw [div_left_inj' h0]
  exact Nat.cast_inj

end

/-! ### Refutations and examples -/

/-- `d4 AND d4`. -/
def d4AndD4 : Expr := .bin .and (.dice ⟨"d4".toList, ones [1, 2, 3, 4], 1⟩) (.dice ⟨"d4".toList, ones [1, 2, 3, 4], 1⟩)

/-- `d4 AND d4` rolls 1 in 8 of the 16 cases, its distribution says in all; `0 * (1 AND 2)` agrees although a part of it does not. -/
example : d4AndD4.NoAssign ∧ d4AndD4.reads = [] ∧ d4AndD4.Loaded ∧ d4AndD4.Made ∧
    (rollWays d4AndD4 Env.empty).count (some 1) = 8 ∧ (ways d4AndD4 Env.empty).count (some 1) = 16 ∧
    rollWays (.mul (.constInt ['0']) (.paren (.bin .and (.constInt ['1']) (.constInt ['2'])))) Env.empty =
      ways (.mul (.constInt ['0']) (.paren (.bin .and (.constInt ['1']) (.constInt ['2'])))) Env.empty := by
  refine ⟨⟨trivial, trivial⟩, by decide, ⟨⟨by decide, by decide⟩, by decide, by decide⟩, ⟨trivial, trivial⟩,
    by decide +kernel, by decide +kernel, by decide +kernel⟩

/-- Dice that cannot be thrown fail; nothing is thrown when no die counts. -/
example : rollWays (.dice ⟨"2d0".toList, [], 2⟩) Env.empty = [none] ∧
    rollWays (.dropKeep ⟨"2d0k0".toList, 2, [], 0, true, .zero⟩) Env.empty = [some 0] ∧
    rollWays (.dice ⟨"0d6".toList, ones [1, 2, 3, 4, 5, 6], 0⟩) Env.empty = [some 0] := by decide +kernel

/-- `VAR a = d2`, `a`, `stdout + a`: the last line doubles `a`. -/
example : progRolls [(some ['a'], .dice ⟨"d2".toList, ones [1, 2], 1⟩), (none, .getVar ['a']),
    (none, .add (.getVar stdoutName) (.getVar ['a']))] = [some 2, some 4] := by decide +kernel

/-- C21 does not hold for `1 AND 2`: it always rolls 0, but its distribution says it is always 1. -/
theorem C21_counterexample (R : PyRuntime) (s : State) : ∃ d f,
    (Expr.bin .and (.constInt ['1']) (.constInt ['2'])).dist s = (.ok d, s) ∧ d.getDictForm = .ok f ∧
    ((Expr.bin .and (.constInt ['1']) (.constInt ['2'])).roll s).prob (fun r => decide (r.1.toOption = some 0)) = 1 ∧
    (dictGet? f 0).getD 0 = 0 := by
  obtain ⟨_, ⟨d, h1, h2⟩, _⟩ := C22_and_counterexample R s
  have he : (Expr.bin .and (.constInt ['1']) (.constInt ['2'])).Straight := ⟨⟨trivial, trivial⟩, by decide, trivial, trivial⟩
  have hs := session_nil s
  have hd' : (Expr.bin .and (.constInt ['1']) (.constInt ['2'])).dist ({ s with var := [] } : State) = (.ok d, { s with var := [] }) := by
    rw [dist_free he.noAssign (by decide) _ s, h1]
  obtain ⟨f, k1, _, k2⟩ := C26_partial [] _ (by simp [Straight]) he (by intro before x d after h; simp at h) _ _ hs d hd' (by decide)
  refine ⟨d, f, h1, k1, ?_, ?_⟩
  · rfl
  · rw [k2]
    have : (progWays [] (.bin .and (.constInt ['1']) (.constInt ['2']))).count (some 0) = 0 := by decide +kernel
    rw [this]; simp

/-- Reused variables: after `VAR a = 2d2` the line `a + a` rolls 4 with probability 1/4, where the distribution reports 1/6
    (`C26_counterexample`). -/
theorem C21_reuse_counterexample [PyRuntime] (parse : Str → Res Expr) (h1 : parse "VAR a = 2d2".toList = .ok (.assign ['a'] (.dice twoD2)))
    (h2 : parse "a + a".toList = .ok aPlusA) :
    (interpRoll parse ["VAR a = 2d2".toList, "a + a".toList] State.new).prob (fun r => decide (stdoutOf r = some 4)) = 1 / 4 := by
  have hsplit : ∀ {before : Program} {x d after}, prog2d2 = before ++ (x, d) :: after → before = [] ∧ d = .dice twoD2 := by
    intro before x d after h
    cases before with
    | nil => simp only [prog2d2, List.nil_append, List.cons.injEq, Prod.mk.injEq] at h; exact ⟨rfl, h.1.2.symm⟩
    | cons b bs => simp [prog2d2] at h
  have := C21_program_law parse ["VAR a = 2d2".toList] "a + a".toList prog2d2 aPlusA straight_prog2d2 straight_aPlusA
    (by intro l hl; simp only [prog2d2, List.mem_singleton] at hl; subst hl; exact ⟨by decide, by decide⟩) ⟨trivial, trivial⟩
    (fun before x d after h env henv => by rw [(hsplit h).2]; trivial) (fun _ _ => ⟨trivial, trivial⟩)
    (fun before x d after h env henv => by
      obtain ⟨rfl, rfl⟩ := hsplit h
      show none ∉ (tuples (facesOf twoD2.table) twoD2.number).map fun dice => some dice.sum
      decide)
    (by show [_] = [_]; rw [h1]) h2 (some 4)
  rw [show (progWays prog2d2 aPlusA).count (some 4) = 1 by decide +kernel,
    show (progWays prog2d2 aPlusA).length = 4 by decide +kernel] at this
  simpa using this

/-- `!(d6 > 3 AND d4 == 2) + 2d6k1 // 2`. -/
def logicSum : Expr := .add (.not (.paren (.bin .and (.bin .gt (.dice ⟨"d6".toList, ones [1, 2, 3, 4, 5, 6], 1⟩) (.constInt ['3']))
      (.bin .eq (.dice ⟨"d4".toList, ones [1, 2, 3, 4], 1⟩) (.constInt ['2'])))))
      (.div (.dropKeep ⟨"2d6k1".toList, 2, ones [1, 2, 3, 4, 5, 6], 1, true, .none⟩) (.constInt ['2']))

/-- It meets the hypotheses of `C21_partial`. -/
example : logicSum.NoAssign ∧ logicSum.reads = [] ∧ logicSum.Loaded ∧ Truthful Env.empty logicSum := by
  refine ⟨⟨⟨⟨trivial, trivial⟩, trivial, trivial⟩, trivial, trivial⟩, by decide,
    ⟨⟨⟨⟨by decide, by decide⟩, trivial⟩, ⟨by decide, by decide⟩, trivial⟩, ⟨⟨"2d6k1".toList, by decide +kernel⟩, by decide, by decide⟩,
      trivial⟩, ⟨?_, ⟨?_, fun h => (by cases h), ⟨?_, ?_, trivial, trivial⟩, ?_, ?_, trivial, trivial⟩⟩, trivial, trivial⟩
  · intro v hv
    have h : ∀ o ∈ ways (.paren (.bin .and (.bin .gt (.dice ⟨"d6".toList, ones [1, 2, 3, 4, 5, 6], 1⟩) (.constInt ['3']))
      (.bin .eq (.dice ⟨"d4".toList, ones [1, 2, 3, 4], 1⟩) (.constInt ['2'])))) Env.empty, o = some 0 ∨ o = some 1 := by decide +kernel
    rcases h _ hv with h | h <;> cases h <;> decide
  · intro _ v hv
    have h1 : ∀ o ∈ ways (.bin .gt (.dice ⟨"d6".toList, ones [1, 2, 3, 4, 5, 6], 1⟩) (.constInt ['3'])) Env.empty,
      o = some 0 ∨ o = some 1 := by decide +kernel
    have h2 : ∀ o ∈ ways (.bin .eq (.dice ⟨"d4".toList, ones [1, 2, 3, 4], 1⟩) (.constInt ['2'])) Env.empty,
      o = some 0 ∨ o = some 1 := by decide +kernel
    rcases hv with hv | hv
    · rcases h1 _ hv with h | h <;> cases h <;> simp
    · rcases h2 _ hv with h | h <;> cases h <;> simp
  all_goals intro h; cases h

end PyDice
