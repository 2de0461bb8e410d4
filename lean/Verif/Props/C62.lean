import Verif.Lemmas.Unfold
import Verif.Props.C43
import Verif.Props.Texts
import Verif.Props.C46
/-!
# C62: What the distributions of any program are
-/

namespace PyDice
open PyRuntime

section
variable [R : PyRuntime]

/-- C62: whether the distributions of a program can be computed: exactly when it unfolds to a straight-line program. -/
theorem C62_defined (parse : Str → Res Expr) (lines : List Str) (es : List Expr) (hlines : lines.map parse = es.map .ok)
    (hm : ∀ e ∈ es, e.Made ∧ e.Faced) :
    (∃ dict s', interpDists parse lines State.new = (.ok dict, s')) ↔ ∃ u, unfoldLines (es.map Expr.oneDie) .start = some u := by
  have h := every_program parse lines es hlines hm
  cases hu : unfoldLines (es.map Expr.oneDie) .start with
  | none =>
    rw [hu] at h
    exact ⟨fun ⟨dict, s', h1⟩ => (h dict s' h1).elim, fun ⟨u, h1⟩ => by cases h1⟩
  | some u =>
    rw [hu] at h
    obtain ⟨s', _, h1, _⟩ := h
    exact ⟨fun _ => ⟨u, rfl⟩, fun _ => ⟨_, _, h1⟩⟩

/-- C62: which names are reported: exactly those that stand for something at the end. -/
theorem C62_names (parse : Str → Res Expr) (lines : List Str) (es : List Expr) (hlines : lines.map parse = es.map .ok)
    (hm : ∀ e ∈ es, e.Made ∧ e.Faced) (hne : lines ≠ []) (dict : List (Str × Dist)) (s' : State)
    (h : interpDists parse lines State.new = (.ok dict, s')) (u : Unfolding) (hu : unfoldLines (es.map Expr.oneDie) .start = some u)
    (n : Str) : (∃ d, dictGet? dict n = some d) ↔ ∃ e, u.now n = some e := by
  have hE := every_program parse lines es hlines hm
  rw [hu] at hE
  obtain ⟨s2, g, h1, H⟩ := hE
  rw [if_neg hne, h] at h1
  cases h1
  constructor
  · rintro ⟨d, hd⟩
    cases hn : u.now n with
    | none => rw [H.absent n hn] at hd; cases hd
    | some e => exact ⟨e, rfl⟩
  · rintro ⟨e, he⟩
    obtain ⟨d, hd, _⟩ := H.law he
    exact ⟨d, hd⟩

/-- C62, possible values: a value is reported for a name exactly when a run of the straight-line program gives it. -/
theorem C62_values (parse : Str → Res Expr) (lines : List Str) (es : List Expr) (hlines : lines.map parse = es.map .ok)
    (hm : ∀ e ∈ es, e.Made ∧ e.Faced) (hne : lines ≠ []) (dict : List (Str × Dist)) (s' : State)
    (h : interpDists parse lines State.new = (.ok dict, s')) (u : Unfolding) (hu : unfoldLines (es.map Expr.oneDie) .start = some u)
    (n : Str) (e : Expr) (hn : u.now n = some e) (d : Dist) (hd : dictGet? dict n = some d) (v : Int) :
    hasKey d.getResultMap v ↔ ∃ env ∈ runs u.prog Env.empty, v ∈ vals e env := by
  have hE := every_program parse lines es hlines hm
  rw [hu] at hE
  obtain ⟨s2, g, h1, H⟩ := hE
  rw [if_neg hne, h] at h1
  cases h1
  obtain ⟨d', k1, k2, _⟩ := H.law hn
  rw [k1] at hd
  cases hd
  exact k2 v

/-- C62, probabilities: the reported probability of a value for a name is its share of the weights of the straight-line program, in
    which the ways to an assignment's value count once for every use. -/
theorem C62_reported (parse : Str → Res Expr) (lines : List Str) (es : List Expr) (hlines : lines.map parse = es.map .ok)
    (hm : ∀ e ∈ es, e.Made ∧ e.Faced) (hne : lines ≠ []) (dict : List (Str × Dist)) (s' : State)
    (h : interpDists parse lines State.new = (.ok dict, s')) (u : Unfolding) (hu : unfoldLines (es.map Expr.oneDie) .start = some u)
    (n : Str) (e : Expr) (hn : u.now n = some e) (d : Dist) (hd : dictGet? dict n = some d) (hw : progWays u.prog e ≠ []) :
    ∃ f, d.getDictForm = .ok f ∧ none ∉ progWays u.prog e ∧ 0 < usedTotal u.prog e ∧
      ∀ v, (dictGet? f v).getD 0 = (usedCount u.prog e v : ℚ) / (usedTotal u.prog e : ℚ) := by
  have hE := every_program parse lines es hlines hm
  rw [hu] at hE
  obtain ⟨s2, g, h1, H⟩ := hE
  rw [if_neg hne, h] at h1
  cases h1
  obtain ⟨d', k1, _, k2⟩ := H.law hn
  rw [k1] at hd
  cases hd
  exact k2 hw

/-- C62, exactly when the report is right: for every program that can be reported and whose logical operators are used where rolls and
    distributions agree on truth, `roll` of a new interpreter gives a name every value with the reported probability if and only if
    the weights of the straight-line program are in proportion to the numbers of ways all the dice can fall. -/
theorem C62_exact (parse : Str → Res Expr) (lines : List Str) (es : List Expr) (hlines : lines.map parse = es.map .ok)
    (hl : ∀ e ∈ es, e.Loaded) (hs : SoundLines es Env.empty) (hne : lines ≠ []) (u : Unfolding) (hu : unfoldLines es .start = some u)
    (n : Str) (e : Expr) (hn : u.now n = some e) :
    ∃ dict s' d f, interpDists parse lines State.new = (.ok dict, s') ∧ dictGet? dict n = some d ∧ d.getDictForm = .ok f ∧
      ((∀ v, (interpRoll parse lines State.new).prob
          (fun r => decide ((r.1.toOption.bind fun dict => dictGet? dict n) = some v)) = (dictGet? f v).getD 0) ↔
        ∀ v, (lineOuts es Env.empty).countP (fun o => decide ((o.bind fun env => env n) = some v)) *
            usedTotal u.prog e = usedCount u.prog e v * (lineOuts es Env.empty).length) := by
  obtain ⟨s', h, h1, H⟩ := every_faces parse lines es hlines (fun e he => (hl e he).faces) u hu
  rw [if_neg hne] at h1
  obtain ⟨d, k1, _, k2⟩ := H.law hn
  have hL := unfoldLines_loaded es hl .start ⟨by simp [Unfolding.start], by intro n e h; cases h⟩ u hu
  obtain ⟨f, m1, _, m2, m3⟩ := k2 (program_ways hL.1 (hL.2 n e hn))
  refine ⟨_, _, d, f, h1, k1, m1, forall_congr' fun v => ?_⟩
  have hr : (interpRoll parse lines State.new).prob (fun r => decide ((r.1.toOption.bind fun dict => dictGet? dict n) = some v)) =
      ((lineOuts es Env.empty).countP (fun o => decide ((o.bind fun env => env n) = some v)) : ℚ) / ((lineOuts es Env.empty).length : ℚ) := by
    have h0 := C46_program parse lines es hlines hl hs (fun env => decide (env n = some v))
    refine Eq.trans (congrArg (fun P => Rand.prob P _) (funext fun r => ?_)) (h0.trans (congrArg (fun P => (List.countP P _ : ℚ) / _)
      (funext fun o => ?_)))
    · rcases r with ⟨r, s⟩
      cases r <;> rfl
    · cases o <;> rfl
  rw [hr, m3]
  have n1 : (usedTotal u.prog e : ℚ) ≠ 0 := by exact_mod_cast m2.ne'
  have n2 : ((lineOuts es Env.empty).length : ℚ) ≠ 0 := by
    have := List.length_pos_iff.mpr (lineOuts_ne_nil es Env.empty hl)
    exact_mod_cast this.ne'
  rw [div_eq_div_iff n2 n1]
  norm_cast

end

/-- C62 for texts: whatever lines the parser accepts, as long as every die has a face, the returned dict has exactly the names that
    stand for something, with the possible values of the straight-line program and its shares of the weights. -/
theorem C62_text [R : PyRuntime] (lines : List Str) (es : List Expr) (hlines : lines.map parse = es.map .ok) (hf : ∀ e ∈ es, e.Faced)
    (hne : lines ≠ []) :
    match unfoldLines (es.map Expr.oneDie) .start with
    | none => ∃ er s', interpDists parse lines State.new = (.error er, s')
    | some u => ∃ dict s', interpDists parse lines State.new = (.ok dict, s') ∧ ∀ n,
        match u.now n with
        | none => dictGet? dict n = none
        | some e => ∃ d, dictGet? dict n = some d ∧ (∀ v, hasKey d.getResultMap v ↔ ∃ env ∈ runs u.prog Env.empty, v ∈ vals e env) ∧
            (progWays u.prog e ≠ [] → ∃ f, d.getDictForm = .ok f ∧
              ∀ v, (dictGet? f v).getD 0 = (usedCount u.prog e v : ℚ) / (usedTotal u.prog e : ℚ)) := by
  have hm : ∀ e ∈ es, e.Made ∧ e.Faced := by
    intro e he
    have h1 : (.ok e : Res Expr) ∈ es.map .ok := List.mem_map_of_mem he
    rw [← hlines] at h1
    obtain ⟨l, _, h2⟩ := List.mem_map.mp h1
    exact ⟨(C43_parsed l e h2).2.made, hf e he⟩
  have hE := every_program parse lines es hlines hm
  cases hu : unfoldLines (es.map Expr.oneDie) .start with
  | none =>
    rw [hu] at hE
    rcases hr : interpDists parse lines State.new with ⟨r, s'⟩
    cases r with
    | error er => exact ⟨er, s', rfl⟩
    | ok dict => exact (hE dict s' hr).elim
  | some u =>
    rw [hu] at hE
    obtain ⟨s2, g, h1, H⟩ := hE
    rw [if_neg hne] at h1
    refine ⟨_, _, h1, fun n => ?_⟩
    cases hn : u.now n with
    | none => exact H.absent n hn
    | some e =>
      obtain ⟨d, k1, k2, k3⟩ := H.law hn
      refine ⟨d, k1, k2, fun hw => ?_⟩
      obtain ⟨f, m1, _, _, m2⟩ := k3 hw
      exact ⟨f, m1, m2⟩

/-! ### Examples -/

/-- `VAR x = d2`, `VAR x = x + (VAR y = x * 2)`, `stdout - y`: the second line assigns `y` and then `x` again, and the third uses the
    sum of the second without naming it. -/
def tangled : List Expr :=
  [.assign ['x'] (.dice ⟨"d2".toList, ones [1, 2], 1⟩),
   .assign ['x'] (.add (.getVar ['x']) (.paren (.assign ['y'] (.mul (.getVar ['x']) (.constInt ['2']))))),
   .sub (.getVar stdoutName) (.getVar ['y'])]

example : ["VAR x = d2".toList, "VAR x = x + (VAR y = x * 2)".toList, "stdout - y".toList].map parse = tangled.map .ok := by
  decide +kernel

example : ∀ e ∈ tangled, e.Made ∧ e.Faced := by
  intro e he
  simp only [tangled, List.mem_cons, List.not_mem_nil, or_false] at he
  rcases he with rfl | rfl | rfl
  · exact ⟨trivial, fun h => by cases h⟩
  · exact ⟨⟨trivial, trivial, trivial⟩, trivial, trivial, trivial⟩
  · exact ⟨⟨trivial, trivial⟩, trivial, trivial⟩

/-- It unfolds: three assignments; `x` stands for the third, `y` for the second. -/
example : ((unfoldLines (tangled.map Expr.oneDie) .start).map fun u =>
    (u.prog.map Prod.fst, u.now ['x'] = some (.getVar ['v', 'v', 'v']) ∧ u.now ['y'] = some (.getVar ['v', 'v']))) =
    some ([['v'], ['v', 'v'], ['v', 'v', 'v']], True) := by
  simp [tangled, unfoldLines, Expr.unfold, Expr.oneDie, Unfolding.assign, Unfolding.let', Unfolding.start, slot, stdoutName, Option.map,
    show pyInt ['2'] = .ok 2 from by decide +kernel, Except.toOption]

/-- It meets the hypotheses of `C62_exact`. -/
example : (∀ e ∈ tangled, e.Loaded) ∧ SoundLines tangled Env.empty := by
  constructor
  · intro e he
    simp only [tangled, List.mem_cons, List.not_mem_nil, or_false] at he
    rcases he with rfl | rfl | rfl
    · exact ⟨by decide, by decide⟩
    · exact ⟨trivial, trivial, trivial⟩
    · exact ⟨trivial, trivial⟩
  · refine ⟨trivial, fun o _ => ⟨⟨trivial, fun o _ => ⟨trivial, fun o _ => trivial⟩⟩, fun o _ => ⟨⟨trivial, fun o _ => trivial⟩,
      fun o _ => trivial⟩⟩⟩

/-- `d2 // x` without a value for `x` and `1 // (d2 - 1)` do not unfold. -/
example : unfoldLines [.div (.dice ⟨"d2".toList, ones [1, 2], 1⟩) (.getVar ['x'])] .start = none ∧
    unfoldLines [.div (.constInt ['1']) (.paren (.sub (.dice ⟨"d2".toList, ones [1, 2], 1⟩) (.constInt ['1'])))] .start = none := by
  constructor <;> rfl

/-- `stdout` is rolled again at every reading: `d2`, `stdout - stdout` always rolls 0 but is reported to be 0 with probability 1/2
    only. -/
theorem C62_stdout_counterexample : ∃ _ : PyRuntime, rolled ["d2".toList, "stdout - stdout".toList] 0 = 1 ∧
    reported ["d2".toList, "stdout - stdout".toList] 0 = some (1 / 2) := ⟨listRuntime, by decide +kernel⟩

end PyDice
