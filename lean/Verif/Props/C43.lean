import Verif.Lemmas.Errors
import Verif.Props.C38
import Verif.Props.C30_C33
/-!
# C43: which exceptions are raised, and why
-/

namespace PyDice
open PyRuntime

/-- What the parser returns: its constants are numbers, and its dice come from the constructors. -/
theorem C43_parsed (text : Str) (e : Expr) (h : parse text = .ok e) : e.Numeric ∧ e.Built := by
  obtain ⟨ts, h1, h2, _⟩ := (C38_text text e).mp h
  exact spelt_numeric (derives_spelt h2 (lexed_wellSpelt h1))

section
variable [R : PyRuntime]

/-! ### Single expressions -/

/-- C43 for `get_probability_distribution`: `KeyError` for a variable without a distribution, or `ZeroDivisionError` from a division. -/
theorem C43_dist (parser : Str → Res Expr) (s s' : State) (hs : Reachable parser s) (e : Expr) (hn : e.Numeric) (hb : e.Built) (er : Err)
    (h : e.dist s = (.error er, s')) : DistFault e s er := dist_fault e hn hb s s' er (tidy_reachable parser hs) h

/-- C43 for `max` and `min`. -/
theorem C43_extreme (parser : Str → Res Expr) (s s' : State) (hs : Reachable parser s) (e : Expr) (hn : e.Numeric) (hb : e.Built)
    (isMax : Bool) (er : Err) (h : e.extreme isMax s = (.error er, s')) : ExtremeFault e s er :=
  extreme_fault isMax e hn hb s s' er (tidy_reachable parser hs) h

/-- C43 for `roll`. -/
theorem C43_roll (s s' : State) (e : Expr) (hn : e.Numeric) (hb : e.Built) (er : Err)
    (h : Rand.Possible (.error er, s') (e.roll s)) : RollFault e s er := roll_fault e hn hb s s' er h

/-- C43 for `estimated_cost`. -/
theorem C43_cost (s s' : State) (e : Expr) (er : Err) (h : e.cost s = (.error er, s')) : CostFault e s er := cost_fault e s s' er h

/-- Without a division, an expression all of whose variables have distributions has one. -/
theorem C43_dist_total (parser : Str → Res Expr) (s : State) (hs : Reachable parser s) (e : Expr) (hn : e.Numeric) (hb : e.Built)
    (hd : ¬ e.HasDiv) (hv : ∀ n ∈ e.reads, s.hasVar n = true) : ∃ d s', e.dist s = (.ok d, s') := by
  rcases h : e.dist s with ⟨r, s'⟩
  cases r with
  | ok d => exact ⟨d, s', rfl⟩
  | error er =>
    have := C43_dist parser s s' hs e hn hb er h
    cases er with
    | key => obtain ⟨n, hn, hm⟩ := this; rw [hv n hn] at hm; cases hm
    | zeroDivision => exact absurd this hd
    | _ => exact this.elim

/-- Without a division, an expression all of whose variables have constants and whose dice have weight always rolls. -/
theorem C43_roll_total (s : State) (e : Expr) (hn : e.Numeric) (hb : e.Built) (hd : ¬ e.HasDiv) (hf : ¬ e.AnyDie Faceless)
    (hw : ¬ e.AnyDie Weightless) (hv : ∀ n ∈ e.reads, s.hasConstant n = true) (x : Res Int × State) (hx : Rand.Possible x (e.roll s)) :
    ∃ v, x.1 = .ok v := by
  obtain ⟨r, s'⟩ := x
  cases r with
  | ok v => exact ⟨v, rfl⟩
  | error er =>
    have := C43_roll s s' e hn hb er hx
    cases er with
    | key => obtain ⟨n, hn, hm⟩ := this; rw [hv n hn] at hm; cases hm
    | zeroDivision => exact absurd this hd
    | value => exact absurd this hw
    | index => exact absurd this hf
    | _ => exact this.elim

/-- An expression all of whose variables have constants and that has no `!` has a cost. -/
theorem C43_cost_total (s : State) (e : Expr) (hv : ∀ n ∈ e.reads, s.hasConstant n = true) (hn : ¬ e.HasNot) :
    ∃ c s', e.cost s = (.ok c, s') := by
  rcases h : e.cost s with ⟨r, s'⟩
  cases r with
  | ok c => exact ⟨c, s', rfl⟩
  | error er =>
    have := C43_cost s s' e er h
    cases er with
    | key => obtain ⟨n, hn, hm⟩ := this; rw [hv n hn] at hm; cases hm
    | overflow => exact absurd this hn
    | _ => exact this.elim

/-- Conversely, a variable that is read must be there (expressions without assignments). -/
theorem C43_needs (s : State) (e : Expr) (hn : e.NoAssign) (n : Str) (hr : n ∈ e.reads) :
    (s.hasVar n = false → ∃ er, (e.dist s).1 = .error er) ∧ (s.hasConstant n = false → ∃ er, (e.cost s).1 = .error er) ∧
      (s.hasConstant n = false → ∀ x, Rand.Possible x (e.roll s) → ∃ er, x.1 = .error er) :=
  ⟨fun h => dist_needs hn hr h, fun h => cost_needs hn hr h, fun h => roll_needs hn hr h⟩

/-! ### The interpreter's methods, with the default parser -/

/-- C43 for `get_probability_distributions`: the lines before the failing one ran; the failing line is not in the language
    (`ValueError`), or has one of the faults of `C43_dist` in the state it was evaluated in. -/
theorem C43_dists (lines : List Str) (s s' : State) (hs : Reachable parse s) (er : Err)
    (h : interpDists parse lines s = (.error er, s')) :
    ∃ pre l post s1 dict, lines = pre ++ l :: post ∧ interpDists parse pre s = (.ok dict, s1) ∧
      ((parse l = .error .value ∧ er = .value) ∨ ∃ e, parse l = .ok e ∧ DistFault e s1 er) := by
  obtain ⟨pre, l, post, s1, dict, rfl, h1, h2, _⟩ := C32_dists parse lines s s' er h
  refine ⟨pre, l, post, s1, dict, rfl, h1, ?_⟩
  have hr : Reachable parse s1 := by have := Reachable.dists pre hs; rwa [h1] at this
  rcases distLine_error parse h2 with ⟨h3, _⟩ | ⟨e, he, h3⟩
  · rcases C38_text_rejects l with ⟨e, he⟩ | h4
    · rw [he] at h3; cases h3
    · rw [h4] at h3; cases h3; exact .inl ⟨h4, rfl⟩
  · exact .inr ⟨e, he, C43_dist parse s1 s' hr e (C43_parsed l e he).1 (C43_parsed l e he).2 er h3⟩

/-- C43 for the histogram methods. -/
theorem C43_histogram (lines : List Str) (s s' : State) (hs : Reachable parse s) (er : Err)
    (h : interpHistogramDist parse lines s = (.error er, s')) :
    ∃ pre l post s1 d, lines = pre ++ l :: post ∧ interpHistogramDist parse pre s = (.ok d, s1) ∧
      ((parse l = .error .value ∧ er = .value) ∨ ∃ e, parse l = .ok e ∧ DistFault e s1 er) := by
  obtain ⟨pre, l, post, s1, d, rfl, h1, h2, _⟩ := C32_histogram parse lines s s' er h
  refine ⟨pre, l, post, s1, d, rfl, h1, ?_⟩
  have hr : Reachable parse s1 := by have := Reachable.histogram pre hs; rwa [h1] at this
  rcases h2 with h3 | ⟨e, he, h3⟩
  · rcases C38_text_rejects l with ⟨e, he⟩ | h4
    · rw [he] at h3; cases h3
    · rw [h4] at h3; cases h3; exact .inl ⟨h4, rfl⟩
  · exact .inr ⟨e, he, C43_dist parse s1 s' hr e (C43_parsed l e he).1 (C43_parsed l e he).2 er h3⟩

/-- C43 for `max` and `min`. -/
theorem C43_extremes (isMax : Bool) (lines : List Str) (s s' : State) (hs : Reachable parse s) (er : Err)
    (h : interpExtreme parse isMax lines s = (.error er, s')) :
    ∃ pre l post s1 dict, lines = pre ++ l :: post ∧ interpExtreme parse isMax pre s = (.ok dict, s1) ∧
      ((parse l = .error .value ∧ er = .value) ∨ ∃ e, parse l = .ok e ∧ ExtremeFault e s1 er) := by
  obtain ⟨pre, l, post, s1, dict, rfl, h1, h2, _⟩ := C32_extreme_partial parse isMax lines s s' er h
  refine ⟨pre, l, post, s1, dict, rfl, h1, ?_⟩
  have hr : Reachable parse s1 := by have := Reachable.extreme isMax pre hs; rwa [h1] at this
  rcases extremeLine_error parse h2 with ⟨h3, _⟩ | ⟨e, he, h3⟩
  · rcases C38_text_rejects l with ⟨e, he⟩ | h4
    · rw [he] at h3; cases h3
    · rw [h4] at h3; cases h3; exact .inl ⟨h4, rfl⟩
  · exact .inr ⟨e, he, C43_extreme parse s1 s' hr e (C43_parsed l e he).1 (C43_parsed l e he).2 isMax er h3⟩

/-- C43 for `roll`. -/
theorem C43_rolls (lines : List Str) (s s' : State) (er : Err) (h : Rand.Possible (.error er, s') (interpRoll parse lines s)) :
    ∃ pre l post s1 dict, lines = pre ++ l :: post ∧ Rand.Possible (.ok dict, s1) (interpRoll parse pre s) ∧
      ((parse l = .error .value ∧ er = .value) ∨ ∃ e, parse l = .ok e ∧ RollFault e s1 er) := by
  obtain ⟨pre, l, post, s1, dict, rfl, h1, h2, _⟩ := C32_roll parse lines s s' er h
  refine ⟨pre, l, post, s1, dict, rfl, h1, ?_⟩
  rcases rollLine_error parse h2 with ⟨h3, _⟩ | ⟨e, he, h3⟩
  · rcases C38_text_rejects l with ⟨e, he⟩ | h4
    · rw [he] at h3; cases h3
    · rw [h4] at h3; cases h3; exact .inl ⟨h4, rfl⟩
  · exact .inr ⟨e, he, C43_roll s1 s' e (C43_parsed l e he).1 (C43_parsed l e he).2 er h3⟩

/-- C43 for `get_estimated_cost`. -/
theorem C43_costs (lines : List Str) (s s' : State) (er : Err) (h : interpCost parse lines s = (.error er, s')) :
    ∃ pre l post s1 c, lines = pre ++ l :: post ∧ interpCost parse pre s = (.ok c, s1) ∧
      ((parse l = .error .value ∧ er = .value) ∨ ∃ e, parse l = .ok e ∧ CostFault e s1 er) := by
  obtain ⟨pre, l, post, s1, c, rfl, h1, h2, _⟩ := C32_cost parse lines s s' er h
  refine ⟨pre, l, post, s1, c, rfl, h1, ?_⟩
  rcases h2 with h3 | ⟨e, he, h3⟩
  · rcases C38_text_rejects l with ⟨e, he⟩ | h4
    · rw [he] at h3; cases h3
    · rw [h4] at h3; cases h3; exact .inl ⟨h4, rfl⟩
  · exact .inr ⟨e, he, C43_cost s1 s' e er h3⟩

/-- C43 for `get_probability_distributions_dict` and `get_average`: besides the faults of `get_probability_distributions`, a
    `ZeroDivisionError` when some variable has a distribution whose counts add up to zero. -/
theorem C43_dictForms_averages (lines : List Str) (s s' : State) (er : Err)
    (h : interpDictForms parse lines s = (.error er, s') ∨ interpAverages parse lines s = (.error er, s')) :
    interpDists parse lines s = (.error er, s') ∨
      (er = .zeroDivision ∧ ∃ dict, interpDists parse lines s = (.ok dict, s') ∧ ∃ p ∈ dict, p.2.outcomeCount = 0) := by
  rcases h with h | h
  · rcases evalBind_eq_error.mp h with h | ⟨dict, s1, h1, h⟩
    · exact .inl h
    · obtain ⟨h2, rfl⟩ := Prod.mk.inj h
      obtain ⟨p, hp, h3⟩ := mapValues_raises h2
      obtain ⟨rfl, h4⟩ := getDictForm_raises h3
      exact .inr ⟨rfl, dict, h1, p, hp, h4⟩
  · rcases evalBind_eq_error.mp h with h | ⟨dict, s1, h1, h⟩
    · exact .inl h
    · obtain ⟨h2, rfl⟩ := Prod.mk.inj h
      obtain ⟨p, hp, h3⟩ := mapValues_raises h2
      obtain ⟨rfl, h4⟩ := average_raises h3
      exact .inr ⟨rfl, dict, h1, p, hp, h4⟩

/-- The exception classes: nothing else can come out of the interpreter, whatever the program texts and whatever was run before. -/
theorem C43_classes (lines : List Str) (s : State) (hs : Reachable parse s) (er : Err) :
    (∀ s', interpDists parse lines s = (.error er, s') → er ∈ [Err.value, .key, .zeroDivision]) ∧
    (∀ s', interpDictForms parse lines s = (.error er, s') → er ∈ [Err.value, .key, .zeroDivision]) ∧
    (∀ s', interpAverages parse lines s = (.error er, s') → er ∈ [Err.value, .key, .zeroDivision]) ∧
    (∀ s', interpHistogramDist parse lines s = (.error er, s') → er ∈ [Err.value, .key, .zeroDivision]) ∧
    (∀ isMax s', interpExtreme parse isMax lines s = (.error er, s') → er ∈ [Err.value, .key, .zeroDivision]) ∧
    (∀ s', interpCost parse lines s = (.error er, s') → er ∈ [Err.value, .key, .overflow]) ∧
    (∀ s', Rand.Possible (.error er, s') (interpRoll parse lines s) → er ∈ [Err.value, .key, .zeroDivision, .index]) := by
  have hd : ∀ s', interpDists parse lines s = (.error er, s') → er ∈ [Err.value, .key, .zeroDivision] := by
    intro s' h
    obtain ⟨_, _, _, _, _, _, _, ⟨_, rfl⟩ | ⟨e, _, h⟩⟩ := C43_dists lines s s' hs er h
    · simp
    · cases er <;> first | exact h.elim | simp
  refine ⟨hd, ?_, ?_, ?_, ?_, ?_, ?_⟩
  · intro s' h
    rcases C43_dictForms_averages lines s s' er (.inl h) with h | ⟨rfl, _⟩
    · exact hd s' h
    · simp
  · intro s' h
    rcases C43_dictForms_averages lines s s' er (.inr h) with h | ⟨rfl, _⟩
    · exact hd s' h
    · simp
  · intro s' h
    obtain ⟨_, _, _, _, _, _, _, ⟨_, rfl⟩ | ⟨e, _, h⟩⟩ := C43_histogram lines s s' hs er h
    · simp
    · cases er <;> first | exact h.elim | simp
  · intro isMax s' h
    obtain ⟨_, _, _, _, _, _, _, ⟨_, rfl⟩ | ⟨e, _, h⟩⟩ := C43_extremes isMax lines s s' hs er h
    · simp
    · cases er <;> first | exact h.elim | simp
  · intro s' h
    obtain ⟨_, _, _, _, _, _, _, ⟨_, rfl⟩ | ⟨e, _, h⟩⟩ := C43_costs lines s s' er h
    · simp
    · cases er <;> first | exact h.elim | simp
  · intro s' h
    obtain ⟨_, _, _, _, _, _, _, ⟨_, rfl⟩ | ⟨e, _, h⟩⟩ := C43_rolls lines s s' er h
    · simp
    · cases er <;> first | exact h.elim | simp

end

/-! ### Examples -/

/-- Each class does occur: a text outside the language, a missing variable, a division, a die without faces, a die without weight. -/
example : let _ := listRuntime
    raised (interpDists parse ["1 +".toList] State.new).1 = some .value ∧
    raised (interpDists parse ["x + 1".toList] State.new).1 = some .key ∧
    raised (interpDists parse ["1 // d[0,1]".toList] State.new).1 = some .zeroDivision ∧
    raised (interpAverages parse ["d0".toList] State.new).1 = some .zeroDivision ∧
    raised (interpExtreme parse true ["d0".toList] State.new).1 = some .value ∧
    raised (interpExtreme parse true ["VAR x = 1".toList, "x + y".toList] State.new).1 = some .key ∧
    raised (interpCost parse ["x".toList] State.new).1 = some .key := by
  decide +kernel

/-- The faults named by the theorems, in these cases. -/
example : let _ := listRuntime
    DistFault (.add (.getVar ['x']) (.constInt ['1'])) State.new .key ∧
    DistFault (.div (.constInt ['1']) (.constInt ['0'])) State.new .zeroDivision ∧
    ExtremeFault (.dice ⟨['d', '0'], [], 1⟩) State.new .value ∧
    RollFault (.dice ⟨['d', '0'], [], 1⟩) State.new .index ∧
    RollFault (.dice ⟨"d[1*0]".toList, [(1, 0)], 1⟩) State.new .value :=
  ⟨⟨['x'], by decide, by decide⟩, trivial, .inl rfl, rfl, ⟨by decide, by decide⟩⟩

end PyDice
