import Verif.Lemmas.Reckon
import Verif.Props.C43
import Verif.Props.Texts
/-!
# C63: What `max` and `min` answer for any program
-/

namespace PyDice
open PyRuntime

section
variable [R : PyRuntime]

/-- C63: `max` (`min`) of a new interpreter fails when the answers are undefined, and otherwise returns exactly the numbers filed under
    names, whatever the program. -/
theorem C63_law (parse : Str → Res Expr) (isMax : Bool) (lines : List Str) (es : List Expr) (hlines : lines.map parse = es.map .ok)
    (hm : ∀ e ∈ es, e.Made ∧ e.Faced) (hne : lines ≠ []) :
    match answerLines isMax es .start with
    | none => ∃ er s', interpExtreme parse isMax lines State.new = (.error er, s')
    | some k => ∃ dict s', interpExtreme parse isMax lines State.new = (.ok dict, s') ∧ ∀ n, dictGet? dict n = k.filed n := by
  have hL := answers_lines parse isMax lines es hlines hm .start [] State.new Ledgered.start
  cases hu : answerLines isMax es .start with
  | none =>
    rw [hu] at hL
    rcases hr : interpExtreme parse isMax lines State.new with ⟨r, s'⟩
    cases r with
    | error er => exact ⟨er, s', rfl⟩
    | ok dict =>
      obtain ⟨_, s1, g1, _⟩ := evalBind_eq_ok.mp hr
      exact (hL _ g1).elim
  | some k =>
    rw [hu] at hL
    obtain ⟨s', h', g1, g2⟩ := hL
    refine ⟨s'.constants, s', ?_, g2.filed⟩
    refine Eq.trans (evalBind_ok g1) ?_
    rw [constantsReturned, if_neg hne]

/-- C63, one expression at any point: after any lines, `max` (`min`) of a further line answers what the specification says, and leaves
    everything in step with it. -/
theorem C63_line (parse : Str → Res Expr) (isMax : Bool) (lines : List Str) (es : List Expr) (hlines : lines.map parse = es.map .ok)
    (hm : ∀ e ∈ es, e.Made ∧ e.Faced) (k : Ledger) (hk : answerLines isMax es .start = some k) (e : Expr) (he : e.Made) (hf : e.Faced)
    (v : Int) :
    (∃ s1 s2, extremeLines parse isMax lines State.new = (.ok (), s1) ∧ e.extreme isMax s1 = (.ok v, s2)) ↔
      (e.answer isMax k).map Prod.fst = some v := by
  have hL := answers_lines parse isMax lines es hlines hm .start [] State.new Ledgered.start
  rw [hk] at hL
  obtain ⟨s1, h1, g1, g2⟩ := hL
  have hA := answers isMax e he hf k h1 s1 g2
  cases ha : e.answer isMax k with
  | none =>
    rw [ha] at hA
    refine ⟨fun ⟨t1, t2, k1, k2⟩ => ?_, fun h => by cases h⟩
    rw [g1] at k1
    cases k1
    exact (hA _ _ k2).elim
  | some r =>
    rw [ha] at hA
    obtain ⟨s2, h2, m1, _⟩ := hA
    simp only [Option.map_some, Option.some.injEq]
    constructor
    · rintro ⟨t1, t2, k1, k2⟩
      rw [g1] at k1
      cases k1
      rw [m1] at k2
      cases k2
      rfl
    · rintro rfl
      exact ⟨s1, s2, g1, m1⟩

omit R in
/-- C63: what is settled from the possible values is the largest (smallest) of them. -/
theorem C63_settled (isMax : Bool) (k : Ledger) (e : Expr) (r : Expr × Unfolding) (hr : e.oneDie.unfold k.unfolding = some r) (v : Int) :
    (k.settle isMax e).map Prod.fst = some v ↔
      (∃ env ∈ runs r.2.prog Env.empty, v ∈ vals r.1 env) ∧
      ∀ env ∈ runs r.2.prog Env.empty, ∀ x ∈ vals r.1 env, Within isMax x v := by
  have h := best_iff isMax (r.2.values r.1) v
  have h1 : (k.settle isMax e).map Prod.fst = best isMax (r.2.values r.1) := by
    rw [Ledger.settle, hr]
    cases hb : best isMax (r.2.values r.1) <;> simp [hb]
  rw [h1, h]
  simp only [Unfolding.values, List.mem_flatMap]
  constructor
  · rintro ⟨h2, h3⟩
    exact ⟨h2, fun env he x hx => h3 x ⟨env, he, hx⟩⟩
  · rintro ⟨h2, h3⟩
    exact ⟨h2, fun x ⟨env, he, hx⟩ => h3 env he x hx⟩

end

/-- C63 for texts: whatever lines the parser accepts, as long as every die has a face. -/
theorem C63_text [R : PyRuntime] (isMax : Bool) (lines : List Str) (es : List Expr) (hlines : lines.map parse = es.map .ok)
    (hf : ∀ e ∈ es, e.Faced) (hne : lines ≠ []) :
    match answerLines isMax es .start with
    | none => ∃ er s', interpExtreme parse isMax lines State.new = (.error er, s')
    | some k => ∃ dict s', interpExtreme parse isMax lines State.new = (.ok dict, s') ∧ ∀ n, dictGet? dict n = k.filed n := by
  refine C63_law parse isMax lines es hlines (fun e he => ?_) hne
  have h1 : (.ok e : Res Expr) ∈ es.map .ok := List.mem_map_of_mem he
  rw [← hlines] at h1
  obtain ⟨l, _, h2⟩ := List.mem_map.mp h1
  exact ⟨(C43_parsed l e h2).2.made, hf e he⟩

/-! ### Examples -/

/-- `VAR x = 1`, `VAR y = (VAR x = x + 1)`, `y + 0`. -/
def twice : List Expr :=
  [.assign ['x'] (.constInt ['1']),
   .assign ['y'] (.paren (.assign ['x'] (.add (.getVar ['x']) (.constInt ['1'])))),
   .add (.getVar ['y']) (.constInt ['0'])]

example : ["VAR x = 1".toList, "VAR y = (VAR x = x + 1)".toList, "y + 0".toList].map parse = twice.map .ok := by decide +kernel

example : ∀ e ∈ twice, e.Made ∧ e.Faced := by
  intro e he
  simp only [twice, List.mem_cons, List.not_mem_nil, or_false] at he
  rcases he with rfl | rfl | rfl
  · exact ⟨trivial, trivial⟩
  · exact ⟨⟨trivial, trivial⟩, trivial, trivial⟩
  · exact ⟨⟨trivial, trivial⟩, trivial, trivial⟩

/-- The specification: 2 is filed for `x` and `y`, but the last line is 3, since the inner assignment is executed twice. -/
example : (answerLines true twice .start).map (fun k => (k.filed ['x'], k.filed ['y'], k.filed stdoutName)) =
    some (some 2, some 2, some 3) := by decide +kernel

/-- `max` of a line with an assignment inside an assignment executes the inner one twice: after `VAR x = 1` and
    `VAR y = (VAR x = x + 1)` every roll of `y + 0` is 2, but `max` and `min` answer 3. -/
theorem C63_twice_counterexample : ∃ _ : PyRuntime,
    rolled ["VAR x = 1".toList, "VAR y = (VAR x = x + 1)".toList, "y + 0".toList] 2 = 1 ∧
    extremeOf true ["VAR x = 1".toList, "VAR y = (VAR x = x + 1)".toList, "y + 0".toList] = some 3 ∧
    extremeOf false ["VAR x = 1".toList, "VAR y = (VAR x = x + 1)".toList, "y + 0".toList] = some 3 ∧
    extremeOf true ["VAR x = 1".toList, "VAR y = (VAR x = x + 1)".toList, "y".toList] = some 2 := ⟨listRuntime, by decide +kernel⟩

/-- The divisor is executed twice as well. -/
theorem C63_divisor_counterexample : ∃ _ : PyRuntime,
    rolled ["VAR x = 1".toList, "12 // (VAR x = x + 1)".toList] 6 = 1 ∧
    extremeOf true ["VAR x = 1".toList, "12 // (VAR x = x + 1)".toList] = some 4 := ⟨listRuntime, by decide +kernel⟩

/-- Answers may be missing: a name without a number, and a divisor that can be zero. -/
example : answerLines true [.getVar ['x']] .start = none ∧
    (answerLines true [.div (.constInt ['1']) (.paren (.sub (.dice ⟨"d2".toList, ones [1, 2], 1⟩) (.constInt ['1'])))] .start).isNone := by
  constructor <;> decide +kernel

end PyDice
