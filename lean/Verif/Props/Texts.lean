import Verif.Props.C45
import Verif.Props.C23_C24
import Verif.Props.C21
import Verif.Spec.Errors
/-!
# The refutations, from the program text to the answer

The counterexamples elsewhere are about expression trees.  Here the same programs are given as text to the modelled interpreter, with
the modelled lexer and parser: these are the programs to type in.
-/

namespace PyDice

section
variable [R : PyRuntime]

/-- The probability that `get_probability_distributions_dict` of a new interpreter gives to a value of the last line. -/
def reported (lines : List Str) (v : Int) : Option ℚ :=
  ((interpDictForms parse lines State.new).1.toOption.bind fun ds => dictGet? ds stdoutName).map fun f => (dictGet? f v).getD 0

/-- The probability that `roll` of a new interpreter returns a value for the last line. -/
def rolled (lines : List Str) (v : Int) : ℚ := (interpRoll parse lines State.new).prob fun r => decide (stdoutOf r = some v)

/-- What `max` (`min`) of a new interpreter returns for the last line. -/
def extremeOf (isMax : Bool) (lines : List Str) : Option Int :=
  (interpExtreme parse isMax lines State.new).1.toOption.bind fun dict => dictGet? dict stdoutName

end

/-- `0d6` always rolls 0, its largest value is 0, but the distribution is that of `1d6`. -/
theorem C20_text_counterexample : ∃ _ : PyRuntime, rolled ["0d6".toList] 0 = 1 ∧ extremeOf true ["0d6".toList] = some 0 ∧
    reported ["0d6".toList] 0 = some 0 ∧ reported ["0d6".toList] 6 = some (1 / 6) := ⟨listRuntime, by decide +kernel⟩

/-- `1 AND 2` always rolls 0 and is reported to be 1 always. -/
theorem C21_text_counterexample : ∃ _ : PyRuntime, rolled ["1 AND 2".toList] 0 = 1 ∧ reported ["1 AND 2".toList] 1 = some 1 :=
  ⟨listRuntime, by decide +kernel⟩

/-- `-1 OR 0` rolls 1 and is reported to be 0; `!-1` rolls 0 and is reported to be 1. -/
theorem C22_text_counterexample : ∃ _ : PyRuntime, rolled ["-1 OR 0".toList] 1 = 1 ∧ reported ["-1 OR 0".toList] 0 = some 1 ∧
    rolled ["!-1".toList] 0 = 1 ∧ reported ["!-1".toList] 1 = some 1 := ⟨listRuntime, by decide +kernel⟩

/-- After `VAR x = d4` and `(VAR x = d6) + 0` the largest `x` is said to be 4, while 6 is reported possible and is rolled. -/
theorem C23_text_counterexample : ∃ _ : PyRuntime,
    extremeOf true ["VAR x = d4".toList, "(VAR x = d6) + 0".toList, "x".toList] = some 4 ∧
    reported ["VAR x = d4".toList, "(VAR x = d6) + 0".toList, "x".toList] 6 = some (1 / 6) ∧
    rolled ["VAR x = d4".toList, "(VAR x = d6) + 0".toList, "x".toList] 6 = 1 / 6 := ⟨listRuntime, by decide +kernel⟩

/-- After `VAR x = d2`, `MAX(x, 3 - x)` is always 2, but its least value is said to be 1. -/
theorem C24_text_counterexample : ∃ _ : PyRuntime, extremeOf false ["VAR x = d2".toList, "MAX(x, 3 - x)".toList] = some 1 ∧
    reported ["VAR x = d2".toList, "MAX(x, 3 - x)".toList] 2 = some 1 ∧ rolled ["VAR x = d2".toList, "MAX(x, 3 - x)".toList] 2 = 1 :=
  ⟨listRuntime, by decide +kernel⟩

/-- The name `stdout`: `stdout - a` after `VAR a = d2`, and `stdout - stdout` after `d2`, always roll 0 but are reported to be 0 half
    of the time only. -/
theorem C25_text_counterexample : ∃ _ : PyRuntime, rolled ["VAR a = d2".toList, "stdout - a".toList] 0 = 1 ∧
    reported ["VAR a = d2".toList, "stdout - a".toList] 0 = some (1 / 2) ∧
    rolled ["d2".toList, "stdout - stdout".toList] 0 = 1 ∧ reported ["d2".toList, "stdout - stdout".toList] 0 = some (1 / 2) :=
  ⟨listRuntime, by decide +kernel⟩

/-- Assignments inside an expression: `(VAR x = d6) - x` always rolls 0, but is reported to be 0 with probability 1/6 only. -/
theorem C25_nested_counterexample : ∃ _ : PyRuntime, rolled ["(VAR x = d6) - x".toList] 0 = 1 ∧
    reported ["(VAR x = d6) - x".toList] 0 = some (1 / 6) ∧ reported ["(VAR x = d6) - x".toList] 5 = some (1 / 36) :=
  ⟨listRuntime, by decide +kernel⟩

/-- After `VAR a = 2d2`, `a + a` rolls 4 with probability 1/4; 1/6 is reported. -/
theorem C26_text_counterexample : ∃ _ : PyRuntime, rolled ["VAR a = 2d2".toList, "a + a".toList] 4 = 1 / 4 ∧
    reported ["VAR a = 2d2".toList, "a + a".toList] 4 = some (1 / 6) := ⟨listRuntime, by decide +kernel⟩

/-- `max` of `6` and `VAR x = stdout` raises `KeyError` at the second line, and yet `x` is stored as 6. -/
theorem C32_text_counterexample : ∃ R : PyRuntime,
    raised (@interpExtreme R parse true ["6".toList, "VAR x = stdout".toList] State.new).1 = some .key ∧
    (@interpExtreme R parse true ["6".toList, "VAR x = stdout".toList] State.new).2.getConstant ['x'] = .ok 6 :=
  ⟨listRuntime, by decide +kernel⟩

/-- The dict returned by a roll of `1` says 2 after the same interpreter has rolled `2`. -/
theorem C33_text_counterexample : ∃ (R : PyRuntime) (s1 s2 : @State R) (o o' : IntDict),
    Rand.Possible (.ok o, s1) (@interpRollObject R parse ["1".toList] (@State.new R)) ∧
    Rand.Possible (.ok o', s2) (@interpRollObject R parse ["2".toList] s1) ∧
    dictGet? (@IntDict.content R s1 o) stdoutName = some 1 ∧ dictGet? (@IntDict.content R s2 o) stdoutName = some 2 :=
  ⟨listRuntime, @State.mk listRuntime [] [(stdoutName, 1)] [], @State.mk listRuntime [] [(stdoutName, 2)] [],
    .constants, .constants, .pure, .pure, rfl, rfl⟩

/-- After the minimum of `VAR x = 0 - d100` has been asked for, the cost of `x` is -100 and that of `!x` is -111 (not -110). -/
theorem C34_text_counterexample : ∃ R : PyRuntime, ∃ s, s = (@interpExtreme R parse false ["VAR x = 0 - d100".toList] State.new).2 ∧
    (@interpCost R parse ["x".toList] s).1 = .ok (-100) ∧ (@interpCost R parse ["!x".toList] s).1 = .ok (-111) :=
  ⟨listRuntime, _, rfl, by decide +kernel⟩

/-! ### Examples: the same functions where the answers agree -/

example : let _ := listRuntime
    rolled ["VAR a = d6".toList, "VAR b = a + d4".toList, "b >= 8".toList] 1 = 1 / 4 ∧
    reported ["VAR a = d6".toList, "VAR b = a + d4".toList, "b >= 8".toList] 1 = some (1 / 4) ∧
    extremeOf true ["VAR a = d6".toList, "VAR b = a + d4".toList, "b * 2".toList] = some 20 := by decide +kernel

end PyDice
