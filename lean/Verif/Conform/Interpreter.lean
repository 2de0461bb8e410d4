import Verif.Conform.Basic

/-! # The tests of the interpreter

Written by `tools/conform.py` from the test files named below; see `Verif/Conform/Basic.lean`. -/

namespace PyDice.Conform

attribute [local instance] listRuntime
set_option maxRecDepth 100000

-- test_python_dice_interpreter.py:45 test_get_probability_distribution_dict
#guard ([session quick [([(t! "VAR save_roll = d20 + 8"), (t! "VAR burning_arch_damage = 2d6"), (t! "VAR pass_save = ( save_roll >= 19 ) "), (t! "VAR damage_half_on_save = burning_arch_damage // (pass_save + 1)")], .dict (t! "damage_half_on_save") [(1, (6004799503160661 / 144115188075855872)), (2, (2001599834386887 / 18014398509481984)), (3, (6505199461757383 / 36028797018963968)), (4, (6004799503160661 / 36028797018963968)), (5, (1 / 8)), (6, (6004799503160661 / 72057594037927936)), (7, (6004799503160661 / 72057594037927936)), (8, (2501999792983609 / 36028797018963968)), (9, (2001599834386887 / 36028797018963968)), (10, (6004799503160661 / 144115188075855872)), (11, (2001599834386887 / 72057594037927936)), (12, (2001599834386887 / 144115188075855872))])] State.new] : List Bool).all id

-- test_python_dice_interpreter.py:71 test_get_probability_distribution
#guard ([session quick [([(t! "VAR save_roll = d20 + 8"), (t! "VAR burning_arch_damage = 2d6"), (t! "VAR pass_save = ( save_roll >= 19 ) "), (t! "VAR damage_half_on_save = burning_arch_damage // (pass_save + 1)")], .dictOf (t! "damage_half_on_save") [(1, (6004799503160661 / 144115188075855872)), (2, (2001599834386887 / 18014398509481984)), (3, (6505199461757383 / 36028797018963968)), (4, (6004799503160661 / 36028797018963968)), (5, (1 / 8)), (6, (6004799503160661 / 72057594037927936)), (7, (6004799503160661 / 72057594037927936)), (8, (2501999792983609 / 36028797018963968)), (9, (2001599834386887 / 36028797018963968)), (10, (6004799503160661 / 144115188075855872)), (11, (2001599834386887 / 72057594037927936)), (12, (2001599834386887 / 144115188075855872))])] State.new] : List Bool).all id

-- test_python_dice_interpreter.py:97 test_roll_single_line
example : ([(interpRolls parse [(t! "5d2k4")] (t! "stdout")).all fun x => decide (x ∈ [some 4, some 5, some 6, some 7, some 8])] : List Bool).all id = true := by
  rw [quick_eq]; decide +kernel

-- test_python_dice_interpreter.py:105 test_min_single_line
example : ([session parse [([(t! "VAR save_roll = d20 + 8")], .min (t! "save_roll") 9)] State.new] : List Bool).all id = true := by
  rw [quick_eq]; decide +kernel

-- test_python_dice_interpreter.py:110 test_max_single_line
example : ([session parse [([(t! "d20 + 8")], .max (t! "stdout") 28)] State.new] : List Bool).all id = true := by
  rw [quick_eq]; decide +kernel

-- test_python_dice_interpreter.py:115 test_estimated_cost_single_line
example : ([session parse [([(t! "(100d2 + 20d20k10) > 2d4")], .cost 4208)] State.new] : List Bool).all id = true := by
  rw [quick_eq]; decide +kernel

-- test_python_dice_interpreter.py:120 test_average
#guard ([session quick [([(t! "VAR save_roll = d20 + 8"), (t! "VAR burning_arch_damage = 2d6"), (t! "VAR pass_save = ( save_roll >= 19 ) "), (t! "VAR damage_half_on_save = burning_arch_damage // (pass_save + 1)")], .average (t! "damage_half_on_save") (41 / 8))] State.new] : List Bool).all id

-- test_python_dice_interpreter.py:184 test_estimated_cost
example : ([session parse [([(t! "1d20")], .cost 20)] State.new,
    session parse [([(t! "2d20")], .cost 40)] State.new,
    session parse [([(t! "2d20k1")], .cost 40)] State.new,
    session parse [([(t! "3d20k2")], .cost 120)] State.new,
    session parse [([(t! "10d[1--2]")], .cost 40)] State.new,
    session parse [([(t! "10d[1--2]k2")], .cost 80)] State.new,
    session parse [([(t! "VAR a = 1d10"), (t! "a")], .cost 22)] State.new,
    session parse [([(t! "VAR a = 1d10"), (t! "VAR b = 1d10"), (t! "a + b")], .cost 44)] State.new,
    session parse [([(t! "VAR a = 1d10"), (t! "VAR b = 1d10 + a"), (t! "VAR a = 1d20")], .cost 56)] State.new,
    session parse [([(t! "VAR a = (100d2 + 20d20k10) > 2d4"), (t! "a // 1d2")], .cost 8420)] State.new] : List Bool).all id = true := by
  rw [quick_eq]; decide +kernel

-- test_python_dice_interpreter.py:203 test_probability_distribution_max
example : ([session parse [([(t! "MAX( 1d[-1, 1] , 0)")], .dictOf (t! "stdout") [(0, (1 / 2)), (1, (1 / 2))])] State.new] : List Bool).all id = true := by
  rw [quick_eq]; decide +kernel

-- test_python_dice_interpreter.py:209 test_probability_distribution_min
example : ([session parse [([(t! "MIN( d[-1, 1] , 0)")], .dictOf (t! "stdout") [(0, (1 / 2)), ((-1), (1 / 2))])] State.new] : List Bool).all id = true := by
  rw [quick_eq]; decide +kernel

-- test_python_dice_interpreter.py:215 test_probability_distribution_abs
example : ([session parse [([(t! "ABS( 1d[-1, 1])")], .dictOf (t! "stdout") [(1, 1)])] State.new] : List Bool).all id = true := by
  rw [quick_eq]; decide +kernel

-- test_python_dice_interpreter.py:221 test_probability_distribution_add
example : ([session parse [([(t! "d[-1, 1] + 3")], .dictOf (t! "stdout") [(2, (1 / 2)), (4, (1 / 2))])] State.new] : List Bool).all id = true := by
  rw [quick_eq]; decide +kernel

-- test_python_dice_interpreter.py:227 test_probability_distribution_binary_operator
example : ([session parse [([(t! "d[-1-1] == 1")], .map (t! "stdout") [(0, 2), (1, 1)]), ([(t! "d[-1-1] != 1")], .map (t! "stdout") [(0, 1), (1, 2)]), ([(t! "d[-1-1] <= 1")], .map (t! "stdout") [(1, 3)]), ([(t! "d[-1-1] < 1")], .map (t! "stdout") [(0, 1), (1, 2)]), ([(t! "d[-1-1] >= 1")], .map (t! "stdout") [(0, 2), (1, 1)]), ([(t! "d[-1-1] > 1")], .map (t! "stdout") [(0, 3)]), ([(t! "d[-1-1] AND 1")], .map (t! "stdout") [(0, 2), (1, 1)]), ([(t! "d[-1-1] OR 1")], .map (t! "stdout") [(1, 3)])] State.new] : List Bool).all id = true := by
  rw [quick_eq]; decide +kernel

-- test_python_dice_interpreter.py:244 test_probability_distribution_constant_binary
example : ([session parse [([(t! "2d[-1, 1]k1 == True")], .map (t! "stdout") [(1, 3), (0, 1)])] State.new] : List Bool).all id = true := by
  rw [quick_eq]; decide +kernel

-- test_python_dice_interpreter.py:250 test_probability_distribution_var_example
example : ([session parse [([(t! "VAR a = d2"), (t! "a + 1")], .map (t! "stdout") [(2, 1), (3, 1)])] State.new] : List Bool).all id = true := by
  rw [quick_eq]; decide +kernel

-- test_python_dice_interpreter.py:256 test_probability_distribution_div_example
example : ([session parse [([(t! "d[2,4] // 2")], .map (t! "stdout") [(1, 1), (2, 1)])] State.new] : List Bool).all id = true := by
  rw [quick_eq]; decide +kernel

-- test_python_dice_interpreter.py:262 test_probability_distribution_multiply_example
example : ([session parse [([(t! "d[2,4] * 2")], .map (t! "stdout") [(4, 1), (8, 1)])] State.new] : List Bool).all id = true := by
  rw [quick_eq]; decide +kernel

-- test_python_dice_interpreter.py:268 test_probability_distribution_not_example
example : ([session parse [([(t! "! (d[0,1*3])")], .map (t! "stdout") [(0, 3), (1, 1)])] State.new] : List Bool).all id = true := by
  rw [quick_eq]; decide +kernel

-- test_python_dice_interpreter.py:274 test_probability_distribution_subtract_example
example : ([session parse [([(t! "34 - 2")], .map (t! "stdout") [(32, 1)])] State.new] : List Bool).all id = true := by
  rw [quick_eq]; decide +kernel

-- test_python_dice_interpreter.py:280 test_probability_distribution_two_entangled_variables_example
example : ([session parse [([(t! "VAR roll_one = 1d3"), (t! "VAR roll_two = ((1d4) * (roll_one == 3)) + ((roll_one) * (roll_one != 3))"), (t! "roll_two")], .map (t! "stdout") [(1, 5), (2, 5), (3, 1), (4, 1)])] State.new] : List Bool).all id = true := by
  rw [quick_eq]; decide +kernel

-- test_python_dice_interpreter.py:298 test_probability_distribution_three_entangled_variables_example
example : ([session parse [([(t! "VAR roll_one = 1d3"), (t! "VAR roll_two = ((1d4) * (roll_one == 3)) + ((roll_one) * (roll_one != 3))"), (t! "VAR roll_three = ((1d5) * (roll_two == 4)) + ((roll_two) * (roll_two != 4))"), (t! "roll_three")], .map (t! "stdout") [(1, 326), (2, 326), (3, 6), (4, 1), (5, 1)])] State.new] : List Bool).all id = true := by
  rw [quick_eq]; decide +kernel

-- test_python_dice_interpreter.py:318 test_probability_distribution_two_entangled_variables_renamed
example : ([session parse [([(t! "VAR a = 1d2"), (t! "VAR b = a + a"), (t! "VAR c = a + b"), (t! "VAR d = c >= ( 1d2 * b )"), (t! "VAR e = d == a")], .map (t! "a") [(1, 1), (2, 1)]), ([(t! "VAR a = 1d2"), (t! "VAR b = a + a"), (t! "VAR c = a + b"), (t! "VAR d = c >= ( 1d2 * b )"), (t! "VAR e = d == a")], .map (t! "b") [(2, 1), (4, 1)]), ([(t! "VAR a = 1d2"), (t! "VAR b = a + a"), (t! "VAR c = a + b"), (t! "VAR d = c >= ( 1d2 * b )"), (t! "VAR e = d == a")], .map (t! "c") [(3, 1), (6, 1)]), ([(t! "VAR a = 1d2"), (t! "VAR b = a + a"), (t! "VAR c = a + b"), (t! "VAR d = c >= ( 1d2 * b )"), (t! "VAR e = d == a")], .map (t! "d") [(0, 2), (1, 2)]), ([(t! "VAR a = 1d2"), (t! "VAR b = a + a"), (t! "VAR c = a + b"), (t! "VAR d = c >= ( 1d2 * b )"), (t! "VAR e = d == a")], .map (t! "e") [(0, 3), (1, 1)])] State.new] : List Bool).all id = true := by
  rw [quick_eq]; decide +kernel

-- test_python_dice_interpreter.py:369 test_probability_distribution_two_entangled_variables_simple
example : ([session parse [([(t! "VAR a = 2d3"), (t! "VAR b = a + a")], .map (t! "b") [(4, 1), (6, 4), (8, 9), (10, 4), (12, 1)])] State.new] : List Bool).all id = true := by
  rw [quick_eq]; decide +kernel

-- test_python_dice_interpreter.py:388 test_probability_distribution_two_entangled_variables_chain
example : ([session parse [([(t! "VAR a = 2d3"), (t! "VAR b = a + a"), (t! "VAR a = b + a"), (t! "VAR b = b + a")], .map (t! "b") [(10, 1), (15, 32), (20, 243), (25, 32), (30, 1)])] State.new] : List Bool).all id = true := by
  rw [quick_eq]; decide +kernel

end PyDice.Conform

/-! 24 of 29 tests replayed.  Left out:

* `test_python_dice_interpreter.py:19` `test_uses_given_parser`: create_autospec(IDiceExpression)
* `test_python_dice_interpreter.py:33` `test_uses_starting_state`: create_autospec(IProbabilityDistributionState)
* `test_python_dice_interpreter.py:130` `test_get_histogram`: get_image_path('TestPythonDiceInterpreter_test_get_histogram
* `test_python_dice_interpreter.py:150` `test_get_at_least_histogram`: get_image_path('TestPythonDiceInterpreter_test_get_at_least_
* `test_python_dice_interpreter.py:170` `test_get_at_most_histogram`: get_image_path('TestPythonDiceInterpreter_test_get_at_most_h
-/
