import Verif.Conform.Basic

/-! # The tests of the other expressions

Written by `tools/conform.py` from the test files named below; see `Verif/Conform/Basic.lean`. -/

namespace PyDice.Conform

attribute [local instance] listRuntime
set_option maxRecDepth 100000

-- expression/test_constant_binary_expression.py:21 test_constant_binary_roll
example : ([sameSet (rolls (constBinE (t! "True"))) [some 1],
    sameSet (rolls (constBinE (t! "False"))) [some 0]] : List Bool).all id = true := by
  decide +kernel

-- expression/test_constant_binary_expression.py:26 test_constant_binary_max
example : ([Gives (ext true (constBinE (t! "True"))) 1,
    Gives (ext true (constBinE (t! "False"))) 0] : List Bool).all id = true := by
  decide +kernel

-- expression/test_constant_binary_expression.py:30 test_constant_binary_min
example : ([Gives (ext false (constBinE (t! "True"))) 1,
    Gives (ext false (constBinE (t! "False"))) 0] : List Bool).all id = true := by
  decide +kernel

-- expression/test_constant_binary_expression.py:34 test_constant_binary_str
example : ([Gives (txt (constBinE (t! "True"))) (t! "True"),
    Gives (txt (constBinE (t! "False"))) (t! "False")] : List Bool).all id = true := by
  decide +kernel

-- expression/test_constant_binary_expression.py:38 test_constant_binary_estimated_cost
example : ([Gives (cst (constBinE (t! "True"))) 2,
    Gives (cst (constBinE (t! "False"))) 2] : List Bool).all id = true := by
  decide +kernel

-- expression/test_constant_binary_expression.py:42 test_constant_binary_get_probability_distribution
example : ([HasMap (dst (constBinE (t! "True"))) [(1, 1)],
    HasMap (dst (constBinE (t! "False"))) [(0, 1)]] : List Bool).all id = true := by
  decide +kernel

-- expression/test_constant_binary_expression.py:52 test_constant_binary_get_contained_variables
example : ([Gives (vars (constBinE (t! "False"))) [],
    Gives (vars (constBinE (t! "True"))) []] : List Bool).all id = true := by
  decide +kernel

-- expression/test_constant_integer_expression.py:20 test_constant_integer_roll
example : ([sameSet (rolls (constIntE (t! "14"))) [some 14]] : List Bool).all id = true := by
  decide +kernel

-- expression/test_constant_integer_expression.py:24 test_constant_integer_max
example : ([Gives (ext true (constIntE (t! "14"))) 14] : List Bool).all id = true := by
  decide +kernel

-- expression/test_constant_integer_expression.py:27 test_constant_integer_min
example : ([Gives (ext false (constIntE (t! "14"))) 14] : List Bool).all id = true := by
  decide +kernel

-- expression/test_constant_integer_expression.py:30 test_constant_integer_str
example : ([Gives (txt (constIntE (t! "14"))) (t! "14")] : List Bool).all id = true := by
  decide +kernel

-- expression/test_constant_integer_expression.py:33 test_constant_integer_estimated_cost
example : ([Gives (cst (constIntE (t! "14"))) 2] : List Bool).all id = true := by
  decide +kernel

-- expression/test_constant_integer_expression.py:36 test_constant_integer_probability_distribution
example : ([HasMap (dst (constIntE (t! "14"))) [(14, 1)]] : List Bool).all id = true := by
  decide +kernel

-- expression/test_constant_integer_expression.py:42 test_constant_integer_get_contained_variables
example : ([Gives (vars (constIntE (t! "14"))) []] : List Bool).all id = true := by
  decide +kernel

end PyDice.Conform

/-! 14 of 201 tests replayed.  Left out:

* 9 of `expression/test_abs_expression.py`, whose operands are mocks
* 8 of `expression/test_add_expression.py`, whose operands are mocks
* 11 of `expression/test_binary_operator_and_expression.py`, whose operands are mocks
* 11 of `expression/test_binary_operator_equals_expression.py`, whose operands are mocks
* 11 of `expression/test_binary_operator_greater_than_equals_expression.py`, whose operands are mocks
* 11 of `expression/test_binary_operator_greater_than_expression.py`, whose operands are mocks
* 11 of `expression/test_binary_operator_less_than_equals_expression.py`, whose operands are mocks
* 11 of `expression/test_binary_operator_less_than_expression.py`, whose operands are mocks
* 11 of `expression/test_binary_operator_not_equals_expression.py`, whose operands are mocks
* 11 of `expression/test_binary_operator_not_expression.py`, whose operands are mocks
* 11 of `expression/test_binary_operator_or_expression.py`, whose operands are mocks
* 1 of `expression/test_constant_binary_expression.py`, whose operands are mocks
* 1 of `expression/test_constant_integer_expression.py`, whose operands are mocks
* 8 of `expression/test_get_var_expression.py`, whose operands are mocks
* 12 of `expression/test_integer_division_expression.py`, whose operands are mocks
* 17 of `expression/test_minmax_expression.py`, whose operands are mocks
* 8 of `expression/test_multiply_expression.py`, whose operands are mocks
* 8 of `expression/test_parenthesis_enclosed_expression.py`, whose operands are mocks
* 8 of `expression/test_subtract_expression.py`, whose operands are mocks
* 8 of `expression/test_var_assignment_expression.py`, whose operands are mocks
-/
