import Verif.Conform.Basic

/-! # The tests of the distributions

Written by `tools/conform.py` from the test files named below; see `Verif/Conform/Basic.lean`. -/

namespace PyDice.Conform

attribute [local instance] listRuntime
set_option maxRecDepth 100000

-- probability_distribution/test_probability_distribution.py:21 test_probability_distribution_get_result_map
example : ([HasMap (mkDistInt [(1, 1), (2, 1), (3, 1), (4, 1)]) [(1, 1), (2, 1), (3, 1), (4, 1)]] : List Bool).all id = true := by
  decide +kernel

-- probability_distribution/test_probability_distribution.py:24 test_probability_distribution_get_dict_form
example : ([HasDict (mkDistInt [(1, 1), (2, 1), (3, 1), (4, 1)]) [(1, (1 / 4)), (2, (1 / 4)), (3, (1 / 4)), (4, (1 / 4))]] : List Bool).all id = true := by
  decide +kernel

-- probability_distribution/test_probability_distribution.py:30 test_probability_distribution_add
example : ([HasMap (distOp .add (mkDistInt [(1, 1), (2, 1), (3, 1), (4, 1)]) (mkDistInt [(2, 1)])) [(3, 1), (4, 1), (5, 1), (6, 1)],
    HasMap (distOp .add (mkDistInt [(1, 1), (2, 1), (3, 1), (4, 1)]) (mkDistInt [(1, 1), (2, 1), (3, 1), (4, 1)])) [(2, 1), (3, 2), (4, 3), (5, 4), (6, 3), (7, 2), (8, 1)]] : List Bool).all id = true := by
  decide +kernel

-- probability_distribution/test_probability_distribution.py:46 test_probability_distribution_sub
example : ([HasMap (distOp .sub (mkDistInt [(1, 1), (2, 1), (3, 1), (4, 1)]) (mkDistInt [(2, 1)])) [((-1), 1), (0, 1), (1, 1), (2, 1)],
    HasMap (distOp .sub (mkDistInt [(1, 1), (2, 1), (3, 1), (4, 1)]) (mkDistInt [(1, 1), (2, 1), (3, 1), (4, 1)])) [((-3), 1), ((-2), 2), ((-1), 3), (0, 4), (1, 3), (2, 2), (3, 1)]] : List Bool).all id = true := by
  decide +kernel

-- probability_distribution/test_probability_distribution.py:62 test_probability_distribution_mul
example : ([HasMap (distOp .mul (mkDistInt [(1, 1), (2, 1), (3, 1), (4, 1)]) (mkDistInt [(2, 1)])) [(2, 1), (4, 1), (6, 1), (8, 1)],
    HasMap (distOp .mul (mkDistInt [(1, 1), (2, 1), (3, 1), (4, 1)]) (mkDistInt [(1, 1), (2, 1), (3, 1), (4, 1)])) [(1, 1), (2, 2), (3, 2), (4, 3), (6, 2), (8, 2), (9, 1), (12, 2), (16, 1)]] : List Bool).all id = true := by
  decide +kernel

-- probability_distribution/test_probability_distribution.py:78 test_probability_distribution_floordiv
example : ([HasMap (distOp .floordiv (mkDistInt [(1, 1), (2, 1), (3, 1), (4, 1)]) (mkDistInt [(2, 1)])) [(0, 1), (1, 2), (2, 1)],
    HasMap (distOp .floordiv (mkDistInt [(1, 1), (2, 1), (3, 1), (4, 1)]) (mkDistInt [(1, 1), (2, 1), (3, 1), (4, 1)])) [(0, 6), (1, 6), (2, 2), (3, 1), (4, 1)]] : List Bool).all id = true := by
  decide +kernel

-- probability_distribution/test_probability_distribution.py:91 test_probability_distribution_max_operator
example : ([HasMap (distOp .max (mkDistInt [(1, 1), (2, 1), (3, 1), (4, 1)]) (mkDistInt [(2, 1)])) [(2, 2), (3, 1), (4, 1)],
    HasMap (distOp .max (mkDistInt [(1, 1), (2, 1), (3, 1), (4, 1)]) (mkDistInt [(1, 1), (2, 1), (3, 1), (4, 1)])) [(1, 1), (2, 3), (3, 5), (4, 7)]] : List Bool).all id = true := by
  decide +kernel

-- probability_distribution/test_probability_distribution.py:104 test_probability_distribution_min_operator
example : ([HasMap (distOp .min (mkDistInt [(1, 1), (2, 1), (3, 1), (4, 1)]) (mkDistInt [(2, 1)])) [(1, 1), (2, 3)],
    HasMap (distOp .min (mkDistInt [(1, 1), (2, 1), (3, 1), (4, 1)]) (mkDistInt [(1, 1), (2, 1), (3, 1), (4, 1)])) [(1, 7), (2, 5), (3, 3), (4, 1)]] : List Bool).all id = true := by
  decide +kernel

-- probability_distribution/test_probability_distribution.py:117 test_probability_distribution_max
example : ([Gives (Except.bind (distOp .mul (mkDistInt [(1, 1), (2, 1), (3, 1), (4, 1)]) (mkDistInt [(2, 1)])) Dist.max) 8,
    Gives (Except.bind (distOp .sub (mkDistInt [(1, 1), (2, 1), (3, 1), (4, 1)]) (mkDistInt [(1, 1), (2, 1), (3, 1), (4, 1)])) Dist.max) 3] : List Bool).all id = true := by
  decide +kernel

-- probability_distribution/test_probability_distribution.py:123 test_probability_distribution_min
example : ([Gives (Except.bind (distOp .mul (mkDistInt [(1, 1), (2, 1), (3, 1), (4, 1)]) (mkDistInt [(1, 1), (2, 1), (3, 1), (4, 1)])) Dist.min) 1,
    Gives (Except.bind (distOp .sub (mkDistInt [(1, 1), (2, 1), (3, 1), (4, 1)]) (mkDistInt [(1, 1), (2, 1), (3, 1), (4, 1)])) Dist.min) (-3)] : List Bool).all id = true := by
  decide +kernel

-- probability_distribution/test_probability_distribution.py:129 test_probability_distribution_contains_zero
example : ([Gives (Except.map Dist.containsZero (distOp .mul (mkDistInt [(1, 1), (2, 1), (3, 1), (4, 1)]) (mkDistInt [(1, 1), (2, 1), (3, 1), (4, 1)]))) false,
    Gives (Except.map Dist.containsZero (distOp .sub (mkDistInt [(1, 1), (2, 1), (3, 1), (4, 1)]) (mkDistInt [(1, 1), (2, 1), (3, 1), (4, 1)]))) true] : List Bool).all id = true := by
  decide +kernel

-- probability_distribution/test_probability_distribution.py:181 test_probability_distribution_eq
example : ([HasMap (distOp .eq (mkDistInt [(1, 1), (2, 1), (3, 1), (4, 1)]) (mkDistInt [(1, 1), (2, 1), (3, 1), (4, 1)])) [(0, 12), (1, 4)]] : List Bool).all id = true := by
  decide +kernel

-- probability_distribution/test_probability_distribution.py:192 test_probability_distribution_ne
example : ([HasMap (distOp .ne (mkDistInt [(1, 1), (2, 1), (3, 1), (4, 1)]) (mkDistInt [(1, 1), (2, 1), (3, 1), (4, 1)])) [(0, 4), (1, 12)]] : List Bool).all id = true := by
  decide +kernel

-- probability_distribution/test_probability_distribution.py:203 test_probability_distribution_lt
example : ([HasMap (distOp .lt (mkDistInt [(1, 1), (2, 1), (3, 1), (4, 1)]) (mkDistInt [(1, 1), (2, 1), (3, 1), (4, 1)])) [(0, 10), (1, 6)]] : List Bool).all id = true := by
  decide +kernel

-- probability_distribution/test_probability_distribution.py:214 test_probability_distribution_le
example : ([HasMap (distOp .le (mkDistInt [(1, 1), (2, 1), (3, 1), (4, 1)]) (mkDistInt [(1, 1), (2, 1), (3, 1), (4, 1)])) [(0, 6), (1, 10)]] : List Bool).all id = true := by
  decide +kernel

-- probability_distribution/test_probability_distribution.py:225 test_probability_distribution_gt
example : ([HasMap (distOp .gt (mkDistInt [(1, 1), (2, 1), (3, 1), (4, 1)]) (mkDistInt [(1, 1), (2, 1), (3, 1), (4, 1)])) [(0, 10), (1, 6)]] : List Bool).all id = true := by
  decide +kernel

-- probability_distribution/test_probability_distribution.py:236 test_probability_distribution_ge
example : ([HasMap (distOp .ge (mkDistInt [(1, 1), (2, 1), (3, 1), (4, 1)]) (mkDistInt [(1, 1), (2, 1), (3, 1), (4, 1)])) [(0, 6), (1, 10)]] : List Bool).all id = true := by
  decide +kernel

-- probability_distribution/test_probability_distribution.py:247 test_probability_distribution_not_operator
example : ([HasMap (Except.map Dist.notOp (mkDistInt [(0, 1), (1, 1), (2, 1), (3, 1)])) [(0, 3), (1, 1)]] : List Bool).all id = true := by
  decide +kernel

-- probability_distribution/test_probability_distribution.py:254 test_probability_distribution_and
example : ([HasMap (distOp .and (mkDistInt [(1, 1), (2, 1), (3, 1), (4, 1)]) (mkDistInt [(0, 1), (1, 1)])) [(0, 4), (1, 4)]] : List Bool).all id = true := by
  decide +kernel

-- probability_distribution/test_probability_distribution.py:266 test_probability_distribution_or
example : ([HasMap (distOp .or (mkDistInt [(0, 1), (1, 1)]) (mkDistInt [(0, 1), (1, 1)])) [(0, 1), (1, 3)]] : List Bool).all id = true := by
  decide +kernel

-- probability_distribution/test_probability_distribution.py:278 test_probability_distribution_abs
example : ([HasMap (Except.map Dist.absOp (mkDistInt [((-2), 2), ((-1), 1), (0, 1), (1, 1), (2, 3)])) [(0, 1), (1, 2), (2, 5)]] : List Bool).all id = true := by
  decide +kernel

-- probability_distribution/test_probability_distribution.py:378 test_str
example : ([Gives (distTxt (mkDistInt [(1, 2), (2, 3), (3, 16), (4, 1)])) (t! "ProbabilityDistribution, result_map={ProbabilityOutcome: value=1, constraint_set=ConstraintSet: {NullConstraint}: 2, ProbabilityOutcome: value=2, constraint_set=ConstraintSet: {NullConstraint}: 3, ProbabilityOutcome: value=3, constraint_set=ConstraintSet: {NullConstraint}: 16, ProbabilityOutcome: value=4, constraint_set=ConstraintSet: {NullConstraint}: 1}")] : List Bool).all id = true := by
  decide +kernel

-- probability_distribution/test_probability_distribution.py:388 test_repr
example : ([Gives (distTxt (mkDistInt [(1, 2), (2, 3), (3, 16), (4, 1)])) (t! "ProbabilityDistribution, result_map={ProbabilityOutcome: value=1, constraint_set=ConstraintSet: {NullConstraint}: 2, ProbabilityOutcome: value=2, constraint_set=ConstraintSet: {NullConstraint}: 3, ProbabilityOutcome: value=3, constraint_set=ConstraintSet: {NullConstraint}: 16, ProbabilityOutcome: value=4, constraint_set=ConstraintSet: {NullConstraint}: 1}")] : List Bool).all id = true := by
  decide +kernel

end PyDice.Conform

/-! 23 of 47 tests replayed.  Left out:

* `probability_distribution/test_probability_distribution.py:39` `test_probability_distribution_add_non_probability_distribution`: with self.assertRaises(TypeError):
* `probability_distribution/test_probability_distribution.py:55` `test_probability_distribution_sub_non_probability_distribution`: with self.assertRaises(TypeError):
* `probability_distribution/test_probability_distribution.py:71` `test_probability_distribution_mul_non_probability_distribution`: with self.assertRaises(TypeError):
* `probability_distribution/test_probability_distribution.py:84` `test_probability_distribution_floordiv_non_probability_distribution`: with self.assertRaises(TypeError):
* `probability_distribution/test_probability_distribution.py:97` `test_probability_distribution_max_operator_non_probability_distribution`: with self.assertRaises(TypeError):
* `probability_distribution/test_probability_distribution.py:110` `test_probability_distribution_min_operator_non_probability_distribution`: with self.assertRaises(TypeError):
* `probability_distribution/test_probability_distribution.py:135` `test_probability_distribution_average`: self.assertAlmostEqual(5, test_distribution_one.average(), delta=10000
* `probability_distribution/test_probability_distribution.py:141` `test_probability_distribution_at_least`: dist.at_least
* `probability_distribution/test_probability_distribution.py:161` `test_probability_distribution_at_most`: dist.at_most
* `probability_distribution/test_probability_distribution.py:185` `test_probability_distribution_eq_non_probability_distribution`: with self.assertRaises(TypeError):
* `probability_distribution/test_probability_distribution.py:196` `test_probability_distribution_ne_non_probability_distribution`: with self.assertRaises(TypeError):
* `probability_distribution/test_probability_distribution.py:207` `test_probability_distribution_lt_non_probability_distribution`: with self.assertRaises(TypeError):
* `probability_distribution/test_probability_distribution.py:218` `test_probability_distribution_le_non_probability_distribution`: with self.assertRaises(TypeError):
* `probability_distribution/test_probability_distribution.py:229` `test_probability_distribution_gt_non_probability_distribution`: with self.assertRaises(TypeError):
* `probability_distribution/test_probability_distribution.py:240` `test_probability_distribution_ge_non_probability_distribution`: with self.assertRaises(TypeError):
* `probability_distribution/test_probability_distribution.py:259` `test_probability_distribution_and_non_probability_distribution`: with self.assertRaises(TypeError):
* `probability_distribution/test_probability_distribution.py:271` `test_probability_distribution_or_non_probability_distribution`: with self.assertRaises(TypeError):
* `probability_distribution/test_probability_distribution.py:283` `test_get_histogram`: get_image_path('TestProbabilityDistribution_test_get_histogr
* `probability_distribution/test_probability_distribution.py:296` `test_get_at_least_histogram`: get_image_path('TestProbabilityDistribution_test_get_at_leas
* `probability_distribution/test_probability_distribution.py:310` `test_get_at_most_histogram`: get_image_path('TestProbabilityDistribution_test_get_at_most
* `probability_distribution/test_probability_distribution.py:322` `test_get_compare_histogram`: get_image_path('TestProbabilityDistribution_test_get_compare
* `probability_distribution/test_probability_distribution.py:339` `test_get_compare_at_least_histogram`: get_image_path('TestProbabilityDistribution_test_get_compare
* `probability_distribution/test_probability_distribution.py:352` `test_get_compare_at_most_histogram`: get_image_path('TestProbabilityDistribution_test_get_compare
* `probability_distribution/test_probability_distribution.py:365` `test_get_compare`: get_image_path('TestProbabilityDistribution_test_get_compare
-/
