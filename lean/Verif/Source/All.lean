import Verif.Source.Text
/-!
# The list of the functions in `Source/Text`

Written by `tools/source.py`; do not edit.
-/

namespace PyDice.Source

/-- Every function of the source that is written out, with its name. -/
def Text.all : List (String × PyFun) :=
  [("NullConstraint.complies", Text.NullConstraint.complies),
   ("NullConstraint.can_merge", Text.NullConstraint.can_merge),
   ("NullConstraint.is_possible", Text.NullConstraint.is_possible),
   ("NullConstraint.merge", Text.NullConstraint.merge),
   ("NullConstraint.__hash__", Text.NullConstraint.__hash__),
   ("NullConstraint.__eq__", Text.NullConstraint.__eq__),
   ("NullConstraint.__ne__", Text.NullConstraint.__ne__),
   ("NullConstraint.__str__", Text.NullConstraint.__str__),
   ("NullConstraint.__repr__", Text.NullConstraint.__repr__),
   ("ImpossibleConstraint.complies", Text.ImpossibleConstraint.complies),
   ("ImpossibleConstraint.can_merge", Text.ImpossibleConstraint.can_merge),
   ("ImpossibleConstraint.is_possible", Text.ImpossibleConstraint.is_possible),
   ("ImpossibleConstraint.merge", Text.ImpossibleConstraint.merge),
   ("ImpossibleConstraint.__hash__", Text.ImpossibleConstraint.__hash__),
   ("ImpossibleConstraint.__eq__", Text.ImpossibleConstraint.__eq__),
   ("ImpossibleConstraint.__ne__", Text.ImpossibleConstraint.__ne__),
   ("ImpossibleConstraint.__str__", Text.ImpossibleConstraint.__str__),
   ("ImpossibleConstraint.__repr__", Text.ImpossibleConstraint.__repr__),
   ("VarValueConstraint.__init__", Text.VarValueConstraint.__init__),
   ("VarValueConstraint.name", Text.VarValueConstraint.name),
   ("VarValueConstraint.values", Text.VarValueConstraint.values),
   ("VarValueConstraint.complies", Text.VarValueConstraint.complies),
   ("VarValueConstraint.is_possible", Text.VarValueConstraint.is_possible),
   ("VarValueConstraint.can_merge", Text.VarValueConstraint.can_merge),
   ("VarValueConstraint.merge", Text.VarValueConstraint.merge),
   ("VarValueConstraint.__hash__", Text.VarValueConstraint.__hash__),
   ("VarValueConstraint.__eq__", Text.VarValueConstraint.__eq__),
   ("VarValueConstraint.__ne__", Text.VarValueConstraint.__ne__),
   ("VarValueConstraint.__str__", Text.VarValueConstraint.__str__),
   ("VarValueConstraint.__repr__", Text.VarValueConstraint.__repr__),
   ("ConstraintFactory.__init__", Text.ConstraintFactory.__init__),
   ("ConstraintFactory.impossible_constraint", Text.ConstraintFactory.impossible_constraint),
   ("ConstraintFactory.null_constraint", Text.ConstraintFactory.null_constraint),
   ("ConstraintFactory.var_value_constraint", Text.ConstraintFactory.var_value_constraint),
   ("ConstraintMerger.merge_constraints", Text.ConstraintMerger.merge_constraints),
   ("ConstraintMerger.merge_new_constraints", Text.ConstraintMerger.merge_new_constraints),
   ("ConstraintMerger.__merge_new_constraints", Text.ConstraintMerger.__merge_new_constraints),
   ("ConstraintMerger.__merge_new_constraint", Text.ConstraintMerger.__merge_new_constraint),
   ("ConstraintMerger.__str__", Text.ConstraintMerger.__str__),
   ("ConstraintMerger.__repr__", Text.ConstraintMerger.__repr__),
   ("ConstraintSet.__init__", Text.ConstraintSet.__init__),
   ("ConstraintSet.constraints", Text.ConstraintSet.constraints),
   ("ConstraintSet.add_constraint", Text.ConstraintSet.add_constraint),
   ("ConstraintSet.complies", Text.ConstraintSet.complies),
   ("ConstraintSet.is_possible", Text.ConstraintSet.is_possible),
   ("ConstraintSet.combine_sets", Text.ConstraintSet.combine_sets),
   ("ConstraintSet.__eq__", Text.ConstraintSet.__eq__),
   ("ConstraintSet.__ne__", Text.ConstraintSet.__ne__),
   ("ConstraintSet.__str__", Text.ConstraintSet.__str__),
   ("ConstraintSet.__repr__", Text.ConstraintSet.__repr__),
   ("ConstraintSet.__hash__", Text.ConstraintSet.__hash__),
   ("ConstraintSetFactory.__init__", Text.ConstraintSetFactory.__init__),
   ("ConstraintSetFactory.create_constraint_set", Text.ConstraintSetFactory.create_constraint_set),
   ("ProbabilityOutcome.__init__", Text.ProbabilityOutcome.__init__),
   ("ProbabilityOutcome.value", Text.ProbabilityOutcome.value),
   ("ProbabilityOutcome.constraint_set", Text.ProbabilityOutcome.constraint_set),
   ("ProbabilityOutcome._combine", Text.ProbabilityOutcome._combine),
   ("ProbabilityOutcome.is_possible", Text.ProbabilityOutcome.is_possible),
   ("ProbabilityOutcome._value_to_binary_value", Text.ProbabilityOutcome._value_to_binary_value),
   ("ProbabilityOutcome._binary_to_int", Text.ProbabilityOutcome._binary_to_int),
   ("ProbabilityOutcome.__add__", Text.ProbabilityOutcome.__add__),
   ("ProbabilityOutcome.__sub__", Text.ProbabilityOutcome.__sub__),
   ("ProbabilityOutcome.__mul__", Text.ProbabilityOutcome.__mul__),
   ("ProbabilityOutcome.__floordiv__", Text.ProbabilityOutcome.__floordiv__),
   ("ProbabilityOutcome.__equal__", Text.ProbabilityOutcome.__equal__),
   ("ProbabilityOutcome.__not_equal__", Text.ProbabilityOutcome.__not_equal__),
   ("ProbabilityOutcome.__lt__", Text.ProbabilityOutcome.__lt__),
   ("ProbabilityOutcome.__le__", Text.ProbabilityOutcome.__le__),
   ("ProbabilityOutcome.__gt__", Text.ProbabilityOutcome.__gt__),
   ("ProbabilityOutcome.__ge__", Text.ProbabilityOutcome.__ge__),
   ("ProbabilityOutcome.__and__", Text.ProbabilityOutcome.__and__),
   ("ProbabilityOutcome.__or__", Text.ProbabilityOutcome.__or__),
   ("ProbabilityOutcome.not_operator", Text.ProbabilityOutcome.not_operator),
   ("ProbabilityOutcome.max_operator", Text.ProbabilityOutcome.max_operator),
   ("ProbabilityOutcome.min_operator", Text.ProbabilityOutcome.min_operator),
   ("ProbabilityOutcome.__abs__", Text.ProbabilityOutcome.__abs__),
   ("ProbabilityOutcome.__str__", Text.ProbabilityOutcome.__str__),
   ("ProbabilityOutcome.__repr__", Text.ProbabilityOutcome.__repr__),
   ("ProbabilityOutcome.__hash__", Text.ProbabilityOutcome.__hash__),
   ("ProbabilityOutcome.__eq__", Text.ProbabilityOutcome.__eq__),
   ("ProbabilityOutcomeFactory.__init__", Text.ProbabilityOutcomeFactory.__init__),
   ("ProbabilityOutcomeFactory.create_empty", Text.ProbabilityOutcomeFactory.create_empty),
   ("ProbabilityDistribution.__init__", Text.ProbabilityDistribution.__init__),
   ("ProbabilityDistribution.get_histogram", Text.ProbabilityDistribution.get_histogram),
   ("ProbabilityDistribution.get_at_least_histogram", Text.ProbabilityDistribution.get_at_least_histogram),
   ("ProbabilityDistribution.get_at_most_histogram", Text.ProbabilityDistribution.get_at_most_histogram),
   ("ProbabilityDistribution.get_compare_histogram", Text.ProbabilityDistribution.get_compare_histogram),
   ("ProbabilityDistribution.get_compare", Text.ProbabilityDistribution.get_compare),
   ("ProbabilityDistribution.get_compare_at_least", Text.ProbabilityDistribution.get_compare_at_least),
   ("ProbabilityDistribution.get_compare_at_most", Text.ProbabilityDistribution.get_compare_at_most),
   ("ProbabilityDistribution._make_histogram", Text.ProbabilityDistribution._make_histogram),
   ("ProbabilityDistribution._make_line_plot", Text.ProbabilityDistribution._make_line_plot),
   ("ProbabilityDistribution.max", Text.ProbabilityDistribution.max),
   ("ProbabilityDistribution.min", Text.ProbabilityDistribution.min),
   ("ProbabilityDistribution.contains_zero", Text.ProbabilityDistribution.contains_zero),
   ("ProbabilityDistribution.average", Text.ProbabilityDistribution.average),
   ("ProbabilityDistribution.at_least", Text.ProbabilityDistribution.at_least),
   ("ProbabilityDistribution.at_most", Text.ProbabilityDistribution.at_most),
   ("ProbabilityDistribution.get_result_map", Text.ProbabilityDistribution.get_result_map),
   ("ProbabilityDistribution.get_constraint_result_map", Text.ProbabilityDistribution.get_constraint_result_map),
   ("ProbabilityDistribution.get_dict_form", Text.ProbabilityDistribution.get_dict_form),
   ("ProbabilityDistribution._get_histogram_form", Text.ProbabilityDistribution._get_histogram_form),
   ("ProbabilityDistribution._combine_distributions", Text.ProbabilityDistribution._combine_distributions),
   ("ProbabilityDistribution.__add__", Text.ProbabilityDistribution.__add__),
   ("ProbabilityDistribution.__sub__", Text.ProbabilityDistribution.__sub__),
   ("ProbabilityDistribution.__mul__", Text.ProbabilityDistribution.__mul__),
   ("ProbabilityDistribution.__floordiv__", Text.ProbabilityDistribution.__floordiv__),
   ("ProbabilityDistribution.__equal__", Text.ProbabilityDistribution.__equal__),
   ("ProbabilityDistribution.__not_equal__", Text.ProbabilityDistribution.__not_equal__),
   ("ProbabilityDistribution.__lt__", Text.ProbabilityDistribution.__lt__),
   ("ProbabilityDistribution.__le__", Text.ProbabilityDistribution.__le__),
   ("ProbabilityDistribution.__gt__", Text.ProbabilityDistribution.__gt__),
   ("ProbabilityDistribution.__ge__", Text.ProbabilityDistribution.__ge__),
   ("ProbabilityDistribution.__and__", Text.ProbabilityDistribution.__and__),
   ("ProbabilityDistribution.__or__", Text.ProbabilityDistribution.__or__),
   ("ProbabilityDistribution.not_operator", Text.ProbabilityDistribution.not_operator),
   ("ProbabilityDistribution.max_operator", Text.ProbabilityDistribution.max_operator),
   ("ProbabilityDistribution.min_operator", Text.ProbabilityDistribution.min_operator),
   ("ProbabilityDistribution.__abs__", Text.ProbabilityDistribution.__abs__),
   ("ProbabilityDistribution.__str__", Text.ProbabilityDistribution.__str__),
   ("ProbabilityDistribution.__repr__", Text.ProbabilityDistribution.__repr__),
   ("ProbabilityDistributionFactory.__init__", Text.ProbabilityDistributionFactory.__init__),
   ("ProbabilityDistributionFactory.create", Text.ProbabilityDistributionFactory.create),
   ("ProbabilityDistributionState.__init__", Text.ProbabilityDistributionState.__init__),
   ("ProbabilityDistributionState.get_var_dict", Text.ProbabilityDistributionState.get_var_dict),
   ("ProbabilityDistributionState.get_constant_dict", Text.ProbabilityDistributionState.get_constant_dict),
   ("ProbabilityDistributionState.has_constant", Text.ProbabilityDistributionState.has_constant),
   ("ProbabilityDistributionState.has_var", Text.ProbabilityDistributionState.has_var),
   ("ProbabilityDistributionState.get_constant", Text.ProbabilityDistributionState.get_constant),
   ("ProbabilityDistributionState.get_var", Text.ProbabilityDistributionState.get_var),
   ("ProbabilityDistributionState.set_constant", Text.ProbabilityDistributionState.set_constant),
   ("ProbabilityDistributionState.set_var", Text.ProbabilityDistributionState.set_var),
   ("ProbabilityDistributionStateFactory.__init__", Text.ProbabilityDistributionStateFactory.__init__),
   ("ProbabilityDistributionStateFactory.create_new_empty_set", Text.ProbabilityDistributionStateFactory.create_new_empty_set),
   ("_find_range", Text._find_range),
   ("get_single_dice_outcome_map", Text.get_single_dice_outcome_map),
   ("DiceExpression.add_production_function", Text.DiceExpression.add_production_function),
   ("DiceExpression.production", Text.DiceExpression.production),
   ("DiceExpression.__init__", Text.DiceExpression.__init__),
   ("DiceExpression._get_number_of_dice", Text.DiceExpression._get_number_of_dice),
   ("DiceExpression.roll", Text.DiceExpression.roll),
   ("DiceExpression.max", Text.DiceExpression.max),
   ("DiceExpression.min", Text.DiceExpression.min),
   ("DiceExpression.estimated_cost", Text.DiceExpression.estimated_cost),
   ("DiceExpression.__str__", Text.DiceExpression.__str__),
   ("DiceExpression.get_probability_distribution", Text.DiceExpression.get_probability_distribution),
   ("DiceExpression.get_contained_variables", Text.DiceExpression.get_contained_variables),
   ("DropKeepExpression.add_production_function", Text.DropKeepExpression.add_production_function),
   ("DropKeepExpression.production", Text.DropKeepExpression.production),
   ("DropKeepExpression.__init__", Text.DropKeepExpression.__init__),
   ("DropKeepExpression._get_number_of_dice", Text.DropKeepExpression._get_number_of_dice),
   ("DropKeepExpression._get_number_to_keep_or_drop", Text.DropKeepExpression._get_number_to_keep_or_drop),
   ("DropKeepExpression._get_number_of_sides_string", Text.DropKeepExpression._get_number_of_sides_string),
   ("DropKeepExpression._is_keep", Text.DropKeepExpression._is_keep),
   ("DropKeepExpression.roll", Text.DropKeepExpression.roll),
   ("DropKeepExpression.max", Text.DropKeepExpression.max),
   ("DropKeepExpression.min", Text.DropKeepExpression.min),
   ("DropKeepExpression.__str__", Text.DropKeepExpression.__str__),
   ("DropKeepExpression.estimated_cost", Text.DropKeepExpression.estimated_cost),
   ("DropKeepExpression.get_probability_distribution", Text.DropKeepExpression.get_probability_distribution),
   ("DropKeepExpression._build_dice_dict", Text.DropKeepExpression._build_dice_dict),
   ("DropKeepExpression._string_key_to_list", Text.DropKeepExpression._string_key_to_list),
   ("DropKeepExpression._int_list_to_string", Text.DropKeepExpression._int_list_to_string),
   ("DropKeepExpression._update_key_list", Text.DropKeepExpression._update_key_list),
   ("DropKeepExpression._compute_iterations", Text.DropKeepExpression._compute_iterations),
   ("DropKeepExpression._collapse_outcomes", Text.DropKeepExpression._collapse_outcomes),
   ("DropKeepExpression.get_contained_variables", Text.DropKeepExpression.get_contained_variables),
   ("ConstantIntegerExpression.add_production_function", Text.ConstantIntegerExpression.add_production_function),
   ("ConstantIntegerExpression.production", Text.ConstantIntegerExpression.production),
   ("ConstantIntegerExpression.__init__", Text.ConstantIntegerExpression.__init__),
   ("ConstantIntegerExpression.roll", Text.ConstantIntegerExpression.roll),
   ("ConstantIntegerExpression.max", Text.ConstantIntegerExpression.max),
   ("ConstantIntegerExpression.min", Text.ConstantIntegerExpression.min),
   ("ConstantIntegerExpression.__str__", Text.ConstantIntegerExpression.__str__),
   ("ConstantIntegerExpression.estimated_cost", Text.ConstantIntegerExpression.estimated_cost),
   ("ConstantIntegerExpression.get_probability_distribution", Text.ConstantIntegerExpression.get_probability_distribution),
   ("ConstantIntegerExpression.get_contained_variables", Text.ConstantIntegerExpression.get_contained_variables),
   ("ConstantBinaryExpression.add_production_function", Text.ConstantBinaryExpression.add_production_function),
   ("ConstantBinaryExpression.production", Text.ConstantBinaryExpression.production),
   ("ConstantBinaryExpression.__init__", Text.ConstantBinaryExpression.__init__),
   ("ConstantBinaryExpression._get_value", Text.ConstantBinaryExpression._get_value),
   ("ConstantBinaryExpression.roll", Text.ConstantBinaryExpression.roll),
   ("ConstantBinaryExpression.max", Text.ConstantBinaryExpression.max),
   ("ConstantBinaryExpression.min", Text.ConstantBinaryExpression.min),
   ("ConstantBinaryExpression.__str__", Text.ConstantBinaryExpression.__str__),
   ("ConstantBinaryExpression.estimated_cost", Text.ConstantBinaryExpression.estimated_cost),
   ("ConstantBinaryExpression.get_probability_distribution", Text.ConstantBinaryExpression.get_probability_distribution),
   ("ConstantBinaryExpression.get_contained_variables", Text.ConstantBinaryExpression.get_contained_variables),
   ("ParenthesisEnclosedExpression.add_production_function", Text.ParenthesisEnclosedExpression.add_production_function),
   ("ParenthesisEnclosedExpression.production", Text.ParenthesisEnclosedExpression.production),
   ("ParenthesisEnclosedExpression.__init__", Text.ParenthesisEnclosedExpression.__init__),
   ("ParenthesisEnclosedExpression.roll", Text.ParenthesisEnclosedExpression.roll),
   ("ParenthesisEnclosedExpression.max", Text.ParenthesisEnclosedExpression.max),
   ("ParenthesisEnclosedExpression.min", Text.ParenthesisEnclosedExpression.min),
   ("ParenthesisEnclosedExpression.__str__", Text.ParenthesisEnclosedExpression.__str__),
   ("ParenthesisEnclosedExpression.estimated_cost", Text.ParenthesisEnclosedExpression.estimated_cost),
   ("ParenthesisEnclosedExpression.get_probability_distribution", Text.ParenthesisEnclosedExpression.get_probability_distribution),
   ("ParenthesisEnclosedExpression.get_contained_variables", Text.ParenthesisEnclosedExpression.get_contained_variables),
   ("NotExpression.add_production_function", Text.NotExpression.add_production_function),
   ("NotExpression.production", Text.NotExpression.production),
   ("NotExpression.__init__", Text.NotExpression.__init__),
   ("NotExpression.roll", Text.NotExpression.roll),
   ("NotExpression.max", Text.NotExpression.max),
   ("NotExpression.min", Text.NotExpression.min),
   ("NotExpression.__str__", Text.NotExpression.__str__),
   ("NotExpression.estimated_cost", Text.NotExpression.estimated_cost),
   ("NotExpression.get_probability_distribution", Text.NotExpression.get_probability_distribution),
   ("NotExpression.get_contained_variables", Text.NotExpression.get_contained_variables),
   ("AbsExpression.add_production_function", Text.AbsExpression.add_production_function),
   ("AbsExpression.production", Text.AbsExpression.production),
   ("AbsExpression.__init__", Text.AbsExpression.__init__),
   ("AbsExpression.roll", Text.AbsExpression.roll),
   ("AbsExpression.max", Text.AbsExpression.max),
   ("AbsExpression.min", Text.AbsExpression.min),
   ("AbsExpression.__str__", Text.AbsExpression.__str__),
   ("AbsExpression.estimated_cost", Text.AbsExpression.estimated_cost),
   ("AbsExpression.get_probability_distribution", Text.AbsExpression.get_probability_distribution),
   ("AbsExpression.get_contained_variables", Text.AbsExpression.get_contained_variables),
   ("AddExpression.add_production_function", Text.AddExpression.add_production_function),
   ("AddExpression.production", Text.AddExpression.production),
   ("AddExpression.__init__", Text.AddExpression.__init__),
   ("AddExpression.roll", Text.AddExpression.roll),
   ("AddExpression.max", Text.AddExpression.max),
   ("AddExpression.min", Text.AddExpression.min),
   ("AddExpression.__str__", Text.AddExpression.__str__),
   ("AddExpression.estimated_cost", Text.AddExpression.estimated_cost),
   ("AddExpression.get_probability_distribution", Text.AddExpression.get_probability_distribution),
   ("AddExpression.get_contained_variables", Text.AddExpression.get_contained_variables),
   ("SubtractExpression.add_production_function", Text.SubtractExpression.add_production_function),
   ("SubtractExpression.production", Text.SubtractExpression.production),
   ("SubtractExpression.__init__", Text.SubtractExpression.__init__),
   ("SubtractExpression.roll", Text.SubtractExpression.roll),
   ("SubtractExpression.max", Text.SubtractExpression.max),
   ("SubtractExpression.min", Text.SubtractExpression.min),
   ("SubtractExpression.__str__", Text.SubtractExpression.__str__),
   ("SubtractExpression.estimated_cost", Text.SubtractExpression.estimated_cost),
   ("SubtractExpression.get_probability_distribution", Text.SubtractExpression.get_probability_distribution),
   ("SubtractExpression.get_contained_variables", Text.SubtractExpression.get_contained_variables),
   ("MultiplyExpression.add_production_function", Text.MultiplyExpression.add_production_function),
   ("MultiplyExpression.production", Text.MultiplyExpression.production),
   ("MultiplyExpression.__init__", Text.MultiplyExpression.__init__),
   ("MultiplyExpression.roll", Text.MultiplyExpression.roll),
   ("MultiplyExpression.max", Text.MultiplyExpression.max),
   ("MultiplyExpression.min", Text.MultiplyExpression.min),
   ("MultiplyExpression.__str__", Text.MultiplyExpression.__str__),
   ("MultiplyExpression.estimated_cost", Text.MultiplyExpression.estimated_cost),
   ("MultiplyExpression.get_probability_distribution", Text.MultiplyExpression.get_probability_distribution),
   ("MultiplyExpression.get_contained_variables", Text.MultiplyExpression.get_contained_variables),
   ("IntegerDivisionExpression.add_production_function", Text.IntegerDivisionExpression.add_production_function),
   ("IntegerDivisionExpression.production", Text.IntegerDivisionExpression.production),
   ("IntegerDivisionExpression.__init__", Text.IntegerDivisionExpression.__init__),
   ("IntegerDivisionExpression.roll", Text.IntegerDivisionExpression.roll),
   ("IntegerDivisionExpression.max", Text.IntegerDivisionExpression.max),
   ("IntegerDivisionExpression.min", Text.IntegerDivisionExpression.min),
   ("IntegerDivisionExpression.__str__", Text.IntegerDivisionExpression.__str__),
   ("IntegerDivisionExpression.estimated_cost", Text.IntegerDivisionExpression.estimated_cost),
   ("IntegerDivisionExpression.get_probability_distribution", Text.IntegerDivisionExpression.get_probability_distribution),
   ("IntegerDivisionExpression.get_contained_variables", Text.IntegerDivisionExpression.get_contained_variables),
   ("BinaryOperatorExpression.__equal__", Text.BinaryOperatorExpression.__equal__),
   ("BinaryOperatorExpression.__not_equal__", Text.BinaryOperatorExpression.__not_equal__),
   ("BinaryOperatorExpression.add_production_function", Text.BinaryOperatorExpression.add_production_function),
   ("BinaryOperatorExpression.production", Text.BinaryOperatorExpression.production),
   ("BinaryOperatorExpression.__init__", Text.BinaryOperatorExpression.__init__),
   ("BinaryOperatorExpression.roll", Text.BinaryOperatorExpression.roll),
   ("BinaryOperatorExpression.max", Text.BinaryOperatorExpression.max),
   ("BinaryOperatorExpression.min", Text.BinaryOperatorExpression.min),
   ("BinaryOperatorExpression.__str__", Text.BinaryOperatorExpression.__str__),
   ("BinaryOperatorExpression.estimated_cost", Text.BinaryOperatorExpression.estimated_cost),
   ("BinaryOperatorExpression.get_probability_distribution", Text.BinaryOperatorExpression.get_probability_distribution),
   ("BinaryOperatorExpression.get_contained_variables", Text.BinaryOperatorExpression.get_contained_variables),
   ("MinMaxExpression.add_production_function", Text.MinMaxExpression.add_production_function),
   ("MinMaxExpression.production", Text.MinMaxExpression.production),
   ("MinMaxExpression.__init__", Text.MinMaxExpression.__init__),
   ("MinMaxExpression.roll", Text.MinMaxExpression.roll),
   ("MinMaxExpression.max", Text.MinMaxExpression.max),
   ("MinMaxExpression.min", Text.MinMaxExpression.min),
   ("MinMaxExpression.__str__", Text.MinMaxExpression.__str__),
   ("MinMaxExpression.estimated_cost", Text.MinMaxExpression.estimated_cost),
   ("MinMaxExpression.get_probability_distribution", Text.MinMaxExpression.get_probability_distribution),
   ("MinMaxExpression.get_contained_variables", Text.MinMaxExpression.get_contained_variables),
   ("VarAssignmentExpression.add_production_function", Text.VarAssignmentExpression.add_production_function),
   ("VarAssignmentExpression.production", Text.VarAssignmentExpression.production),
   ("VarAssignmentExpression.__init__", Text.VarAssignmentExpression.__init__),
   ("VarAssignmentExpression.roll", Text.VarAssignmentExpression.roll),
   ("VarAssignmentExpression.max", Text.VarAssignmentExpression.max),
   ("VarAssignmentExpression.min", Text.VarAssignmentExpression.min),
   ("VarAssignmentExpression.__str__", Text.VarAssignmentExpression.__str__),
   ("VarAssignmentExpression.estimated_cost", Text.VarAssignmentExpression.estimated_cost),
   ("VarAssignmentExpression.get_probability_distribution", Text.VarAssignmentExpression.get_probability_distribution),
   ("VarAssignmentExpression.get_contained_variables", Text.VarAssignmentExpression.get_contained_variables),
   ("GetVarExpression.add_production_function", Text.GetVarExpression.add_production_function),
   ("GetVarExpression.production", Text.GetVarExpression.production),
   ("GetVarExpression.__init__", Text.GetVarExpression.__init__),
   ("GetVarExpression.roll", Text.GetVarExpression.roll),
   ("GetVarExpression.max", Text.GetVarExpression.max),
   ("GetVarExpression.min", Text.GetVarExpression.min),
   ("GetVarExpression.__str__", Text.GetVarExpression.__str__),
   ("GetVarExpression.estimated_cost", Text.GetVarExpression.estimated_cost),
   ("GetVarExpression.get_probability_distribution", Text.GetVarExpression.get_probability_distribution),
   ("GetVarExpression.get_contained_variables", Text.GetVarExpression.get_contained_variables),
   ("PythonDiceParser.__init__", Text.PythonDiceParser.__init__),
   ("PythonDiceParser.parse", Text.PythonDiceParser.parse),
   ("PythonDiceInterpreter.__init__", Text.PythonDiceInterpreter.__init__),
   ("PythonDiceInterpreter.roll", Text.PythonDiceInterpreter.roll),
   ("PythonDiceInterpreter.max", Text.PythonDiceInterpreter.max),
   ("PythonDiceInterpreter.min", Text.PythonDiceInterpreter.min),
   ("PythonDiceInterpreter.get_probability_distributions_dict", Text.PythonDiceInterpreter.get_probability_distributions_dict),
   ("PythonDiceInterpreter.get_probability_distributions", Text.PythonDiceInterpreter.get_probability_distributions),
   ("PythonDiceInterpreter.get_average", Text.PythonDiceInterpreter.get_average),
   ("PythonDiceInterpreter.get_histogram", Text.PythonDiceInterpreter.get_histogram),
   ("PythonDiceInterpreter.get_at_least_histogram", Text.PythonDiceInterpreter.get_at_least_histogram),
   ("PythonDiceInterpreter.get_at_most_histogram", Text.PythonDiceInterpreter.get_at_most_histogram),
   ("PythonDiceInterpreter.get_estimated_cost", Text.PythonDiceInterpreter.get_estimated_cost),
   ("PythonDiceLexer.__init__", Text.PythonDiceLexer.__init__),
   ("PythonDiceLexer.lex", Text.PythonDiceLexer.lex),
   ("AbsSyntax.get_token_name", Text.AbsSyntax.get_token_name),
   ("AbsSyntax.get_token_regex", Text.AbsSyntax.get_token_regex),
   ("AddSyntax.get_token_name", Text.AddSyntax.get_token_name),
   ("AddSyntax.get_token_regex", Text.AddSyntax.get_token_regex),
   ("AssignmentSyntax.get_token_name", Text.AssignmentSyntax.get_token_name),
   ("AssignmentSyntax.get_token_regex", Text.AssignmentSyntax.get_token_regex),
   ("BinaryOperatorSyntax.get_token_name", Text.BinaryOperatorSyntax.get_token_name),
   ("BinaryOperatorSyntax.get_token_regex", Text.BinaryOperatorSyntax.get_token_regex),
   ("CloseParenthesisSyntax.get_token_name", Text.CloseParenthesisSyntax.get_token_name),
   ("CloseParenthesisSyntax.get_token_regex", Text.CloseParenthesisSyntax.get_token_regex),
   ("CommaSyntax.get_token_name", Text.CommaSyntax.get_token_name),
   ("CommaSyntax.get_token_regex", Text.CommaSyntax.get_token_regex),
   ("ConstantBinarySyntax.get_token_name", Text.ConstantBinarySyntax.get_token_name),
   ("ConstantBinarySyntax.get_token_regex", Text.ConstantBinarySyntax.get_token_regex),
   ("ConstantIntegerSyntax.get_token_name", Text.ConstantIntegerSyntax.get_token_name),
   ("ConstantIntegerSyntax.get_token_regex", Text.ConstantIntegerSyntax.get_token_regex),
   ("DiceSyntax.get_token_name", Text.DiceSyntax.get_token_name),
   ("DiceSyntax.get_token_regex", Text.DiceSyntax.get_token_regex),
   ("DropKeepSyntax.get_token_name", Text.DropKeepSyntax.get_token_name),
   ("DropKeepSyntax.get_token_regex", Text.DropKeepSyntax.get_token_regex),
   ("IntegerDivisionSyntax.get_token_name", Text.IntegerDivisionSyntax.get_token_name),
   ("IntegerDivisionSyntax.get_token_regex", Text.IntegerDivisionSyntax.get_token_regex),
   ("MinMaxSyntax.get_token_name", Text.MinMaxSyntax.get_token_name),
   ("MinMaxSyntax.get_token_regex", Text.MinMaxSyntax.get_token_regex),
   ("MultiplySyntax.get_token_name", Text.MultiplySyntax.get_token_name),
   ("MultiplySyntax.get_token_regex", Text.MultiplySyntax.get_token_regex),
   ("NameSyntax.get_token_name", Text.NameSyntax.get_token_name),
   ("NameSyntax.get_token_regex", Text.NameSyntax.get_token_regex),
   ("NotSyntax.get_token_name", Text.NotSyntax.get_token_name),
   ("NotSyntax.get_token_regex", Text.NotSyntax.get_token_regex),
   ("OpenParenthesisSyntax.get_token_name", Text.OpenParenthesisSyntax.get_token_name),
   ("OpenParenthesisSyntax.get_token_regex", Text.OpenParenthesisSyntax.get_token_regex),
   ("SubtractSyntax.get_token_name", Text.SubtractSyntax.get_token_name),
   ("SubtractSyntax.get_token_regex", Text.SubtractSyntax.get_token_regex),
   ("VarSyntax.get_token_name", Text.VarSyntax.get_token_name),
   ("VarSyntax.get_token_regex", Text.VarSyntax.get_token_regex)]

end PyDice.Source
