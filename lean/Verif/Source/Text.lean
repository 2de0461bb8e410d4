import Verif.Source.Syntax
/-!
# The functions of the project as syntax trees

Written by `tools/source.py` from the files in `/repo/python_dice/src`; do not edit.
-/

namespace PyDice.Source

/-- `constraint/null_constraint.py:8-9`. -/
def Text.NullConstraint.complies : PyFun := ⟨["self", "var_values"], [],
  (.seq (.ret .true)
    .done)⟩

/-- `constraint/null_constraint.py:11-12`. -/
def Text.NullConstraint.can_merge : PyFun := ⟨["self", "other"], [],
  (.seq (.ret .true)
    .done)⟩

/-- `constraint/null_constraint.py:14-15`. -/
def Text.NullConstraint.is_possible : PyFun := ⟨["self"], [],
  (.seq (.ret .true)
    .done)⟩

/-- `constraint/null_constraint.py:17-18`. -/
def Text.NullConstraint.merge : PyFun := ⟨["self", "other"], [],
  (.seq (.ret (.name "other"))
    .done)⟩

/-- `constraint/null_constraint.py:20-21`. -/
def Text.NullConstraint.__hash__ : PyFun := ⟨["self"], [],
  (.seq (.ret (.callName "hash" (.cons (.callSelf "__str__" .nil) .nil)))
    .done)⟩

/-- `constraint/null_constraint.py:23-24`. -/
def Text.NullConstraint.__eq__ : PyFun := ⟨["self", "other"], [],
  (.seq (.ret (.cmp .eq (.callName "str" (.cons (.name "self") .nil)) (.callName "str" (.cons (.name "other") .nil))))
    .done)⟩

/-- `constraint/null_constraint.py:26-27`. -/
def Text.NullConstraint.__ne__ : PyFun := ⟨["self", "other"], [],
  (.seq (.ret (.not (.callSelf "__eq__" (.cons (.name "other") .nil))))
    .done)⟩

/-- `constraint/null_constraint.py:29-30`. -/
def Text.NullConstraint.__str__ : PyFun := ⟨["self"], [],
  (.seq (.ret (.fstr (.cons (.attr (.name "NullConstraint") "__name__") .nil)))
    .done)⟩

/-- `constraint/null_constraint.py:32-33`. -/
def Text.NullConstraint.__repr__ : PyFun := ⟨["self"], [],
  (.seq (.ret (.callSelf "__str__" .nil))
    .done)⟩

/-- `constraint/impossible_constraint.py:8-9`. -/
def Text.ImpossibleConstraint.complies : PyFun := ⟨["self", "var_values"], [],
  (.seq (.ret .true)
    .done)⟩

/-- `constraint/impossible_constraint.py:11-12`. -/
def Text.ImpossibleConstraint.can_merge : PyFun := ⟨["self", "other"], [],
  (.seq (.ret .true)
    .done)⟩

/-- `constraint/impossible_constraint.py:14-15`. -/
def Text.ImpossibleConstraint.is_possible : PyFun := ⟨["self"], [],
  (.seq (.ret .false)
    .done)⟩

/-- `constraint/impossible_constraint.py:17-18`. -/
def Text.ImpossibleConstraint.merge : PyFun := ⟨["self", "other"], [],
  (.seq (.ret (.name "self"))
    .done)⟩

/-- `constraint/impossible_constraint.py:20-21`. -/
def Text.ImpossibleConstraint.__hash__ : PyFun := ⟨["self"], [],
  (.seq (.ret (.callName "hash" (.cons (.callSelf "__str__" .nil) .nil)))
    .done)⟩

/-- `constraint/impossible_constraint.py:23-24`. -/
def Text.ImpossibleConstraint.__eq__ : PyFun := ⟨["self", "other"], [],
  (.seq (.ret (.cmp .eq (.callName "str" (.cons (.name "self") .nil)) (.callName "str" (.cons (.name "other") .nil))))
    .done)⟩

/-- `constraint/impossible_constraint.py:26-27`. -/
def Text.ImpossibleConstraint.__ne__ : PyFun := ⟨["self", "other"], [],
  (.seq (.ret (.not (.callSelf "__eq__" (.cons (.name "other") .nil))))
    .done)⟩

/-- `constraint/impossible_constraint.py:29-30`. -/
def Text.ImpossibleConstraint.__str__ : PyFun := ⟨["self"], [],
  (.seq (.ret (.fstr (.cons (.attr (.name "ImpossibleConstraint") "__name__") .nil)))
    .done)⟩

/-- `constraint/impossible_constraint.py:32-33`. -/
def Text.ImpossibleConstraint.__repr__ : PyFun := ⟨["self"], [],
  (.seq (.ret (.callSelf "__str__" .nil))
    .done)⟩

/-- `constraint/var_value_constraint.py:9-12`. -/
def Text.VarValueConstraint.__init__ : PyFun := ⟨["self", "name", "values", "constraint_factory"], [],
  (.seq (.assign (.self "_name") (.name "name"))
    (.seq (.assign (.self "_values") (.name "values"))
    (.seq (.assign (.self "_constraint_factory") (.name "constraint_factory"))
    .done)))⟩

/-- `constraint/var_value_constraint.py:15-16` (`@property`). -/
def Text.VarValueConstraint.name : PyFun := ⟨["self"], [],
  (.seq (.ret (.self "_name"))
    .done)⟩

/-- `constraint/var_value_constraint.py:19-20` (`@property`). -/
def Text.VarValueConstraint.values : PyFun := ⟨["self"], [],
  (.seq (.ret (.self "_values"))
    .done)⟩

/-- `constraint/var_value_constraint.py:22-26`. -/
def Text.VarValueConstraint.complies : PyFun := ⟨["self", "var_values"], [],
  (.seq (.ifs (.cmp .isIn (.self "_name") (.name "var_values")) (.seq (.ifs (.cmp .notIn (.index (.name "var_values") (.self "_name")) (.self "_values")) (.seq (.ret .false)
    .done) .done)
    .done) .done)
    (.seq (.ret .true)
    .done))⟩

/-- `constraint/var_value_constraint.py:28-29`. -/
def Text.VarValueConstraint.is_possible : PyFun := ⟨["self"], [],
  (.seq (.ret (.cmp .gt (.callName "len" (.cons (.self "_values") .nil)) (.int 0)))
    .done)⟩

/-- `constraint/var_value_constraint.py:31-34`. -/
def Text.VarValueConstraint.can_merge : PyFun := ⟨["self", "other"], [],
  (.seq (.ifs (.callName "isinstance" (.cons (.name "other") (.cons (.name "IVarValueConstraint") .nil))) (.seq (.ret (.cmp .eq (.attr (.name "other") "name") (.self "_name")))
    .done) .done)
    (.seq (.ret .false)
    .done))⟩

/-- `constraint/var_value_constraint.py:36-47`. -/
def Text.VarValueConstraint.merge : PyFun := ⟨["self", "other"], [],
  (.seq (.ifs (.not (.callSelf "can_merge" (.cons (.name "other") .nil))) (.seq (.raise (.callName "ValueError" (.cons (.fstr (.cons (.str ['c', 'a', 'n', ' ', 'n', 'o', 't', ' ', 'm', 'e', 'r', 'g', 'e', ' ']) (.cons (.callName "str" (.cons (.name "other") .nil)) (.cons (.str [' ', 'w', 'i', 't', 'h', ' ']) (.cons (.callSelf "__str__" .nil) .nil))))) .nil)))
    .done) .done)
    (.seq (.ifs (.callName "isinstance" (.cons (.name "other") (.cons (.name "IVarValueConstraint") .nil))) (.seq (.assign (.name "common_values") (.callAttr (.self "_values") "intersection" (.cons (.attr (.name "other") "values") .nil)))
    (.seq (.ifs (.cmp .eq (.callName "len" (.cons (.name "common_values") .nil)) (.int 0)) (.seq (.ret (.attr (.self "_constraint_factory") "impossible_constraint"))
    .done) .done)
    (.seq (.ret (.callAttr (.self "_constraint_factory") "var_value_constraint" (.cons (.kw "name" (.self "_name")) (.cons (.kw "values" (.name "common_values")) .nil))))
    .done))) .done)
    (.seq (.raise (.callName "ValueError" (.cons (.fstr (.cons (.str ['c', 'a', 'n', ' ', 'n', 'o', 't', ' ', 'm', 'e', 'r', 'g', 'e', ' ']) (.cons (.callName "str" (.cons (.name "other") .nil)) (.cons (.str [' ', 'w', 'i', 't', 'h', ' ']) (.cons (.callSelf "__str__" .nil) (.cons (.str [' ', 'h', 'o', 'w', 'e', 'v', 'e', 'r', ' ', 'c', 'a', 'n', '_', 'm', 'e', 'r', 'g', 'e', ' ', 'r', 'e', 't', 'u', 'r', 'n', 'e', 'd', ' ', 't', 'r', 'u', 'e']) .nil)))))) .nil)))
    .done)))⟩

/-- `constraint/var_value_constraint.py:49-50`. -/
def Text.VarValueConstraint.__hash__ : PyFun := ⟨["self"], [],
  (.seq (.ret (.callName "hash" (.cons (.callSelf "__str__" .nil) .nil)))
    .done)⟩

/-- `constraint/var_value_constraint.py:52-53`. -/
def Text.VarValueConstraint.__eq__ : PyFun := ⟨["self", "other"], [],
  (.seq (.ret (.cmp .eq (.callName "str" (.cons (.name "self") .nil)) (.callName "str" (.cons (.name "other") .nil))))
    .done)⟩

/-- `constraint/var_value_constraint.py:55-56`. -/
def Text.VarValueConstraint.__ne__ : PyFun := ⟨["self", "other"], [],
  (.seq (.ret (.not (.callSelf "__eq__" (.cons (.name "other") .nil))))
    .done)⟩

/-- `constraint/var_value_constraint.py:58-59`. -/
def Text.VarValueConstraint.__str__ : PyFun := ⟨["self"], [],
  (.seq (.ret (.fstr (.cons (.attr (.name "VarValueConstraint") "__name__") (.cons (.str [':', ' ', 'n', 'a', 'm', 'e', '=']) (.cons (.self "_name") (.cons (.str [',', ' ', 'v', 'a', 'l', 'u', 'e', 's', '=']) (.cons (.self "_values") .nil)))))))
    .done)⟩

/-- `constraint/var_value_constraint.py:61-62`. -/
def Text.VarValueConstraint.__repr__ : PyFun := ⟨["self"], [],
  (.seq (.ret (.callSelf "__str__" .nil))
    .done)⟩

/-- `constraint/constraint_factory.py:12-14`. -/
def Text.ConstraintFactory.__init__ : PyFun := ⟨["self"], [],
  (.seq (.assign (.self "__null_constraint") (.callName "NullConstraint" .nil))
    (.seq (.assign (.self "__impossible_constraint") (.callName "ImpossibleConstraint" .nil))
    .done))⟩

/-- `constraint/constraint_factory.py:17-18` (`@property`). -/
def Text.ConstraintFactory.impossible_constraint : PyFun := ⟨["self"], [],
  (.seq (.ret (.self "__impossible_constraint"))
    .done)⟩

/-- `constraint/constraint_factory.py:21-22` (`@property`). -/
def Text.ConstraintFactory.null_constraint : PyFun := ⟨["self"], [],
  (.seq (.ret (.self "__null_constraint"))
    .done)⟩

/-- `constraint/constraint_factory.py:24-25`. -/
def Text.ConstraintFactory.var_value_constraint : PyFun := ⟨["self", "name", "values"], [],
  (.seq (.ret (.callName "VarValueConstraint" (.cons (.kw "name" (.name "name")) (.cons (.kw "values" (.name "values")) (.cons (.kw "constraint_factory" (.name "self")) .nil)))))
    .done)⟩

/-- `constraint/constraint_merger.py:8-9`. -/
def Text.ConstraintMerger.merge_constraints : PyFun := ⟨["self", "constraint_set"], [],
  (.seq (.ret (.callAttr (.name "ConstraintMerger") "__merge_new_constraints" (.cons (.name "constraint_set") (.cons (.callName "set" .nil) .nil))))
    .done)⟩

/-- `constraint/constraint_merger.py:11-12`. -/
def Text.ConstraintMerger.merge_new_constraints : PyFun := ⟨["self", "constraint_set", "new_constraint"], [],
  (.seq (.ret (.callAttr (.name "ConstraintMerger") "__merge_new_constraints" (.cons (.set (.cons (.name "new_constraint") .nil)) (.cons (.name "constraint_set") .nil))))
    .done)⟩

/-- `constraint/constraint_merger.py:15-30` (`@staticmethod`). -/
def Text.ConstraintMerger.__merge_new_constraints : PyFun := ⟨["new_constraints", "constraint_set"], [],
  (.seq (.assign (.name "values_to_merge") (.callName "list" (.cons (.callAttr (.name "new_constraints") "copy" .nil) .nil)))
    (.seq (.assign (.name "clean_constraint_set") (.callAttr (.name "constraint_set") "copy" .nil))
    (.seq (.while_ (.name "values_to_merge") (.seq (.assign (.name "current_value") (.callAttr (.name "values_to_merge") "pop" .nil))
    (.seq (.assign (.tuple (.cons (.name "new_unclean_values") (.cons (.name "new_clean_values") .nil))) (.callAttr (.name "ConstraintMerger") "__merge_new_constraint" (.cons (.name "current_value") (.cons (.name "clean_constraint_set") .nil))))
    (.seq (.expr (.callAttr (.name "values_to_merge") "extend" (.cons (.name "new_unclean_values") .nil)))
    (.seq (.assign (.name "clean_constraint_set") (.name "new_clean_values"))
    .done)))))
    (.seq (.ret (.name "clean_constraint_set"))
    .done))))⟩

/-- `constraint/constraint_merger.py:33-51` (`@staticmethod`). -/
def Text.ConstraintMerger.__merge_new_constraint : PyFun := ⟨["new_constraint", "constraint_set"], [],
  (.seq (.for_ (.name "constraint") (.name "constraint_set") (.seq (.ifs (.callAttr (.name "constraint") "can_merge" (.cons (.name "new_constraint") .nil)) (.seq (.assign (.name "unchanged_constraint_set") (.callAttr (.name "constraint_set") "copy" .nil))
    (.seq (.expr (.callAttr (.name "unchanged_constraint_set") "remove" (.cons (.name "constraint") .nil)))
    (.seq (.assign (.name "changed_constraint_set") (.set (.cons (.callAttr (.name "constraint") "merge" (.cons (.name "new_constraint") .nil)) .nil)))
    (.seq (.ret (.tuple (.cons (.name "changed_constraint_set") (.cons (.name "unchanged_constraint_set") .nil))))
    .done)))) .done)
    (.seq (.ifs (.callAttr (.name "new_constraint") "can_merge" (.cons (.name "constraint") .nil)) (.seq (.assign (.name "unchanged_constraint_set") (.callAttr (.name "constraint_set") "copy" .nil))
    (.seq (.assign (.name "changed_constraint_set") (.set (.cons (.callAttr (.name "new_constraint") "merge" (.cons (.name "constraint") .nil)) .nil)))
    (.seq (.expr (.callAttr (.name "unchanged_constraint_set") "remove" (.cons (.name "constraint") .nil)))
    (.seq (.ret (.tuple (.cons (.name "changed_constraint_set") (.cons (.name "unchanged_constraint_set") .nil))))
    .done)))) .done)
    .done)))
    (.seq (.expr (.callAttr (.name "constraint_set") "add" (.cons (.name "new_constraint") .nil)))
    (.seq (.ret (.tuple (.cons (.callName "set" .nil) (.cons (.name "constraint_set") .nil))))
    .done)))⟩

/-- `constraint/constraint_merger.py:53-54`. -/
def Text.ConstraintMerger.__str__ : PyFun := ⟨["self"], [],
  (.seq (.ret (.fstr (.cons (.attr (.name "ConstraintMerger") "__name__") .nil)))
    .done)⟩

/-- `constraint/constraint_merger.py:56-57`. -/
def Text.ConstraintMerger.__repr__ : PyFun := ⟨["self"], [],
  (.seq (.ret (.callSelf "__str__" .nil))
    .done)⟩

/-- `constraint/constraint_set.py:10-17`. -/
def Text.ConstraintSet.__init__ : PyFun := ⟨["self", "constraints_set", "constraint_merger"], [],
  (.seq (.assign (.self "_constraints_set") (.callName "set" .nil))
    (.seq (.assign (.self "_constraint_merger") (.name "constraint_merger"))
    (.seq (.ifs (.cmp .eq (.callName "len" (.cons (.name "constraints_set") .nil)) (.int 0)) (.seq (.raise (.callName "ValueError" (.cons (.str ['c', 'a', 'n', ' ', 'n', 'o', 't', ' ', 'b', 'u', 'i', 'l', 'd', ' ', 'a', 'n', ' ', 'e', 'm', 'p', 't', 'y', ' ', 'c', 'o', 'n', 's', 't', 'r', 'a', 'i', 'n', 't', ' ', 's', 'e', 't', '.', ' ', 'u', 's', 'e', ' ', 'a', ' ', 'n', 'u', 'l', 'l', ' ', 'c', 'o', 'n', 's', 't', 'r', 'a', 'i', 'n', 't', '.']) .nil)))
    .done) .done)
    (.seq (.for_ (.name "constraint") (.name "constraints_set") (.seq (.expr (.callSelf "add_constraint" (.cons (.name "constraint") .nil)))
    .done))
    .done))))⟩

/-- `constraint/constraint_set.py:20-21` (`@property`). -/
def Text.ConstraintSet.constraints : PyFun := ⟨["self"], [],
  (.seq (.ret (.callAttr (.self "_constraints_set") "copy" .nil))
    .done)⟩

/-- `constraint/constraint_set.py:23-26`. -/
def Text.ConstraintSet.add_constraint : PyFun := ⟨["self", "constraint"], [],
  (.seq (.assign (.self "_constraints_set") (.callAttr (.self "_constraint_merger") "merge_new_constraints" (.cons (.kw "constraint_set" (.self "_constraints_set")) (.cons (.kw "new_constraint" (.name "constraint")) .nil))))
    .done)⟩

/-- `constraint/constraint_set.py:28-32`. -/
def Text.ConstraintSet.complies : PyFun := ⟨["self", "var_values"], [],
  (.seq (.for_ (.name "constraint") (.self "_constraints_set") (.seq (.ifs (.not (.callAttr (.name "constraint") "complies" (.cons (.kw "var_values" (.name "var_values")) .nil))) (.seq (.ret .false)
    .done) .done)
    .done))
    (.seq (.ret .true)
    .done))⟩

/-- `constraint/constraint_set.py:34-38`. -/
def Text.ConstraintSet.is_possible : PyFun := ⟨["self"], [],
  (.seq (.for_ (.name "constraint") (.self "_constraints_set") (.seq (.ifs (.not (.callAttr (.name "constraint") "is_possible" .nil)) (.seq (.ret .false)
    .done) .done)
    .done))
    (.seq (.ret .true)
    .done))⟩

/-- `constraint/constraint_set.py:40-42`. -/
def Text.ConstraintSet.combine_sets : PyFun := ⟨["self", "constraint_set"], [],
  (.seq (.assign (.name "new_set") (.callAttr (.self "_constraints_set") "union" (.cons (.attr (.name "constraint_set") "constraints") .nil)))
    (.seq (.ret (.callName "ConstraintSet" (.cons (.name "new_set") (.cons (.self "_constraint_merger") .nil))))
    .done))⟩

/-- `constraint/constraint_set.py:44-45`. -/
def Text.ConstraintSet.__eq__ : PyFun := ⟨["self", "other"], [],
  (.seq (.ret (.cmp .eq (.callName "str" (.cons (.name "self") .nil)) (.callName "str" (.cons (.name "other") .nil))))
    .done)⟩

/-- `constraint/constraint_set.py:47-48`. -/
def Text.ConstraintSet.__ne__ : PyFun := ⟨["self", "other"], [],
  (.seq (.ret (.not (.cmp .eq (.name "self") (.name "other"))))
    .done)⟩

/-- `constraint/constraint_set.py:50-51`. -/
def Text.ConstraintSet.__str__ : PyFun := ⟨["self"], [],
  (.seq (.ret (.fstr (.cons (.attr (.name "ConstraintSet") "__name__") (.cons (.str [':', ' ']) (.cons (.callName "str" (.cons (.self "_constraints_set") .nil)) .nil)))))
    .done)⟩

/-- `constraint/constraint_set.py:53-54`. -/
def Text.ConstraintSet.__repr__ : PyFun := ⟨["self"], [],
  (.seq (.ret (.callSelf "__str__" .nil))
    .done)⟩

/-- `constraint/constraint_set.py:56-60`. -/
def Text.ConstraintSet.__hash__ : PyFun := ⟨["self"], [],
  (.seq (.assign (.name "current_hash") (.callName "hash" (.cons (.attr (.name "ConstraintSet") "__name__") .nil)))
    (.seq (.for_ (.name "constraint") (.self "_constraints_set") (.seq (.assign (.name "current_hash") (.callAttr (.name "operator") "xor" (.cons (.name "current_hash") (.cons (.callName "hash" (.cons (.name "constraint") .nil)) .nil))))
    .done))
    (.seq (.ret (.name "current_hash"))
    .done)))⟩

/-- `constraint/constraint_set_factory.py:13-26`. -/
def Text.ConstraintSetFactory.__init__ : PyFun := ⟨["self", "constraint_factory", "constraint_merger"], [("constraint_factory", .none), ("constraint_merger", .none)],
  (.seq (.ifs (.cmp .isNot (.name "constraint_merger") .none) (.seq (.assign (.self "_constraint_merger") (.name "constraint_merger"))
    .done) (.seq (.assign (.self "_constraint_merger") (.callName "ConstraintMerger" .nil))
    .done))
    (.seq (.ifs (.cmp .isNot (.name "constraint_factory") .none) (.seq (.assign (.self "_constraint_factory") (.name "constraint_factory"))
    .done) (.seq (.assign (.self "_constraint_factory") (.callName "ConstraintFactory" .nil))
    .done))
    .done))⟩

/-- `constraint/constraint_set_factory.py:28-29`. -/
def Text.ConstraintSetFactory.create_constraint_set : PyFun := ⟨["self"], [],
  (.seq (.ret (.callName "ConstraintSet" (.cons (.set (.cons (.attr (.self "_constraint_factory") "null_constraint") .nil)) (.cons (.self "_constraint_merger") .nil))))
    .done)⟩

/-- `probability_distribution/probability_outcome.py:9-14`. -/
def Text.ProbabilityOutcome.__init__ : PyFun := ⟨["self", "value", "constraint_set"], [],
  (.seq (.ifs (.not (.callName "isinstance" (.cons (.name "value") (.cons (.name "int") .nil)))) (.seq (.raise (.callName "TypeError" (.cons (.str ['c', 'a', 'n', ' ', 'n', 'o', 't', ' ', 'h', 'a', 'v', 'e', ' ', 'a', ' ', 'b', 'o', 'o', 'l', ' ', 'v', 'a', 'l', 'u', 'e', ' ', 'f', 'o', 'r', ' ', 'a', ' ', 'p', 'r', 'o', 'b', 'a', 'b', 'i', 'l', 'i', 't', 'y', ' ', 'o', 'u', 't', 'c', 'o', 'm', 'e']) .nil)))
    .done) .done)
    (.seq (.assign (.self "_value") (.name "value"))
    (.seq (.assign (.self "_constraint_set") (.name "constraint_set"))
    .done)))⟩

/-- `probability_distribution/probability_outcome.py:17-18` (`@property`). -/
def Text.ProbabilityOutcome.value : PyFun := ⟨["self"], [],
  (.seq (.ret (.self "_value"))
    .done)⟩

/-- `probability_distribution/probability_outcome.py:21-22` (`@property`). -/
def Text.ProbabilityOutcome.constraint_set : PyFun := ⟨["self"], [],
  (.seq (.ret (.self "_constraint_set"))
    .done)⟩

/-- `probability_distribution/probability_outcome.py:24-44`. -/
def Text.ProbabilityOutcome._combine : PyFun := ⟨["self", "combination_function", "other", "binary_values"], [("binary_values", .false)],
  (.seq (.ifs (.not (.callName "isinstance" (.cons (.name "other") (.cons (.name "IProbabilityOutcome") .nil)))) (.seq (.raise (.callName "TypeError" (.cons (.fstr (.cons (.str ['N', 'o', ' ']) (.cons (.attr (.name "combination_function") "__name__") (.cons (.str [' ', 'b', 'e', 't', 'w', 'e', 'e', 'n', ' ']) (.cons (.attr (.name "ProbabilityOutcome") "__name__") (.cons (.str [' ', 'a', 'n', 'd', ' ']) (.cons (.callName "type" (.cons (.name "other") .nil)) (.cons (.str ['.']) .nil)))))))) .nil)))
    .done) .done)
    (.seq (.ifs (.name "binary_values") (.seq (.assign (.name "new_value") (.callName "combination_function" (.cons (.callSelf "_value_to_binary_value" (.cons (.self "value") .nil)) (.cons (.callSelf "_value_to_binary_value" (.cons (.attr (.name "other") "value") .nil)) .nil))))
    .done) (.seq (.assign (.name "new_value") (.callName "combination_function" (.cons (.self "value") (.cons (.attr (.name "other") "value") .nil))))
    .done))
    (.seq (.ifs (.callName "isinstance" (.cons (.name "new_value") (.cons (.name "bool") .nil))) (.seq (.assign (.name "new_value") (.callSelf "_binary_to_int" (.cons (.name "new_value") .nil)))
    .done) .done)
    (.seq (.assign (.name "new_constraint_set") (.callAttr (.self "_constraint_set") "combine_sets" (.cons (.attr (.name "other") "constraint_set") .nil)))
    (.seq (.ret (.callName "ProbabilityOutcome" (.cons (.kw "value" (.name "new_value")) (.cons (.kw "constraint_set" (.name "new_constraint_set")) .nil))))
    .done)))))⟩

/-- `probability_distribution/probability_outcome.py:46-47`. -/
def Text.ProbabilityOutcome.is_possible : PyFun := ⟨["self"], [],
  (.seq (.ret (.callAttr (.self "_constraint_set") "is_possible" .nil))
    .done)⟩

/-- `probability_distribution/probability_outcome.py:50-51` (`@staticmethod`). -/
def Text.ProbabilityOutcome._value_to_binary_value : PyFun := ⟨["value"], [],
  (.seq (.ret (.cmp .gt (.name "value") (.int 0)))
    .done)⟩

/-- `probability_distribution/probability_outcome.py:54-55` (`@staticmethod`). -/
def Text.ProbabilityOutcome._binary_to_int : PyFun := ⟨["value"], [],
  (.seq (.ret (.ite (.name "value") (.int 1) (.int 0)))
    .done)⟩

/-- `probability_distribution/probability_outcome.py:57-58`. -/
def Text.ProbabilityOutcome.__add__ : PyFun := ⟨["self", "other"], [],
  (.seq (.ret (.callSelf "_combine" (.cons (.kw "combination_function" (.attr (.name "operator") "add")) (.cons (.kw "other" (.name "other")) .nil))))
    .done)⟩

/-- `probability_distribution/probability_outcome.py:60-61`. -/
def Text.ProbabilityOutcome.__sub__ : PyFun := ⟨["self", "other"], [],
  (.seq (.ret (.callSelf "_combine" (.cons (.kw "combination_function" (.attr (.name "operator") "sub")) (.cons (.kw "other" (.name "other")) .nil))))
    .done)⟩

/-- `probability_distribution/probability_outcome.py:63-64`. -/
def Text.ProbabilityOutcome.__mul__ : PyFun := ⟨["self", "other"], [],
  (.seq (.ret (.callSelf "_combine" (.cons (.kw "combination_function" (.attr (.name "operator") "mul")) (.cons (.kw "other" (.name "other")) .nil))))
    .done)⟩

/-- `probability_distribution/probability_outcome.py:66-67`. -/
def Text.ProbabilityOutcome.__floordiv__ : PyFun := ⟨["self", "other"], [],
  (.seq (.ret (.callSelf "_combine" (.cons (.kw "combination_function" (.attr (.name "operator") "floordiv")) (.cons (.kw "other" (.name "other")) .nil))))
    .done)⟩

/-- `probability_distribution/probability_outcome.py:69-70`. -/
def Text.ProbabilityOutcome.__equal__ : PyFun := ⟨["self", "other"], [],
  (.seq (.ret (.callSelf "_combine" (.cons (.kw "combination_function" (.attr (.name "operator") "eq")) (.cons (.kw "other" (.name "other")) .nil))))
    .done)⟩

/-- `probability_distribution/probability_outcome.py:72-73`. -/
def Text.ProbabilityOutcome.__not_equal__ : PyFun := ⟨["self", "other"], [],
  (.seq (.ret (.callSelf "_combine" (.cons (.kw "combination_function" (.attr (.name "operator") "ne")) (.cons (.kw "other" (.name "other")) .nil))))
    .done)⟩

/-- `probability_distribution/probability_outcome.py:75-76`. -/
def Text.ProbabilityOutcome.__lt__ : PyFun := ⟨["self", "other"], [],
  (.seq (.ret (.callSelf "_combine" (.cons (.kw "combination_function" (.attr (.name "operator") "lt")) (.cons (.kw "other" (.name "other")) .nil))))
    .done)⟩

/-- `probability_distribution/probability_outcome.py:78-79`. -/
def Text.ProbabilityOutcome.__le__ : PyFun := ⟨["self", "other"], [],
  (.seq (.ret (.callSelf "_combine" (.cons (.kw "combination_function" (.attr (.name "operator") "le")) (.cons (.kw "other" (.name "other")) .nil))))
    .done)⟩

/-- `probability_distribution/probability_outcome.py:81-82`. -/
def Text.ProbabilityOutcome.__gt__ : PyFun := ⟨["self", "other"], [],
  (.seq (.ret (.callSelf "_combine" (.cons (.kw "combination_function" (.attr (.name "operator") "gt")) (.cons (.kw "other" (.name "other")) .nil))))
    .done)⟩

/-- `probability_distribution/probability_outcome.py:84-85`. -/
def Text.ProbabilityOutcome.__ge__ : PyFun := ⟨["self", "other"], [],
  (.seq (.ret (.callSelf "_combine" (.cons (.kw "combination_function" (.attr (.name "operator") "ge")) (.cons (.kw "other" (.name "other")) .nil))))
    .done)⟩

/-- `probability_distribution/probability_outcome.py:87-88`. -/
def Text.ProbabilityOutcome.__and__ : PyFun := ⟨["self", "other"], [],
  (.seq (.ret (.callSelf "_combine" (.cons (.kw "combination_function" (.attr (.name "operator") "and_")) (.cons (.kw "other" (.name "other")) (.cons (.kw "binary_values" .true) .nil)))))
    .done)⟩

/-- `probability_distribution/probability_outcome.py:90-91`. -/
def Text.ProbabilityOutcome.__or__ : PyFun := ⟨["self", "other"], [],
  (.seq (.ret (.callSelf "_combine" (.cons (.kw "combination_function" (.attr (.name "operator") "or_")) (.cons (.kw "other" (.name "other")) (.cons (.kw "binary_values" .true) .nil)))))
    .done)⟩

/-- `probability_distribution/probability_outcome.py:93-95`. -/
def Text.ProbabilityOutcome.not_operator : PyFun := ⟨["self"], [],
  (.seq (.assign (.name "new_value") (.ite (.callSelf "_value_to_binary_value" (.cons (.self "value") .nil)) (.int 0) (.int 1)))
    (.seq (.ret (.callName "ProbabilityOutcome" (.cons (.kw "value" (.name "new_value")) (.cons (.kw "constraint_set" (.self "_constraint_set")) .nil))))
    .done))⟩

/-- `probability_distribution/probability_outcome.py:97-98`. -/
def Text.ProbabilityOutcome.max_operator : PyFun := ⟨["self", "other"], [],
  (.seq (.ret (.callSelf "_combine" (.cons (.kw "combination_function" (.name "max")) (.cons (.kw "other" (.name "other")) .nil))))
    .done)⟩

/-- `probability_distribution/probability_outcome.py:100-101`. -/
def Text.ProbabilityOutcome.min_operator : PyFun := ⟨["self", "other"], [],
  (.seq (.ret (.callSelf "_combine" (.cons (.kw "combination_function" (.name "min")) (.cons (.kw "other" (.name "other")) .nil))))
    .done)⟩

/-- `probability_distribution/probability_outcome.py:103-104`. -/
def Text.ProbabilityOutcome.__abs__ : PyFun := ⟨["self"], [],
  (.seq (.ret (.callName "ProbabilityOutcome" (.cons (.kw "value" (.callName "abs" (.cons (.self "value") .nil))) (.cons (.kw "constraint_set" (.self "_constraint_set")) .nil))))
    .done)⟩

/-- `probability_distribution/probability_outcome.py:106-107`. -/
def Text.ProbabilityOutcome.__str__ : PyFun := ⟨["self"], [],
  (.seq (.ret (.fstr (.cons (.attr (.name "ProbabilityOutcome") "__name__") (.cons (.str [':', ' ', 'v', 'a', 'l', 'u', 'e', '=']) (.cons (.self "value") (.cons (.str [',', ' ', 'c', 'o', 'n', 's', 't', 'r', 'a', 'i', 'n', 't', '_', 's', 'e', 't', '=']) (.cons (.self "constraint_set") .nil)))))))
    .done)⟩

/-- `probability_distribution/probability_outcome.py:109-110`. -/
def Text.ProbabilityOutcome.__repr__ : PyFun := ⟨["self"], [],
  (.seq (.ret (.callSelf "__str__" .nil))
    .done)⟩

/-- `probability_distribution/probability_outcome.py:112-115`. -/
def Text.ProbabilityOutcome.__hash__ : PyFun := ⟨["self"], [],
  (.seq (.ret (.callAttr (.name "operator") "xor" (.cons (.callName "hash" (.cons (.attr (.name "ProbabilityOutcome") "__name__") .nil)) (.cons (.callAttr (.name "operator") "xor" (.cons (.callName "hash" (.cons (.self "value") .nil)) (.cons (.callName "hash" (.cons (.self "constraint_set") .nil)) .nil))) .nil))))
    .done)⟩

/-- `probability_distribution/probability_outcome.py:117-120`. -/
def Text.ProbabilityOutcome.__eq__ : PyFun := ⟨["self", "other"], [],
  (.seq (.ifs (.not (.callName "isinstance" (.cons (.name "other") (.cons (.name "IProbabilityOutcome") .nil)))) (.seq (.raise (.callName "TypeError" (.cons (.fstr (.cons (.str ['N', 'o', ' ', '=', '=', ' ', 'b', 'e', 't', 'w', 'e', 'e', 'n', ' ']) (.cons (.attr (.name "ProbabilityOutcome") "__name__") (.cons (.str [' ', 'a', 'n', 'd', ' ']) (.cons (.callName "type" (.cons (.name "other") .nil)) (.cons (.str ['.']) .nil)))))) .nil)))
    .done) .done)
    (.seq (.ret (.and (.cmp .eq (.self "value") (.attr (.name "other") "value")) (.cmp .eq (.self "constraint_set") (.attr (.name "other") "constraint_set"))))
    .done))⟩

/-- `probability_distribution/probability_outcome_factory.py:11-14`. -/
def Text.ProbabilityOutcomeFactory.__init__ : PyFun := ⟨["self", "constraint_set_factory"], [("constraint_set_factory", .none)],
  (.seq (.ifs (.cmp .is (.name "constraint_set_factory") .none) (.seq (.assign (.name "constraint_set_factory") (.callName "ConstraintSetFactory" .nil))
    .done) .done)
    (.seq (.assign (.self "_constraint_set_factory") (.name "constraint_set_factory"))
    .done))⟩

/-- `probability_distribution/probability_outcome_factory.py:16-17`. -/
def Text.ProbabilityOutcomeFactory.create_empty : PyFun := ⟨["self", "value"], [],
  (.seq (.ret (.callName "ProbabilityOutcome" (.cons (.name "value") (.cons (.callAttr (.self "_constraint_set_factory") "create_constraint_set" .nil) .nil))))
    .done)⟩

/-- `probability_distribution/probability_distribution.py:15-36`. -/
def Text.ProbabilityDistribution.__init__ : PyFun := ⟨["self", "probability_outcome_factory", "result_map"], [("result_map", .none)],
  (.seq (.assign (.self "_outcome_count") (.int 0))
    (.seq (.assign (.self "_probability_outcome_factory") (.name "probability_outcome_factory"))
    (.seq (.assign (.self "_result_map") (.dict .nil))
    (.defn "safe_add" ["key", "value_to_add"] (.seq (.ifs (.cmp .notIn (.name "key") (.self "_result_map")) (.seq (.assign (.index (.self "_result_map") (.name "key")) (.int 0))
    .done) .done)
    (.seq (.aug .add (.index (.self "_result_map") (.name "key")) (.name "value_to_add"))
    .done))
    (.seq (.ifs (.cmp .isNot (.name "result_map") .none) (.seq (.for_ (.tuple (.cons (.name "result_value") (.cons (.name "count") .nil))) (.callAttr (.name "result_map") "items" .nil) (.seq (.ifs (.callName "isinstance" (.cons (.name "result_value") (.cons (.name "int") .nil))) (.seq (.expr (.callName "safe_add" (.cons (.callAttr (.self "_probability_outcome_factory") "create_empty" (.cons (.kw "value" (.name "result_value")) .nil)) (.cons (.name "count") .nil))))
    .done) .done)
    (.seq (.ifs (.callName "isinstance" (.cons (.name "result_value") (.cons (.name "IProbabilityOutcome") .nil))) (.seq (.expr (.callName "safe_add" (.cons (.name "result_value") (.cons (.name "count") .nil))))
    .done) .done)
    .done)))
    .done) .done)
    (.seq (.for_ (.name "value") (.callAttr (.self "_result_map") "values" .nil) (.seq (.aug .add (.self "_outcome_count") (.name "value"))
    .done))
    .done))))))⟩

/-- `probability_distribution/probability_distribution.py:38-41`. -/
def Text.ProbabilityDistribution.get_histogram : PyFun := ⟨["self"], [],
  (.seq (.assign (.name "histogram_data") (.callSelf "_get_histogram_form" (.cons (.callSelf "get_dict_form" .nil) .nil)))
    (.seq (.assign (.name "x_values") (.callName "list" (.cons (.callAttr (.name "histogram_data") "keys" .nil) .nil)))
    (.seq (.ret (.callSelf "_make_histogram" (.cons (.name "x_values") (.cons (.listComp (.index (.name "histogram_data") (.name "x_value")) (.name "x_value") (.name "x_values")) (.cons (.callSelf "average" .nil) .nil)))))
    .done)))⟩

/-- `probability_distribution/probability_distribution.py:43-46`. -/
def Text.ProbabilityDistribution.get_at_least_histogram : PyFun := ⟨["self"], [],
  (.seq (.assign (.name "histogram_data") (.callSelf "at_least" .nil))
    (.seq (.assign (.name "x_values") (.callName "list" (.cons (.callAttr (.name "histogram_data") "keys" .nil) .nil)))
    (.seq (.ret (.callSelf "_make_histogram" (.cons (.name "x_values") (.cons (.listComp (.index (.name "histogram_data") (.name "x_value")) (.name "x_value") (.name "x_values")) (.cons (.callSelf "average" .nil) .nil)))))
    .done)))⟩

/-- `probability_distribution/probability_distribution.py:48-51`. -/
def Text.ProbabilityDistribution.get_at_most_histogram : PyFun := ⟨["self"], [],
  (.seq (.assign (.name "histogram_data") (.callSelf "at_most" .nil))
    (.seq (.assign (.name "x_values") (.callName "list" (.cons (.callAttr (.name "histogram_data") "keys" .nil) .nil)))
    (.seq (.ret (.callSelf "_make_histogram" (.cons (.name "x_values") (.cons (.listComp (.index (.name "histogram_data") (.name "x_value")) (.name "x_value") (.name "x_values")) (.cons (.callSelf "average" .nil) .nil)))))
    .done)))⟩

/-- `probability_distribution/probability_distribution.py:53-67`. -/
def Text.ProbabilityDistribution.get_compare_histogram : PyFun := ⟨["self", "other_probability"], [],
  (.seq (.assign (.name "this_histogram_data") (.callSelf "_get_histogram_form" (.cons (.callSelf "get_dict_form" .nil) .nil)))
    (.seq (.assign (.name "other_histogram_data") (.callSelf "_get_histogram_form" (.cons (.callAttr (.name "other_probability") "get_dict_form" .nil) .nil)))
    (.seq (.assign (.name "x_values") (.callName "list" (.cons (.callAttr (.name "this_histogram_data") "keys" .nil) .nil)))
    (.seq (.expr (.callAttr (.name "x_values") "extend" (.cons (.callAttr (.name "other_histogram_data") "keys" .nil) .nil)))
    (.defn "y_value_calculator" ["key"] (.seq (.assign (.name "value") (.int 0))
    (.seq (.ifs (.cmp .isIn (.name "key") (.name "this_histogram_data")) (.seq (.aug .add (.name "value") (.index (.name "this_histogram_data") (.name "key")))
    .done) .done)
    (.seq (.ifs (.cmp .isIn (.name "key") (.name "other_histogram_data")) (.seq (.aug .sub (.name "value") (.index (.name "other_histogram_data") (.name "key")))
    .done) .done)
    (.seq (.ret (.name "value"))
    .done))))
    (.seq (.ret (.callSelf "_make_histogram" (.cons (.name "x_values") (.cons (.listComp (.callName "y_value_calculator" (.cons (.name "x_value") .nil)) (.name "x_value") (.name "x_values")) .nil))))
    .done))))))⟩

/-- `probability_distribution/probability_distribution.py:69-87`. -/
def Text.ProbabilityDistribution.get_compare : PyFun := ⟨["self", "other_probability", "this_distribution_name", "other_distribution_name"], [("this_distribution_name", (.str ['T', 'h', 'i', 's', ' ', 'd', 'i', 's', 't', 'r', 'i', 'b', 'u', 't', 'i', 'o', 'n'])), ("other_distribution_name", (.str ['o', 't', 'h', 'e', 'r', ' ', 'd', 'i', 's', 't', 'r', 'i', 'b', 'u', 't', 'i', 'o', 'n']))],
  (.seq (.assign (.name "this_at_least_data") (.callSelf "_get_histogram_form" (.cons (.callSelf "get_dict_form" .nil) .nil)))
    (.seq (.assign (.name "other_at_least_data") (.callSelf "_get_histogram_form" (.cons (.callAttr (.name "other_probability") "get_dict_form" .nil) .nil)))
    (.seq (.assign (.name "x_values_one") (.callName "list" (.cons (.callAttr (.name "this_at_least_data") "keys" .nil) .nil)))
    (.seq (.assign (.name "x_values_two") (.callName "list" (.cons (.callAttr (.name "other_at_least_data") "keys" .nil) .nil)))
    (.seq (.ret (.callSelf "_make_line_plot" (.cons (.name "x_values_one") (.cons (.listComp (.index (.name "this_at_least_data") (.name "x_value")) (.name "x_value") (.name "x_values_one")) (.cons (.name "x_values_two") (.cons (.listComp (.index (.name "other_at_least_data") (.name "x_value")) (.name "x_value") (.name "x_values_two")) (.cons (.name "this_distribution_name") (.cons (.name "other_distribution_name") .nil))))))))
    .done)))))⟩

/-- `probability_distribution/probability_distribution.py:89-107`. -/
def Text.ProbabilityDistribution.get_compare_at_least : PyFun := ⟨["self", "other_probability", "this_distribution_name", "other_distribution_name"], [("this_distribution_name", (.str ['T', 'h', 'i', 's', ' ', 'd', 'i', 's', 't', 'r', 'i', 'b', 'u', 't', 'i', 'o', 'n'])), ("other_distribution_name", (.str ['o', 't', 'h', 'e', 'r', ' ', 'd', 'i', 's', 't', 'r', 'i', 'b', 'u', 't', 'i', 'o', 'n']))],
  (.seq (.assign (.name "this_at_least_data") (.callSelf "at_least" .nil))
    (.seq (.assign (.name "other_at_least_data") (.callAttr (.name "other_probability") "at_least" .nil))
    (.seq (.assign (.name "x_values_one") (.callName "list" (.cons (.callAttr (.name "this_at_least_data") "keys" .nil) .nil)))
    (.seq (.assign (.name "x_values_two") (.callName "list" (.cons (.callAttr (.name "other_at_least_data") "keys" .nil) .nil)))
    (.seq (.ret (.callSelf "_make_line_plot" (.cons (.name "x_values_one") (.cons (.listComp (.index (.name "this_at_least_data") (.name "x_value")) (.name "x_value") (.name "x_values_one")) (.cons (.name "x_values_two") (.cons (.listComp (.index (.name "other_at_least_data") (.name "x_value")) (.name "x_value") (.name "x_values_two")) (.cons (.name "this_distribution_name") (.cons (.name "other_distribution_name") .nil))))))))
    .done)))))⟩

/-- `probability_distribution/probability_distribution.py:109-127`. -/
def Text.ProbabilityDistribution.get_compare_at_most : PyFun := ⟨["self", "other_probability", "this_distribution_name", "other_distribution_name"], [("this_distribution_name", (.str ['T', 'h', 'i', 's', ' ', 'd', 'i', 's', 't', 'r', 'i', 'b', 'u', 't', 'i', 'o', 'n'])), ("other_distribution_name", (.str ['o', 't', 'h', 'e', 'r', ' ', 'd', 'i', 's', 't', 'r', 'i', 'b', 'u', 't', 'i', 'o', 'n']))],
  (.seq (.assign (.name "this_at_most_data") (.callSelf "at_most" .nil))
    (.seq (.assign (.name "other_at_most_data") (.callAttr (.name "other_probability") "at_most" .nil))
    (.seq (.assign (.name "x_values_one") (.callName "list" (.cons (.callAttr (.name "this_at_most_data") "keys" .nil) .nil)))
    (.seq (.assign (.name "x_values_two") (.callName "list" (.cons (.callAttr (.name "other_at_most_data") "keys" .nil) .nil)))
    (.seq (.ret (.callSelf "_make_line_plot" (.cons (.name "x_values_one") (.cons (.listComp (.index (.name "this_at_most_data") (.name "x_value")) (.name "x_value") (.name "x_values_one")) (.cons (.name "x_values_two") (.cons (.listComp (.index (.name "other_at_most_data") (.name "x_value")) (.name "x_value") (.name "x_values_two")) (.cons (.name "this_distribution_name") (.cons (.name "other_distribution_name") .nil))))))))
    .done)))))⟩

/-- `probability_distribution/probability_distribution.py:130-157` (`@staticmethod`). -/
def Text.ProbabilityDistribution._make_histogram : PyFun := ⟨["x_values", "y_values", "average"], [("average", .none)],
  (.seq (.assign (.tuple (.cons (.name "x_values") (.cons (.name "y_values") .nil))) (.listComp (.callName "list" (.cons (.name "t") .nil)) (.name "t") (.callName "zip" (.cons (.star (.callName "sorted" (.cons (.callName "zip" (.cons (.name "x_values") (.cons (.name "y_values") .nil))) .nil))) .nil))))
    (.seq (.assign (.name "bins") (.listComp (.bin .sub (.name "value") (.flt 1 2)) (.name "value") (.name "x_values")))
    (.seq (.expr (.callAttr (.name "bins") "append" (.cons (.bin .add (.index (.name "x_values") (.int (-1))) (.flt 1 2)) .nil)))
    (.seq (.assign (.tuple (.cons (.name "_") (.cons (.name "axis") .nil))) (.callAttr (.name "pyplot") "subplots" .nil))
    (.seq (.expr (.callAttr (.name "axis") "hist" (.cons (.name "x_values") (.cons (.kw "weights" (.name "y_values")) (.cons (.kw "bins" (.name "bins")) .nil)))))
    (.seq (.expr (.callAttr (.name "axis") "grid" (.cons .true (.cons (.kw "linestyle" (.str ['-', '.'])) .nil))))
    (.seq (.expr (.callAttr (.name "axis") "set_ylabel" (.cons (.str ['o', 'd', 'd', 's']) .nil)))
    (.seq (.expr (.callAttr (.name "axis") "set_xlabel" (.cons (.str ['o', 'u', 't', 'c', 'o', 'm', 'e']) .nil)))
    (.seq (.ifs (.cmp .isNot (.name "average") .none) (.seq (.assign (.name "max_height") (.callName "max" (.cons (.name "y_values") .nil)))
    (.seq (.expr (.callAttr (.name "axis") "plot" (.cons (.list (.cons (.name "average") (.cons (.name "average") .nil))) (.cons (.list (.cons (.int 0) (.cons (.bin .mul (.name "max_height") (.flt 11 10)) .nil))) (.cons (.str ['-', 'r']) (.cons (.kw "lw" (.int 2)) (.cons (.kw "label" (.fstr (.cons (.str ['A', 'v', 'e', 'r', 'a', 'g', 'e', ' ', '=', ' ']) (.cons (.name "average") .nil)))) .nil)))))))
    .done)) .done)
    (.seq (.assign (.name "buffer") (.callAttr (.name "io") "BytesIO" .nil))
    (.seq (.expr (.callAttr (.name "pyplot") "savefig" (.cons (.name "buffer") (.cons (.kw "format" (.str ['t', 'i', 'f', 'f'])) .nil))))
    (.seq (.expr (.callAttr (.name "buffer") "seek" (.cons (.int 0) .nil)))
    (.seq (.assign (.name "image") (.callAttr (.name "Image") "open" (.cons (.name "buffer") .nil)))
    (.seq (.ret (.name "image"))
    .done))))))))))))))⟩

/-- `probability_distribution/probability_distribution.py:160-181` (`@staticmethod`). -/
def Text.ProbabilityDistribution._make_line_plot : PyFun := ⟨["x_values_one", "y_values_one", "x_values_two", "y_values_two", "lable_one", "lable_two"], [("lable_one", (.str ['D', 'i', 's', 't', 'r', 'i', 'b', 'u', 't', 'i', 'o', 'n', ' ', 'O', 'n', 'e'])), ("lable_two", (.str ['D', 'i', 's', 't', 'r', 'i', 'b', 'u', 't', 'i', 'o', 'n', ' ', 'T', 'w', 'o']))],
  (.seq (.assign (.tuple (.cons (.name "x_values_one") (.cons (.name "y_values_one") .nil))) (.listComp (.callName "list" (.cons (.name "t") .nil)) (.name "t") (.callName "zip" (.cons (.star (.callName "sorted" (.cons (.callName "zip" (.cons (.name "x_values_one") (.cons (.name "y_values_one") .nil))) .nil))) .nil))))
    (.seq (.assign (.tuple (.cons (.name "x_values_two") (.cons (.name "y_values_two") .nil))) (.listComp (.callName "list" (.cons (.name "t") .nil)) (.name "t") (.callName "zip" (.cons (.star (.callName "sorted" (.cons (.callName "zip" (.cons (.name "x_values_two") (.cons (.name "y_values_two") .nil))) .nil))) .nil))))
    (.seq (.assign (.tuple (.cons (.name "_") (.cons (.name "axis") .nil))) (.callAttr (.name "pyplot") "subplots" .nil))
    (.seq (.expr (.callAttr (.name "axis") "plot" (.cons (.name "x_values_one") (.cons (.name "y_values_one") (.cons (.str ['b']) (.cons (.kw "label" (.name "lable_one")) .nil))))))
    (.seq (.expr (.callAttr (.name "axis") "plot" (.cons (.name "x_values_two") (.cons (.name "y_values_two") (.cons (.str ['r']) (.cons (.kw "label" (.name "lable_two")) .nil))))))
    (.seq (.expr (.callAttr (.name "axis") "grid" (.cons .true (.cons (.kw "linestyle" (.str ['-', '.'])) .nil))))
    (.seq (.expr (.callAttr (.name "axis") "set_ylabel" (.cons (.str ['o', 'd', 'd', 's']) .nil)))
    (.seq (.expr (.callAttr (.name "axis") "set_xlabel" (.cons (.str ['o', 'u', 't', 'c', 'o', 'm', 'e']) .nil)))
    (.seq (.expr (.callAttr (.name "axis") "legend" .nil))
    (.seq (.assign (.name "buffer") (.callAttr (.name "io") "BytesIO" .nil))
    (.seq (.expr (.callAttr (.name "pyplot") "savefig" (.cons (.name "buffer") (.cons (.kw "format" (.str ['p', 'n', 'g'])) .nil))))
    (.seq (.expr (.callAttr (.name "buffer") "seek" (.cons (.int 0) .nil)))
    (.seq (.assign (.name "image") (.callAttr (.name "Image") "open" (.cons (.name "buffer") .nil)))
    (.seq (.ret (.name "image"))
    .done))))))))))))))⟩

/-- `probability_distribution/probability_distribution.py:183-184`. -/
def Text.ProbabilityDistribution.max : PyFun := ⟨["self"], [],
  (.seq (.ret (.callName "max" (.cons (.callAttr (.callSelf "get_result_map" .nil) "keys" .nil) .nil)))
    .done)⟩

/-- `probability_distribution/probability_distribution.py:186-187`. -/
def Text.ProbabilityDistribution.min : PyFun := ⟨["self"], [],
  (.seq (.ret (.callName "min" (.cons (.callAttr (.callSelf "get_result_map" .nil) "keys" .nil) .nil)))
    .done)⟩

/-- `probability_distribution/probability_distribution.py:189-191`. -/
def Text.ProbabilityDistribution.contains_zero : PyFun := ⟨["self"], [],
  (.seq (.assign (.name "result_map") (.callSelf "get_result_map" .nil))
    (.seq (.ret (.and (.cmp .isIn (.int 0) (.name "result_map")) (.cmp .ne (.name "result_map") (.int 0))))
    .done))⟩

/-- `probability_distribution/probability_distribution.py:193-197`. -/
def Text.ProbabilityDistribution.average : PyFun := ⟨["self"], [],
  (.seq (.assign (.name "total_values") (.int 0))
    (.seq (.for_ (.tuple (.cons (.name "item") (.cons (.name "value") .nil))) (.callAttr (.callSelf "get_result_map" .nil) "items" .nil) (.seq (.aug .add (.name "total_values") (.bin .mul (.name "item") (.name "value")))
    .done))
    (.seq (.ret (.bin .div (.name "total_values") (.self "_outcome_count")))
    .done)))⟩

/-- `probability_distribution/probability_distribution.py:199-208`. -/
def Text.ProbabilityDistribution.at_least : PyFun := ⟨["self"], [],
  (.seq (.assign (.name "at_least_dict") (.dict .nil))
    (.seq (.assign (.name "total_above") (.int 1))
    (.seq (.assign (.name "histogram_form") (.callSelf "_get_histogram_form" (.cons (.callSelf "get_dict_form" .nil) .nil)))
    (.seq (.assign (.name "keys") (.callName "list" (.cons (.callAttr (.name "histogram_form") "keys" .nil) .nil)))
    (.seq (.assign (.name "keys") (.callName "sorted" (.cons (.name "keys") .nil)))
    (.seq (.for_ (.name "value") (.name "keys") (.seq (.assign (.index (.name "at_least_dict") (.name "value")) (.bin .div (.name "total_above") (.int 1)))
    (.seq (.aug .sub (.name "total_above") (.index (.name "histogram_form") (.name "value")))
    .done)))
    (.seq (.ret (.name "at_least_dict"))
    .done)))))))⟩

/-- `probability_distribution/probability_distribution.py:210-219`. -/
def Text.ProbabilityDistribution.at_most : PyFun := ⟨["self"], [],
  (.seq (.assign (.name "at_most_dict") (.dict .nil))
    (.seq (.assign (.name "at_or_below") (.int 0))
    (.seq (.assign (.name "histogram_form") (.callSelf "_get_histogram_form" (.cons (.callSelf "get_dict_form" .nil) .nil)))
    (.seq (.assign (.name "keys") (.callName "list" (.cons (.callAttr (.name "histogram_form") "keys" .nil) .nil)))
    (.seq (.assign (.name "keys") (.callName "sorted" (.cons (.name "keys") .nil)))
    (.seq (.for_ (.name "value") (.name "keys") (.seq (.aug .add (.name "at_or_below") (.index (.name "histogram_form") (.name "value")))
    (.seq (.assign (.index (.name "at_most_dict") (.name "value")) (.bin .div (.name "at_or_below") (.int 1)))
    .done)))
    (.seq (.ret (.name "at_most_dict"))
    .done)))))))⟩

/-- `probability_distribution/probability_distribution.py:221-231`. -/
def Text.ProbabilityDistribution.get_result_map : PyFun := ⟨["self"], [],
  (.seq (.assign (.name "new_result_map") (.dict .nil))
    (.defn "safe_add" ["key", "value"] (.seq (.ifs (.cmp .notIn (.name "key") (.name "new_result_map")) (.seq (.assign (.index (.name "new_result_map") (.name "key")) (.int 0))
    .done) .done)
    (.seq (.aug .add (.index (.name "new_result_map") (.name "key")) (.name "value"))
    .done))
    (.seq (.for_ (.tuple (.cons (.name "probability_outcome") (.cons (.name "count") .nil))) (.callAttr (.self "_result_map") "items" .nil) (.seq (.expr (.callName "safe_add" (.cons (.attr (.name "probability_outcome") "value") (.cons (.name "count") .nil))))
    .done))
    (.seq (.ret (.name "new_result_map"))
    .done))))⟩

/-- `probability_distribution/probability_distribution.py:233-234`. -/
def Text.ProbabilityDistribution.get_constraint_result_map : PyFun := ⟨["self"], [],
  (.seq (.ret (.self "_result_map"))
    .done)⟩

/-- `probability_distribution/probability_distribution.py:236-237`. -/
def Text.ProbabilityDistribution.get_dict_form : PyFun := ⟨["self"], [],
  (.seq (.ret (.dictComp (.name "key") (.bin .div (.name "value") (.self "_outcome_count")) (.tuple (.cons (.name "key") (.cons (.name "value") .nil))) (.callAttr (.callSelf "get_result_map" .nil) "items" .nil)))
    .done)⟩

/-- `probability_distribution/probability_distribution.py:240-247` (`@staticmethod`). -/
def Text.ProbabilityDistribution._get_histogram_form : PyFun := ⟨["base_data"], [],
  (.seq (.assign (.name "base_data") (.callAttr (.name "copy") "copy" (.cons (.name "base_data") .nil)))
    (.seq (.assign (.name "item_list") (.listComp (.tuple (.cons (.name "key") (.cons (.index (.name "base_data") (.name "key")) .nil))) (.name "key") (.callAttr (.name "base_data") "keys" .nil)))
    (.seq (.expr (.callAttr (.name "item_list") "sort" (.cons (.kw "key" (.lam ["tup"] (.index (.name "tup") (.int 0)))) .nil)))
    (.seq (.for_ (.name "int_value") (.callName "range" (.cons (.index (.index (.name "item_list") (.int 0)) (.int 0)) (.cons (.bin .add (.index (.index (.name "item_list") (.int (-1))) (.int 0)) (.int 1)) .nil))) (.seq (.ifs (.cmp .notIn (.name "int_value") (.name "base_data")) (.seq (.assign (.index (.name "base_data") (.name "int_value")) (.int 0))
    .done) .done)
    .done))
    (.seq (.ret (.name "base_data"))
    .done)))))⟩

/-- `probability_distribution/probability_distribution.py:249-266`. -/
def Text.ProbabilityDistribution._combine_distributions : PyFun := ⟨["self", "combination_function", "other"], [],
  (.seq (.assign (.name "new_result_map") (.dict .nil))
    (.defn "safe_add" ["key", "value"] (.seq (.ifs (.cmp .notIn (.name "key") (.name "new_result_map")) (.seq (.assign (.index (.name "new_result_map") (.name "key")) (.int 0))
    .done) .done)
    (.seq (.aug .add (.index (.name "new_result_map") (.name "key")) (.name "value"))
    .done))
    (.seq (.for_ (.tuple (.cons (.name "this_key") (.cons (.name "this_value") .nil))) (.callAttr (.self "_result_map") "items" .nil) (.seq (.for_ (.tuple (.cons (.name "other_key") (.cons (.name "other_value") .nil))) (.callAttr (.callAttr (.name "other") "get_constraint_result_map" .nil) "items" .nil) (.seq (.assign (.name "new_outcome") (.callName "combination_function" (.cons (.name "this_key") (.cons (.name "other_key") .nil))))
    (.seq (.ifs (.callAttr (.name "new_outcome") "is_possible" .nil) (.seq (.expr (.callName "safe_add" (.cons (.name "new_outcome") (.cons (.bin .mul (.name "this_value") (.name "other_value")) .nil))))
    .done) .done)
    .done)))
    .done))
    (.seq (.ret (.name "new_result_map"))
    .done))))⟩

/-- `probability_distribution/probability_distribution.py:268-272`. -/
def Text.ProbabilityDistribution.__add__ : PyFun := ⟨["self", "other"], [],
  (.seq (.ifs (.not (.callName "isinstance" (.cons (.name "other") (.cons (.name "IProbabilityDistribution") .nil)))) (.seq (.raise (.callName "TypeError" (.cons (.fstr (.cons (.str ['N', 'o', ' ', '_', '_', 'a', 'd', 'd', '_', '_', ' ', 'b', 'e', 't', 'w', 'e', 'e', 'n', ' ']) (.cons (.name "ProbabilityDistribution") (.cons (.str [' ', 'a', 'n', 'd', ' ']) (.cons (.callName "type" (.cons (.name "other") .nil)) .nil))))) .nil)))
    .done) .done)
    (.seq (.assign (.name "new_result_map") (.callSelf "_combine_distributions" (.cons (.attr (.name "operator") "add") (.cons (.name "other") .nil))))
    (.seq (.ret (.callName "ProbabilityDistribution" (.cons (.self "_probability_outcome_factory") (.cons (.name "new_result_map") .nil))))
    .done)))⟩

/-- `probability_distribution/probability_distribution.py:274-278`. -/
def Text.ProbabilityDistribution.__sub__ : PyFun := ⟨["self", "other"], [],
  (.seq (.ifs (.not (.callName "isinstance" (.cons (.name "other") (.cons (.name "IProbabilityDistribution") .nil)))) (.seq (.raise (.callName "TypeError" (.cons (.fstr (.cons (.str ['N', 'o', ' ', '_', '_', 's', 'u', 'b', '_', '_', ' ', 'b', 'e', 't', 'w', 'e', 'e', 'n', ' ']) (.cons (.name "ProbabilityDistribution") (.cons (.str [' ', 'a', 'n', 'd', ' ']) (.cons (.callName "type" (.cons (.name "other") .nil)) .nil))))) .nil)))
    .done) .done)
    (.seq (.assign (.name "new_result_map") (.callSelf "_combine_distributions" (.cons (.attr (.name "operator") "sub") (.cons (.name "other") .nil))))
    (.seq (.ret (.callName "ProbabilityDistribution" (.cons (.self "_probability_outcome_factory") (.cons (.name "new_result_map") .nil))))
    .done)))⟩

/-- `probability_distribution/probability_distribution.py:280-284`. -/
def Text.ProbabilityDistribution.__mul__ : PyFun := ⟨["self", "other"], [],
  (.seq (.ifs (.not (.callName "isinstance" (.cons (.name "other") (.cons (.name "IProbabilityDistribution") .nil)))) (.seq (.raise (.callName "TypeError" (.cons (.fstr (.cons (.str ['N', 'o', ' ', '_', '_', 'm', 'u', 'l', '_', '_', ' ', 'b', 'e', 't', 'w', 'e', 'e', 'n', ' ']) (.cons (.name "ProbabilityDistribution") (.cons (.str [' ', 'a', 'n', 'd', ' ']) (.cons (.callName "type" (.cons (.name "other") .nil)) .nil))))) .nil)))
    .done) .done)
    (.seq (.assign (.name "new_result_map") (.callSelf "_combine_distributions" (.cons (.attr (.name "operator") "mul") (.cons (.name "other") .nil))))
    (.seq (.ret (.callName "ProbabilityDistribution" (.cons (.self "_probability_outcome_factory") (.cons (.name "new_result_map") .nil))))
    .done)))⟩

/-- `probability_distribution/probability_distribution.py:286-290`. -/
def Text.ProbabilityDistribution.__floordiv__ : PyFun := ⟨["self", "other"], [],
  (.seq (.ifs (.not (.callName "isinstance" (.cons (.name "other") (.cons (.name "IProbabilityDistribution") .nil)))) (.seq (.raise (.callName "TypeError" (.cons (.fstr (.cons (.str ['N', 'o', ' ', '_', '_', 'f', 'l', 'o', 'o', 'r', 'd', 'i', 'v', '_', '_', ' ', 'b', 'e', 't', 'w', 'e', 'e', 'n', ' ']) (.cons (.name "ProbabilityDistribution") (.cons (.str [' ', 'a', 'n', 'd', ' ']) (.cons (.callName "type" (.cons (.name "other") .nil)) .nil))))) .nil)))
    .done) .done)
    (.seq (.assign (.name "new_result_map") (.callSelf "_combine_distributions" (.cons (.attr (.name "operator") "floordiv") (.cons (.name "other") .nil))))
    (.seq (.ret (.callName "ProbabilityDistribution" (.cons (.self "_probability_outcome_factory") (.cons (.name "new_result_map") .nil))))
    .done)))⟩

/-- `probability_distribution/probability_distribution.py:292-296`. -/
def Text.ProbabilityDistribution.__equal__ : PyFun := ⟨["self", "other"], [],
  (.seq (.ifs (.not (.callName "isinstance" (.cons (.name "other") (.cons (.name "IProbabilityDistribution") .nil)))) (.seq (.raise (.callName "TypeError" (.cons (.fstr (.cons (.str ['N', 'o', ' ', '_', '_', 'e', 'q', 'u', 'a', 'l', '_', '_', ' ', 'b', 'e', 't', 'w', 'e', 'e', 'n', ' ']) (.cons (.name "ProbabilityDistribution") (.cons (.str [' ', 'a', 'n', 'd', ' ']) (.cons (.callName "type" (.cons (.name "other") .nil)) .nil))))) .nil)))
    .done) .done)
    (.seq (.assign (.name "new_result_map") (.callSelf "_combine_distributions" (.cons (.lam ["x", "y"] (.callAttr (.name "x") "__equal__" (.cons (.name "y") .nil))) (.cons (.name "other") .nil))))
    (.seq (.ret (.callName "ProbabilityDistribution" (.cons (.self "_probability_outcome_factory") (.cons (.name "new_result_map") .nil))))
    .done)))⟩

/-- `probability_distribution/probability_distribution.py:298-302`. -/
def Text.ProbabilityDistribution.__not_equal__ : PyFun := ⟨["self", "other"], [],
  (.seq (.ifs (.not (.callName "isinstance" (.cons (.name "other") (.cons (.name "IProbabilityDistribution") .nil)))) (.seq (.raise (.callName "TypeError" (.cons (.fstr (.cons (.str ['N', 'o', ' ', '_', '_', 'n', 'o', 't', '_', 'e', 'q', 'u', 'a', 'l', '_', '_', ' ', 'b', 'e', 't', 'w', 'e', 'e', 'n', ' ']) (.cons (.name "ProbabilityDistribution") (.cons (.str [' ', 'a', 'n', 'd', ' ']) (.cons (.callName "type" (.cons (.name "other") .nil)) .nil))))) .nil)))
    .done) .done)
    (.seq (.assign (.name "new_result_map") (.callSelf "_combine_distributions" (.cons (.lam ["x", "y"] (.callAttr (.name "x") "__not_equal__" (.cons (.name "y") .nil))) (.cons (.name "other") .nil))))
    (.seq (.ret (.callName "ProbabilityDistribution" (.cons (.self "_probability_outcome_factory") (.cons (.name "new_result_map") .nil))))
    .done)))⟩

/-- `probability_distribution/probability_distribution.py:304-308`. -/
def Text.ProbabilityDistribution.__lt__ : PyFun := ⟨["self", "other"], [],
  (.seq (.ifs (.not (.callName "isinstance" (.cons (.name "other") (.cons (.name "IProbabilityDistribution") .nil)))) (.seq (.raise (.callName "TypeError" (.cons (.fstr (.cons (.str ['N', 'o', ' ', '_', '_', 'l', 't', '_', '_', ' ', 'b', 'e', 't', 'w', 'e', 'e', 'n', ' ']) (.cons (.name "ProbabilityDistribution") (.cons (.str [' ', 'a', 'n', 'd', ' ']) (.cons (.callName "type" (.cons (.name "other") .nil)) .nil))))) .nil)))
    .done) .done)
    (.seq (.assign (.name "new_result_map") (.callSelf "_combine_distributions" (.cons (.attr (.name "operator") "lt") (.cons (.name "other") .nil))))
    (.seq (.ret (.callName "ProbabilityDistribution" (.cons (.self "_probability_outcome_factory") (.cons (.name "new_result_map") .nil))))
    .done)))⟩

/-- `probability_distribution/probability_distribution.py:310-314`. -/
def Text.ProbabilityDistribution.__le__ : PyFun := ⟨["self", "other"], [],
  (.seq (.ifs (.not (.callName "isinstance" (.cons (.name "other") (.cons (.name "IProbabilityDistribution") .nil)))) (.seq (.raise (.callName "TypeError" (.cons (.fstr (.cons (.str ['N', 'o', ' ', '_', '_', 'l', 'e', '_', '_', ' ', 'b', 'e', 't', 'w', 'e', 'e', 'n', ' ']) (.cons (.name "ProbabilityDistribution") (.cons (.str [' ', 'a', 'n', 'd', ' ']) (.cons (.callName "type" (.cons (.name "other") .nil)) .nil))))) .nil)))
    .done) .done)
    (.seq (.assign (.name "new_result_map") (.callSelf "_combine_distributions" (.cons (.attr (.name "operator") "le") (.cons (.name "other") .nil))))
    (.seq (.ret (.callName "ProbabilityDistribution" (.cons (.self "_probability_outcome_factory") (.cons (.name "new_result_map") .nil))))
    .done)))⟩

/-- `probability_distribution/probability_distribution.py:316-320`. -/
def Text.ProbabilityDistribution.__gt__ : PyFun := ⟨["self", "other"], [],
  (.seq (.ifs (.not (.callName "isinstance" (.cons (.name "other") (.cons (.name "IProbabilityDistribution") .nil)))) (.seq (.raise (.callName "TypeError" (.cons (.fstr (.cons (.str ['N', 'o', ' ', '_', '_', 'g', 't', '_', '_', ' ', 'b', 'e', 't', 'w', 'e', 'e', 'n', ' ']) (.cons (.name "ProbabilityDistribution") (.cons (.str [' ', 'a', 'n', 'd', ' ']) (.cons (.callName "type" (.cons (.name "other") .nil)) .nil))))) .nil)))
    .done) .done)
    (.seq (.assign (.name "new_result_map") (.callSelf "_combine_distributions" (.cons (.attr (.name "operator") "gt") (.cons (.name "other") .nil))))
    (.seq (.ret (.callName "ProbabilityDistribution" (.cons (.self "_probability_outcome_factory") (.cons (.name "new_result_map") .nil))))
    .done)))⟩

/-- `probability_distribution/probability_distribution.py:322-326`. -/
def Text.ProbabilityDistribution.__ge__ : PyFun := ⟨["self", "other"], [],
  (.seq (.ifs (.not (.callName "isinstance" (.cons (.name "other") (.cons (.name "IProbabilityDistribution") .nil)))) (.seq (.raise (.callName "TypeError" (.cons (.fstr (.cons (.str ['N', 'o', ' ', '_', '_', 'g', 'e', '_', '_', ' ', 'b', 'e', 't', 'w', 'e', 'e', 'n', ' ']) (.cons (.name "ProbabilityDistribution") (.cons (.str [' ', 'a', 'n', 'd', ' ']) (.cons (.callName "type" (.cons (.name "other") .nil)) .nil))))) .nil)))
    .done) .done)
    (.seq (.assign (.name "new_result_map") (.callSelf "_combine_distributions" (.cons (.attr (.name "operator") "ge") (.cons (.name "other") .nil))))
    (.seq (.ret (.callName "ProbabilityDistribution" (.cons (.self "_probability_outcome_factory") (.cons (.name "new_result_map") .nil))))
    .done)))⟩

/-- `probability_distribution/probability_distribution.py:328-332`. -/
def Text.ProbabilityDistribution.__and__ : PyFun := ⟨["self", "other"], [],
  (.seq (.ifs (.not (.callName "isinstance" (.cons (.name "other") (.cons (.name "IProbabilityDistribution") .nil)))) (.seq (.raise (.callName "TypeError" (.cons (.fstr (.cons (.str ['N', 'o', ' ', '_', '_', 'a', 'n', 'd', '_', '_', ' ', 'b', 'e', 't', 'w', 'e', 'e', 'n', ' ']) (.cons (.name "ProbabilityDistribution") (.cons (.str [' ', 'a', 'n', 'd', ' ']) (.cons (.callName "type" (.cons (.name "other") .nil)) .nil))))) .nil)))
    .done) .done)
    (.seq (.assign (.name "new_result_map") (.callSelf "_combine_distributions" (.cons (.attr (.name "operator") "and_") (.cons (.name "other") .nil))))
    (.seq (.ret (.callName "ProbabilityDistribution" (.cons (.self "_probability_outcome_factory") (.cons (.name "new_result_map") .nil))))
    .done)))⟩

/-- `probability_distribution/probability_distribution.py:334-338`. -/
def Text.ProbabilityDistribution.__or__ : PyFun := ⟨["self", "other"], [],
  (.seq (.ifs (.not (.callName "isinstance" (.cons (.name "other") (.cons (.name "IProbabilityDistribution") .nil)))) (.seq (.raise (.callName "TypeError" (.cons (.fstr (.cons (.str ['N', 'o', ' ', '_', '_', 'o', 'r', '_', '_', ' ', 'b', 'e', 't', 'w', 'e', 'e', 'n', ' ']) (.cons (.name "ProbabilityDistribution") (.cons (.str [' ', 'a', 'n', 'd', ' ']) (.cons (.callName "type" (.cons (.name "other") .nil)) .nil))))) .nil)))
    .done) .done)
    (.seq (.assign (.name "new_result_map") (.callSelf "_combine_distributions" (.cons (.attr (.name "operator") "or_") (.cons (.name "other") .nil))))
    (.seq (.ret (.callName "ProbabilityDistribution" (.cons (.self "_probability_outcome_factory") (.cons (.name "new_result_map") .nil))))
    .done)))⟩

/-- `probability_distribution/probability_distribution.py:340-350`. -/
def Text.ProbabilityDistribution.not_operator : PyFun := ⟨["self"], [],
  (.seq (.assign (.name "new_result_map") (.dict .nil))
    (.defn "safe_add" ["key", "value"] (.seq (.ifs (.cmp .notIn (.name "key") (.name "new_result_map")) (.seq (.assign (.index (.name "new_result_map") (.name "key")) (.int 0))
    .done) .done)
    (.seq (.aug .add (.index (.name "new_result_map") (.name "key")) (.name "value"))
    .done))
    (.seq (.for_ (.tuple (.cons (.name "result_key") (.cons (.name "result_value") .nil))) (.callAttr (.self "_result_map") "items" .nil) (.seq (.expr (.callName "safe_add" (.cons (.callAttr (.name "result_key") "not_operator" .nil) (.cons (.name "result_value") .nil))))
    .done))
    (.seq (.ret (.callName "ProbabilityDistribution" (.cons (.self "_probability_outcome_factory") (.cons (.name "new_result_map") .nil))))
    .done))))⟩

/-- `probability_distribution/probability_distribution.py:352-356`. -/
def Text.ProbabilityDistribution.max_operator : PyFun := ⟨["self", "other"], [],
  (.seq (.ifs (.not (.callName "isinstance" (.cons (.name "other") (.cons (.name "IProbabilityDistribution") .nil)))) (.seq (.raise (.callName "TypeError" (.cons (.fstr (.cons (.str ['N', 'o', ' ', 'm', 'a', 'x', '_', 'o', 'p', 'e', 'r', 'a', 't', 'o', 'r', ' ', 'b', 'e', 't', 'w', 'e', 'e', 'n', ' ']) (.cons (.name "ProbabilityDistribution") (.cons (.str [' ', 'a', 'n', 'd', ' ']) (.cons (.callName "type" (.cons (.name "other") .nil)) .nil))))) .nil)))
    .done) .done)
    (.seq (.assign (.name "new_result_map") (.callSelf "_combine_distributions" (.cons (.lam ["x", "y"] (.callAttr (.name "x") "max_operator" (.cons (.name "y") .nil))) (.cons (.name "other") .nil))))
    (.seq (.ret (.callName "ProbabilityDistribution" (.cons (.self "_probability_outcome_factory") (.cons (.name "new_result_map") .nil))))
    .done)))⟩

/-- `probability_distribution/probability_distribution.py:358-362`. -/
def Text.ProbabilityDistribution.min_operator : PyFun := ⟨["self", "other"], [],
  (.seq (.ifs (.not (.callName "isinstance" (.cons (.name "other") (.cons (.name "IProbabilityDistribution") .nil)))) (.seq (.raise (.callName "TypeError" (.cons (.fstr (.cons (.str ['N', 'o', ' ', 'm', 'i', 'n', '_', 'o', 'p', 'e', 'r', 'a', 't', 'o', 'r', ' ', 'b', 'e', 't', 'w', 'e', 'e', 'n', ' ']) (.cons (.name "ProbabilityDistribution") (.cons (.str [' ', 'a', 'n', 'd', ' ']) (.cons (.callName "type" (.cons (.name "other") .nil)) .nil))))) .nil)))
    .done) .done)
    (.seq (.assign (.name "new_result_map") (.callSelf "_combine_distributions" (.cons (.lam ["x", "y"] (.callAttr (.name "x") "min_operator" (.cons (.name "y") .nil))) (.cons (.name "other") .nil))))
    (.seq (.ret (.callName "ProbabilityDistribution" (.cons (.self "_probability_outcome_factory") (.cons (.name "new_result_map") .nil))))
    .done)))⟩

/-- `probability_distribution/probability_distribution.py:364-374`. -/
def Text.ProbabilityDistribution.__abs__ : PyFun := ⟨["self"], [],
  (.seq (.assign (.name "new_result_map") (.dict .nil))
    (.defn "safe_add" ["key", "value"] (.seq (.ifs (.cmp .notIn (.name "key") (.name "new_result_map")) (.seq (.assign (.index (.name "new_result_map") (.name "key")) (.int 0))
    .done) .done)
    (.seq (.aug .add (.index (.name "new_result_map") (.name "key")) (.name "value"))
    .done))
    (.seq (.for_ (.tuple (.cons (.name "result_key") (.cons (.name "result_value") .nil))) (.callAttr (.self "_result_map") "items" .nil) (.seq (.expr (.callName "safe_add" (.cons (.callName "abs" (.cons (.name "result_key") .nil)) (.cons (.name "result_value") .nil))))
    .done))
    (.seq (.ret (.callName "ProbabilityDistribution" (.cons (.self "_probability_outcome_factory") (.cons (.name "new_result_map") .nil))))
    .done))))⟩

/-- `probability_distribution/probability_distribution.py:376-377`. -/
def Text.ProbabilityDistribution.__str__ : PyFun := ⟨["self"], [],
  (.seq (.ret (.fstr (.cons (.attr (.name "ProbabilityDistribution") "__name__") (.cons (.str [',', ' ', 'r', 'e', 's', 'u', 'l', 't', '_', 'm', 'a', 'p', '=']) (.cons (.self "_result_map") .nil)))))
    .done)⟩

/-- `probability_distribution/probability_distribution.py:379-380`. -/
def Text.ProbabilityDistribution.__repr__ : PyFun := ⟨["self"], [],
  (.seq (.ret (.callSelf "__str__" .nil))
    .done)⟩

/-- `probability_distribution/probability_distribution_factory.py:14-17`. -/
def Text.ProbabilityDistributionFactory.__init__ : PyFun := ⟨["self", "probability_outcome_factory"], [("probability_outcome_factory", .none)],
  (.seq (.ifs (.cmp .is (.name "probability_outcome_factory") .none) (.seq (.assign (.name "probability_outcome_factory") (.callName "ProbabilityOutcomeFactory" .nil))
    .done) .done)
    (.seq (.assign (.self "_probability_outcome_factory") (.name "probability_outcome_factory"))
    .done))⟩

/-- `probability_distribution/probability_distribution_factory.py:19-23`. -/
def Text.ProbabilityDistributionFactory.create : PyFun := ⟨["self", "result_map"], [("result_map", .none)],
  (.seq (.ret (.callName "ProbabilityDistribution" (.cons (.self "_probability_outcome_factory") (.cons (.name "result_map") .nil))))
    .done)⟩

/-- `probability_distribution/probability_distribution_state.py:15-22`. -/
def Text.ProbabilityDistributionState.__init__ : PyFun := ⟨["self", "probability_distribution_factory", "constraint_factory"], [],
  (.seq (.assign (.self "_var") (.dict .nil))
    (.seq (.assign (.self "_constants") (.dict .nil))
    (.seq (.assign (.self "_number_of_times_set") (.dict .nil))
    (.seq (.assign (.self "_probability_distribution_factory") (.name "probability_distribution_factory"))
    (.seq (.assign (.self "_constraint_factory") (.name "constraint_factory"))
    .done)))))⟩

/-- `probability_distribution/probability_distribution_state.py:24-25`. -/
def Text.ProbabilityDistributionState.get_var_dict : PyFun := ⟨["self"], [],
  (.seq (.ret (.self "_var"))
    .done)⟩

/-- `probability_distribution/probability_distribution_state.py:27-28`. -/
def Text.ProbabilityDistributionState.get_constant_dict : PyFun := ⟨["self"], [],
  (.seq (.ret (.self "_constants"))
    .done)⟩

/-- `probability_distribution/probability_distribution_state.py:30-31`. -/
def Text.ProbabilityDistributionState.has_constant : PyFun := ⟨["self", "name"], [],
  (.seq (.ret (.cmp .isIn (.name "name") (.self "_constants")))
    .done)⟩

/-- `probability_distribution/probability_distribution_state.py:33-34`. -/
def Text.ProbabilityDistributionState.has_var : PyFun := ⟨["self", "name"], [],
  (.seq (.ret (.cmp .isIn (.name "name") (.self "_var")))
    .done)⟩

/-- `probability_distribution/probability_distribution_state.py:36-39`. -/
def Text.ProbabilityDistributionState.get_constant : PyFun := ⟨["self", "name"], [],
  (.seq (.ifs (.not (.callSelf "has_constant" (.cons (.name "name") .nil))) (.seq (.raise (.callName "KeyError" (.cons (.fstr (.cons (.str ['C', 'o', 'n', 's', 't', 'a', 'n', 't', ' ', 'n', 'a', 'm', 'e', 'd', ' ']) (.cons (.name "name") (.cons (.str [' ', 'n', 'o', 't', ' ', 'i', 'n', ' ', 's', 't', 'a', 't', 'e', '.']) .nil)))) .nil)))
    .done) .done)
    (.seq (.ret (.index (.self "_constants") (.name "name")))
    .done))⟩

/-- `probability_distribution/probability_distribution_state.py:41-44`. -/
def Text.ProbabilityDistributionState.get_var : PyFun := ⟨["self", "name"], [],
  (.seq (.ifs (.not (.callSelf "has_var" (.cons (.name "name") .nil))) (.seq (.raise (.callName "KeyError" (.cons (.fstr (.cons (.str ['V', 'a', 'r', ' ', 'n', 'a', 'm', 'e', 'd', ' ']) (.cons (.name "name") (.cons (.str [' ', 'n', 'o', 't', ' ', 'i', 'n', ' ', 's', 't', 'a', 't', 'e', '.']) .nil)))) .nil)))
    .done) .done)
    (.seq (.ret (.index (.self "_var") (.name "name")))
    .done))⟩

/-- `probability_distribution/probability_distribution_state.py:46-50`. -/
def Text.ProbabilityDistributionState.set_constant : PyFun := ⟨["self", "name", "value"], [],
  (.seq (.assign (.index (.self "_constants") (.name "name")) (.name "value"))
    (.seq (.ifs (.cmp .notIn (.name "name") (.self "_number_of_times_set")) (.seq (.assign (.index (.self "_number_of_times_set") (.name "name")) (.int 0))
    .done) .done)
    (.seq (.aug .add (.index (.self "_number_of_times_set") (.name "name")) (.int 1))
    .done)))⟩

/-- `probability_distribution/probability_distribution_state.py:52-70`. -/
def Text.ProbabilityDistributionState.set_var : PyFun := ⟨["self", "name", "distribution"], [],
  (.seq (.ifs (.cmp .notIn (.name "name") (.self "_number_of_times_set")) (.seq (.assign (.index (.self "_number_of_times_set") (.name "name")) (.int 0))
    .done) .done)
    (.seq (.aug .add (.index (.self "_number_of_times_set") (.name "name")) (.int 1))
    (.seq (.assign (.name "new_name") (.fstr (.cons (.name "name") (.cons (.str ['_']) (.cons (.index (.self "_number_of_times_set") (.name "name")) .nil)))))
    (.seq (.assign (.name "new_probability_outcomes") (.dict .nil))
    (.seq (.for_ (.tuple (.cons (.name "old_probability_outcome") (.cons (.name "count") .nil))) (.callAttr (.callAttr (.name "distribution") "get_constraint_result_map" .nil) "items" .nil) (.seq (.assign (.name "new_constraint") (.callAttr (.self "_constraint_factory") "var_value_constraint" (.cons (.kw "name" (.name "new_name")) (.cons (.kw "values" (.set (.cons (.attr (.name "old_probability_outcome") "value") .nil))) .nil))))
    (.seq (.assign (.name "new_probability_outcome") (.callAttr (.name "copy") "deepcopy" (.cons (.name "old_probability_outcome") .nil)))
    (.seq (.expr (.callAttr (.attr (.name "new_probability_outcome") "constraint_set") "add_constraint" (.cons (.name "new_constraint") .nil)))
    (.seq (.assign (.index (.name "new_probability_outcomes") (.name "new_probability_outcome")) (.name "count"))
    .done)))))
    (.seq (.assign (.index (.self "_var") (.name "name")) (.callAttr (.self "_probability_distribution_factory") "create" (.cons (.name "new_probability_outcomes") .nil)))
    .done))))))⟩

/-- `probability_distribution/probability_distribution_state_factory.py:19-30`. -/
def Text.ProbabilityDistributionStateFactory.__init__ : PyFun := ⟨["self", "probability_distribution_factory", "constraint_factory"], [("probability_distribution_factory", .none), ("constraint_factory", .none)],
  (.seq (.ifs (.cmp .is (.name "probability_distribution_factory") .none) (.seq (.assign (.name "probability_distribution_factory") (.callName "ProbabilityDistributionFactory" .nil))
    .done) .done)
    (.seq (.ifs (.cmp .is (.name "constraint_factory") .none) (.seq (.assign (.name "constraint_factory") (.callName "ConstraintFactory" .nil))
    .done) .done)
    (.seq (.assign (.self "_probability_distribution_factory") (.name "probability_distribution_factory"))
    (.seq (.assign (.self "_constraint_factory") (.name "constraint_factory"))
    .done))))⟩

/-- `probability_distribution/probability_distribution_state_factory.py:32-36`. -/
def Text.ProbabilityDistributionStateFactory.create_new_empty_set : PyFun := ⟨["self"], [],
  (.seq (.ret (.callName "ProbabilityDistributionState" (.cons (.kw "probability_distribution_factory" (.self "_probability_distribution_factory")) (.cons (.kw "constraint_factory" (.self "_constraint_factory")) .nil))))
    .done)⟩

/-- `expression/dice_expression_helper.py:5-18`. -/
def Text._find_range : PyFun := ⟨["value"], [],
  (.seq (.assign (.name "split_range") (.callAttr (.name "re") "split" (.cons (.str ['-']) (.cons (.name "value") .nil))))
    (.seq (.ifs (.cmp .isNot (.callAttr (.name "re") "match" (.cons (.str ['\\', 'd', '+', '-', '-', '?', '\\', 'd', '+']) (.cons (.name "value") .nil))) .none) (.seq (.assign (.name "range_start") (.callName "int" (.cons (.index (.name "split_range") (.int 0)) .nil)))
    .done) (.seq (.assign (.name "range_start") (.neg (.callName "int" (.cons (.index (.name "split_range") (.int 1)) .nil))))
    .done))
    (.seq (.ifs (.cmp .isNot (.callAttr (.name "re") "match" (.cons (.str ['-', '?', '\\', 'd', '+', '-', '-', '\\', 'd', '+']) (.cons (.name "value") .nil))) .none) (.seq (.assign (.name "range_end") (.neg (.callName "int" (.cons (.index (.name "split_range") (.int (-1))) .nil))))
    .done) (.seq (.assign (.name "range_end") (.callName "int" (.cons (.index (.name "split_range") (.int (-1))) .nil)))
    .done))
    (.seq (.ret (.callName "range" (.cons (.callName "min" (.cons (.name "range_start") (.cons (.name "range_end") .nil))) (.cons (.bin .add (.callName "max" (.cons (.name "range_start") (.cons (.name "range_end") .nil))) (.int 1)) .nil))))
    .done))))⟩

/-- `expression/dice_expression_helper.py:21-47`. -/
def Text.get_single_dice_outcome_map : PyFun := ⟨["dice_type_string"], [],
  (.defn "safe_add" ["dictionary", "value", "amount"] (.seq (.ifs (.cmp .notIn (.name "value") (.name "dictionary")) (.seq (.assign (.index (.name "dictionary") (.name "value")) (.int 0))
    .done) .done)
    (.seq (.aug .add (.index (.name "dictionary") (.name "value")) (.name "amount"))
    .done))
    (.seq (.ifs (.cmp .isNot (.callAttr (.name "re") "match" (.cons (.str ['\\', 'd', '+']) (.cons (.name "dice_type_string") .nil))) .none) (.seq (.assign (.name "value_dictionary") (.dictComp (.name "value") (.int 1) (.name "value") (.callName "range" (.cons (.int 1) (.cons (.bin .add (.callName "int" (.cons (.name "dice_type_string") .nil)) (.int 1)) .nil)))))
    .done) (.seq (.ifs (.cmp .eq (.name "dice_type_string") (.str ['%'])) (.seq (.assign (.name "value_dictionary") (.dictComp (.name "value") (.int 1) (.name "value") (.callName "range" (.cons (.int 1) (.cons (.bin .add (.int 100) (.int 1)) .nil)))))
    .done) (.seq (.ifs (.cmp .eq (.name "dice_type_string") (.str ['F'])) (.seq (.assign (.name "value_dictionary") (.dict (.cons (.int (-1)) (.cons (.int 1) (.cons (.int 0) (.cons (.int 1) (.cons (.int 1) (.cons (.int 1) .nil))))))))
    .done) (.seq (.assign (.name "value_dictionary") (.dict .nil))
    (.seq (.for_ (.name "value") (.callAttr (.name "re") "split" (.cons (.str [',']) (.cons (.callAttr (.name "re") "sub" (.cons (.str ['(', '\\', '[', '|', '\\', ']', '|', '\\', 's', '+', ')']) (.cons (.str []) (.cons (.name "dice_type_string") .nil)))) .nil))) (.seq (.assign (.name "multiplier") (.str ['1']))
    (.seq (.ifs (.cmp .isNot (.callAttr (.name "re") "match" (.cons (.str ['(', '-', '?', '\\', 'd', '+', '-', '-', '?', '\\', 'd', '+', '|', '-', '?', '\\', 'd', '+', ')', '\\', '*', '\\', 'd', '+']) (.cons (.name "value") .nil))) .none) (.seq (.assign (.tuple (.cons (.name "value") (.cons (.name "multiplier") .nil))) (.callAttr (.name "re") "split" (.cons (.str ['\\', '*']) (.cons (.name "value") .nil))))
    .done) .done)
    (.seq (.ifs (.cmp .isNot (.callAttr (.name "re") "match" (.cons (.str ['-', '?', '\\', 'd', '+', '-', '-', '?', '\\', 'd', '+']) (.cons (.name "value") .nil))) .none) (.seq (.assign (.name "range_values") (.callName "_find_range" (.cons (.name "value") .nil)))
    .done) (.seq (.assign (.name "range_values") (.list (.cons (.callName "int" (.cons (.name "value") .nil)) .nil)))
    .done))
    (.seq (.for_ (.name "key") (.name "range_values") (.seq (.expr (.callName "safe_add" (.cons (.name "value_dictionary") (.cons (.name "key") (.cons (.callName "int" (.cons (.name "multiplier") .nil)) .nil)))))
    .done))
    .done)))))
    .done)))
    .done))
    .done))
    (.seq (.ret (.name "value_dictionary"))
    .done)))⟩

/-- `expression/dice_expression.py:15`. -/
def Text.DiceExpression.TOKEN_RULE : PyE :=
  (.str ['e', 'x', 'p', 'r', 'e', 's', 's', 'i', 'o', 'n', ' ', ':', ' ', 'D', 'I', 'C', 'E'])

/-- `expression/dice_expression.py:18-25` (`@staticmethod`). -/
def Text.DiceExpression.add_production_function : PyFun := ⟨["parser_generator", "probability_distribution_factory"], [],
  (.defn "dice" ["_", "tokens"] (.seq (.ret (.callName "DiceExpression" (.cons (.attr (.index (.name "tokens") (.int 0)) "value") (.cons (.name "probability_distribution_factory") .nil))))
    .done)
    (.seq (.expr (.callE (.callAttr (.name "parser_generator") "production" (.cons (.attr (.name "DiceExpression") "TOKEN_RULE") .nil)) (.cons (.name "dice") .nil)))
    (.seq (.ret (.name "dice"))
    .done)))⟩

/-- `expression/dice_expression.py:22-23`. -/
def Text.DiceExpression.production : PyFun := ⟨["_", "tokens"], [],
  (.seq (.ret (.callName "DiceExpression" (.cons (.attr (.index (.name "tokens") (.int 0)) "value") (.cons (.name "probability_distribution_factory") .nil))))
    .done)⟩

/-- `expression/dice_expression.py:27-31`. -/
def Text.DiceExpression.__init__ : PyFun := ⟨["self", "string_form", "probability_distribution_factory"], [],
  (.seq (.assign (.self "_string_form") (.name "string_form"))
    (.seq (.assign (.self "_single_dice_outcome_map") (.callName "get_single_dice_outcome_map" (.cons (.index (.callAttr (.self "_string_form") "split" (.cons (.str ['d']) .nil)) (.int 1)) .nil)))
    (.seq (.assign (.self "_number_of_dice") (.callSelf "_get_number_of_dice" .nil))
    (.seq (.assign (.self "_probability_distribution_factory") (.name "probability_distribution_factory"))
    .done))))⟩

/-- `expression/dice_expression.py:33-35`. -/
def Text.DiceExpression._get_number_of_dice : PyFun := ⟨["self"], [],
  (.seq (.assign (.name "string_num") (.index (.callAttr (.self "_string_form") "split" (.cons (.str ['d']) .nil)) (.int 0)))
    (.seq (.ret (.ite (.cmp .eq (.name "string_num") (.str [])) (.int 1) (.callName "int" (.cons (.name "string_num") .nil))))
    .done))⟩

/-- `expression/dice_expression.py:37-44`. -/
def Text.DiceExpression.roll : PyFun := ⟨["self"], [],
  (.seq (.ret (.callName "sum" (.cons (.callAttr (.name "random") "choices" (.cons (.callName "list" (.cons (.callAttr (.self "_single_dice_outcome_map") "keys" .nil) .nil)) (.cons (.kw "weights" (.callName "list" (.cons (.callAttr (.self "_single_dice_outcome_map") "values" .nil) .nil))) (.cons (.kw "k" (.self "_number_of_dice")) .nil)))) .nil)))
    .done)⟩

/-- `expression/dice_expression.py:46-47`. -/
def Text.DiceExpression.max : PyFun := ⟨["self"], [],
  (.seq (.ret (.bin .mul (.callName "max" (.cons (.callAttr (.self "_single_dice_outcome_map") "keys" .nil) .nil)) (.self "_number_of_dice")))
    .done)⟩

/-- `expression/dice_expression.py:49-50`. -/
def Text.DiceExpression.min : PyFun := ⟨["self"], [],
  (.seq (.ret (.bin .mul (.callName "min" (.cons (.callAttr (.self "_single_dice_outcome_map") "keys" .nil) .nil)) (.self "_number_of_dice")))
    .done)⟩

/-- `expression/dice_expression.py:52-53`. -/
def Text.DiceExpression.estimated_cost : PyFun := ⟨["self"], [],
  (.seq (.ret (.bin .mul (.self "_number_of_dice") (.callName "len" (.cons (.callAttr (.self "_single_dice_outcome_map") "values" .nil) .nil))))
    .done)⟩

/-- `expression/dice_expression.py:55-56`. -/
def Text.DiceExpression.__str__ : PyFun := ⟨["self"], [],
  (.seq (.ret (.fstr (.cons (.self "_string_form") .nil)))
    .done)⟩

/-- `expression/dice_expression.py:58-67`. -/
def Text.DiceExpression.get_probability_distribution : PyFun := ⟨["self"], [],
  (.seq (.assign (.name "single_dice_distribution") (.callAttr (.self "_probability_distribution_factory") "create" (.cons (.self "_single_dice_outcome_map") .nil)))
    (.seq (.assign (.name "distribution") (.callAttr (.self "_probability_distribution_factory") "create" (.cons (.callAttr (.name "single_dice_distribution") "get_result_map" .nil) .nil)))
    (.seq (.for_ (.name "_") (.callName "range" (.cons (.int 0) (.cons (.bin .sub (.self "_number_of_dice") (.int 1)) .nil))) (.seq (.assign (.name "distribution") (.bin .add (.name "distribution") (.name "single_dice_distribution")))
    .done))
    (.seq (.ret (.name "distribution"))
    .done))))⟩

/-- `expression/dice_expression.py:69-72`. -/
def Text.DiceExpression.get_contained_variables : PyFun := ⟨["self"], [],
  (.seq (.ret (.callName "set" .nil))
    .done)⟩

/-- `expression/drop_keep_expression.py:18`. -/
def Text.DropKeepExpression.TOKEN_RULE : PyE :=
  (.str ['e', 'x', 'p', 'r', 'e', 's', 's', 'i', 'o', 'n', ' ', ':', ' ', 'D', 'R', 'O', 'P', '_', 'K', 'E', 'E', 'P', '_', 'D', 'I', 'C', 'E'])

/-- `expression/drop_keep_expression.py:21-28` (`@staticmethod`). -/
def Text.DropKeepExpression.add_production_function : PyFun := ⟨["parser_generator", "probability_distribution_factory"], [],
  (.defn "drop_keep" ["_", "tokens"] (.seq (.ret (.callName "DropKeepExpression" (.cons (.attr (.index (.name "tokens") (.int 0)) "value") (.cons (.name "probability_distribution_factory") .nil))))
    .done)
    (.seq (.expr (.callE (.callAttr (.name "parser_generator") "production" (.cons (.attr (.name "DropKeepExpression") "TOKEN_RULE") .nil)) (.cons (.name "drop_keep") .nil)))
    (.seq (.ret (.name "drop_keep"))
    .done)))⟩

/-- `expression/drop_keep_expression.py:25-26`. -/
def Text.DropKeepExpression.production : PyFun := ⟨["_", "tokens"], [],
  (.seq (.ret (.callName "DropKeepExpression" (.cons (.attr (.index (.name "tokens") (.int 0)) "value") (.cons (.name "probability_distribution_factory") .nil))))
    .done)⟩

/-- `expression/drop_keep_expression.py:30-53`. -/
def Text.DropKeepExpression.__init__ : PyFun := ⟨["self", "string_form", "probability_distribution_factory"], [],
  (.seq (.assign (.self "_string_form") (.name "string_form"))
    (.seq (.assign (.self "_number_of_dice") (.callSelf "_get_number_of_dice" .nil))
    (.seq (.assign (.self "_single_dice_outcome_map") (.callName "get_single_dice_outcome_map" (.cons (.index (.callAttr (.name "re") "split" (.cons (.str ['[', 'd', 'k', ']']) (.cons (.self "_string_form") .nil))) (.int 1)) .nil)))
    (.seq (.assign (.self "_number_to_keep_or_drop") (.callSelf "_get_number_to_keep_or_drop" .nil))
    (.seq (.assign (.self "_simplified_form") .none)
    (.seq (.assign (.self "_probability_distribution_factory") (.name "probability_distribution_factory"))
    (.seq (.ifs (.callSelf "_is_keep" .nil) (.seq (.ifs (.cmp .le (.self "_number_of_dice") (.self "_number_to_keep_or_drop")) (.seq (.assign (.self "_simplified_form") (.callName "DiceExpression" (.cons (.fstr (.cons (.self "_number_of_dice") (.cons (.str ['d']) (.cons (.callSelf "_get_number_of_sides_string" .nil) .nil)))) (.cons (.self "_probability_distribution_factory") .nil))))
    .done) (.seq (.ifs (.cmp .eq (.self "_number_to_keep_or_drop") (.int 0)) (.seq (.assign (.self "_simplified_form") (.callName "ConstantIntegerExpression" (.cons (.str ['0']) (.cons (.self "_probability_distribution_factory") .nil))))
    .done) .done)
    .done))
    .done) (.seq (.ifs (.cmp .le (.self "_number_of_dice") (.self "_number_to_keep_or_drop")) (.seq (.assign (.self "_simplified_form") (.callName "ConstantIntegerExpression" (.cons (.str ['0']) (.cons (.self "_probability_distribution_factory") .nil))))
    .done) (.seq (.ifs (.cmp .eq (.self "_number_to_keep_or_drop") (.int 0)) (.seq (.assign (.self "_simplified_form") (.callName "DiceExpression" (.cons (.fstr (.cons (.self "_number_of_dice") (.cons (.str ['d']) (.cons (.callSelf "_get_number_of_sides_string" .nil) .nil)))) (.cons (.self "_probability_distribution_factory") .nil))))
    .done) .done)
    .done))
    .done))
    .done)))))))⟩

/-- `expression/drop_keep_expression.py:55-57`. -/
def Text.DropKeepExpression._get_number_of_dice : PyFun := ⟨["self"], [],
  (.seq (.assign (.name "string_num") (.index (.callAttr (.name "re") "split" (.cons (.str ['[', 'd', 'k', ']']) (.cons (.self "_string_form") .nil))) (.int 0)))
    (.seq (.ret (.ite (.cmp .eq (.name "string_num") (.str [])) (.int 1) (.callName "int" (.cons (.name "string_num") .nil))))
    .done))⟩

/-- `expression/drop_keep_expression.py:59-60`. -/
def Text.DropKeepExpression._get_number_to_keep_or_drop : PyFun := ⟨["self"], [],
  (.seq (.ret (.callName "int" (.cons (.index (.callAttr (.name "re") "split" (.cons (.str ['[', 'd', 'k', ']']) (.cons (.self "_string_form") .nil))) (.int 2)) .nil)))
    .done)⟩

/-- `expression/drop_keep_expression.py:62-63`. -/
def Text.DropKeepExpression._get_number_of_sides_string : PyFun := ⟨["self"], [],
  (.seq (.ret (.index (.callAttr (.name "re") "split" (.cons (.str ['[', 'd', 'k', ']']) (.cons (.self "_string_form") .nil))) (.int 1)))
    .done)⟩

/-- `expression/drop_keep_expression.py:65-66`. -/
def Text.DropKeepExpression._is_keep : PyFun := ⟨["self"], [],
  (.seq (.ret (.cmp .isIn (.str ['k']) (.self "_string_form")))
    .done)⟩

/-- `expression/drop_keep_expression.py:68-80`. -/
def Text.DropKeepExpression.roll : PyFun := ⟨["self"], [],
  (.seq (.ifs (.cmp .isNot (.self "_simplified_form") .none) (.seq (.ret (.callAttr (.self "_simplified_form") "roll" .nil))
    .done) .done)
    (.seq (.assign (.name "dice_rolls") (.callAttr (.name "random") "choices" (.cons (.callName "list" (.cons (.callAttr (.self "_single_dice_outcome_map") "keys" .nil) .nil)) (.cons (.kw "weights" (.callName "list" (.cons (.callAttr (.self "_single_dice_outcome_map") "values" .nil) .nil))) (.cons (.kw "k" (.self "_number_of_dice")) .nil)))))
    (.seq (.expr (.callAttr (.name "dice_rolls") "sort" .nil))
    (.seq (.ifs (.callSelf "_is_keep" .nil) (.seq (.ret (.callName "sum" (.cons (.slice (.name "dice_rolls") (.neg (.self "_number_to_keep_or_drop")) .none) .nil)))
    .done) .done)
    (.seq (.ret (.callName "sum" (.cons (.slice (.name "dice_rolls") .none (.bin .sub (.self "_number_of_dice") (.self "_number_to_keep_or_drop"))) .nil)))
    .done)))))⟩

/-- `expression/drop_keep_expression.py:82-88`. -/
def Text.DropKeepExpression.max : PyFun := ⟨["self"], [],
  (.seq (.ifs (.cmp .isNot (.self "_simplified_form") .none) (.seq (.ret (.callAttr (.self "_simplified_form") "max" .nil))
    .done) .done)
    (.seq (.ifs (.callSelf "_is_keep" .nil) (.seq (.ret (.bin .mul (.self "_number_to_keep_or_drop") (.callName "max" (.cons (.callAttr (.self "_single_dice_outcome_map") "keys" .nil) .nil))))
    .done) .done)
    (.seq (.ret (.bin .mul (.bin .sub (.self "_number_of_dice") (.self "_number_to_keep_or_drop")) (.callName "max" (.cons (.callAttr (.self "_single_dice_outcome_map") "keys" .nil) .nil))))
    .done)))⟩

/-- `expression/drop_keep_expression.py:90-96`. -/
def Text.DropKeepExpression.min : PyFun := ⟨["self"], [],
  (.seq (.ifs (.cmp .isNot (.self "_simplified_form") .none) (.seq (.ret (.callAttr (.self "_simplified_form") "min" .nil))
    .done) .done)
    (.seq (.ifs (.callSelf "_is_keep" .nil) (.seq (.ret (.bin .mul (.self "_number_to_keep_or_drop") (.callName "min" (.cons (.callAttr (.self "_single_dice_outcome_map") "keys" .nil) .nil))))
    .done) .done)
    (.seq (.ret (.bin .mul (.bin .sub (.self "_number_of_dice") (.self "_number_to_keep_or_drop")) (.callName "min" (.cons (.callAttr (.self "_single_dice_outcome_map") "keys" .nil) .nil))))
    .done)))⟩

/-- `expression/drop_keep_expression.py:98-99`. -/
def Text.DropKeepExpression.__str__ : PyFun := ⟨["self"], [],
  (.seq (.ret (.fstr (.cons (.self "_string_form") .nil)))
    .done)⟩

/-- `expression/drop_keep_expression.py:101-109`. -/
def Text.DropKeepExpression.estimated_cost : PyFun := ⟨["self"], [],
  (.seq (.ifs (.cmp .isNot (.self "_simplified_form") .none) (.seq (.ret (.callAttr (.self "_simplified_form") "estimated_cost" .nil))
    .done) .done)
    (.seq (.ifs (.callSelf "_is_keep" .nil) (.seq (.ret (.bin .mul (.bin .mul (.self "_number_of_dice") (.self "_number_to_keep_or_drop")) (.callName "len" (.cons (.callAttr (.self "_single_dice_outcome_map") "values" .nil) .nil))))
    .done) .done)
    (.seq (.ret (.bin .mul (.bin .mul (.self "_number_of_dice") (.bin .sub (.self "_number_of_dice") (.self "_number_to_keep_or_drop"))) (.callName "len" (.cons (.callAttr (.self "_single_dice_outcome_map") "values" .nil) .nil))))
    .done)))⟩

/-- `expression/drop_keep_expression.py:111-128`. -/
def Text.DropKeepExpression.get_probability_distribution : PyFun := ⟨["self"], [],
  (.seq (.ifs (.cmp .isNot (.self "_simplified_form") .none) (.seq (.ret (.callAttr (.self "_simplified_form") "get_probability_distribution" .nil))
    .done) .done)
    (.seq (.assign (.name "is_keep") (.callSelf "_is_keep" .nil))
    (.seq (.assign (.name "number_of_dice_to_select") (.bin .sub (.self "_number_of_dice") (.self "_number_to_keep_or_drop")))
    (.seq (.assign (.name "number_of_dice_remaining") (.self "_number_to_keep_or_drop"))
    (.seq (.ifs (.name "is_keep") (.seq (.assign (.name "number_of_dice_to_select") (.self "_number_to_keep_or_drop"))
    (.seq (.assign (.name "number_of_dice_remaining") (.bin .sub (.self "_number_of_dice") (.self "_number_to_keep_or_drop")))
    .done)) .done)
    (.seq (.assign (.name "current") (.callAttr (.name "DropKeepExpression") "_build_dice_dict" (.cons (.name "number_of_dice_to_select") (.cons (.self "_single_dice_outcome_map") .nil))))
    (.seq (.assign (.name "current") (.callAttr (.name "DropKeepExpression") "_compute_iterations" (.cons (.name "current") (.cons (.name "number_of_dice_remaining") (.cons (.self "_single_dice_outcome_map") (.cons (.name "is_keep") .nil))))))
    (.seq (.assign (.name "out_come_map") (.callAttr (.name "DropKeepExpression") "_collapse_outcomes" (.cons (.name "current") .nil)))
    (.seq (.ret (.callAttr (.self "_probability_distribution_factory") "create" (.cons (.name "out_come_map") .nil)))
    .done)))))))))⟩

/-- `expression/drop_keep_expression.py:131-151` (`@staticmethod`). -/
def Text.DropKeepExpression._build_dice_dict : PyFun := ⟨["number_of_dice", "dice_outcome_map"], [],
  (.defn "safe_add_to_dict" ["dictionary", "key", "value"] (.seq (.ifs (.cmp .notIn (.name "key") (.name "dictionary")) (.seq (.assign (.index (.name "dictionary") (.name "key")) (.int 0))
    .done) .done)
    (.seq (.aug .add (.index (.name "dictionary") (.name "key")) (.name "value"))
    .done))
    (.seq (.assign (.name "current_dict") (.dict (.cons (.str []) (.cons (.int 1) .nil))))
    (.seq (.for_ (.name "_") (.callName "range" (.cons (.name "number_of_dice") .nil)) (.seq (.assign (.name "new_dict") (.dict .nil))
    (.seq (.for_ (.tuple (.cons (.name "dice_outcome") (.cons (.name "count") .nil))) (.callAttr (.name "dice_outcome_map") "items" .nil) (.seq (.for_ (.tuple (.cons (.name "old_key") (.cons (.name "old_value") .nil))) (.callAttr (.name "current_dict") "items" .nil) (.seq (.assign (.name "new_key") (.callAttr (.name "DropKeepExpression") "_string_key_to_list" (.cons (.name "old_key") .nil)))
    (.seq (.expr (.callAttr (.name "new_key") "append" (.cons (.name "dice_outcome") .nil)))
    (.seq (.expr (.callAttr (.name "new_key") "sort" .nil))
    (.seq (.expr (.callName "safe_add_to_dict" (.cons (.name "new_dict") (.cons (.callAttr (.name "DropKeepExpression") "_int_list_to_string" (.cons (.name "new_key") .nil)) (.cons (.bin .mul (.name "old_value") (.name "count")) .nil)))))
    .done)))))
    .done))
    (.seq (.assign (.name "current_dict") (.name "new_dict"))
    .done))))
    (.seq (.ret (.name "current_dict"))
    .done))))⟩

/-- `expression/drop_keep_expression.py:154-157` (`@staticmethod`). -/
def Text.DropKeepExpression._string_key_to_list : PyFun := ⟨["string"], [],
  (.seq (.ifs (.cmp .eq (.name "string") (.str [])) (.seq (.ret (.list .nil))
    .done) .done)
    (.seq (.ret (.listComp (.callName "int" (.cons (.name "n") .nil)) (.name "n") (.callAttr (.name "string") "split" (.cons (.str ['|']) .nil))))
    .done))⟩

/-- `expression/drop_keep_expression.py:160-162` (`@staticmethod`). -/
def Text.DropKeepExpression._int_list_to_string : PyFun := ⟨["values"], [],
  (.seq (.expr (.callAttr (.name "values") "sort" .nil))
    (.seq (.ret (.callAttr (.str ['|']) "join" (.cons (.listComp (.callName "str" (.cons (.name "n") .nil)) (.name "n") (.name "values")) .nil)))
    .done))⟩

/-- `expression/drop_keep_expression.py:165-173` (`@staticmethod`). -/
def Text.DropKeepExpression._update_key_list : PyFun := ⟨["old_key_string", "new_value", "is_keep"], [],
  (.seq (.assign (.name "old_value") (.callAttr (.name "DropKeepExpression") "_string_key_to_list" (.cons (.name "old_key_string") .nil)))
    (.seq (.expr (.callAttr (.name "old_value") "append" (.cons (.name "new_value") .nil)))
    (.seq (.expr (.callAttr (.name "old_value") "sort" .nil))
    (.seq (.ifs (.name "is_keep") (.seq (.assign (.name "old_value") (.slice (.name "old_value") (.int 1) .none))
    .done) (.seq (.assign (.name "old_value") (.slice (.name "old_value") .none (.int (-1))))
    .done))
    (.seq (.ret (.callAttr (.name "DropKeepExpression") "_int_list_to_string" (.cons (.name "old_value") .nil)))
    .done)))))⟩

/-- `expression/drop_keep_expression.py:176-195` (`@staticmethod`). -/
def Text.DropKeepExpression._compute_iterations : PyFun := ⟨["current", "number_of_dice", "dice_outcome_map", "is_keep"], [],
  (.defn "safe_add_to_dict" ["dictionary", "key", "value"] (.seq (.ifs (.cmp .notIn (.name "key") (.name "dictionary")) (.seq (.assign (.index (.name "dictionary") (.name "key")) (.int 0))
    .done) .done)
    (.seq (.aug .add (.index (.name "dictionary") (.name "key")) (.name "value"))
    .done))
    (.seq (.assign (.name "current_dict") (.name "current"))
    (.seq (.for_ (.name "_") (.callName "range" (.cons (.name "number_of_dice") .nil)) (.seq (.assign (.name "new_dict") (.dict .nil))
    (.seq (.for_ (.tuple (.cons (.name "dice_outcome") (.cons (.name "count") .nil))) (.callAttr (.name "dice_outcome_map") "items" .nil) (.seq (.for_ (.tuple (.cons (.name "old_key") (.cons (.name "old_value") .nil))) (.callAttr (.name "current_dict") "items" .nil) (.seq (.assign (.name "new_key") (.callAttr (.name "DropKeepExpression") "_update_key_list" (.cons (.name "old_key") (.cons (.name "dice_outcome") (.cons (.name "is_keep") .nil)))))
    (.seq (.expr (.callName "safe_add_to_dict" (.cons (.name "new_dict") (.cons (.name "new_key") (.cons (.bin .mul (.name "old_value") (.name "count")) .nil)))))
    .done)))
    .done))
    (.seq (.assign (.name "current_dict") (.name "new_dict"))
    .done))))
    (.seq (.ret (.name "current_dict"))
    .done))))⟩

/-- `expression/drop_keep_expression.py:198-208` (`@staticmethod`). -/
def Text.DropKeepExpression._collapse_outcomes : PyFun := ⟨["outcomes"], [],
  (.defn "safe_add_to_dict" ["dictionary", "key", "value"] (.seq (.ifs (.cmp .notIn (.name "key") (.name "dictionary")) (.seq (.assign (.index (.name "dictionary") (.name "key")) (.int 0))
    .done) .done)
    (.seq (.aug .add (.index (.name "dictionary") (.name "key")) (.name "value"))
    .done))
    (.seq (.assign (.name "new_dict") (.dict .nil))
    (.seq (.for_ (.tuple (.cons (.name "current_key") (.cons (.name "current_value") .nil))) (.callAttr (.name "outcomes") "items" .nil) (.seq (.assign (.name "total") (.callName "sum" (.cons (.callAttr (.name "DropKeepExpression") "_string_key_to_list" (.cons (.name "current_key") .nil)) .nil)))
    (.seq (.expr (.callName "safe_add_to_dict" (.cons (.name "new_dict") (.cons (.name "total") (.cons (.name "current_value") .nil)))))
    .done)))
    (.seq (.ret (.name "new_dict"))
    .done))))⟩

/-- `expression/drop_keep_expression.py:210-213`. -/
def Text.DropKeepExpression.get_contained_variables : PyFun := ⟨["self"], [],
  (.seq (.ret (.callName "set" .nil))
    .done)⟩

/-- `expression/constant_integer_expression.py:13`. -/
def Text.ConstantIntegerExpression.TOKEN_RULE : PyE :=
  (.str ['e', 'x', 'p', 'r', 'e', 's', 's', 'i', 'o', 'n', ' ', ':', ' ', 'C', 'O', 'N', 'S', 'T', 'A', 'N', 'T', '_', 'I', 'N', 'T', 'E', 'G', 'E', 'R'])

/-- `expression/constant_integer_expression.py:16-23` (`@staticmethod`). -/
def Text.ConstantIntegerExpression.add_production_function : PyFun := ⟨["parser_generator", "probability_distribution_factory"], [],
  (.defn "constant_integer" ["_", "tokens"] (.seq (.ret (.callName "ConstantIntegerExpression" (.cons (.attr (.index (.name "tokens") (.int 0)) "value") (.cons (.name "probability_distribution_factory") .nil))))
    .done)
    (.seq (.expr (.callE (.callAttr (.name "parser_generator") "production" (.cons (.attr (.name "ConstantIntegerExpression") "TOKEN_RULE") .nil)) (.cons (.name "constant_integer") .nil)))
    (.seq (.ret (.name "constant_integer"))
    .done)))⟩

/-- `expression/constant_integer_expression.py:20-21`. -/
def Text.ConstantIntegerExpression.production : PyFun := ⟨["_", "tokens"], [],
  (.seq (.ret (.callName "ConstantIntegerExpression" (.cons (.attr (.index (.name "tokens") (.int 0)) "value") (.cons (.name "probability_distribution_factory") .nil))))
    .done)⟩

/-- `expression/constant_integer_expression.py:25-27`. -/
def Text.ConstantIntegerExpression.__init__ : PyFun := ⟨["self", "number", "probability_distribution_factory"], [],
  (.seq (.assign (.self "_number") (.name "number"))
    (.seq (.assign (.self "_probability_distribution_factory") (.name "probability_distribution_factory"))
    .done))⟩

/-- `expression/constant_integer_expression.py:29-30`. -/
def Text.ConstantIntegerExpression.roll : PyFun := ⟨["self"], [],
  (.seq (.ret (.callName "int" (.cons (.self "_number") .nil)))
    .done)⟩

/-- `expression/constant_integer_expression.py:32-33`. -/
def Text.ConstantIntegerExpression.max : PyFun := ⟨["self"], [],
  (.seq (.ret (.callName "int" (.cons (.self "_number") .nil)))
    .done)⟩

/-- `expression/constant_integer_expression.py:35-36`. -/
def Text.ConstantIntegerExpression.min : PyFun := ⟨["self"], [],
  (.seq (.ret (.callName "int" (.cons (.self "_number") .nil)))
    .done)⟩

/-- `expression/constant_integer_expression.py:38-39`. -/
def Text.ConstantIntegerExpression.__str__ : PyFun := ⟨["self"], [],
  (.seq (.ret (.self "_number"))
    .done)⟩

/-- `expression/constant_integer_expression.py:41-42`. -/
def Text.ConstantIntegerExpression.estimated_cost : PyFun := ⟨["self"], [],
  (.seq (.ret (.int 2))
    .done)⟩

/-- `expression/constant_integer_expression.py:44-45`. -/
def Text.ConstantIntegerExpression.get_probability_distribution : PyFun := ⟨["self"], [],
  (.seq (.ret (.callAttr (.self "_probability_distribution_factory") "create" (.cons (.dict (.cons (.callName "int" (.cons (.self "_number") .nil)) (.cons (.int 1) .nil))) .nil)))
    .done)⟩

/-- `expression/constant_integer_expression.py:47-50`. -/
def Text.ConstantIntegerExpression.get_contained_variables : PyFun := ⟨["self"], [],
  (.seq (.ret (.callName "set" .nil))
    .done)⟩

/-- `expression/constant_binary_expression.py:13`. -/
def Text.ConstantBinaryExpression.TOKEN_RULE : PyE :=
  (.str ['e', 'x', 'p', 'r', 'e', 's', 's', 'i', 'o', 'n', ' ', ':', ' ', 'C', 'O', 'N', 'S', 'T', 'A', 'N', 'T', '_', 'B', 'I', 'N', 'A', 'R', 'Y'])

/-- `expression/constant_binary_expression.py:16-23` (`@staticmethod`). -/
def Text.ConstantBinaryExpression.add_production_function : PyFun := ⟨["parser_generator", "probability_distribution_factory"], [],
  (.defn "constant_binary" ["_", "tokens"] (.seq (.ret (.callName "ConstantBinaryExpression" (.cons (.attr (.index (.name "tokens") (.int 0)) "value") (.cons (.name "probability_distribution_factory") .nil))))
    .done)
    (.seq (.expr (.callE (.callAttr (.name "parser_generator") "production" (.cons (.attr (.name "ConstantBinaryExpression") "TOKEN_RULE") .nil)) (.cons (.name "constant_binary") .nil)))
    (.seq (.ret (.name "constant_binary"))
    .done)))⟩

/-- `expression/constant_binary_expression.py:20-21`. -/
def Text.ConstantBinaryExpression.production : PyFun := ⟨["_", "tokens"], [],
  (.seq (.ret (.callName "ConstantBinaryExpression" (.cons (.attr (.index (.name "tokens") (.int 0)) "value") (.cons (.name "probability_distribution_factory") .nil))))
    .done)⟩

/-- `expression/constant_binary_expression.py:25-27`. -/
def Text.ConstantBinaryExpression.__init__ : PyFun := ⟨["self", "binary_string", "probability_distribution_factory"], [],
  (.seq (.assign (.self "_binary_string") (.name "binary_string"))
    (.seq (.assign (.self "_probability_distribution_factory") (.name "probability_distribution_factory"))
    .done))⟩

/-- `expression/constant_binary_expression.py:29-30`. -/
def Text.ConstantBinaryExpression._get_value : PyFun := ⟨["self"], [],
  (.seq (.ret (.ite (.cmp .eq (.self "_binary_string") (.str ['T', 'r', 'u', 'e'])) (.int 1) (.int 0)))
    .done)⟩

/-- `expression/constant_binary_expression.py:32-33`. -/
def Text.ConstantBinaryExpression.roll : PyFun := ⟨["self"], [],
  (.seq (.ret (.callSelf "_get_value" .nil))
    .done)⟩

/-- `expression/constant_binary_expression.py:35-36`. -/
def Text.ConstantBinaryExpression.max : PyFun := ⟨["self"], [],
  (.seq (.ret (.callSelf "_get_value" .nil))
    .done)⟩

/-- `expression/constant_binary_expression.py:38-39`. -/
def Text.ConstantBinaryExpression.min : PyFun := ⟨["self"], [],
  (.seq (.ret (.callSelf "_get_value" .nil))
    .done)⟩

/-- `expression/constant_binary_expression.py:41-42`. -/
def Text.ConstantBinaryExpression.__str__ : PyFun := ⟨["self"], [],
  (.seq (.ret (.self "_binary_string"))
    .done)⟩

/-- `expression/constant_binary_expression.py:44-45`. -/
def Text.ConstantBinaryExpression.estimated_cost : PyFun := ⟨["self"], [],
  (.seq (.ret (.int 2))
    .done)⟩

/-- `expression/constant_binary_expression.py:47-48`. -/
def Text.ConstantBinaryExpression.get_probability_distribution : PyFun := ⟨["self"], [],
  (.seq (.ret (.callAttr (.self "_probability_distribution_factory") "create" (.cons (.dict (.cons (.callSelf "_get_value" .nil) (.cons (.int 1) .nil))) .nil)))
    .done)⟩

/-- `expression/constant_binary_expression.py:50-53`. -/
def Text.ConstantBinaryExpression.get_contained_variables : PyFun := ⟨["self"], [],
  (.seq (.ret (.callName "set" .nil))
    .done)⟩

/-- `expression/parentheses_enclosed_expression.py:13`. -/
def Text.ParenthesisEnclosedExpression.RULE : PyE :=
  (.str ['e', 'x', 'p', 'r', 'e', 's', 's', 'i', 'o', 'n', ' ', ':', ' ', 'O', 'P', 'E', 'N', '_', 'P', 'A', 'R', 'E', 'N', 'T', 'H', 'E', 'S', 'I', 'S', ' ', 'e', 'x', 'p', 'r', 'e', 's', 's', 'i', 'o', 'n', ' ', 'C', 'L', 'O', 'S', 'E', '_', 'P', 'A', 'R', 'E', 'N', 'T', 'H', 'E', 'S', 'I', 'S'])

/-- `expression/parentheses_enclosed_expression.py:16-23` (`@staticmethod`). -/
def Text.ParenthesisEnclosedExpression.add_production_function : PyFun := ⟨["parser_generator", "probability_distribution_factory"], [],
  (.defn "parenthesis_enclosed" ["_", "tokens"] (.seq (.ret (.callName "ParenthesisEnclosedExpression" (.cons (.index (.name "tokens") (.int 1)) .nil)))
    .done)
    (.seq (.expr (.callE (.callAttr (.name "parser_generator") "production" (.cons (.attr (.name "ParenthesisEnclosedExpression") "RULE") .nil)) (.cons (.name "parenthesis_enclosed") .nil)))
    (.seq (.ret (.name "parenthesis_enclosed"))
    .done)))⟩

/-- `expression/parentheses_enclosed_expression.py:20-21`. -/
def Text.ParenthesisEnclosedExpression.production : PyFun := ⟨["_", "tokens"], [],
  (.seq (.ret (.callName "ParenthesisEnclosedExpression" (.cons (.index (.name "tokens") (.int 1)) .nil)))
    .done)⟩

/-- `expression/parentheses_enclosed_expression.py:25-26`. -/
def Text.ParenthesisEnclosedExpression.__init__ : PyFun := ⟨["self", "expression"], [],
  (.seq (.assign (.self "_expression") (.name "expression"))
    .done)⟩

/-- `expression/parentheses_enclosed_expression.py:28-29`. -/
def Text.ParenthesisEnclosedExpression.roll : PyFun := ⟨["self"], [],
  (.seq (.ret (.callAttr (.self "_expression") "roll" .nil))
    .done)⟩

/-- `expression/parentheses_enclosed_expression.py:31-32`. -/
def Text.ParenthesisEnclosedExpression.max : PyFun := ⟨["self"], [],
  (.seq (.ret (.callAttr (.self "_expression") "max" .nil))
    .done)⟩

/-- `expression/parentheses_enclosed_expression.py:34-35`. -/
def Text.ParenthesisEnclosedExpression.min : PyFun := ⟨["self"], [],
  (.seq (.ret (.callAttr (.self "_expression") "min" .nil))
    .done)⟩

/-- `expression/parentheses_enclosed_expression.py:37-38`. -/
def Text.ParenthesisEnclosedExpression.__str__ : PyFun := ⟨["self"], [],
  (.seq (.ret (.fstr (.cons (.str ['(']) (.cons (.callName "str" (.cons (.self "_expression") .nil)) (.cons (.str [')']) .nil)))))
    .done)⟩

/-- `expression/parentheses_enclosed_expression.py:40-41`. -/
def Text.ParenthesisEnclosedExpression.estimated_cost : PyFun := ⟨["self"], [],
  (.seq (.ret (.callAttr (.self "_expression") "estimated_cost" .nil))
    .done)⟩

/-- `expression/parentheses_enclosed_expression.py:43-44`. -/
def Text.ParenthesisEnclosedExpression.get_probability_distribution : PyFun := ⟨["self"], [],
  (.seq (.ret (.callAttr (.self "_expression") "get_probability_distribution" .nil))
    .done)⟩

/-- `expression/parentheses_enclosed_expression.py:46-49`. -/
def Text.ParenthesisEnclosedExpression.get_contained_variables : PyFun := ⟨["self"], [],
  (.seq (.ret (.callAttr (.self "_expression") "get_contained_variables" .nil))
    .done)⟩

/-- `expression/not_expression.py:14`. -/
def Text.NotExpression.TOKEN_RULE : PyE :=
  (.str ['e', 'x', 'p', 'r', 'e', 's', 's', 'i', 'o', 'n', ' ', ':', ' ', 'N', 'O', 'T', ' ', 'e', 'x', 'p', 'r', 'e', 's', 's', 'i', 'o', 'n'])

/-- `expression/not_expression.py:17-24` (`@staticmethod`). -/
def Text.NotExpression.add_production_function : PyFun := ⟨["parser_generator", "probability_distribution_factory"], [],
  (.defn "not_operation" ["_", "tokens"] (.seq (.ret (.callName "NotExpression" (.cons (.index (.name "tokens") (.int 1)) .nil)))
    .done)
    (.seq (.expr (.callE (.callAttr (.name "parser_generator") "production" (.cons (.attr (.name "NotExpression") "TOKEN_RULE") .nil)) (.cons (.name "not_operation") .nil)))
    (.seq (.ret (.name "not_operation"))
    .done)))⟩

/-- `expression/not_expression.py:21-22`. -/
def Text.NotExpression.production : PyFun := ⟨["_", "tokens"], [],
  (.seq (.ret (.callName "NotExpression" (.cons (.index (.name "tokens") (.int 1)) .nil)))
    .done)⟩

/-- `expression/not_expression.py:26-27`. -/
def Text.NotExpression.__init__ : PyFun := ⟨["self", "expression"], [],
  (.seq (.assign (.self "_expression") (.name "expression"))
    .done)⟩

/-- `expression/not_expression.py:29-30`. -/
def Text.NotExpression.roll : PyFun := ⟨["self"], [],
  (.seq (.ret (.ite (.callAttr (.self "_expression") "roll" .nil) (.int 0) (.int 1)))
    .done)⟩

/-- `expression/not_expression.py:32-33`. -/
def Text.NotExpression.max : PyFun := ⟨["self"], [],
  (.seq (.ret (.callAttr (.callSelf "get_probability_distribution" .nil) "max" .nil))
    .done)⟩

/-- `expression/not_expression.py:35-36`. -/
def Text.NotExpression.min : PyFun := ⟨["self"], [],
  (.seq (.ret (.callAttr (.callSelf "get_probability_distribution" .nil) "min" .nil))
    .done)⟩

/-- `expression/not_expression.py:38-39`. -/
def Text.NotExpression.__str__ : PyFun := ⟨["self"], [],
  (.seq (.ret (.fstr (.cons (.str ['!']) (.cons (.callName "str" (.cons (.self "_expression") .nil)) .nil))))
    .done)⟩

/-- `expression/not_expression.py:41-42`. -/
def Text.NotExpression.estimated_cost : PyFun := ⟨["self"], [],
  (.seq (.ret (.callName "int" (.cons (.callAttr (.name "math") "floor" (.cons (.bin .mul (.callAttr (.self "_expression") "estimated_cost" .nil) (.flt 11 10)) .nil)) .nil)))
    .done)⟩

/-- `expression/not_expression.py:44-45`. -/
def Text.NotExpression.get_probability_distribution : PyFun := ⟨["self"], [],
  (.seq (.ret (.callAttr (.callAttr (.self "_expression") "get_probability_distribution" .nil) "not_operator" .nil))
    .done)⟩

/-- `expression/not_expression.py:47-50`. -/
def Text.NotExpression.get_contained_variables : PyFun := ⟨["self"], [],
  (.seq (.ret (.callAttr (.self "_expression") "get_contained_variables" .nil))
    .done)⟩

/-- `expression/abs_expression.py:13`. -/
def Text.AbsExpression.TOKEN_RULE : PyE :=
  (.str ['e', 'x', 'p', 'r', 'e', 's', 's', 'i', 'o', 'n', ' ', ':', ' ', 'A', 'B', 'S', ' ', 'O', 'P', 'E', 'N', '_', 'P', 'A', 'R', 'E', 'N', 'T', 'H', 'E', 'S', 'I', 'S', ' ', 'e', 'x', 'p', 'r', 'e', 's', 's', 'i', 'o', 'n', ' ', 'C', 'L', 'O', 'S', 'E', '_', 'P', 'A', 'R', 'E', 'N', 'T', 'H', 'E', 'S', 'I', 'S'])

/-- `expression/abs_expression.py:16-23` (`@staticmethod`). -/
def Text.AbsExpression.add_production_function : PyFun := ⟨["parser_generator", "probability_distribution_factory"], [],
  (.defn "abs_operation" ["_", "tokens"] (.seq (.ret (.callName "AbsExpression" (.cons (.index (.name "tokens") (.int 2)) .nil)))
    .done)
    (.seq (.expr (.callE (.callAttr (.name "parser_generator") "production" (.cons (.attr (.name "AbsExpression") "TOKEN_RULE") .nil)) (.cons (.name "abs_operation") .nil)))
    (.seq (.ret (.name "abs_operation"))
    .done)))⟩

/-- `expression/abs_expression.py:20-21`. -/
def Text.AbsExpression.production : PyFun := ⟨["_", "tokens"], [],
  (.seq (.ret (.callName "AbsExpression" (.cons (.index (.name "tokens") (.int 2)) .nil)))
    .done)⟩

/-- `expression/abs_expression.py:25-26`. -/
def Text.AbsExpression.__init__ : PyFun := ⟨["self", "expression"], [],
  (.seq (.assign (.self "_expression") (.name "expression"))
    .done)⟩

/-- `expression/abs_expression.py:28-29`. -/
def Text.AbsExpression.roll : PyFun := ⟨["self"], [],
  (.seq (.ret (.callName "abs" (.cons (.callAttr (.self "_expression") "roll" .nil) .nil)))
    .done)⟩

/-- `expression/abs_expression.py:31-32`. -/
def Text.AbsExpression.max : PyFun := ⟨["self"], [],
  (.seq (.ret (.callAttr (.callSelf "get_probability_distribution" .nil) "max" .nil))
    .done)⟩

/-- `expression/abs_expression.py:34-35`. -/
def Text.AbsExpression.min : PyFun := ⟨["self"], [],
  (.seq (.ret (.callAttr (.callSelf "get_probability_distribution" .nil) "min" .nil))
    .done)⟩

/-- `expression/abs_expression.py:37-38`. -/
def Text.AbsExpression.__str__ : PyFun := ⟨["self"], [],
  (.seq (.ret (.fstr (.cons (.str ['A', 'B', 'S', '(']) (.cons (.callName "str" (.cons (.self "_expression") .nil)) (.cons (.str [')']) .nil)))))
    .done)⟩

/-- `expression/abs_expression.py:40-41`. -/
def Text.AbsExpression.estimated_cost : PyFun := ⟨["self"], [],
  (.seq (.ret (.callAttr (.self "_expression") "estimated_cost" .nil))
    .done)⟩

/-- `expression/abs_expression.py:43-44`. -/
def Text.AbsExpression.get_probability_distribution : PyFun := ⟨["self"], [],
  (.seq (.ret (.callName "abs" (.cons (.callAttr (.self "_expression") "get_probability_distribution" .nil) .nil)))
    .done)⟩

/-- `expression/abs_expression.py:46-49`. -/
def Text.AbsExpression.get_contained_variables : PyFun := ⟨["self"], [],
  (.seq (.ret (.callAttr (.self "_expression") "get_contained_variables" .nil))
    .done)⟩

/-- `expression/add_expression.py:13`. -/
def Text.AddExpression.RULE : PyE :=
  (.str ['e', 'x', 'p', 'r', 'e', 's', 's', 'i', 'o', 'n', ' ', ':', ' ', 'e', 'x', 'p', 'r', 'e', 's', 's', 'i', 'o', 'n', ' ', 'A', 'D', 'D', ' ', 'e', 'x', 'p', 'r', 'e', 's', 's', 'i', 'o', 'n'])

/-- `expression/add_expression.py:16-23` (`@staticmethod`). -/
def Text.AddExpression.add_production_function : PyFun := ⟨["parser_generator", "probability_distribution_factory"], [],
  (.defn "add" ["_", "tokens"] (.seq (.ret (.callName "AddExpression" (.cons (.index (.name "tokens") (.int 0)) (.cons (.index (.name "tokens") (.int 2)) .nil))))
    .done)
    (.seq (.expr (.callE (.callAttr (.name "parser_generator") "production" (.cons (.attr (.name "AddExpression") "RULE") .nil)) (.cons (.name "add") .nil)))
    (.seq (.ret (.name "add"))
    .done)))⟩

/-- `expression/add_expression.py:20-21`. -/
def Text.AddExpression.production : PyFun := ⟨["_", "tokens"], [],
  (.seq (.ret (.callName "AddExpression" (.cons (.index (.name "tokens") (.int 0)) (.cons (.index (.name "tokens") (.int 2)) .nil))))
    .done)⟩

/-- `expression/add_expression.py:25-31`. -/
def Text.AddExpression.__init__ : PyFun := ⟨["self", "expression_one", "expression_two"], [],
  (.seq (.assign (.self "_expression_one") (.name "expression_one"))
    (.seq (.assign (.self "_expression_two") (.name "expression_two"))
    .done))⟩

/-- `expression/add_expression.py:33-34`. -/
def Text.AddExpression.roll : PyFun := ⟨["self"], [],
  (.seq (.ret (.bin .add (.callAttr (.self "_expression_one") "roll" .nil) (.callAttr (.self "_expression_two") "roll" .nil)))
    .done)⟩

/-- `expression/add_expression.py:36-37`. -/
def Text.AddExpression.max : PyFun := ⟨["self"], [],
  (.seq (.ret (.callAttr (.callSelf "get_probability_distribution" .nil) "max" .nil))
    .done)⟩

/-- `expression/add_expression.py:39-40`. -/
def Text.AddExpression.min : PyFun := ⟨["self"], [],
  (.seq (.ret (.callAttr (.callSelf "get_probability_distribution" .nil) "min" .nil))
    .done)⟩

/-- `expression/add_expression.py:42-43`. -/
def Text.AddExpression.__str__ : PyFun := ⟨["self"], [],
  (.seq (.ret (.fstr (.cons (.callName "str" (.cons (.self "_expression_one") .nil)) (.cons (.str [' ', '+', ' ']) (.cons (.callName "str" (.cons (.self "_expression_two") .nil)) .nil)))))
    .done)⟩

/-- `expression/add_expression.py:45-46`. -/
def Text.AddExpression.estimated_cost : PyFun := ⟨["self"], [],
  (.seq (.ret (.bin .add (.callAttr (.self "_expression_one") "estimated_cost" .nil) (.callAttr (.self "_expression_two") "estimated_cost" .nil)))
    .done)⟩

/-- `expression/add_expression.py:48-49`. -/
def Text.AddExpression.get_probability_distribution : PyFun := ⟨["self"], [],
  (.seq (.ret (.bin .add (.callAttr (.self "_expression_one") "get_probability_distribution" .nil) (.callAttr (.self "_expression_two") "get_probability_distribution" .nil)))
    .done)⟩

/-- `expression/add_expression.py:51-54`. -/
def Text.AddExpression.get_contained_variables : PyFun := ⟨["self"], [],
  (.seq (.ret (.callAttr (.callAttr (.self "_expression_one") "get_contained_variables" .nil) "union" (.cons (.callAttr (.self "_expression_two") "get_contained_variables" .nil) .nil)))
    .done)⟩

/-- `expression/subtract_expression.py:13`. -/
def Text.SubtractExpression.TOKEN_RULE : PyE :=
  (.str ['e', 'x', 'p', 'r', 'e', 's', 's', 'i', 'o', 'n', ' ', ':', ' ', 'e', 'x', 'p', 'r', 'e', 's', 's', 'i', 'o', 'n', ' ', 'S', 'U', 'B', 'T', 'R', 'A', 'C', 'T', ' ', 'e', 'x', 'p', 'r', 'e', 's', 's', 'i', 'o', 'n'])

/-- `expression/subtract_expression.py:16-23` (`@staticmethod`). -/
def Text.SubtractExpression.add_production_function : PyFun := ⟨["parser_generator", "probability_distribution_factory"], [],
  (.defn "subtract" ["_", "tokens"] (.seq (.ret (.callName "SubtractExpression" (.cons (.index (.name "tokens") (.int 0)) (.cons (.index (.name "tokens") (.int 2)) .nil))))
    .done)
    (.seq (.expr (.callE (.callAttr (.name "parser_generator") "production" (.cons (.attr (.name "SubtractExpression") "TOKEN_RULE") .nil)) (.cons (.name "subtract") .nil)))
    (.seq (.ret (.name "subtract"))
    .done)))⟩

/-- `expression/subtract_expression.py:20-21`. -/
def Text.SubtractExpression.production : PyFun := ⟨["_", "tokens"], [],
  (.seq (.ret (.callName "SubtractExpression" (.cons (.index (.name "tokens") (.int 0)) (.cons (.index (.name "tokens") (.int 2)) .nil))))
    .done)⟩

/-- `expression/subtract_expression.py:25-31`. -/
def Text.SubtractExpression.__init__ : PyFun := ⟨["self", "expression_one", "expression_two"], [],
  (.seq (.assign (.self "_expression_one") (.name "expression_one"))
    (.seq (.assign (.self "_expression_two") (.name "expression_two"))
    .done))⟩

/-- `expression/subtract_expression.py:33-34`. -/
def Text.SubtractExpression.roll : PyFun := ⟨["self"], [],
  (.seq (.ret (.bin .sub (.callAttr (.self "_expression_one") "roll" .nil) (.callAttr (.self "_expression_two") "roll" .nil)))
    .done)⟩

/-- `expression/subtract_expression.py:36-37`. -/
def Text.SubtractExpression.max : PyFun := ⟨["self"], [],
  (.seq (.ret (.callAttr (.callSelf "get_probability_distribution" .nil) "max" .nil))
    .done)⟩

/-- `expression/subtract_expression.py:39-40`. -/
def Text.SubtractExpression.min : PyFun := ⟨["self"], [],
  (.seq (.ret (.callAttr (.callSelf "get_probability_distribution" .nil) "min" .nil))
    .done)⟩

/-- `expression/subtract_expression.py:42-43`. -/
def Text.SubtractExpression.__str__ : PyFun := ⟨["self"], [],
  (.seq (.ret (.fstr (.cons (.callName "str" (.cons (.self "_expression_one") .nil)) (.cons (.str [' ', '-', ' ']) (.cons (.callName "str" (.cons (.self "_expression_two") .nil)) .nil)))))
    .done)⟩

/-- `expression/subtract_expression.py:45-46`. -/
def Text.SubtractExpression.estimated_cost : PyFun := ⟨["self"], [],
  (.seq (.ret (.bin .add (.callAttr (.self "_expression_one") "estimated_cost" .nil) (.callAttr (.self "_expression_two") "estimated_cost" .nil)))
    .done)⟩

/-- `expression/subtract_expression.py:48-49`. -/
def Text.SubtractExpression.get_probability_distribution : PyFun := ⟨["self"], [],
  (.seq (.ret (.bin .sub (.callAttr (.self "_expression_one") "get_probability_distribution" .nil) (.callAttr (.self "_expression_two") "get_probability_distribution" .nil)))
    .done)⟩

/-- `expression/subtract_expression.py:51-54`. -/
def Text.SubtractExpression.get_contained_variables : PyFun := ⟨["self"], [],
  (.seq (.ret (.callAttr (.callAttr (.self "_expression_one") "get_contained_variables" .nil) "union" (.cons (.callAttr (.self "_expression_two") "get_contained_variables" .nil) .nil)))
    .done)⟩

/-- `expression/multiply_expression.py:13`. -/
def Text.MultiplyExpression.TOKEN_RULE : PyE :=
  (.str ['e', 'x', 'p', 'r', 'e', 's', 's', 'i', 'o', 'n', ' ', ':', ' ', 'e', 'x', 'p', 'r', 'e', 's', 's', 'i', 'o', 'n', ' ', 'M', 'U', 'L', 'T', 'I', 'P', 'L', 'Y', ' ', 'e', 'x', 'p', 'r', 'e', 's', 's', 'i', 'o', 'n'])

/-- `expression/multiply_expression.py:16-23` (`@staticmethod`). -/
def Text.MultiplyExpression.add_production_function : PyFun := ⟨["parser_generator", "probability_distribution_factory"], [],
  (.defn "multiply" ["_", "tokens"] (.seq (.ret (.callName "MultiplyExpression" (.cons (.index (.name "tokens") (.int 0)) (.cons (.index (.name "tokens") (.int 2)) .nil))))
    .done)
    (.seq (.expr (.callE (.callAttr (.name "parser_generator") "production" (.cons (.attr (.name "MultiplyExpression") "TOKEN_RULE") .nil)) (.cons (.name "multiply") .nil)))
    (.seq (.ret (.name "multiply"))
    .done)))⟩

/-- `expression/multiply_expression.py:20-21`. -/
def Text.MultiplyExpression.production : PyFun := ⟨["_", "tokens"], [],
  (.seq (.ret (.callName "MultiplyExpression" (.cons (.index (.name "tokens") (.int 0)) (.cons (.index (.name "tokens") (.int 2)) .nil))))
    .done)⟩

/-- `expression/multiply_expression.py:25-31`. -/
def Text.MultiplyExpression.__init__ : PyFun := ⟨["self", "expression_one", "expression_two"], [],
  (.seq (.assign (.self "_expression_one") (.name "expression_one"))
    (.seq (.assign (.self "_expression_two") (.name "expression_two"))
    .done))⟩

/-- `expression/multiply_expression.py:33-34`. -/
def Text.MultiplyExpression.roll : PyFun := ⟨["self"], [],
  (.seq (.ret (.bin .mul (.callAttr (.self "_expression_one") "roll" .nil) (.callAttr (.self "_expression_two") "roll" .nil)))
    .done)⟩

/-- `expression/multiply_expression.py:36-37`. -/
def Text.MultiplyExpression.max : PyFun := ⟨["self"], [],
  (.seq (.ret (.callAttr (.callSelf "get_probability_distribution" .nil) "max" .nil))
    .done)⟩

/-- `expression/multiply_expression.py:39-40`. -/
def Text.MultiplyExpression.min : PyFun := ⟨["self"], [],
  (.seq (.ret (.callAttr (.callSelf "get_probability_distribution" .nil) "min" .nil))
    .done)⟩

/-- `expression/multiply_expression.py:42-43`. -/
def Text.MultiplyExpression.__str__ : PyFun := ⟨["self"], [],
  (.seq (.ret (.fstr (.cons (.callName "str" (.cons (.self "_expression_one") .nil)) (.cons (.str [' ', '*', ' ']) (.cons (.callName "str" (.cons (.self "_expression_two") .nil)) .nil)))))
    .done)⟩

/-- `expression/multiply_expression.py:45-46`. -/
def Text.MultiplyExpression.estimated_cost : PyFun := ⟨["self"], [],
  (.seq (.ret (.bin .add (.callAttr (.self "_expression_one") "estimated_cost" .nil) (.callAttr (.self "_expression_two") "estimated_cost" .nil)))
    .done)⟩

/-- `expression/multiply_expression.py:48-49`. -/
def Text.MultiplyExpression.get_probability_distribution : PyFun := ⟨["self"], [],
  (.seq (.ret (.bin .mul (.callAttr (.self "_expression_one") "get_probability_distribution" .nil) (.callAttr (.self "_expression_two") "get_probability_distribution" .nil)))
    .done)⟩

/-- `expression/multiply_expression.py:51-54`. -/
def Text.MultiplyExpression.get_contained_variables : PyFun := ⟨["self"], [],
  (.seq (.ret (.callAttr (.callAttr (.self "_expression_one") "get_contained_variables" .nil) "union" (.cons (.callAttr (.self "_expression_two") "get_contained_variables" .nil) .nil)))
    .done)⟩

/-- `expression/integer_division_expression.py:13`. -/
def Text.IntegerDivisionExpression.TOKEN_RULE : PyE :=
  (.str ['e', 'x', 'p', 'r', 'e', 's', 's', 'i', 'o', 'n', ' ', ':', ' ', 'e', 'x', 'p', 'r', 'e', 's', 's', 'i', 'o', 'n', ' ', 'I', 'N', 'T', 'E', 'G', 'E', 'R', '_', 'D', 'I', 'V', 'I', 'S', 'I', 'O', 'N', ' ', 'e', 'x', 'p', 'r', 'e', 's', 's', 'i', 'o', 'n'])

/-- `expression/integer_division_expression.py:16-23` (`@staticmethod`). -/
def Text.IntegerDivisionExpression.add_production_function : PyFun := ⟨["parser_generator", "probability_distribution_factory"], [],
  (.defn "integer_division" ["_", "tokens"] (.seq (.ret (.callName "IntegerDivisionExpression" (.cons (.index (.name "tokens") (.int 0)) (.cons (.index (.name "tokens") (.int 2)) .nil))))
    .done)
    (.seq (.expr (.callE (.callAttr (.name "parser_generator") "production" (.cons (.attr (.name "IntegerDivisionExpression") "TOKEN_RULE") .nil)) (.cons (.name "integer_division") .nil)))
    (.seq (.ret (.name "integer_division"))
    .done)))⟩

/-- `expression/integer_division_expression.py:20-21`. -/
def Text.IntegerDivisionExpression.production : PyFun := ⟨["_", "tokens"], [],
  (.seq (.ret (.callName "IntegerDivisionExpression" (.cons (.index (.name "tokens") (.int 0)) (.cons (.index (.name "tokens") (.int 2)) .nil))))
    .done)⟩

/-- `expression/integer_division_expression.py:25-31`. -/
def Text.IntegerDivisionExpression.__init__ : PyFun := ⟨["self", "expression_one", "expression_two"], [],
  (.seq (.assign (.self "_expression_one") (.name "expression_one"))
    (.seq (.assign (.self "_expression_two") (.name "expression_two"))
    .done))⟩

/-- `expression/integer_division_expression.py:33-37`. -/
def Text.IntegerDivisionExpression.roll : PyFun := ⟨["self"], [],
  (.seq (.assign (.name "divisor") (.callAttr (.self "_expression_two") "roll" .nil))
    (.seq (.ifs (.cmp .eq (.name "divisor") (.int 0)) (.seq (.raise (.callName "ZeroDivisionError" .nil))
    .done) .done)
    (.seq (.ret (.bin .floordiv (.callAttr (.self "_expression_one") "roll" .nil) (.name "divisor")))
    .done)))⟩

/-- `expression/integer_division_expression.py:39-43`. -/
def Text.IntegerDivisionExpression.max : PyFun := ⟨["self"], [],
  (.seq (.assign (.name "divisor") (.callAttr (.self "_expression_two") "get_probability_distribution" .nil))
    (.seq (.ifs (.callAttr (.name "divisor") "contains_zero" .nil) (.seq (.raise (.callName "ZeroDivisionError" (.cons (.fstr (.cons (.callName "str" (.cons (.name "self") .nil)) (.cons (.str [',', ' ', 'd', 'i', 'v', 'i', 's', 'o', 'r', ' ', 'c', 'o', 'u', 'l', 'd', ' ', 'b', 'e', ' ', 'z', 'e', 'r', 'o']) .nil))) .nil)))
    .done) .done)
    (.seq (.ret (.callAttr (.callSelf "get_probability_distribution" .nil) "max" .nil))
    .done)))⟩

/-- `expression/integer_division_expression.py:45-49`. -/
def Text.IntegerDivisionExpression.min : PyFun := ⟨["self"], [],
  (.seq (.assign (.name "divisor") (.callAttr (.self "_expression_two") "get_probability_distribution" .nil))
    (.seq (.ifs (.callAttr (.name "divisor") "contains_zero" .nil) (.seq (.raise (.callName "ZeroDivisionError" (.cons (.fstr (.cons (.callName "str" (.cons (.name "self") .nil)) (.cons (.str [',', ' ', 'd', 'i', 'v', 'i', 's', 'o', 'r', ' ', 'c', 'o', 'u', 'l', 'd', ' ', 'b', 'e', ' ', 'z', 'e', 'r', 'o']) .nil))) .nil)))
    .done) .done)
    (.seq (.ret (.callAttr (.callSelf "get_probability_distribution" .nil) "min" .nil))
    .done)))⟩

/-- `expression/integer_division_expression.py:51-52`. -/
def Text.IntegerDivisionExpression.__str__ : PyFun := ⟨["self"], [],
  (.seq (.ret (.fstr (.cons (.callName "str" (.cons (.self "_expression_one") .nil)) (.cons (.str [' ', '/', '/', ' ']) (.cons (.callName "str" (.cons (.self "_expression_two") .nil)) .nil)))))
    .done)⟩

/-- `expression/integer_division_expression.py:54-55`. -/
def Text.IntegerDivisionExpression.estimated_cost : PyFun := ⟨["self"], [],
  (.seq (.ret (.bin .add (.callAttr (.self "_expression_one") "estimated_cost" .nil) (.callAttr (.self "_expression_two") "estimated_cost" .nil)))
    .done)⟩

/-- `expression/integer_division_expression.py:57-60`. -/
def Text.IntegerDivisionExpression.get_probability_distribution : PyFun := ⟨["self"], [],
  (.seq (.ret (.bin .floordiv (.callAttr (.self "_expression_one") "get_probability_distribution" .nil) (.callAttr (.self "_expression_two") "get_probability_distribution" .nil)))
    .done)⟩

/-- `expression/integer_division_expression.py:62-65`. -/
def Text.IntegerDivisionExpression.get_contained_variables : PyFun := ⟨["self"], [],
  (.seq (.ret (.callAttr (.callAttr (.self "_expression_one") "get_contained_variables" .nil) "union" (.cons (.callAttr (.self "_expression_two") "get_contained_variables" .nil) .nil)))
    .done)⟩

/-- `expression/binary_operator_expression.py:15-18` (`@staticmethod`). -/
def Text.BinaryOperatorExpression.__equal__ : PyFun := ⟨["this", "other"], [],
  (.seq (.ifs (.and (.callName "isinstance" (.cons (.name "this") (.cons (.name "IProbabilityDistribution") .nil))) (.callName "isinstance" (.cons (.name "other") (.cons (.name "IProbabilityDistribution") .nil)))) (.seq (.ret (.callAttr (.name "this") "__equal__" (.cons (.name "other") .nil)))
    .done) .done)
    (.seq (.ret (.cmp .eq (.name "this") (.name "other")))
    .done))⟩

/-- `expression/binary_operator_expression.py:21-24` (`@staticmethod`). -/
def Text.BinaryOperatorExpression.__not_equal__ : PyFun := ⟨["this", "other"], [],
  (.seq (.ifs (.and (.callName "isinstance" (.cons (.name "this") (.cons (.name "IProbabilityDistribution") .nil))) (.callName "isinstance" (.cons (.name "other") (.cons (.name "IProbabilityDistribution") .nil)))) (.seq (.ret (.callAttr (.name "this") "__not_equal__" (.cons (.name "other") .nil)))
    .done) .done)
    (.seq (.ret (.cmp .ne (.name "this") (.name "other")))
    .done))⟩

/-- `expression/binary_operator_expression.py:26`. -/
def Text.BinaryOperatorExpression.RULE : PyE :=
  (.str ['e', 'x', 'p', 'r', 'e', 's', 's', 'i', 'o', 'n', ' ', ':', ' ', 'e', 'x', 'p', 'r', 'e', 's', 's', 'i', 'o', 'n', ' ', 'B', 'I', 'N', 'A', 'R', 'Y', '_', 'O', 'P', 'E', 'R', 'A', 'T', 'O', 'R', ' ', 'e', 'x', 'p', 'r', 'e', 's', 's', 'i', 'o', 'n'])

/-- `expression/binary_operator_expression.py:27`. -/
def Text.BinaryOperatorExpression.OPERATOR_MAP : PyE :=
  (.dict (.cons (.str ['=', '=']) (.cons (.lam ["x", "y"] (.callAttr (.name "BinaryOperatorExpression") "__equal__" (.cons (.name "x") (.cons (.name "y") .nil)))) (.cons (.str ['!', '=']) (.cons (.lam ["x", "y"] (.callAttr (.name "BinaryOperatorExpression") "__not_equal__" (.cons (.name "x") (.cons (.name "y") .nil)))) (.cons (.str ['<', '=']) (.cons (.attr (.name "operator") "le") (.cons (.str ['<']) (.cons (.attr (.name "operator") "lt") (.cons (.str ['>', '=']) (.cons (.attr (.name "operator") "ge") (.cons (.str ['>']) (.cons (.attr (.name "operator") "gt") (.cons (.str ['A', 'N', 'D']) (.cons (.attr (.name "operator") "and_") (.cons (.str ['O', 'R']) (.cons (.attr (.name "operator") "or_") .nil)))))))))))))))))

/-- `expression/binary_operator_expression.py:39-46` (`@staticmethod`). -/
def Text.BinaryOperatorExpression.add_production_function : PyFun := ⟨["parser_generator", "probability_distribution_factory"], [],
  (.defn "binary_operator" ["_", "tokens"] (.seq (.ret (.callName "BinaryOperatorExpression" (.cons (.attr (.index (.name "tokens") (.int 1)) "value") (.cons (.index (.name "tokens") (.int 0)) (.cons (.index (.name "tokens") (.int 2)) .nil)))))
    .done)
    (.seq (.expr (.callE (.callAttr (.name "parser_generator") "production" (.cons (.attr (.name "BinaryOperatorExpression") "RULE") .nil)) (.cons (.name "binary_operator") .nil)))
    (.seq (.ret (.name "binary_operator"))
    .done)))⟩

/-- `expression/binary_operator_expression.py:43-44`. -/
def Text.BinaryOperatorExpression.production : PyFun := ⟨["_", "tokens"], [],
  (.seq (.ret (.callName "BinaryOperatorExpression" (.cons (.attr (.index (.name "tokens") (.int 1)) "value") (.cons (.index (.name "tokens") (.int 0)) (.cons (.index (.name "tokens") (.int 2)) .nil)))))
    .done)⟩

/-- `expression/binary_operator_expression.py:48-56`. -/
def Text.BinaryOperatorExpression.__init__ : PyFun := ⟨["self", "operator_str", "expression_one", "expression_two"], [],
  (.seq (.assign (.self "_operator") (.name "operator_str"))
    (.seq (.assign (.self "_expression_one") (.name "expression_one"))
    (.seq (.assign (.self "_expression_two") (.name "expression_two"))
    .done)))⟩

/-- `expression/binary_operator_expression.py:58-59`. -/
def Text.BinaryOperatorExpression.roll : PyFun := ⟨["self"], [],
  (.seq (.ret (.ite (.callE (.index (.self "OPERATOR_MAP") (.self "_operator")) (.cons (.callAttr (.self "_expression_one") "roll" .nil) (.cons (.callAttr (.self "_expression_two") "roll" .nil) .nil))) (.int 1) (.int 0)))
    .done)⟩

/-- `expression/binary_operator_expression.py:61-62`. -/
def Text.BinaryOperatorExpression.max : PyFun := ⟨["self"], [],
  (.seq (.ret (.callAttr (.callSelf "get_probability_distribution" .nil) "max" .nil))
    .done)⟩

/-- `expression/binary_operator_expression.py:64-65`. -/
def Text.BinaryOperatorExpression.min : PyFun := ⟨["self"], [],
  (.seq (.ret (.callAttr (.callSelf "get_probability_distribution" .nil) "min" .nil))
    .done)⟩

/-- `expression/binary_operator_expression.py:67-68`. -/
def Text.BinaryOperatorExpression.__str__ : PyFun := ⟨["self"], [],
  (.seq (.ret (.fstr (.cons (.callName "str" (.cons (.self "_expression_one") .nil)) (.cons (.str [' ']) (.cons (.self "_operator") (.cons (.str [' ']) (.cons (.callName "str" (.cons (.self "_expression_two") .nil)) .nil)))))))
    .done)⟩

/-- `expression/binary_operator_expression.py:70-71`. -/
def Text.BinaryOperatorExpression.estimated_cost : PyFun := ⟨["self"], [],
  (.seq (.ret (.bin .add (.callAttr (.self "_expression_one") "estimated_cost" .nil) (.callAttr (.self "_expression_two") "estimated_cost" .nil)))
    .done)⟩

/-- `expression/binary_operator_expression.py:73-77`. -/
def Text.BinaryOperatorExpression.get_probability_distribution : PyFun := ⟨["self"], [],
  (.seq (.ret (.callE (.index (.self "OPERATOR_MAP") (.self "_operator")) (.cons (.callAttr (.self "_expression_one") "get_probability_distribution" .nil) (.cons (.callAttr (.self "_expression_two") "get_probability_distribution" .nil) .nil))))
    .done)⟩

/-- `expression/binary_operator_expression.py:79-82`. -/
def Text.BinaryOperatorExpression.get_contained_variables : PyFun := ⟨["self"], [],
  (.seq (.ret (.callAttr (.callAttr (.self "_expression_one") "get_contained_variables" .nil) "union" (.cons (.callAttr (.self "_expression_two") "get_contained_variables" .nil) .nil)))
    .done)⟩

/-- `expression/minmax_expression.py:13`. -/
def Text.MinMaxExpression.TOKEN_RULE : PyE :=
  (.str ['e', 'x', 'p', 'r', 'e', 's', 's', 'i', 'o', 'n', ' ', ':', ' ', 'M', 'I', 'N', 'M', 'A', 'X', ' ', 'O', 'P', 'E', 'N', '_', 'P', 'A', 'R', 'E', 'N', 'T', 'H', 'E', 'S', 'I', 'S', ' ', 'e', 'x', 'p', 'r', 'e', 's', 's', 'i', 'o', 'n', ' ', 'C', 'O', 'M', 'M', 'A', ' ', 'e', 'x', 'p', 'r', 'e', 's', 's', 'i', 'o', 'n', ' ', 'C', 'L', 'O', 'S', 'E', '_', 'P', 'A', 'R', 'E', 'N', 'T', 'H', 'E', 'S', 'I', 'S'])

/-- `expression/minmax_expression.py:14`. -/
def Text.MinMaxExpression.OPERATOR_MAP : PyE :=
  (.dict (.cons (.str ['M', 'A', 'X']) (.cons (.name "max") (.cons (.str ['M', 'I', 'N']) (.cons (.name "min") .nil)))))

/-- `expression/minmax_expression.py:17-24` (`@staticmethod`). -/
def Text.MinMaxExpression.add_production_function : PyFun := ⟨["parser_generator", "probability_distribution_factory"], [],
  (.defn "min_max" ["_", "tokens"] (.seq (.ret (.callName "MinMaxExpression" (.cons (.attr (.index (.name "tokens") (.int 0)) "value") (.cons (.index (.name "tokens") (.int 2)) (.cons (.index (.name "tokens") (.int 4)) .nil)))))
    .done)
    (.seq (.expr (.callE (.callAttr (.name "parser_generator") "production" (.cons (.attr (.name "MinMaxExpression") "TOKEN_RULE") .nil)) (.cons (.name "min_max") .nil)))
    (.seq (.ret (.name "min_max"))
    .done)))⟩

/-- `expression/minmax_expression.py:21-22`. -/
def Text.MinMaxExpression.production : PyFun := ⟨["_", "tokens"], [],
  (.seq (.ret (.callName "MinMaxExpression" (.cons (.attr (.index (.name "tokens") (.int 0)) "value") (.cons (.index (.name "tokens") (.int 2)) (.cons (.index (.name "tokens") (.int 4)) .nil)))))
    .done)⟩

/-- `expression/minmax_expression.py:26-34`. -/
def Text.MinMaxExpression.__init__ : PyFun := ⟨["self", "min_max", "expression_one", "expression_two"], [],
  (.seq (.assign (.self "_min_max") (.name "min_max"))
    (.seq (.assign (.self "_expression_one") (.name "expression_one"))
    (.seq (.assign (.self "_expression_two") (.name "expression_two"))
    .done)))⟩

/-- `expression/minmax_expression.py:36-37`. -/
def Text.MinMaxExpression.roll : PyFun := ⟨["self"], [],
  (.seq (.ret (.callE (.index (.self "OPERATOR_MAP") (.self "_min_max")) (.cons (.callAttr (.self "_expression_one") "roll" .nil) (.cons (.callAttr (.self "_expression_two") "roll" .nil) .nil))))
    .done)⟩

/-- `expression/minmax_expression.py:39-40`. -/
def Text.MinMaxExpression.max : PyFun := ⟨["self"], [],
  (.seq (.ret (.callE (.index (.self "OPERATOR_MAP") (.self "_min_max")) (.cons (.callAttr (.self "_expression_one") "max" .nil) (.cons (.callAttr (.self "_expression_two") "max" .nil) .nil))))
    .done)⟩

/-- `expression/minmax_expression.py:42-43`. -/
def Text.MinMaxExpression.min : PyFun := ⟨["self"], [],
  (.seq (.ret (.callE (.index (.self "OPERATOR_MAP") (.self "_min_max")) (.cons (.callAttr (.self "_expression_one") "min" .nil) (.cons (.callAttr (.self "_expression_two") "min" .nil) .nil))))
    .done)⟩

/-- `expression/minmax_expression.py:45-46`. -/
def Text.MinMaxExpression.__str__ : PyFun := ⟨["self"], [],
  (.seq (.ret (.fstr (.cons (.self "_min_max") (.cons (.str ['(']) (.cons (.callName "str" (.cons (.self "_expression_one") .nil)) (.cons (.str [',', ' ']) (.cons (.callName "str" (.cons (.self "_expression_two") .nil)) (.cons (.str [')']) .nil))))))))
    .done)⟩

/-- `expression/minmax_expression.py:48-49`. -/
def Text.MinMaxExpression.estimated_cost : PyFun := ⟨["self"], [],
  (.seq (.ret (.bin .add (.callAttr (.self "_expression_one") "estimated_cost" .nil) (.callAttr (.self "_expression_two") "estimated_cost" .nil)))
    .done)⟩

/-- `expression/minmax_expression.py:51-58`. -/
def Text.MinMaxExpression.get_probability_distribution : PyFun := ⟨["self"], [],
  (.seq (.ifs (.cmp .eq (.self "_min_max") (.str ['M', 'A', 'X'])) (.seq (.ret (.callAttr (.callAttr (.self "_expression_one") "get_probability_distribution" .nil) "max_operator" (.cons (.callAttr (.self "_expression_two") "get_probability_distribution" .nil) .nil)))
    .done) .done)
    (.seq (.ret (.callAttr (.callAttr (.self "_expression_one") "get_probability_distribution" .nil) "min_operator" (.cons (.callAttr (.self "_expression_two") "get_probability_distribution" .nil) .nil)))
    .done))⟩

/-- `expression/minmax_expression.py:60-63`. -/
def Text.MinMaxExpression.get_contained_variables : PyFun := ⟨["self"], [],
  (.seq (.ret (.callAttr (.callAttr (.self "_expression_one") "get_contained_variables" .nil) "union" (.cons (.callAttr (.self "_expression_two") "get_contained_variables" .nil) .nil)))
    .done)⟩

/-- `expression/var_assignment_expression.py:14`. -/
def Text.VarAssignmentExpression.TOKEN_RULE : PyE :=
  (.str ['e', 'x', 'p', 'r', 'e', 's', 's', 'i', 'o', 'n', ' ', ':', ' ', 'V', 'A', 'R', ' ', 'N', 'A', 'M', 'E', ' ', 'A', 'S', 'S', 'I', 'G', 'N', 'M', 'E', 'N', 'T', ' ', 'e', 'x', 'p', 'r', 'e', 's', 's', 'i', 'o', 'n'])

/-- `expression/var_assignment_expression.py:17-24` (`@staticmethod`). -/
def Text.VarAssignmentExpression.add_production_function : PyFun := ⟨["parser_generator", "probability_distribution_factory"], [],
  (.defn "var_assignment_operation" ["state", "tokens"] (.seq (.ret (.callName "VarAssignmentExpression" (.cons (.name "state") (.cons (.attr (.index (.name "tokens") (.int 1)) "value") (.cons (.index (.name "tokens") (.int 3)) .nil)))))
    .done)
    (.seq (.expr (.callE (.callAttr (.name "parser_generator") "production" (.cons (.attr (.name "VarAssignmentExpression") "TOKEN_RULE") .nil)) (.cons (.name "var_assignment_operation") .nil)))
    (.seq (.ret (.name "var_assignment_operation"))
    .done)))⟩

/-- `expression/var_assignment_expression.py:21-22`. -/
def Text.VarAssignmentExpression.production : PyFun := ⟨["state", "tokens"], [],
  (.seq (.ret (.callName "VarAssignmentExpression" (.cons (.name "state") (.cons (.attr (.index (.name "tokens") (.int 1)) "value") (.cons (.index (.name "tokens") (.int 3)) .nil)))))
    .done)⟩

/-- `expression/var_assignment_expression.py:26-34`. -/
def Text.VarAssignmentExpression.__init__ : PyFun := ⟨["self", "state", "name", "expression"], [],
  (.seq (.assign (.self "_state") (.name "state"))
    (.seq (.assign (.self "_name") (.name "name"))
    (.seq (.assign (.self "_expression") (.name "expression"))
    .done)))⟩

/-- `expression/var_assignment_expression.py:36-39`. -/
def Text.VarAssignmentExpression.roll : PyFun := ⟨["self"], [],
  (.seq (.assign (.name "roll_value") (.callAttr (.self "_expression") "roll" .nil))
    (.seq (.expr (.callAttr (.self "_state") "set_constant" (.cons (.self "_name") (.cons (.name "roll_value") .nil))))
    (.seq (.ret (.name "roll_value"))
    .done)))⟩

/-- `expression/var_assignment_expression.py:41-45`. -/
def Text.VarAssignmentExpression.max : PyFun := ⟨["self"], [],
  (.seq (.assign (.name "max_value") (.callAttr (.self "_expression") "max" .nil))
    (.seq (.expr (.callAttr (.self "_state") "set_constant" (.cons (.self "_name") (.cons (.name "max_value") .nil))))
    (.seq (.expr (.callAttr (.self "_state") "set_var" (.cons (.self "_name") (.cons (.callAttr (.self "_expression") "get_probability_distribution" .nil) .nil))))
    (.seq (.ret (.name "max_value"))
    .done))))⟩

/-- `expression/var_assignment_expression.py:47-51`. -/
def Text.VarAssignmentExpression.min : PyFun := ⟨["self"], [],
  (.seq (.assign (.name "min_value") (.callAttr (.self "_expression") "min" .nil))
    (.seq (.expr (.callAttr (.self "_state") "set_constant" (.cons (.self "_name") (.cons (.name "min_value") .nil))))
    (.seq (.expr (.callAttr (.self "_state") "set_var" (.cons (.self "_name") (.cons (.callAttr (.self "_expression") "get_probability_distribution" .nil) .nil))))
    (.seq (.ret (.name "min_value"))
    .done))))⟩

/-- `expression/var_assignment_expression.py:53-54`. -/
def Text.VarAssignmentExpression.__str__ : PyFun := ⟨["self"], [],
  (.seq (.ret (.fstr (.cons (.str ['V', 'A', 'R', ' ']) (.cons (.self "_name") (.cons (.str [' ', '=', ' ']) (.cons (.callName "str" (.cons (.self "_expression") .nil)) .nil))))))
    .done)⟩

/-- `expression/var_assignment_expression.py:56-59`. -/
def Text.VarAssignmentExpression.estimated_cost : PyFun := ⟨["self"], [],
  (.seq (.assign (.name "cost") (.callAttr (.self "_expression") "estimated_cost" .nil))
    (.seq (.expr (.callAttr (.self "_state") "set_constant" (.cons (.self "_name") (.cons (.name "cost") .nil))))
    (.seq (.ret (.bin .add (.int 2) (.name "cost")))
    .done)))⟩

/-- `expression/var_assignment_expression.py:61-64`. -/
def Text.VarAssignmentExpression.get_probability_distribution : PyFun := ⟨["self"], [],
  (.seq (.assign (.name "distribution") (.callAttr (.self "_expression") "get_probability_distribution" .nil))
    (.seq (.expr (.callAttr (.self "_state") "set_var" (.cons (.self "_name") (.cons (.name "distribution") .nil))))
    (.seq (.ret (.name "distribution"))
    .done)))⟩

/-- `expression/var_assignment_expression.py:66-69`. -/
def Text.VarAssignmentExpression.get_contained_variables : PyFun := ⟨["self"], [],
  (.seq (.ret (.callName "set" .nil))
    .done)⟩

/-- `expression/get_var_expression.py:16`. -/
def Text.GetVarExpression.TOKEN_RULE : PyE :=
  (.str ['e', 'x', 'p', 'r', 'e', 's', 's', 'i', 'o', 'n', ' ', ':', ' ', 'N', 'A', 'M', 'E'])

/-- `expression/get_var_expression.py:19-26` (`@staticmethod`). -/
def Text.GetVarExpression.add_production_function : PyFun := ⟨["parser_generator", "probability_distribution_factory"], [],
  (.defn "get_var" ["state", "tokens"] (.seq (.ret (.callName "GetVarExpression" (.cons (.name "state") (.cons (.attr (.index (.name "tokens") (.int 0)) "value") .nil))))
    .done)
    (.seq (.expr (.callE (.callAttr (.name "parser_generator") "production" (.cons (.attr (.name "GetVarExpression") "TOKEN_RULE") .nil)) (.cons (.name "get_var") .nil)))
    (.seq (.ret (.name "get_var"))
    .done)))⟩

/-- `expression/get_var_expression.py:23-24`. -/
def Text.GetVarExpression.production : PyFun := ⟨["state", "tokens"], [],
  (.seq (.ret (.callName "GetVarExpression" (.cons (.name "state") (.cons (.attr (.index (.name "tokens") (.int 0)) "value") .nil))))
    .done)⟩

/-- `expression/get_var_expression.py:28-30`. -/
def Text.GetVarExpression.__init__ : PyFun := ⟨["self", "state", "name"], [],
  (.seq (.assign (.self "_state") (.name "state"))
    (.seq (.assign (.self "_name") (.name "name"))
    .done))⟩

/-- `expression/get_var_expression.py:32-33`. -/
def Text.GetVarExpression.roll : PyFun := ⟨["self"], [],
  (.seq (.ret (.callAttr (.self "_state") "get_constant" (.cons (.self "_name") .nil)))
    .done)⟩

/-- `expression/get_var_expression.py:35-36`. -/
def Text.GetVarExpression.max : PyFun := ⟨["self"], [],
  (.seq (.ret (.callAttr (.self "_state") "get_constant" (.cons (.self "_name") .nil)))
    .done)⟩

/-- `expression/get_var_expression.py:38-39`. -/
def Text.GetVarExpression.min : PyFun := ⟨["self"], [],
  (.seq (.ret (.callAttr (.self "_state") "get_constant" (.cons (.self "_name") .nil)))
    .done)⟩

/-- `expression/get_var_expression.py:41-42`. -/
def Text.GetVarExpression.__str__ : PyFun := ⟨["self"], [],
  (.seq (.ret (.fstr (.cons (.self "_name") .nil)))
    .done)⟩

/-- `expression/get_var_expression.py:44-45`. -/
def Text.GetVarExpression.estimated_cost : PyFun := ⟨["self"], [],
  (.seq (.ret (.callAttr (.self "_state") "get_constant" (.cons (.self "_name") .nil)))
    .done)⟩

/-- `expression/get_var_expression.py:47-48`. -/
def Text.GetVarExpression.get_probability_distribution : PyFun := ⟨["self"], [],
  (.seq (.ret (.callAttr (.self "_state") "get_var" (.cons (.self "_name") .nil)))
    .done)⟩

/-- `expression/get_var_expression.py:50-53`. -/
def Text.GetVarExpression.get_contained_variables : PyFun := ⟨["self"], [],
  (.seq (.ret (.set (.cons (.self "_name") .nil)))
    .done)⟩

/-- `python_dice_parser.py:27-56`. -/
def Text.PythonDiceParser.__init__ : PyFun := ⟨["self", "lexer", "probability_distribution_factory", "probability_distribution_state_factory"], [("lexer", .none), ("probability_distribution_factory", .none), ("probability_distribution_state_factory", .none)],
  (.seq (.ifs (.cmp .is (.name "lexer") .none) (.seq (.assign (.name "lexer") (.callName "PythonDiceLexer" .nil))
    .done) .done)
    (.seq (.ifs (.cmp .is (.name "probability_distribution_factory") .none) (.seq (.assign (.name "probability_distribution_factory") (.callName "ProbabilityDistributionFactory" .nil))
    .done) .done)
    (.seq (.ifs (.cmp .is (.name "probability_distribution_state_factory") .none) (.seq (.assign (.name "probability_distribution_state_factory") (.callName "ProbabilityDistributionStateFactory" .nil))
    .done) .done)
    (.seq (.assign (.self "_lexer") (.name "lexer"))
    (.seq (.assign (.name "parser_generator") (.callAttr (.name "rply") "ParserGenerator" (.cons (.listComp (.callAttr (.name "syntax") "get_token_name" .nil) (.name "syntax") (.name "LEXER_SYNTAX")) (.cons (.kw "precedence" (.name "PRECEDENCE")) .nil))))
    (.seq (.for_ (.name "syntax") (.name "PARSER_EXPRESSIONS") (.seq (.expr (.callAttr (.name "syntax") "add_production_function" (.cons (.name "parser_generator") (.cons (.name "probability_distribution_factory") .nil))))
    .done))
    (.defn "error_handler" ["_", "token"] (.seq (.raise (.callName "ValueError" (.cons (.fstr (.cons (.str ['R', 'a', 'n', ' ', 'i', 'n', 't', 'o', ' ', 'a', ' ']) (.cons (.callAttr (.name "token") "gettokentype" .nil) (.cons (.str [' ', '(']) (.cons (.callAttr (.name "token") "getstr" .nil) (.cons (.str [')', ' ', 'w', 'h', 'e', 'r', 'e', ' ', 'i', 't', ' ', 'w', 'a', 's', 'n', '\'', 't', ' ', 'e', 'x', 'p', 'e', 'c', 't', 'e', 'd', ',', ' ', 'a', 't', ' ', 'p', 'o', 's', 'i', 't', 'i', 'o', 'n', ' ']) (.cons (.callAttr (.name "token") "getsourcepos" .nil) (.cons (.str ['.']) .nil)))))))) .nil)))
    .done)
    (.seq (.expr (.callAttr (.name "parser_generator") "error" (.cons (.name "error_handler") .nil)))
    (.seq (.assign (.self "_parser") (.callAttr (.name "parser_generator") "build" .nil))
    (.seq (.assign (.self "_probability_distribution_state_factory") (.name "probability_distribution_state_factory"))
    .done))))))))))⟩

/-- `python_dice_parser.py:58-65`. -/
def Text.PythonDiceParser.parse : PyFun := ⟨["self", "input_text", "state"], [("state", .none)],
  (.seq (.ifs (.cmp .is (.name "state") .none) (.seq (.assign (.name "state") (.callAttr (.self "_probability_distribution_state_factory") "create_new_empty_set" .nil))
    .done) .done)
    (.seq (.ret (.tuple (.cons (.callAttr (.self "_parser") "parse" (.cons (.callName "iter" (.cons (.callAttr (.self "_lexer") "lex" (.cons (.name "input_text") .nil)) .nil)) (.cons (.kw "state" (.name "state")) .nil))) (.cons (.name "state") .nil))))
    .done))⟩

/-- `python_dice_interpreter.py:25-42`. -/
def Text.PythonDiceInterpreter.__init__ : PyFun := ⟨["self", "parser", "starting_state", "probability_distribution_state_factory", "probability_distribution_factory"], [("parser", .none), ("starting_state", .none), ("probability_distribution_state_factory", .none), ("probability_distribution_factory", .none)],
  (.seq (.ifs (.cmp .is (.name "parser") .none) (.seq (.assign (.name "parser") (.callName "PythonDiceParser" .nil))
    .done) .done)
    (.seq (.ifs (.cmp .is (.name "probability_distribution_state_factory") .none) (.seq (.assign (.name "probability_distribution_state_factory") (.callName "ProbabilityDistributionStateFactory" .nil))
    .done) .done)
    (.seq (.ifs (.cmp .is (.name "probability_distribution_factory") .none) (.seq (.assign (.name "probability_distribution_factory") (.callName "ProbabilityDistributionFactory" .nil))
    .done) .done)
    (.seq (.ifs (.cmp .is (.name "starting_state") .none) (.seq (.assign (.name "starting_state") (.callAttr (.name "probability_distribution_state_factory") "create_new_empty_set" .nil))
    .done) .done)
    (.seq (.assign (.self "_parser") (.name "parser"))
    (.seq (.assign (.self "_state") (.name "starting_state"))
    (.seq (.assign (.self "_probability_distribution_factory") (.name "probability_distribution_factory"))
    .done)))))))⟩

/-- `python_dice_interpreter.py:44-51`. -/
def Text.PythonDiceInterpreter.roll : PyFun := ⟨["self", "input_text"], [],
  (.seq (.assign (.name "return_dict") (.dict .nil))
    (.seq (.for_ (.name "line") (.name "input_text") (.seq (.assign (.tuple (.cons (.name "token") (.cons (.name "_") .nil))) (.callAttr (.self "_parser") "parse" (.cons (.name "line") (.cons (.kw "state" (.self "_state")) .nil))))
    (.seq (.assign (.name "stdout") (.callAttr (.name "token") "roll" .nil))
    (.seq (.assign (.name "return_dict") (.callAttr (.self "_state") "get_constant_dict" .nil))
    (.seq (.assign (.index (.name "return_dict") (.str ['s', 't', 'd', 'o', 'u', 't'])) (.name "stdout"))
    .done)))))
    (.seq (.ret (.name "return_dict"))
    .done)))⟩

/-- `python_dice_interpreter.py:53-60`. -/
def Text.PythonDiceInterpreter.max : PyFun := ⟨["self", "input_text"], [],
  (.seq (.assign (.name "return_dict") (.dict .nil))
    (.seq (.for_ (.name "line") (.name "input_text") (.seq (.assign (.tuple (.cons (.name "token") (.cons (.name "_") .nil))) (.callAttr (.self "_parser") "parse" (.cons (.name "line") (.cons (.kw "state" (.self "_state")) .nil))))
    (.seq (.assign (.name "stdout") (.callAttr (.name "token") "max" .nil))
    (.seq (.assign (.name "return_dict") (.callAttr (.self "_state") "get_constant_dict" .nil))
    (.seq (.assign (.index (.name "return_dict") (.str ['s', 't', 'd', 'o', 'u', 't'])) (.name "stdout"))
    .done)))))
    (.seq (.ret (.name "return_dict"))
    .done)))⟩

/-- `python_dice_interpreter.py:62-69`. -/
def Text.PythonDiceInterpreter.min : PyFun := ⟨["self", "input_text"], [],
  (.seq (.assign (.name "return_dict") (.dict .nil))
    (.seq (.for_ (.name "line") (.name "input_text") (.seq (.assign (.tuple (.cons (.name "token") (.cons (.name "_") .nil))) (.callAttr (.self "_parser") "parse" (.cons (.name "line") (.cons (.kw "state" (.self "_state")) .nil))))
    (.seq (.assign (.name "stdout") (.callAttr (.name "token") "min" .nil))
    (.seq (.assign (.name "return_dict") (.callAttr (.self "_state") "get_constant_dict" .nil))
    (.seq (.assign (.index (.name "return_dict") (.str ['s', 't', 'd', 'o', 'u', 't'])) (.name "stdout"))
    .done)))))
    (.seq (.ret (.name "return_dict"))
    .done)))⟩

/-- `python_dice_interpreter.py:71-78`. -/
def Text.PythonDiceInterpreter.get_probability_distributions_dict : PyFun := ⟨["self", "input_text"], [],
  (.seq (.assign (.name "return_dict") (.dict .nil))
    (.seq (.for_ (.name "line") (.name "input_text") (.seq (.assign (.tuple (.cons (.name "token") (.cons (.name "_") .nil))) (.callAttr (.self "_parser") "parse" (.cons (.name "line") (.cons (.kw "state" (.self "_state")) .nil))))
    (.seq (.assign (.name "stdout") (.callAttr (.name "token") "get_probability_distribution" .nil))
    (.seq (.assign (.name "return_dict") (.callAttr (.self "_state") "get_var_dict" .nil))
    (.seq (.assign (.index (.name "return_dict") (.str ['s', 't', 'd', 'o', 'u', 't'])) (.name "stdout"))
    .done)))))
    (.seq (.ret (.dictComp (.name "key") (.callAttr (.name "value") "get_dict_form" .nil) (.tuple (.cons (.name "key") (.cons (.name "value") .nil))) (.callAttr (.name "return_dict") "items" .nil)))
    .done)))⟩

/-- `python_dice_interpreter.py:80-87`. -/
def Text.PythonDiceInterpreter.get_probability_distributions : PyFun := ⟨["self", "input_text"], [],
  (.seq (.assign (.name "return_dict") (.dict .nil))
    (.seq (.for_ (.name "line") (.name "input_text") (.seq (.assign (.tuple (.cons (.name "token") (.cons (.name "_") .nil))) (.callAttr (.self "_parser") "parse" (.cons (.name "line") (.cons (.kw "state" (.self "_state")) .nil))))
    (.seq (.assign (.name "stdout") (.callAttr (.name "token") "get_probability_distribution" .nil))
    (.seq (.assign (.name "return_dict") (.callAttr (.self "_state") "get_var_dict" .nil))
    (.seq (.assign (.index (.name "return_dict") (.str ['s', 't', 'd', 'o', 'u', 't'])) (.name "stdout"))
    .done)))))
    (.seq (.ret (.dictComp (.name "key") (.index (.name "return_dict") (.name "key")) (.name "key") (.callAttr (.name "return_dict") "keys" .nil)))
    .done)))⟩

/-- `python_dice_interpreter.py:89-96`. -/
def Text.PythonDiceInterpreter.get_average : PyFun := ⟨["self", "input_text"], [],
  (.seq (.assign (.name "return_dict") (.dict .nil))
    (.seq (.for_ (.name "line") (.name "input_text") (.seq (.assign (.tuple (.cons (.name "token") (.cons (.name "_") .nil))) (.callAttr (.self "_parser") "parse" (.cons (.name "line") (.cons (.kw "state" (.self "_state")) .nil))))
    (.seq (.assign (.name "stdout") (.callAttr (.name "token") "get_probability_distribution" .nil))
    (.seq (.assign (.name "return_dict") (.callAttr (.self "_state") "get_var_dict" .nil))
    (.seq (.assign (.index (.name "return_dict") (.str ['s', 't', 'd', 'o', 'u', 't'])) (.name "stdout"))
    .done)))))
    (.seq (.ret (.dictComp (.name "key") (.callAttr (.name "value") "average" .nil) (.tuple (.cons (.name "key") (.cons (.name "value") .nil))) (.callAttr (.name "return_dict") "items" .nil)))
    .done)))⟩

/-- `python_dice_interpreter.py:98-103`. -/
def Text.PythonDiceInterpreter.get_histogram : PyFun := ⟨["self", "input_text"], [],
  (.seq (.assign (.name "stdout") (.callAttr (.self "_probability_distribution_factory") "create" .nil))
    (.seq (.for_ (.name "line") (.name "input_text") (.seq (.assign (.tuple (.cons (.name "token") (.cons (.name "_") .nil))) (.callAttr (.self "_parser") "parse" (.cons (.name "line") (.cons (.kw "state" (.self "_state")) .nil))))
    (.seq (.assign (.name "stdout") (.callAttr (.name "token") "get_probability_distribution" .nil))
    .done)))
    (.seq (.ret (.callAttr (.name "stdout") "get_histogram" .nil))
    .done)))⟩

/-- `python_dice_interpreter.py:105-110`. -/
def Text.PythonDiceInterpreter.get_at_least_histogram : PyFun := ⟨["self", "input_text"], [],
  (.seq (.assign (.name "stdout") (.callAttr (.self "_probability_distribution_factory") "create" .nil))
    (.seq (.for_ (.name "line") (.name "input_text") (.seq (.assign (.tuple (.cons (.name "token") (.cons (.name "_") .nil))) (.callAttr (.self "_parser") "parse" (.cons (.name "line") (.cons (.kw "state" (.self "_state")) .nil))))
    (.seq (.assign (.name "stdout") (.callAttr (.name "token") "get_probability_distribution" .nil))
    .done)))
    (.seq (.ret (.callAttr (.name "stdout") "get_at_least_histogram" .nil))
    .done)))⟩

/-- `python_dice_interpreter.py:112-117`. -/
def Text.PythonDiceInterpreter.get_at_most_histogram : PyFun := ⟨["self", "input_text"], [],
  (.seq (.assign (.name "stdout") (.callAttr (.self "_probability_distribution_factory") "create" .nil))
    (.seq (.for_ (.name "line") (.name "input_text") (.seq (.assign (.tuple (.cons (.name "token") (.cons (.name "_") .nil))) (.callAttr (.self "_parser") "parse" (.cons (.name "line") (.cons (.kw "state" (.self "_state")) .nil))))
    (.seq (.assign (.name "stdout") (.callAttr (.name "token") "get_probability_distribution" .nil))
    .done)))
    (.seq (.ret (.callAttr (.name "stdout") "get_at_most_histogram" .nil))
    .done)))⟩

/-- `python_dice_interpreter.py:119-125`. -/
def Text.PythonDiceInterpreter.get_estimated_cost : PyFun := ⟨["self", "input_text"], [],
  (.seq (.assign (.name "total_cost") (.int 0))
    (.seq (.for_ (.name "line") (.name "input_text") (.seq (.assign (.tuple (.cons (.name "token") (.cons (.name "_") .nil))) (.callAttr (.self "_parser") "parse" (.cons (.name "line") (.cons (.kw "state" (.self "_state")) .nil))))
    (.seq (.assign (.name "line_cost") (.callAttr (.name "token") "estimated_cost" .nil))
    (.seq (.aug .add (.name "total_cost") (.name "line_cost"))
    .done))))
    (.seq (.ret (.name "total_cost"))
    .done)))⟩

/-- `python_dice_lexer.py:10-16`. -/
def Text.PythonDiceLexer.__init__ : PyFun := ⟨["self"], [],
  (.seq (.assign (.name "partial_lexer") (.callAttr (.name "rply") "LexerGenerator" .nil))
    (.seq (.for_ (.name "syntax") (.name "LEXER_SYNTAX") (.seq (.expr (.callAttr (.name "partial_lexer") "add" (.cons (.callAttr (.name "syntax") "get_token_name" .nil) (.cons (.callAttr (.name "syntax") "get_token_regex" .nil) .nil))))
    .done))
    (.seq (.expr (.callAttr (.name "partial_lexer") "ignore" (.cons (.str ['\\', 's', '+']) .nil)))
    (.seq (.assign (.self "_lexer") (.callAttr (.name "partial_lexer") "build" .nil))
    .done))))⟩

/-- `python_dice_lexer.py:18-38`. -/
def Text.PythonDiceLexer.lex : PyFun := ⟨["self", "input_text"], [],
  (.seq (.tryx (.seq (.ret (.callName "list" (.cons (.callAttr (.self "_lexer") "lex" (.cons (.name "input_text") .nil)) .nil)))
    .done) ["rply", "errors", "LexingError"] "exception" (.seq (.assign (.name "input_lines") (.callAttr (.name "input_text") "split" (.cons (.str ['\n']) .nil)))
    (.seq (.assign (.name "source_column_number") (.attr (.callAttr (.name "exception") "getsourcepos" .nil) "idx"))
    (.seq (.assign (.name "current_line_index") (.int 0))
    (.seq (.while_ (.cmp .lt (.callName "len" (.cons (.index (.name "input_lines") (.name "current_line_index")) .nil)) (.name "source_column_number")) (.seq (.aug .sub (.name "source_column_number") (.bin .add (.callName "len" (.cons (.index (.name "input_lines") (.name "current_line_index")) .nil)) (.int 1)))
    (.seq (.aug .add (.name "current_line_index") (.int 1))
    .done)))
    (.seq (.assign (.name "sub_string_start") (.callName "max" (.cons (.int 0) (.cons (.bin .sub (.name "source_column_number") (.int 50)) .nil))))
    (.seq (.assign (.name "sub_string_end") (.callName "min" (.cons (.callName "len" (.cons (.name "input_text") .nil)) (.cons (.bin .add (.name "source_column_number") (.int 50)) .nil))))
    (.seq (.assign (.name "sub_string") (.slice (.index (.name "input_lines") (.name "current_line_index")) (.name "sub_string_start") (.name "sub_string_end")))
    (.seq (.assign (.name "arrow_line") (.bin .add (.bin .mul (.str ['-']) (.bin .sub (.name "source_column_number") (.name "sub_string_start"))) (.str ['^'])))
    (.seq (.assign (.name "message") (.fstr (.cons (.name "sub_string") (.cons (.str ['\n']) (.cons (.name "arrow_line") .nil)))))
    (.seq (.assign (.name "new_exception") (.callName "ValueError" (.cons (.name "message") .nil)))
    .done)))))))))))
    (.seq (.throw (.name "new_exception"))
    .done))⟩

/-- `syntax/abs_syntax.py:5`. -/
def Text.AbsSyntax.TOKEN_NAME : PyE :=
  (.str ['A', 'B', 'S'])

/-- `syntax/abs_syntax.py:6`. -/
def Text.AbsSyntax.TOKEN_REGEX : PyE :=
  (.str ['\\', 'b', 'A', 'B', 'S', '\\', 'b'])

/-- `syntax/abs_syntax.py:9-10` (`@staticmethod`). -/
def Text.AbsSyntax.get_token_name : PyFun := ⟨[], [],
  (.seq (.ret (.attr (.name "AbsSyntax") "TOKEN_NAME"))
    .done)⟩

/-- `syntax/abs_syntax.py:13-14` (`@staticmethod`). -/
def Text.AbsSyntax.get_token_regex : PyFun := ⟨[], [],
  (.seq (.ret (.attr (.name "AbsSyntax") "TOKEN_REGEX"))
    .done)⟩

/-- `syntax/add_syntax.py:5`. -/
def Text.AddSyntax.TOKEN_NAME : PyE :=
  (.str ['A', 'D', 'D'])

/-- `syntax/add_syntax.py:6`. -/
def Text.AddSyntax.TOKEN_REGEX : PyE :=
  (.str ['\\', '+'])

/-- `syntax/add_syntax.py:9-10` (`@staticmethod`). -/
def Text.AddSyntax.get_token_name : PyFun := ⟨[], [],
  (.seq (.ret (.attr (.name "AddSyntax") "TOKEN_NAME"))
    .done)⟩

/-- `syntax/add_syntax.py:13-14` (`@staticmethod`). -/
def Text.AddSyntax.get_token_regex : PyFun := ⟨[], [],
  (.seq (.ret (.attr (.name "AddSyntax") "TOKEN_REGEX"))
    .done)⟩

/-- `syntax/assignment_syntax.py:5`. -/
def Text.AssignmentSyntax.TOKEN_NAME : PyE :=
  (.str ['A', 'S', 'S', 'I', 'G', 'N', 'M', 'E', 'N', 'T'])

/-- `syntax/assignment_syntax.py:6`. -/
def Text.AssignmentSyntax.TOKEN_REGEX : PyE :=
  (.str ['=', '(', '?', '!', '=', ')', '(', '?', '<', '!', '=', '=', ')'])

/-- `syntax/assignment_syntax.py:9-10` (`@staticmethod`). -/
def Text.AssignmentSyntax.get_token_name : PyFun := ⟨[], [],
  (.seq (.ret (.attr (.name "AssignmentSyntax") "TOKEN_NAME"))
    .done)⟩

/-- `syntax/assignment_syntax.py:13-14` (`@staticmethod`). -/
def Text.AssignmentSyntax.get_token_regex : PyFun := ⟨[], [],
  (.seq (.ret (.attr (.name "AssignmentSyntax") "TOKEN_REGEX"))
    .done)⟩

/-- `syntax/binary_operator_syntax.py:5`. -/
def Text.BinaryOperatorSyntax.TOKEN_NAME : PyE :=
  (.str ['B', 'I', 'N', 'A', 'R', 'Y', '_', 'O', 'P', 'E', 'R', 'A', 'T', 'O', 'R'])

/-- `syntax/binary_operator_syntax.py:6`. -/
def Text.BinaryOperatorSyntax.TOKEN_REGEX : PyE :=
  (.str ['=', '=', '|', '!', '=', '|', '<', '=', '|', '<', '|', '>', '=', '|', '>', '|', '\\', 'b', 'A', 'N', 'D', '\\', 'b', '|', '\\', 'b', 'O', 'R', '\\', 'b'])

/-- `syntax/binary_operator_syntax.py:9-10` (`@staticmethod`). -/
def Text.BinaryOperatorSyntax.get_token_name : PyFun := ⟨[], [],
  (.seq (.ret (.attr (.name "BinaryOperatorSyntax") "TOKEN_NAME"))
    .done)⟩

/-- `syntax/binary_operator_syntax.py:13-14` (`@staticmethod`). -/
def Text.BinaryOperatorSyntax.get_token_regex : PyFun := ⟨[], [],
  (.seq (.ret (.attr (.name "BinaryOperatorSyntax") "TOKEN_REGEX"))
    .done)⟩

/-- `syntax/close_parenthesis_syntax.py:5`. -/
def Text.CloseParenthesisSyntax.TOKEN_NAME : PyE :=
  (.str ['C', 'L', 'O', 'S', 'E', '_', 'P', 'A', 'R', 'E', 'N', 'T', 'H', 'E', 'S', 'I', 'S'])

/-- `syntax/close_parenthesis_syntax.py:6`. -/
def Text.CloseParenthesisSyntax.TOKEN_REGEX : PyE :=
  (.str ['\\', ')'])

/-- `syntax/close_parenthesis_syntax.py:9-10` (`@staticmethod`). -/
def Text.CloseParenthesisSyntax.get_token_name : PyFun := ⟨[], [],
  (.seq (.ret (.attr (.name "CloseParenthesisSyntax") "TOKEN_NAME"))
    .done)⟩

/-- `syntax/close_parenthesis_syntax.py:13-14` (`@staticmethod`). -/
def Text.CloseParenthesisSyntax.get_token_regex : PyFun := ⟨[], [],
  (.seq (.ret (.attr (.name "CloseParenthesisSyntax") "TOKEN_REGEX"))
    .done)⟩

/-- `syntax/comma_syntax.py:5`. -/
def Text.CommaSyntax.TOKEN_NAME : PyE :=
  (.str ['C', 'O', 'M', 'M', 'A'])

/-- `syntax/comma_syntax.py:6`. -/
def Text.CommaSyntax.TOKEN_REGEX : PyE :=
  (.str ['\\', ','])

/-- `syntax/comma_syntax.py:9-10` (`@staticmethod`). -/
def Text.CommaSyntax.get_token_name : PyFun := ⟨[], [],
  (.seq (.ret (.attr (.name "CommaSyntax") "TOKEN_NAME"))
    .done)⟩

/-- `syntax/comma_syntax.py:13-14` (`@staticmethod`). -/
def Text.CommaSyntax.get_token_regex : PyFun := ⟨[], [],
  (.seq (.ret (.attr (.name "CommaSyntax") "TOKEN_REGEX"))
    .done)⟩

/-- `syntax/constant_binary_syntax.py:5`. -/
def Text.ConstantBinarySyntax.TOKEN_NAME : PyE :=
  (.str ['C', 'O', 'N', 'S', 'T', 'A', 'N', 'T', '_', 'B', 'I', 'N', 'A', 'R', 'Y'])

/-- `syntax/constant_binary_syntax.py:6`. -/
def Text.ConstantBinarySyntax.TOKEN_REGEX : PyE :=
  (.str ['\\', 'b', 'T', 'r', 'u', 'e', '\\', 'b', '|', '\\', 'b', 'F', 'a', 'l', 's', 'e', '\\', 'b'])

/-- `syntax/constant_binary_syntax.py:9-10` (`@staticmethod`). -/
def Text.ConstantBinarySyntax.get_token_name : PyFun := ⟨[], [],
  (.seq (.ret (.attr (.name "ConstantBinarySyntax") "TOKEN_NAME"))
    .done)⟩

/-- `syntax/constant_binary_syntax.py:13-14` (`@staticmethod`). -/
def Text.ConstantBinarySyntax.get_token_regex : PyFun := ⟨[], [],
  (.seq (.ret (.attr (.name "ConstantBinarySyntax") "TOKEN_REGEX"))
    .done)⟩

/-- `syntax/constant_integer_syntax.py:5`. -/
def Text.ConstantIntegerSyntax.TOKEN_NAME : PyE :=
  (.str ['C', 'O', 'N', 'S', 'T', 'A', 'N', 'T', '_', 'I', 'N', 'T', 'E', 'G', 'E', 'R'])

/-- `syntax/constant_integer_syntax.py:6`. -/
def Text.ConstantIntegerSyntax.TOKEN_REGEX : PyE :=
  (.str ['-', '?', '\\', 'd', '+'])

/-- `syntax/constant_integer_syntax.py:9-10` (`@staticmethod`). -/
def Text.ConstantIntegerSyntax.get_token_name : PyFun := ⟨[], [],
  (.seq (.ret (.attr (.name "ConstantIntegerSyntax") "TOKEN_NAME"))
    .done)⟩

/-- `syntax/constant_integer_syntax.py:13-14` (`@staticmethod`). -/
def Text.ConstantIntegerSyntax.get_token_regex : PyFun := ⟨[], [],
  (.seq (.ret (.attr (.name "ConstantIntegerSyntax") "TOKEN_REGEX"))
    .done)⟩

/-- `syntax/dice_syntax.py:6`. -/
def Text.DiceSyntax.TOKEN_NAME : PyE :=
  (.str ['D', 'I', 'C', 'E'])

/-- `syntax/dice_syntax.py:7`. -/
def Text.DiceSyntax.TOKEN_REGEX : PyE :=
  (.name "DICE_SYNTAX")

/-- `syntax/dice_syntax.py:10-11` (`@staticmethod`). -/
def Text.DiceSyntax.get_token_name : PyFun := ⟨[], [],
  (.seq (.ret (.attr (.name "DiceSyntax") "TOKEN_NAME"))
    .done)⟩

/-- `syntax/dice_syntax.py:14-15` (`@staticmethod`). -/
def Text.DiceSyntax.get_token_regex : PyFun := ⟨[], [],
  (.seq (.ret (.attr (.name "DiceSyntax") "TOKEN_REGEX"))
    .done)⟩

/-- `syntax/drop_keep_syntax.py:6`. -/
def Text.DropKeepSyntax.TOKEN_NAME : PyE :=
  (.str ['D', 'R', 'O', 'P', '_', 'K', 'E', 'E', 'P', '_', 'D', 'I', 'C', 'E'])

/-- `syntax/drop_keep_syntax.py:7`. -/
def Text.DropKeepSyntax.TOKEN_REGEX : PyE :=
  (.name "DROP_KEEP_DICE_SYNTAX")

/-- `syntax/drop_keep_syntax.py:10-11` (`@staticmethod`). -/
def Text.DropKeepSyntax.get_token_name : PyFun := ⟨[], [],
  (.seq (.ret (.attr (.name "DropKeepSyntax") "TOKEN_NAME"))
    .done)⟩

/-- `syntax/drop_keep_syntax.py:14-15` (`@staticmethod`). -/
def Text.DropKeepSyntax.get_token_regex : PyFun := ⟨[], [],
  (.seq (.ret (.attr (.name "DropKeepSyntax") "TOKEN_REGEX"))
    .done)⟩

/-- `syntax/integer_division_syntax.py:5`. -/
def Text.IntegerDivisionSyntax.TOKEN_NAME : PyE :=
  (.str ['I', 'N', 'T', 'E', 'G', 'E', 'R', '_', 'D', 'I', 'V', 'I', 'S', 'I', 'O', 'N'])

/-- `syntax/integer_division_syntax.py:6`. -/
def Text.IntegerDivisionSyntax.TOKEN_REGEX : PyE :=
  (.str ['/', '/'])

/-- `syntax/integer_division_syntax.py:9-10` (`@staticmethod`). -/
def Text.IntegerDivisionSyntax.get_token_name : PyFun := ⟨[], [],
  (.seq (.ret (.attr (.name "IntegerDivisionSyntax") "TOKEN_NAME"))
    .done)⟩

/-- `syntax/integer_division_syntax.py:13-14` (`@staticmethod`). -/
def Text.IntegerDivisionSyntax.get_token_regex : PyFun := ⟨[], [],
  (.seq (.ret (.attr (.name "IntegerDivisionSyntax") "TOKEN_REGEX"))
    .done)⟩

/-- `syntax/min_max_syntax.py:5`. -/
def Text.MinMaxSyntax.TOKEN_NAME : PyE :=
  (.str ['M', 'I', 'N', 'M', 'A', 'X'])

/-- `syntax/min_max_syntax.py:6`. -/
def Text.MinMaxSyntax.TOKEN_REGEX : PyE :=
  (.str ['\\', 'b', 'M', 'A', 'X', '\\', 'b', '|', '\\', 'b', 'M', 'I', 'N', '\\', 'b'])

/-- `syntax/min_max_syntax.py:9-10` (`@staticmethod`). -/
def Text.MinMaxSyntax.get_token_name : PyFun := ⟨[], [],
  (.seq (.ret (.attr (.name "MinMaxSyntax") "TOKEN_NAME"))
    .done)⟩

/-- `syntax/min_max_syntax.py:13-14` (`@staticmethod`). -/
def Text.MinMaxSyntax.get_token_regex : PyFun := ⟨[], [],
  (.seq (.ret (.attr (.name "MinMaxSyntax") "TOKEN_REGEX"))
    .done)⟩

/-- `syntax/multiply_syntax.py:5`. -/
def Text.MultiplySyntax.TOKEN_NAME : PyE :=
  (.str ['M', 'U', 'L', 'T', 'I', 'P', 'L', 'Y'])

/-- `syntax/multiply_syntax.py:6`. -/
def Text.MultiplySyntax.TOKEN_REGEX : PyE :=
  (.str ['\\', '*'])

/-- `syntax/multiply_syntax.py:9-10` (`@staticmethod`). -/
def Text.MultiplySyntax.get_token_name : PyFun := ⟨[], [],
  (.seq (.ret (.attr (.name "MultiplySyntax") "TOKEN_NAME"))
    .done)⟩

/-- `syntax/multiply_syntax.py:13-14` (`@staticmethod`). -/
def Text.MultiplySyntax.get_token_regex : PyFun := ⟨[], [],
  (.seq (.ret (.attr (.name "MultiplySyntax") "TOKEN_REGEX"))
    .done)⟩

/-- `syntax/name_syntax.py:5`. -/
def Text.NameSyntax.TOKEN_NAME : PyE :=
  (.str ['N', 'A', 'M', 'E'])

/-- `syntax/name_syntax.py:6`. -/
def Text.NameSyntax.TOKEN_REGEX : PyE :=
  (.str ['\\', 'b', '[', 'a', '-', 'z', '_', ']', '+', '\\', 'b'])

/-- `syntax/name_syntax.py:9-10` (`@staticmethod`). -/
def Text.NameSyntax.get_token_name : PyFun := ⟨[], [],
  (.seq (.ret (.attr (.name "NameSyntax") "TOKEN_NAME"))
    .done)⟩

/-- `syntax/name_syntax.py:13-14` (`@staticmethod`). -/
def Text.NameSyntax.get_token_regex : PyFun := ⟨[], [],
  (.seq (.ret (.attr (.name "NameSyntax") "TOKEN_REGEX"))
    .done)⟩

/-- `syntax/not_syntax.py:5`. -/
def Text.NotSyntax.TOKEN_NAME : PyE :=
  (.str ['N', 'O', 'T'])

/-- `syntax/not_syntax.py:6`. -/
def Text.NotSyntax.TOKEN_REGEX : PyE :=
  (.str ['!', '(', '?', '!', '=', ')'])

/-- `syntax/not_syntax.py:9-10` (`@staticmethod`). -/
def Text.NotSyntax.get_token_name : PyFun := ⟨[], [],
  (.seq (.ret (.attr (.name "NotSyntax") "TOKEN_NAME"))
    .done)⟩

/-- `syntax/not_syntax.py:13-14` (`@staticmethod`). -/
def Text.NotSyntax.get_token_regex : PyFun := ⟨[], [],
  (.seq (.ret (.attr (.name "NotSyntax") "TOKEN_REGEX"))
    .done)⟩

/-- `syntax/open_parenthesis_syntax.py:5`. -/
def Text.OpenParenthesisSyntax.TOKEN_NAME : PyE :=
  (.str ['O', 'P', 'E', 'N', '_', 'P', 'A', 'R', 'E', 'N', 'T', 'H', 'E', 'S', 'I', 'S'])

/-- `syntax/open_parenthesis_syntax.py:6`. -/
def Text.OpenParenthesisSyntax.TOKEN_REGEX : PyE :=
  (.str ['\\', '('])

/-- `syntax/open_parenthesis_syntax.py:9-10` (`@staticmethod`). -/
def Text.OpenParenthesisSyntax.get_token_name : PyFun := ⟨[], [],
  (.seq (.ret (.attr (.name "OpenParenthesisSyntax") "TOKEN_NAME"))
    .done)⟩

/-- `syntax/open_parenthesis_syntax.py:13-14` (`@staticmethod`). -/
def Text.OpenParenthesisSyntax.get_token_regex : PyFun := ⟨[], [],
  (.seq (.ret (.attr (.name "OpenParenthesisSyntax") "TOKEN_REGEX"))
    .done)⟩

/-- `syntax/subtract_syntax.py:5`. -/
def Text.SubtractSyntax.TOKEN_NAME : PyE :=
  (.str ['S', 'U', 'B', 'T', 'R', 'A', 'C', 'T'])

/-- `syntax/subtract_syntax.py:6`. -/
def Text.SubtractSyntax.TOKEN_REGEX : PyE :=
  (.str ['\\', '-'])

/-- `syntax/subtract_syntax.py:9-10` (`@staticmethod`). -/
def Text.SubtractSyntax.get_token_name : PyFun := ⟨[], [],
  (.seq (.ret (.attr (.name "SubtractSyntax") "TOKEN_NAME"))
    .done)⟩

/-- `syntax/subtract_syntax.py:13-14` (`@staticmethod`). -/
def Text.SubtractSyntax.get_token_regex : PyFun := ⟨[], [],
  (.seq (.ret (.attr (.name "SubtractSyntax") "TOKEN_REGEX"))
    .done)⟩

/-- `syntax/var_syntax.py:5`. -/
def Text.VarSyntax.TOKEN_NAME : PyE :=
  (.str ['V', 'A', 'R'])

/-- `syntax/var_syntax.py:6`. -/
def Text.VarSyntax.TOKEN_REGEX : PyE :=
  (.str ['\\', 'b', 'V', 'A', 'R', '\\', 'b'])

/-- `syntax/var_syntax.py:9-10` (`@staticmethod`). -/
def Text.VarSyntax.get_token_name : PyFun := ⟨[], [],
  (.seq (.ret (.attr (.name "VarSyntax") "TOKEN_NAME"))
    .done)⟩

/-- `syntax/var_syntax.py:13-14` (`@staticmethod`). -/
def Text.VarSyntax.get_token_regex : PyFun := ⟨[], [],
  (.seq (.ret (.attr (.name "VarSyntax") "TOKEN_REGEX"))
    .done)⟩

/-- `syntax/dice_syntax_helper.py:1-14`. -/
def Text.dice_syntax_helper : PyS :=
  (.seq (.assign (.name "_NUMBER_OF_DICE") (.str ['\\', 'd', '*']))
    (.seq (.assign (.name "_DICE_SYMBOL") (.str ['d']))
    (.seq (.assign (.name "_DICE_NUM_TYPE") (.str ['\\', 'd', '+']))
    (.seq (.assign (.name "_PERCENTILE_TYPE") (.str ['%']))
    (.seq (.assign (.name "_FATE_TYPE") (.str ['F']))
    (.seq (.assign (.name "_CUSTOM_TYPE_ENTRY") (.str ['(', '-', '?', '\\', 'd', '+', '-', '-', '?', '\\', 'd', '+', '(', '\\', '*', '\\', 'd', '+', ')', '?', '|', '-', '?', '\\', 'd', '+', '(', '\\', '*', '\\', 'd', '+', ')', '?', ')']))
    (.seq (.assign (.name "_CUSTOM_TYPE") (.fstr (.cons (.str ['\\', '[', '(', '\\', 's', '*']) (.cons (.name "_CUSTOM_TYPE_ENTRY") (.cons (.str ['\\', 's', '*', ',', '\\', 's', '*', ')', '*', '\\', 's', '*']) (.cons (.name "_CUSTOM_TYPE_ENTRY") (.cons (.str ['\\', 's', '*', '(', ',', '?', ')', '\\', 's', '*', '\\', ']']) .nil)))))))
    (.seq (.assign (.name "_DICE_TYPE") (.fstr (.cons (.str ['(']) (.cons (.name "_DICE_NUM_TYPE") (.cons (.str ['|']) (.cons (.name "_PERCENTILE_TYPE") (.cons (.str ['|']) (.cons (.name "_FATE_TYPE") (.cons (.str ['|']) (.cons (.name "_CUSTOM_TYPE") (.cons (.str [')']) .nil)))))))))))
    (.seq (.assign (.name "_DROP_KEEP") (.str ['[', 'k', 'd', ']', '\\', 'd', '+']))
    (.seq (.assign (.name "DICE_SYNTAX") (.bin .add (.bin .add (.name "_NUMBER_OF_DICE") (.name "_DICE_SYMBOL")) (.name "_DICE_TYPE")))
    (.seq (.assign (.name "DROP_KEEP_DICE_SYNTAX") (.bin .add (.name "DICE_SYNTAX") (.name "_DROP_KEEP")))
    .done)))))))))))

/-- `python_dice_syntax_objects.py:39-98`. -/
def Text.python_dice_syntax_objects : PyS :=
  (.seq (.assign (.name "LEXER_SYNTAX") (.list (.cons (.name "OpenParenthesisSyntax") (.cons (.name "CloseParenthesisSyntax") (.cons (.name "CommaSyntax") (.cons (.name "NotSyntax") (.cons (.name "DropKeepSyntax") (.cons (.name "DiceSyntax") (.cons (.name "BinaryOperatorSyntax") (.cons (.name "ConstantIntegerSyntax") (.cons (.name "ConstantBinarySyntax") (.cons (.name "AddSyntax") (.cons (.name "SubtractSyntax") (.cons (.name "MultiplySyntax") (.cons (.name "IntegerDivisionSyntax") (.cons (.name "MinMaxSyntax") (.cons (.name "AbsSyntax") (.cons (.name "AssignmentSyntax") (.cons (.name "VarSyntax") (.cons (.name "NameSyntax") .nil))))))))))))))))))))
    (.seq (.assign (.name "PARSER_EXPRESSIONS") (.list (.cons (.name "ParenthesisEnclosedExpression") (.cons (.name "NotExpression") (.cons (.name "DropKeepExpression") (.cons (.name "DiceExpression") (.cons (.name "ConstantIntegerExpression") (.cons (.name "ConstantBinaryExpression") (.cons (.name "AddExpression") (.cons (.name "SubtractExpression") (.cons (.name "MultiplyExpression") (.cons (.name "IntegerDivisionExpression") (.cons (.name "BinaryOperatorExpression") (.cons (.name "MinMaxExpression") (.cons (.name "AbsExpression") (.cons (.name "VarAssignmentExpression") (.cons (.name "GetVarExpression") .nil)))))))))))))))))
    (.seq (.assign (.name "PRECEDENCE") (.list (.cons (.tuple (.cons (.str ['n', 'o', 'n', 'a', 's', 's', 'o', 'c']) (.cons (.list (.cons (.callAttr (.name "VarSyntax") "get_token_name" .nil) .nil)) .nil))) (.cons (.tuple (.cons (.str ['l', 'e', 'f', 't']) (.cons (.list (.cons (.callAttr (.name "AssignmentSyntax") "get_token_name" .nil) .nil)) .nil))) (.cons (.tuple (.cons (.str ['l', 'e', 'f', 't']) (.cons (.list (.cons (.callAttr (.name "OpenParenthesisSyntax") "get_token_name" .nil) .nil)) .nil))) (.cons (.tuple (.cons (.str ['l', 'e', 'f', 't']) (.cons (.list (.cons (.callAttr (.name "NotSyntax") "get_token_name" .nil) .nil)) .nil))) (.cons (.tuple (.cons (.str ['l', 'e', 'f', 't']) (.cons (.list (.cons (.callAttr (.name "AddSyntax") "get_token_name" .nil) (.cons (.callAttr (.name "SubtractSyntax") "get_token_name" .nil) .nil))) .nil))) (.cons (.tuple (.cons (.str ['l', 'e', 'f', 't']) (.cons (.list (.cons (.callAttr (.name "IntegerDivisionSyntax") "get_token_name" .nil) (.cons (.callAttr (.name "MultiplySyntax") "get_token_name" .nil) .nil))) .nil))) (.cons (.tuple (.cons (.str ['l', 'e', 'f', 't']) (.cons (.list (.cons (.callAttr (.name "BinaryOperatorSyntax") "get_token_name" .nil) .nil)) .nil))) .nil)))))))))
    .done)))

end PyDice.Source
