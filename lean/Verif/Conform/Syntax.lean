import Verif.Conform.Basic

/-! # The tests of the token rules

Written by `tools/conform.py` from the test files named below; see `Verif/Conform/Basic.lean`. -/

namespace PyDice.Conform

attribute [local instance] listRuntime
set_option maxRecDepth 100000

-- syntax/test_abs_syntax.py:8 test_abs_syntax_get_token_name
example : ([decide (TokType.tokenName .abs = (t! "ABS"))] : List Bool).all id = true := by
  decide +kernel

-- syntax/test_abs_syntax.py:11 test_abs_syntax_get_token_regex
example : ([decide (source .abs = (t! "\\bABS\\b"))] : List Bool).all id = true := by
  decide +kernel

-- syntax/test_abs_syntax.py:14 test_abs_syntax_regex_will_match
example : ([(Re.isMatch (TokType.regex .abs) (t! "ABS"))] : List Bool).all id = true := by
  decide +kernel

-- syntax/test_abs_syntax.py:22 test_abs_syntax_regex_will_not_match
example : ([!(Re.isMatch (TokType.regex .abs) (t! "a")),
    !(Re.isMatch (TokType.regex .abs) (t! "just a ABSA")),
    !(Re.isMatch (TokType.regex .abs) (t! "")),
    !(Re.isMatch (TokType.regex .abs) (t! "1")),
    !(Re.isMatch (TokType.regex .abs) (t! " ")),
    !(Re.isMatch (TokType.regex .abs) (t! "-")),
    !(Re.isMatch (TokType.regex .abs) (t! "+")),
    !(Re.isMatch (TokType.regex .abs) (t! "(")),
    !(Re.isMatch (TokType.regex .abs) (t! "!="))] : List Bool).all id = true := by
  decide +kernel

-- syntax/test_add_syntax.py:8 test_add_get_token_name
example : ([decide (TokType.tokenName .add = (t! "ADD"))] : List Bool).all id = true := by
  decide +kernel

-- syntax/test_add_syntax.py:11 test_add_get_token_regex
example : ([decide (source .add = (t! "\\+"))] : List Bool).all id = true := by
  decide +kernel

-- syntax/test_add_syntax.py:14 test_add_regex_will_match
example : ([(Re.isMatch (TokType.regex .add) (t! "+"))] : List Bool).all id = true := by
  decide +kernel

-- syntax/test_add_syntax.py:22 test_add_regex_will_not_match
example : ([!(Re.isMatch (TokType.regex .add) (t! "a")),
    !(Re.isMatch (TokType.regex .add) (t! "just a string")),
    !(Re.isMatch (TokType.regex .add) (t! "")),
    !(Re.isMatch (TokType.regex .add) (t! "1")),
    !(Re.isMatch (TokType.regex .add) (t! " ")),
    !(Re.isMatch (TokType.regex .add) (t! "-")),
    !(Re.isMatch (TokType.regex .add) (t! "*")),
    !(Re.isMatch (TokType.regex .add) (t! "("))] : List Bool).all id = true := by
  decide +kernel

-- syntax/test_assignment_syntax.py:8 test_assignment_get_token_name
example : ([decide (TokType.tokenName .assign = (t! "ASSIGNMENT"))] : List Bool).all id = true := by
  decide +kernel

-- syntax/test_assignment_syntax.py:11 test_assignment_get_token_regex
example : ([decide (source .assign = (t! "=(?!=)(?<!==)"))] : List Bool).all id = true := by
  decide +kernel

-- syntax/test_assignment_syntax.py:14 test_assignment_regex_will_match
example : ([(Re.isMatch (TokType.regex .assign) (t! "="))] : List Bool).all id = true := by
  decide +kernel

-- syntax/test_assignment_syntax.py:22 test_assignment_regex_will_not_match
example : ([!(Re.isMatch (TokType.regex .assign) (t! "a")),
    !(Re.isMatch (TokType.regex .assign) (t! "just a string")),
    !(Re.isMatch (TokType.regex .assign) (t! "1d4")),
    !(Re.isMatch (TokType.regex .assign) (t! "1")),
    !(Re.isMatch (TokType.regex .assign) (t! " ")),
    !(Re.isMatch (TokType.regex .assign) (t! "==")),
    !(Re.isMatch (TokType.regex .assign) (t! "*")),
    !(Re.isMatch (TokType.regex .assign) (t! "(")),
    !(Re.isMatch (TokType.regex .assign) (t! "ad21")),
    !(Re.isMatch (TokType.regex .assign) (t! "===s"))] : List Bool).all id = true := by
  decide +kernel

-- syntax/test_binary_operator_syntax.py:8 test_binary_operator_syntax_get_token_name
example : ([decide (TokType.tokenName .binop = (t! "BINARY_OPERATOR"))] : List Bool).all id = true := by
  decide +kernel

-- syntax/test_binary_operator_syntax.py:14 test_binary_operator_syntax_get_token_regex
example : ([decide (source .binop = (t! "==|!=|<=|<|>=|>|\\bAND\\b|\\bOR\\b"))] : List Bool).all id = true := by
  decide +kernel

-- syntax/test_binary_operator_syntax.py:20 test_binary_operator_syntax_regex_will_match
example : ([(Re.isMatch (TokType.regex .binop) (t! "==")),
    (Re.isMatch (TokType.regex .binop) (t! "!=")),
    (Re.isMatch (TokType.regex .binop) (t! "<")),
    (Re.isMatch (TokType.regex .binop) (t! "<=")),
    (Re.isMatch (TokType.regex .binop) (t! ">")),
    (Re.isMatch (TokType.regex .binop) (t! ">=")),
    (Re.isMatch (TokType.regex .binop) (t! "AND")),
    (Re.isMatch (TokType.regex .binop) (t! "OR"))] : List Bool).all id = true := by
  decide +kernel

-- syntax/test_binary_operator_syntax.py:31 test_binary_operator_syntax_regex_will_not_match
example : ([!(Re.isMatch (TokType.regex .binop) (t! "a")),
    !(Re.isMatch (TokType.regex .binop) (t! "just a string")),
    !(Re.isMatch (TokType.regex .binop) (t! "")),
    !(Re.isMatch (TokType.regex .binop) (t! "1")),
    !(Re.isMatch (TokType.regex .binop) (t! " ")),
    !(Re.isMatch (TokType.regex .binop) (t! "-")),
    !(Re.isMatch (TokType.regex .binop) (t! "+")),
    !(Re.isMatch (TokType.regex .binop) (t! "(")),
    !(Re.isMatch (TokType.regex .binop) (t! "!"))] : List Bool).all id = true := by
  decide +kernel

-- syntax/test_close_parenthesis_syntax.py:8 test_close_parenthesis_get_token_name
example : ([decide (TokType.tokenName .closeP = (t! "CLOSE_PARENTHESIS"))] : List Bool).all id = true := by
  decide +kernel

-- syntax/test_close_parenthesis_syntax.py:14 test_close_parenthesis_get_token_regex
example : ([decide (source .closeP = (t! "\\)"))] : List Bool).all id = true := by
  decide +kernel

-- syntax/test_close_parenthesis_syntax.py:17 test_close_parenthesis_regex_will_match
example : ([(Re.isMatch (TokType.regex .closeP) (t! ")"))] : List Bool).all id = true := by
  decide +kernel

-- syntax/test_comma_syntax.py:8 test_comma_get_token_name
example : ([decide (TokType.tokenName .comma = (t! "COMMA"))] : List Bool).all id = true := by
  decide +kernel

-- syntax/test_comma_syntax.py:11 test_comma_get_token_regex
example : ([decide (source .comma = (t! "\\,"))] : List Bool).all id = true := by
  decide +kernel

-- syntax/test_comma_syntax.py:14 test_comma_regex_will_match
example : ([(Re.isMatch (TokType.regex .comma) (t! ","))] : List Bool).all id = true := by
  decide +kernel

-- syntax/test_comma_syntax.py:22 test_comma_regex_will_not_match
example : ([!(Re.isMatch (TokType.regex .comma) (t! "a")),
    !(Re.isMatch (TokType.regex .comma) (t! "just a string")),
    !(Re.isMatch (TokType.regex .comma) (t! "1d4")),
    !(Re.isMatch (TokType.regex .comma) (t! "1")),
    !(Re.isMatch (TokType.regex .comma) (t! " ")),
    !(Re.isMatch (TokType.regex .comma) (t! "-")),
    !(Re.isMatch (TokType.regex .comma) (t! "*")),
    !(Re.isMatch (TokType.regex .comma) (t! "(")),
    !(Re.isMatch (TokType.regex .comma) (t! "ad21"))] : List Bool).all id = true := by
  decide +kernel

-- syntax/test_constant_binary_syntax.py:8 test_constant_binary_get_token_name
example : ([decide (TokType.tokenName .constBin = (t! "CONSTANT_BINARY"))] : List Bool).all id = true := by
  decide +kernel

-- syntax/test_constant_binary_syntax.py:14 test_constant_binary_get_token_regex
example : ([decide (source .constBin = (t! "\\bTrue\\b|\\bFalse\\b"))] : List Bool).all id = true := by
  decide +kernel

-- syntax/test_constant_binary_syntax.py:20 test_constant_binary_regex_will_match
example : ([(Re.isMatch (TokType.regex .constBin) (t! "True")),
    (Re.isMatch (TokType.regex .constBin) (t! "False"))] : List Bool).all id = true := by
  decide +kernel

-- syntax/test_constant_binary_syntax.py:31 test_constant_binary_regex_will_not_match
example : ([!(Re.isMatch (TokType.regex .constBin) (t! "a")),
    !(Re.isMatch (TokType.regex .constBin) (t! "just a string")),
    !(Re.isMatch (TokType.regex .constBin) (t! "1")),
    !(Re.isMatch (TokType.regex .constBin) (t! "0")),
    !(Re.isMatch (TokType.regex .constBin) (t! "!")),
    !(Re.isMatch (TokType.regex .constBin) (t! "false")),
    !(Re.isMatch (TokType.regex .constBin) (t! "Falses")),
    !(Re.isMatch (TokType.regex .constBin) (t! "aTrue")),
    !(Re.isMatch (TokType.regex .constBin) (t! "true"))] : List Bool).all id = true := by
  decide +kernel

-- syntax/test_constant_integer_syntax.py:8 test_constant_integers_get_token_name
example : ([decide (TokType.tokenName .constInt = (t! "CONSTANT_INTEGER"))] : List Bool).all id = true := by
  decide +kernel

-- syntax/test_constant_integer_syntax.py:14 test_constant_integers_get_token_regex
example : ([decide (source .constInt = (t! "-?\\d+"))] : List Bool).all id = true := by
  decide +kernel

-- syntax/test_constant_integer_syntax.py:17 test_constant_integer_regex_will_match
example : ([(Re.isMatch (TokType.regex .constInt) (t! "-31982473918274")),
    (Re.isMatch (TokType.regex .constInt) (t! "-3")),
    (Re.isMatch (TokType.regex .constInt) (t! "0")),
    (Re.isMatch (TokType.regex .constInt) (t! "1")),
    (Re.isMatch (TokType.regex .constInt) (t! "0003")),
    (Re.isMatch (TokType.regex .constInt) (t! "12")),
    (Re.isMatch (TokType.regex .constInt) (t! "41")),
    (Re.isMatch (TokType.regex .constInt) (t! "87")),
    (Re.isMatch (TokType.regex .constInt) (t! "902")),
    (Re.isMatch (TokType.regex .constInt) (t! "12983")),
    (Re.isMatch (TokType.regex .constInt) (t! "15412")),
    (Re.isMatch (TokType.regex .constInt) (t! "1000000000000000000000000000"))] : List Bool).all id = true := by
  decide +kernel

-- syntax/test_constant_integer_syntax.py:41 test_constant_integer_regex_will_not_match
example : ([!(Re.isMatch (TokType.regex .constInt) (t! "a")),
    !(Re.isMatch (TokType.regex .constInt) (t! "just a string")),
    !(Re.isMatch (TokType.regex .constInt) (t! "")),
    !(Re.isMatch (TokType.regex .constInt) (t! " "))] : List Bool).all id = true := by
  decide +kernel

-- syntax/test_dice_syntax.py:8 test_dice_get_token_name
example : ([decide (TokType.tokenName .dice = (t! "DICE"))] : List Bool).all id = true := by
  decide +kernel

-- syntax/test_dice_syntax.py:11 test_dice_get_token_regex
example : ([decide (source .dice = (t! "\\d*d(\\d+|%|F|\\[(\\s*(-?\\d+--?\\d+(\\*\\d+)?|-?\\d+(\\*\\d+)?)\\s*,\\s*)*\\s*(-?\\d+--?\\d+(\\*\\d+)?|-?\\d+(\\*\\d+)?)\\s*(,?)\\s*\\])"))] : List Bool).all id = true := by
  decide +kernel

-- syntax/test_dice_syntax.py:18 test_dice_regex_will_match
example : ([(Re.isMatch (TokType.regex .dice) (t! "2d6")),
    (Re.isMatch (TokType.regex .dice) (t! "10d4")),
    (Re.isMatch (TokType.regex .dice) (t! "100d0")),
    (Re.isMatch (TokType.regex .dice) (t! "1d90")),
    (Re.isMatch (TokType.regex .dice) (t! "0d210321314")),
    (Re.isMatch (TokType.regex .dice) (t! "12652125d12312")),
    (Re.isMatch (TokType.regex .dice) (t! "d6")),
    (Re.isMatch (TokType.regex .dice) (t! "3d%")),
    (Re.isMatch (TokType.regex .dice) (t! "d%")),
    (Re.isMatch (TokType.regex .dice) (t! "dF")),
    (Re.isMatch (TokType.regex .dice) (t! "10dF")),
    (Re.isMatch (TokType.regex .dice) (t! "2dF")),
    (Re.isMatch (TokType.regex .dice) (t! "d[1]")),
    (Re.isMatch (TokType.regex .dice) (t! "d[-1]")),
    (Re.isMatch (TokType.regex .dice) (t! "d[ 1,2,3,4]")),
    (Re.isMatch (TokType.regex .dice) (t! "d[ 1--6,2,3,4*3]")),
    (Re.isMatch (TokType.regex .dice) (t! "d[-1 , -2--2, 1, 1]")),
    (Re.isMatch (TokType.regex .dice) (t! "2d[0,1, 2, -1]")),
    (Re.isMatch (TokType.regex .dice) (t! "2d[0,1, 2*5, -1]")),
    (Re.isMatch (TokType.regex .dice) (t! "5d[1,]"))] : List Bool).all id = true := by
  decide +kernel

-- syntax/test_dice_syntax.py:47 test_dice_regex_will_not_match
example : ([!(Re.isMatch (TokType.regex .dice) (t! "a")),
    !(Re.isMatch (TokType.regex .dice) (t! "just a string")),
    !(Re.isMatch (TokType.regex .dice) (t! "1da")),
    !(Re.isMatch (TokType.regex .dice) (t! "1")),
    !(Re.isMatch (TokType.regex .dice) (t! " ")),
    !(Re.isMatch (TokType.regex .dice) (t! "-")),
    !(Re.isMatch (TokType.regex .dice) (t! "*")),
    !(Re.isMatch (TokType.regex .dice) (t! "(")),
    !(Re.isMatch (TokType.regex .dice) (t! "ad21")),
    !(Re.isMatch (TokType.regex .dice) (t! "5d")),
    !(Re.isMatch (TokType.regex .dice) (t! "5d")),
    !(Re.isMatch (TokType.regex .dice) (t! "5d[]")),
    !(Re.isMatch (TokType.regex .dice) (t! "1d[1, 2, 3")),
    !(Re.isMatch (TokType.regex .dice) (t! "d[1,,2]")),
    !(Re.isMatch (TokType.regex .dice) (t! "-1d[1,2]")),
    !(Re.isMatch (TokType.regex .dice) (t! "1d[1,-2*-2]")),
    !(Re.isMatch (TokType.regex .dice) (t! "1d[1-,2]"))] : List Bool).all id = true := by
  decide +kernel

-- syntax/test_drop_keep_syntax.py:8 test_drop_keep_get_token_name
example : ([decide (TokType.tokenName .dropKeep = (t! "DROP_KEEP_DICE"))] : List Bool).all id = true := by
  decide +kernel

-- syntax/test_drop_keep_syntax.py:11 test_drop_keep_get_token_regex
example : ([decide (source .dropKeep = (t! "\\d*d(\\d+|%|F|\\[(\\s*(-?\\d+--?\\d+(\\*\\d+)?|-?\\d+(\\*\\d+)?)\\s*,\\s*)*\\s*(-?\\d+--?\\d+(\\*\\d+)?|-?\\d+(\\*\\d+)?)\\s*(,?)\\s*\\])[kd]\\d+"))] : List Bool).all id = true := by
  decide +kernel

-- syntax/test_drop_keep_syntax.py:18 test_drop_keep_regex_will_match
example : ([(Re.isMatch (TokType.regex .dropKeep) (t! "2d6d2")),
    (Re.isMatch (TokType.regex .dropKeep) (t! "10d4k1")),
    (Re.isMatch (TokType.regex .dropKeep) (t! "2d30k1")),
    (Re.isMatch (TokType.regex .dropKeep) (t! "12d90k4")),
    (Re.isMatch (TokType.regex .dropKeep) (t! "3d210321k314")),
    (Re.isMatch (TokType.regex .dropKeep) (t! "12652125d12k312")),
    (Re.isMatch (TokType.regex .dropKeep) (t! "3d%k1")),
    (Re.isMatch (TokType.regex .dropKeep) (t! "2d%d10")),
    (Re.isMatch (TokType.regex .dropKeep) (t! "10dFd3")),
    (Re.isMatch (TokType.regex .dropKeep) (t! "4dFk3")),
    (Re.isMatch (TokType.regex .dropKeep) (t! "4d[1]k1")),
    (Re.isMatch (TokType.regex .dropKeep) (t! "4d[-1]d3")),
    (Re.isMatch (TokType.regex .dropKeep) (t! "10d[ 1,2*4,3*2,4]k3")),
    (Re.isMatch (TokType.regex .dropKeep) (t! "10d[ 1-4]k3")),
    (Re.isMatch (TokType.regex .dropKeep) (t! "10d[-4--1*3]k3")),
    (Re.isMatch (TokType.regex .dropKeep) (t! "2d[-1 , 22, 1, 1]d1")),
    (Re.isMatch (TokType.regex .dropKeep) (t! "80d[0,1, 2, -1]k10")),
    (Re.isMatch (TokType.regex .dropKeep) (t! "d[1,]d2"))] : List Bool).all id = true := by
  decide +kernel

-- syntax/test_drop_keep_syntax.py:45 test_drop_keep_regex_will_not_match
example : ([!(Re.isMatch (TokType.regex .dropKeep) (t! "a")),
    !(Re.isMatch (TokType.regex .dropKeep) (t! "just a string")),
    !(Re.isMatch (TokType.regex .dropKeep) (t! "1da")),
    !(Re.isMatch (TokType.regex .dropKeep) (t! "1")),
    !(Re.isMatch (TokType.regex .dropKeep) (t! " ")),
    !(Re.isMatch (TokType.regex .dropKeep) (t! "-")),
    !(Re.isMatch (TokType.regex .dropKeep) (t! "*")),
    !(Re.isMatch (TokType.regex .dropKeep) (t! "(")),
    !(Re.isMatch (TokType.regex .dropKeep) (t! "ad21")),
    !(Re.isMatch (TokType.regex .dropKeep) (t! "2d2")),
    !(Re.isMatch (TokType.regex .dropKeep) (t! "d210321314")),
    !(Re.isMatch (TokType.regex .dropKeep) (t! "d[1]")),
    !(Re.isMatch (TokType.regex .dropKeep) (t! "d[]k3")),
    !(Re.isMatch (TokType.regex .dropKeep) (t! "d[ 1,,3,4]d6")),
    !(Re.isMatch (TokType.regex .dropKeep) (t! "d[-1 , 2-2, 1, 1]32")),
    !(Re.isMatch (TokType.regex .dropKeep) (t! "10d[-1*-1]d2")),
    !(Re.isMatch (TokType.regex .dropKeep) (t! "10d[--1]d2")),
    !(Re.isMatch (TokType.regex .dropKeep) (t! "10d[-1-]d2")),
    !(Re.isMatch (TokType.regex .dropKeep) (t! "2d[0,1, 2, -1]")),
    !(Re.isMatch (TokType.regex .dropKeep) (t! "5d[1,d3"))] : List Bool).all id = true := by
  decide +kernel

-- syntax/test_integer_division_syntax.py:8 test_integer_division_get_token_name
example : ([decide (TokType.tokenName .div = (t! "INTEGER_DIVISION"))] : List Bool).all id = true := by
  decide +kernel

-- syntax/test_integer_division_syntax.py:14 test_integer_division_get_token_regex
example : ([decide (source .div = (t! "//"))] : List Bool).all id = true := by
  decide +kernel

-- syntax/test_integer_division_syntax.py:17 test_integer_division_regex_will_match
example : ([(Re.isMatch (TokType.regex .div) (t! "//"))] : List Bool).all id = true := by
  decide +kernel

-- syntax/test_integer_division_syntax.py:28 test_integer_division_regex_will_not_match
example : ([!(Re.isMatch (TokType.regex .div) (t! "a")),
    !(Re.isMatch (TokType.regex .div) (t! "just a string")),
    !(Re.isMatch (TokType.regex .div) (t! "")),
    !(Re.isMatch (TokType.regex .div) (t! "1")),
    !(Re.isMatch (TokType.regex .div) (t! " ")),
    !(Re.isMatch (TokType.regex .div) (t! "-")),
    !(Re.isMatch (TokType.regex .div) (t! "+")),
    !(Re.isMatch (TokType.regex .div) (t! "(")),
    !(Re.isMatch (TokType.regex .div) (t! "/"))] : List Bool).all id = true := by
  decide +kernel

-- syntax/test_minmax_syntax.py:8 test_min_max_get_token_name
example : ([decide (TokType.tokenName .minmax = (t! "MINMAX"))] : List Bool).all id = true := by
  decide +kernel

-- syntax/test_minmax_syntax.py:11 test_min_max_get_token_regex
example : ([decide (source .minmax = (t! "\\bMAX\\b|\\bMIN\\b"))] : List Bool).all id = true := by
  decide +kernel

-- syntax/test_minmax_syntax.py:14 test_min_max_regex_will_match
example : ([(Re.isMatch (TokType.regex .minmax) (t! "MAX")),
    (Re.isMatch (TokType.regex .minmax) (t! "MIN"))] : List Bool).all id = true := by
  decide +kernel

-- syntax/test_minmax_syntax.py:22 test_min_max_regex_will_not_match
example : ([!(Re.isMatch (TokType.regex .minmax) (t! "a")),
    !(Re.isMatch (TokType.regex .minmax) (t! "just a string")),
    !(Re.isMatch (TokType.regex .minmax) (t! "1d4")),
    !(Re.isMatch (TokType.regex .minmax) (t! "1")),
    !(Re.isMatch (TokType.regex .minmax) (t! " ")),
    !(Re.isMatch (TokType.regex .minmax) (t! "-")),
    !(Re.isMatch (TokType.regex .minmax) (t! "*")),
    !(Re.isMatch (TokType.regex .minmax) (t! "(")),
    !(Re.isMatch (TokType.regex .minmax) (t! "ad21")),
    !(Re.isMatch (TokType.regex .minmax) (t! "MAXAMA")),
    !(Re.isMatch (TokType.regex .minmax) (t! "AMIN")),
    !(Re.isMatch (TokType.regex .minmax) (t! "max")),
    !(Re.isMatch (TokType.regex .minmax) (t! "min"))] : List Bool).all id = true := by
  decide +kernel

-- syntax/test_multiply_syntax.py:8 test_multiply_get_token_name
example : ([decide (TokType.tokenName .mul = (t! "MULTIPLY"))] : List Bool).all id = true := by
  decide +kernel

-- syntax/test_multiply_syntax.py:11 test_multiply_get_token_regex
example : ([decide (source .mul = (t! "\\*"))] : List Bool).all id = true := by
  decide +kernel

-- syntax/test_multiply_syntax.py:14 test_multiply_regex_will_match
example : ([(Re.isMatch (TokType.regex .mul) (t! "*"))] : List Bool).all id = true := by
  decide +kernel

-- syntax/test_multiply_syntax.py:22 test_multiply_regex_will_not_match
example : ([!(Re.isMatch (TokType.regex .mul) (t! "a")),
    !(Re.isMatch (TokType.regex .mul) (t! "just a string")),
    !(Re.isMatch (TokType.regex .mul) (t! "")),
    !(Re.isMatch (TokType.regex .mul) (t! "1")),
    !(Re.isMatch (TokType.regex .mul) (t! " ")),
    !(Re.isMatch (TokType.regex .mul) (t! "-")),
    !(Re.isMatch (TokType.regex .mul) (t! "+")),
    !(Re.isMatch (TokType.regex .mul) (t! "("))] : List Bool).all id = true := by
  decide +kernel

-- syntax/test_name_syntax.py:8 test_name_syntax_get_token_name
example : ([decide (TokType.tokenName .name = (t! "NAME"))] : List Bool).all id = true := by
  decide +kernel

-- syntax/test_name_syntax.py:11 test_name_syntax_get_token_regex
example : ([decide (source .name = (t! "\\b[a-z_]+\\b"))] : List Bool).all id = true := by
  decide +kernel

-- syntax/test_name_syntax.py:14 test_name_syntax_regex_will_match
example : ([(Re.isMatch (TokType.regex .name) (t! "apple")),
    (Re.isMatch (TokType.regex .name) (t! "hi")),
    (Re.isMatch (TokType.regex .name) (t! "i")),
    (Re.isMatch (TokType.regex .name) (t! "abcdefghijklmnopqrstuvwxyz")),
    (Re.isMatch (TokType.regex .name) (t! "two_words"))] : List Bool).all id = true := by
  decide +kernel

-- syntax/test_name_syntax.py:22 test_name_syntax_regex_will_not_match
example : ([!(Re.isMatch (TokType.regex .name) (t! "an1")),
    !(Re.isMatch (TokType.regex .name) (t! "abbaGold")),
    !(Re.isMatch (TokType.regex .name) (t! "")),
    !(Re.isMatch (TokType.regex .name) (t! "1")),
    !(Re.isMatch (TokType.regex .name) (t! " ")),
    !(Re.isMatch (TokType.regex .name) (t! "-")),
    !(Re.isMatch (TokType.regex .name) (t! "+")),
    !(Re.isMatch (TokType.regex .name) (t! "(")),
    !(Re.isMatch (TokType.regex .name) (t! "!="))] : List Bool).all id = true := by
  decide +kernel

-- syntax/test_not_syntax.py:8 test_not_syntax_get_token_name
example : ([decide (TokType.tokenName .not = (t! "NOT"))] : List Bool).all id = true := by
  decide +kernel

-- syntax/test_not_syntax.py:11 test_not_syntax_get_token_regex
example : ([decide (source .not = (t! "!(?!=)"))] : List Bool).all id = true := by
  decide +kernel

-- syntax/test_not_syntax.py:14 test_not_syntax_regex_will_match
example : ([(Re.isMatch (TokType.regex .not) (t! "!"))] : List Bool).all id = true := by
  decide +kernel

-- syntax/test_not_syntax.py:22 test_not_syntax_regex_will_not_match
example : ([!(Re.isMatch (TokType.regex .not) (t! "a")),
    !(Re.isMatch (TokType.regex .not) (t! "just a string")),
    !(Re.isMatch (TokType.regex .not) (t! "")),
    !(Re.isMatch (TokType.regex .not) (t! "1")),
    !(Re.isMatch (TokType.regex .not) (t! " ")),
    !(Re.isMatch (TokType.regex .not) (t! "-")),
    !(Re.isMatch (TokType.regex .not) (t! "+")),
    !(Re.isMatch (TokType.regex .not) (t! "(")),
    !(Re.isMatch (TokType.regex .not) (t! "!="))] : List Bool).all id = true := by
  decide +kernel

-- syntax/test_open_parenthesis_syntax.py:8 test_open_parenthesis_get_token_name
example : ([decide (TokType.tokenName .openP = (t! "OPEN_PARENTHESIS"))] : List Bool).all id = true := by
  decide +kernel

-- syntax/test_open_parenthesis_syntax.py:14 test_open_parenthesis_get_token_regex
example : ([decide (source .openP = (t! "\\("))] : List Bool).all id = true := by
  decide +kernel

-- syntax/test_open_parenthesis_syntax.py:17 test_open_parenthesis_regex_will_match
example : ([(Re.isMatch (TokType.regex .openP) (t! "("))] : List Bool).all id = true := by
  decide +kernel

-- syntax/test_subtract_syntax.py:8 test_subtract_get_token_name
example : ([decide (TokType.tokenName .sub = (t! "SUBTRACT"))] : List Bool).all id = true := by
  decide +kernel

-- syntax/test_subtract_syntax.py:11 test_subtract_get_token_regex
example : ([decide (source .sub = (t! "\\-"))] : List Bool).all id = true := by
  decide +kernel

-- syntax/test_subtract_syntax.py:14 test_subtract_regex_will_match
example : ([(Re.isMatch (TokType.regex .sub) (t! "-"))] : List Bool).all id = true := by
  decide +kernel

-- syntax/test_subtract_syntax.py:22 test_subtract_regex_will_not_match
example : ([!(Re.isMatch (TokType.regex .sub) (t! "a")),
    !(Re.isMatch (TokType.regex .sub) (t! "just a string")),
    !(Re.isMatch (TokType.regex .sub) (t! "")),
    !(Re.isMatch (TokType.regex .sub) (t! "1")),
    !(Re.isMatch (TokType.regex .sub) (t! " ")),
    !(Re.isMatch (TokType.regex .sub) (t! "+")),
    !(Re.isMatch (TokType.regex .sub) (t! "*")),
    !(Re.isMatch (TokType.regex .sub) (t! "("))] : List Bool).all id = true := by
  decide +kernel

-- syntax/test_var_syntax.py:8 test_var_syntax_get_token_name
example : ([decide (TokType.tokenName .var = (t! "VAR"))] : List Bool).all id = true := by
  decide +kernel

-- syntax/test_var_syntax.py:11 test_var_syntax_get_token_regex
example : ([decide (source .var = (t! "\\bVAR\\b"))] : List Bool).all id = true := by
  decide +kernel

-- syntax/test_var_syntax.py:14 test_var_syntax_regex_will_match
example : ([(Re.isMatch (TokType.regex .var) (t! "VAR"))] : List Bool).all id = true := by
  decide +kernel

-- syntax/test_var_syntax.py:22 test_var_syntax_regex_will_not_match
example : ([!(Re.isMatch (TokType.regex .var) (t! "an1")),
    !(Re.isMatch (TokType.regex .var) (t! "abbaGold")),
    !(Re.isMatch (TokType.regex .var) (t! "var")),
    !(Re.isMatch (TokType.regex .var) (t! "1")),
    !(Re.isMatch (TokType.regex .var) (t! " ")),
    !(Re.isMatch (TokType.regex .var) (t! "-")),
    !(Re.isMatch (TokType.regex .var) (t! "+")),
    !(Re.isMatch (TokType.regex .var) (t! "(")),
    !(Re.isMatch (TokType.regex .var) (t! "!="))] : List Bool).all id = true := by
  decide +kernel

end PyDice.Conform

/-! 70 of 70 tests replayed.  Left out:

-/
