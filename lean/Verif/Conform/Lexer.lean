import Verif.Conform.Basic

/-! # The tests of the lexer

Written by `tools/conform.py` from the test files named below; see `Verif/Conform/Basic.lean`. -/

namespace PyDice.Conform

attribute [local instance] listRuntime
set_option maxRecDepth 100000

-- test_python_dice_lexer.py:11 test_lexer_error_single_line
example : ([decide (lex (t! "2d2k1 * (4d[3*1,2-3,7]d1 + 1d[1,2,-3--8]) // d%kk4 + 1d3") = .error (.valueError (t! "2d2k1 * (4d[3*1,2-3,7]d1 + 1d[1,2,-3--8]) // d%kk4 + 1d3\n-----------------------------------------------^")))] : List Bool).all id = true := by
  decide +kernel

-- test_python_dice_lexer.py:22 test_lexer_error_multi_line
example : ([decide (lex (t! "VAR apple = 1d4 - 1\nVAR banana = 1d8 / 2\nVAR orange = 1d8 // 2") = .error (.valueError (t! "VAR banana = 1d8 / 2\n-----------------^")))] : List Bool).all id = true := by
  decide +kernel

-- test_python_dice_lexer.py:29 test_lexer_error_end_of_line
example : ([decide (lex (t! "VAR apple = 1d4 - 1\nVAR orange = 1d8 // 2\nVAR banana = 1d8 /\nVAR grape = 5d8 ** 2\n") = .error (.valueError (t! "VAR banana = 1d8 /\n-----------------^")))] : List Bool).all id = true := by
  decide +kernel

-- test_python_dice_lexer.py:38 test_lexer_error_end_of_first_line
example : ([decide (lex (t! "VAR apple = 1d4 /\n1d8 // 2") = .error (.valueError (t! "VAR apple = 1d4 /\n----------------^")))] : List Bool).all id = true := by
  decide +kernel

-- test_python_dice_lexer.py:45 test_lex_constant_integer
example : ([allNamed (lex (t! "1 3 4 5 -10 0 -10000000")) (t! "CONSTANT_INTEGER"),
    values (lex (t! "1 3 4 5 -10 0 -10000000")) [(t! "1"), (t! "3"), (t! "4"), (t! "5"), (t! "-10"), (t! "0"), (t! "-10000000")]] : List Bool).all id = true := by
  decide +kernel

-- test_python_dice_lexer.py:54 test_lex_add
example : ([names (lex (t! "1 + 4 + -10 + -10000000")) [(t! "CONSTANT_INTEGER"), (t! "ADD"), (t! "CONSTANT_INTEGER"), (t! "ADD"), (t! "CONSTANT_INTEGER"), (t! "ADD"), (t! "CONSTANT_INTEGER")],
    values (lex (t! "1 + 4 + -10 + -10000000")) [(t! "1"), (t! "+"), (t! "4"), (t! "+"), (t! "-10"), (t! "+"), (t! "-10000000")]] : List Bool).all id = true := by
  decide +kernel

-- test_python_dice_lexer.py:74 test_lex_subtract
example : ([names (lex (t! "1 - 4 - -10 - -10000000")) [(t! "CONSTANT_INTEGER"), (t! "SUBTRACT"), (t! "CONSTANT_INTEGER"), (t! "SUBTRACT"), (t! "CONSTANT_INTEGER"), (t! "SUBTRACT"), (t! "CONSTANT_INTEGER")],
    values (lex (t! "1 - 4 - -10 - -10000000")) [(t! "1"), (t! "-"), (t! "4"), (t! "-"), (t! "-10"), (t! "-"), (t! "-10000000")]] : List Bool).all id = true := by
  decide +kernel

-- test_python_dice_lexer.py:94 test_lex_multiply
example : ([names (lex (t! "1 * 4 * -10 * -10000000")) [(t! "CONSTANT_INTEGER"), (t! "MULTIPLY"), (t! "CONSTANT_INTEGER"), (t! "MULTIPLY"), (t! "CONSTANT_INTEGER"), (t! "MULTIPLY"), (t! "CONSTANT_INTEGER")],
    values (lex (t! "1 * 4 * -10 * -10000000")) [(t! "1"), (t! "*"), (t! "4"), (t! "*"), (t! "-10"), (t! "*"), (t! "-10000000")]] : List Bool).all id = true := by
  decide +kernel

-- test_python_dice_lexer.py:114 test_lex_dice
example : ([names (lex (t! "d4 * 4d6 + 10d1 + 2d% - -10000000")) [(t! "DICE"), (t! "MULTIPLY"), (t! "DICE"), (t! "ADD"), (t! "DICE"), (t! "ADD"), (t! "DICE"), (t! "SUBTRACT"), (t! "CONSTANT_INTEGER")],
    values (lex (t! "d4 * 4d6 + 10d1 + 2d% - -10000000")) [(t! "d4"), (t! "*"), (t! "4d6"), (t! "+"), (t! "10d1"), (t! "+"), (t! "2d%"), (t! "-"), (t! "-10000000")]] : List Bool).all id = true := by
  decide +kernel

-- test_python_dice_lexer.py:136 test_lex_parenthesis
example : ([names (lex (t! "((d4 * 4d6) + 10d1 + 2d%) - -10000000")) [(t! "OPEN_PARENTHESIS"), (t! "OPEN_PARENTHESIS"), (t! "DICE"), (t! "MULTIPLY"), (t! "DICE"), (t! "CLOSE_PARENTHESIS"), (t! "ADD"), (t! "DICE"), (t! "ADD"), (t! "DICE"), (t! "CLOSE_PARENTHESIS"), (t! "SUBTRACT"), (t! "CONSTANT_INTEGER")],
    values (lex (t! "((d4 * 4d6) + 10d1 + 2d%) - -10000000")) [(t! "("), (t! "("), (t! "d4"), (t! "*"), (t! "4d6"), (t! ")"), (t! "+"), (t! "10d1"), (t! "+"), (t! "2d%"), (t! ")"), (t! "-"), (t! "-10000000")]] : List Bool).all id = true := by
  decide +kernel

-- test_python_dice_lexer.py:176 test_lex_constant_binary
example : ([names (lex (t! "((d4 * True) + 10d1 + 2d%) - False")) [(t! "OPEN_PARENTHESIS"), (t! "OPEN_PARENTHESIS"), (t! "DICE"), (t! "MULTIPLY"), (t! "CONSTANT_BINARY"), (t! "CLOSE_PARENTHESIS"), (t! "ADD"), (t! "DICE"), (t! "ADD"), (t! "DICE"), (t! "CLOSE_PARENTHESIS"), (t! "SUBTRACT"), (t! "CONSTANT_BINARY")],
    values (lex (t! "((d4 * True) + 10d1 + 2d%) - False")) [(t! "("), (t! "("), (t! "d4"), (t! "*"), (t! "True"), (t! ")"), (t! "+"), (t! "10d1"), (t! "+"), (t! "2d%"), (t! ")"), (t! "-"), (t! "False")]] : List Bool).all id = true := by
  decide +kernel

-- test_python_dice_lexer.py:216 test_lex_not
example : ([names (lex (t! "!(!d4 + True)")) [(t! "NOT"), (t! "OPEN_PARENTHESIS"), (t! "NOT"), (t! "DICE"), (t! "ADD"), (t! "CONSTANT_BINARY"), (t! "CLOSE_PARENTHESIS")],
    values (lex (t! "!(!d4 + True)")) [(t! "!"), (t! "("), (t! "!"), (t! "d4"), (t! "+"), (t! "True"), (t! ")")]] : List Bool).all id = true := by
  decide +kernel

-- test_python_dice_lexer.py:233 test_lex_equals
example : ([names (lex (t! "d4 == True")) [(t! "DICE"), (t! "BINARY_OPERATOR"), (t! "CONSTANT_BINARY")],
    values (lex (t! "d4 == True")) [(t! "d4"), (t! "=="), (t! "True")]] : List Bool).all id = true := by
  decide +kernel

-- test_python_dice_lexer.py:242 test_lex_not_equals
example : ([names (lex (t! "d4 != True")) [(t! "DICE"), (t! "BINARY_OPERATOR"), (t! "CONSTANT_BINARY")],
    values (lex (t! "d4 != True")) [(t! "d4"), (t! "!="), (t! "True")]] : List Bool).all id = true := by
  decide +kernel

-- test_python_dice_lexer.py:251 test_lex_less_than
example : ([names (lex (t! "d4 < True <= 1d3")) [(t! "DICE"), (t! "BINARY_OPERATOR"), (t! "CONSTANT_BINARY"), (t! "BINARY_OPERATOR"), (t! "DICE")],
    values (lex (t! "d4 < True <= 1d3")) [(t! "d4"), (t! "<"), (t! "True"), (t! "<="), (t! "1d3")]] : List Bool).all id = true := by
  decide +kernel

-- test_python_dice_lexer.py:260 test_lex_greater_than
example : ([names (lex (t! "d4 > True >= 1d3")) [(t! "DICE"), (t! "BINARY_OPERATOR"), (t! "CONSTANT_BINARY"), (t! "BINARY_OPERATOR"), (t! "DICE")],
    values (lex (t! "d4 > True >= 1d3")) [(t! "d4"), (t! ">"), (t! "True"), (t! ">="), (t! "1d3")]] : List Bool).all id = true := by
  decide +kernel

-- test_python_dice_lexer.py:269 test_lex_and
example : ([names (lex (t! "d4 AND True")) [(t! "DICE"), (t! "BINARY_OPERATOR"), (t! "CONSTANT_BINARY")],
    values (lex (t! "d4 AND True")) [(t! "d4"), (t! "AND"), (t! "True")]] : List Bool).all id = true := by
  decide +kernel

-- test_python_dice_lexer.py:278 test_lex_or
example : ([names (lex (t! "d4 OR True")) [(t! "DICE"), (t! "BINARY_OPERATOR"), (t! "CONSTANT_BINARY")],
    values (lex (t! "d4 OR True")) [(t! "d4"), (t! "OR"), (t! "True")]] : List Bool).all id = true := by
  decide +kernel

-- test_python_dice_lexer.py:287 test_lex_max
example : ([names (lex (t! "MAX(d4, 3)")) [(t! "MINMAX"), (t! "OPEN_PARENTHESIS"), (t! "DICE"), (t! "COMMA"), (t! "CONSTANT_INTEGER"), (t! "CLOSE_PARENTHESIS")],
    values (lex (t! "MAX(d4, 3)")) [(t! "MAX"), (t! "("), (t! "d4"), (t! ","), (t! "3"), (t! ")")]] : List Bool).all id = true := by
  decide +kernel

-- test_python_dice_lexer.py:303 test_lex_min
example : ([names (lex (t! "MIN(4, 1d6)")) [(t! "MINMAX"), (t! "OPEN_PARENTHESIS"), (t! "CONSTANT_INTEGER"), (t! "COMMA"), (t! "DICE"), (t! "CLOSE_PARENTHESIS")],
    values (lex (t! "MIN(4, 1d6)")) [(t! "MIN"), (t! "("), (t! "4"), (t! ","), (t! "1d6"), (t! ")")]] : List Bool).all id = true := by
  decide +kernel

-- test_python_dice_lexer.py:319 test_lex_abs
example : ([names (lex (t! "ABS(1d6)")) [(t! "ABS"), (t! "OPEN_PARENTHESIS"), (t! "DICE"), (t! "CLOSE_PARENTHESIS")],
    values (lex (t! "ABS(1d6)")) [(t! "ABS"), (t! "("), (t! "1d6"), (t! ")")]] : List Bool).all id = true := by
  decide +kernel

-- test_python_dice_lexer.py:328 test_lex_var
example : ([names (lex (t! "VAR apple = d4")) [(t! "VAR"), (t! "NAME"), (t! "ASSIGNMENT"), (t! "DICE")],
    values (lex (t! "VAR apple = d4")) [(t! "VAR"), (t! "apple"), (t! "="), (t! "d4")]] : List Bool).all id = true := by
  decide +kernel

-- test_python_dice_lexer.py:334 test_lex_drop
example : ([names (lex (t! "2d10 >= 4d4d1")) [(t! "DICE"), (t! "BINARY_OPERATOR"), (t! "DROP_KEEP_DICE")],
    values (lex (t! "2d10 >= 4d4d1")) [(t! "2d10"), (t! ">="), (t! "4d4d1")]] : List Bool).all id = true := by
  decide +kernel

-- test_python_dice_lexer.py:343 test_lex_keep
example : ([names (lex (t! "4 <= 2d20k1")) [(t! "CONSTANT_INTEGER"), (t! "BINARY_OPERATOR"), (t! "DROP_KEEP_DICE")],
    values (lex (t! "4 <= 2d20k1")) [(t! "4"), (t! "<="), (t! "2d20k1")]] : List Bool).all id = true := by
  decide +kernel

-- test_python_dice_lexer.py:352 test_lex_fate_dice
example : ([names (lex (t! "4 + 2dF")) [(t! "CONSTANT_INTEGER"), (t! "ADD"), (t! "DICE")],
    values (lex (t! "4 + 2dF")) [(t! "4"), (t! "+"), (t! "2dF")]] : List Bool).all id = true := by
  decide +kernel

-- test_python_dice_lexer.py:358 test_lex_custom_dice
example : ([names (lex (t! "2d[1,5*2,9]")) [(t! "DICE")],
    values (lex (t! "2d[1,5*2,9]")) [(t! "2d[1,5*2,9]")]] : List Bool).all id = true := by
  decide +kernel

-- test_python_dice_lexer.py:364 test_lex_fate_keep_dice
example : ([names (lex (t! "4 != 2dFk1")) [(t! "CONSTANT_INTEGER"), (t! "BINARY_OPERATOR"), (t! "DROP_KEEP_DICE")],
    values (lex (t! "4 != 2dFk1")) [(t! "4"), (t! "!="), (t! "2dFk1")]] : List Bool).all id = true := by
  decide +kernel

-- test_python_dice_lexer.py:373 test_lex_fate_drop_dice
example : ([names (lex (t! "dFd1")) [(t! "DROP_KEEP_DICE")],
    values (lex (t! "dFd1")) [(t! "dFd1")]] : List Bool).all id = true := by
  decide +kernel

-- test_python_dice_lexer.py:379 test_lex_percentile_dice
example : ([names (lex (t! "2d%")) [(t! "DICE")],
    values (lex (t! "2d%")) [(t! "2d%")]] : List Bool).all id = true := by
  decide +kernel

-- test_python_dice_lexer.py:385 test_lex_percentile_dice_keep
example : ([names (lex (t! "10d%k1")) [(t! "DROP_KEEP_DICE")],
    values (lex (t! "10d%k1")) [(t! "10d%k1")]] : List Bool).all id = true := by
  decide +kernel

-- test_python_dice_lexer.py:391 test_lex_percentile_dice_drop
example : ([names (lex (t! "100d%d99")) [(t! "DROP_KEEP_DICE")],
    values (lex (t! "100d%d99")) [(t! "100d%d99")]] : List Bool).all id = true := by
  decide +kernel

-- test_python_dice_lexer.py:397 test_lex_custom_keep_drop_dice
example : ([names (lex (t! "2d[1,-1--7*2,-3-6]k1 <= 2d[1,2-3,3]d1")) [(t! "DROP_KEEP_DICE"), (t! "BINARY_OPERATOR"), (t! "DROP_KEEP_DICE")],
    values (lex (t! "2d[1,-1--7*2,-3-6]k1 <= 2d[1,2-3,3]d1")) [(t! "2d[1,-1--7*2,-3-6]k1"), (t! "<="), (t! "2d[1,2-3,3]d1")]] : List Bool).all id = true := by
  decide +kernel

end PyDice.Conform

/-! 32 of 32 tests replayed.  Left out:

-/
