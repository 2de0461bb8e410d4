import Verif.Conform.Basic

/-! # The tests of the parser

Written by `tools/conform.py` from the test files named below; see `Verif/Conform/Basic.lean`. -/

namespace PyDice.Conform

attribute [local instance] listRuntime
set_option maxRecDepth 100000

-- test_python_dice_parser.py:29 test_parser_error
example : ([Raises (parse (t! "2d30 1")) .value,
    Raises (parse (t! "(((d2) + 1 ) + 1 ) + 1)")) .value] : List Bool).all id = true := by
  rw [quick_eq]; decide +kernel

-- test_python_dice_parser.py:33 test_parser_constant_integer
example : ([AssertDist (parse (t! "215678284")) [(215678284, 1)] 215678284 215678284] : List Bool).all id = true := by
  rw [quick_eq]; decide +kernel

-- test_python_dice_parser.py:38 test_parser_add
example : ([AssertDist (parse (t! "3 + -20")) [((-17), 1)] (-17) (-17)] : List Bool).all id = true := by
  rw [quick_eq]; decide +kernel

-- test_python_dice_parser.py:43 test_parser_subtract
example : ([AssertDist (parse (t! "3 - -20")) [(23, 1)] 23 23] : List Bool).all id = true := by
  rw [quick_eq]; decide +kernel

-- test_python_dice_parser.py:48 test_parser_add_and_subtract
example : ([AssertDist (parse (t! "3 - -20 + 2")) [(25, 1)] 25 25] : List Bool).all id = true := by
  rw [quick_eq]; decide +kernel

-- test_python_dice_parser.py:53 test_parser_multiply
example : ([AssertDist (parse (t! "3 * -20 + 2")) [((-58), 1)] (-58) (-58)] : List Bool).all id = true := by
  rw [quick_eq]; decide +kernel

-- test_python_dice_parser.py:58 test_parser_multiply_order_of_operation
example : ([AssertDist (parse (t! "2 - 3 * -20")) [(62, 1)] 62 62] : List Bool).all id = true := by
  rw [quick_eq]; decide +kernel

-- test_python_dice_parser.py:63 test_parser_integer_division
example : ([AssertDist (parse (t! "37 // 4 + 2")) [(11, 1)] 11 11] : List Bool).all id = true := by
  rw [quick_eq]; decide +kernel

-- test_python_dice_parser.py:68 test_parser_integer_division_order_of_operation
example : ([AssertDist (parse (t! "62 // 3 * 2")) [(40, 1)] 40 40] : List Bool).all id = true := by
  rw [quick_eq]; decide +kernel

-- test_python_dice_parser.py:73 test_parser_integer_division_order_of_operation_two
example : ([AssertDist (parse (t! "2 * 62 // 3")) [(41, 1)] 41 41] : List Bool).all id = true := by
  rw [quick_eq]; decide +kernel

-- test_python_dice_parser.py:78 test_parser_dice
example : ([AssertDist (parse (t! "2d4 * 2 // 3")) [(1, 1), (2, 5), (3, 4), (4, 5), (5, 1)] 1 5] : List Bool).all id = true := by
  rw [quick_eq]; decide +kernel

-- test_python_dice_parser.py:83 test_parser_dice_add
example : ([AssertDist (parse (t! "2d4 + d2")) [(3, 1), (4, 3), (5, 5), (6, 7), (7, 7), (8, 5), (9, 3), (10, 1)] 3 10] : List Bool).all id = true := by
  rw [quick_eq]; decide +kernel

-- test_python_dice_parser.py:88 test_parser_dice_subtract
example : ([AssertDist (parse (t! "2d4 - d2")) [(0, 1), (1, 3), (2, 5), (3, 7), (4, 7), (5, 5), (6, 3), (7, 1)] 0 7] : List Bool).all id = true := by
  rw [quick_eq]; decide +kernel

-- test_python_dice_parser.py:93 test_parser_dice_multiply
example : ([AssertDist (parse (t! "2d4 * d2")) [(2, 1), (4, 4), (3, 2), (6, 5), (8, 4), (5, 4), (10, 4), (12, 3), (7, 2), (14, 2), (16, 1)] 2 16] : List Bool).all id = true := by
  rw [quick_eq]; decide +kernel

-- test_python_dice_parser.py:110 test_parser_dice_division
example : ([AssertDist (parse (t! "2d4 // d2")) [(2, 8), (1, 3), (3, 7), (4, 4), (5, 4), (6, 3), (7, 2), (8, 1)] 1 8] : List Bool).all id = true := by
  rw [quick_eq]; decide +kernel

-- test_python_dice_parser.py:115 test_parser_dice_full_test
#guard ([AssertDist (quick (t! "2d4 * d2 + 6d6 // 1d4")) [(3, 7), (4, 497), (5, 5474), (6, 25810), (7, 73494), (8, 150534), (9, 242121), (10, 322235), (11, 369126), (12, 382604), (13, 375640), (14, 363690), (15, 353106), (16, 335747), (17, 311542), (18, 281505), (19, 250023), (20, 220599), (21, 195160), (22, 172718), (23, 154828), (24, 143472), (25, 135890), (26, 130051), (27, 124406), (28, 117875), (29, 110298), (30, 101872), (31, 92682), (32, 82787), (33, 72395), (34, 61864), (35, 51618), (36, 42025), (37, 33348), (38, 25747), (39, 19290), (40, 13981), (41, 9764), (42, 6542), (43, 4184), (44, 2539), (45, 1452), (46, 775), (47, 382), (48, 171), (49, 68), (50, 23), (51, 6), (52, 1)] 3 52] : List Bool).all id

-- test_python_dice_parser.py:171 test_parser_parenthesis_enclosed_expression
example : ([AssertDist (parse (t! "(1d4 + 2 )// 1d2")) [(1, 1), (2, 2), (3, 2), (4, 1), (5, 1), (6, 1)] 1 6] : List Bool).all id = true := by
  rw [quick_eq]; decide +kernel

-- test_python_dice_parser.py:176 test_parser_constant_binary_expression
example : ([AssertDist (parse (t! "True + True - (False * 2d6)")) [(2, 36)] 2 2] : List Bool).all id = true := by
  rw [quick_eq]; decide +kernel

-- test_python_dice_parser.py:181 test_parser_not_expression
example : ([AssertDist (parse (t! "!(1d6 - 1d6)")) [(0, 15), (1, 21)] 0 1] : List Bool).all id = true := by
  rw [quick_eq]; decide +kernel

-- test_python_dice_parser.py:186 test_parser_equal_expression
example : ([AssertDist (parse (t! "1d6 == 1d6")) [(0, 30), (1, 6)] 0 1] : List Bool).all id = true := by
  rw [quick_eq]; decide +kernel

-- test_python_dice_parser.py:191 test_parser_not_equal_expression
example : ([AssertDist (parse (t! "1d6 != 3")) [(0, 1), (1, 5)] 0 1] : List Bool).all id = true := by
  rw [quick_eq]; decide +kernel

-- test_python_dice_parser.py:196 test_parser_less_than_equal_expression
#guard ([AssertDist (quick (t! "((8d6 + 8) // 2) >= (2d8 + 5)")) [(0, 16394638), (1, 91100786)] 0 1] : List Bool).all id

-- test_python_dice_parser.py:201 test_parser_less_than_expression
#guard ([AssertDist (quick (t! "((8d6 + 8) // 2) > (3d8 + 5)")) [(0, 518536200), (1, 341427192)] 0 1] : List Bool).all id

-- test_python_dice_parser.py:206 test_parser_greater_than_equal_expression
#guard ([AssertDist (quick (t! "((8d6 + 8) // 2) <= (3d8 + 5)")) [(0, 341427192), (1, 518536200)] 0 1] : List Bool).all id

-- test_python_dice_parser.py:211 test_parser_greater_than_expression
#guard ([AssertDist (quick (t! "((8d6 + 8) // 2) < (2d8 + 5)")) [(0, 91100786), (1, 16394638)] 0 1] : List Bool).all id

-- test_python_dice_parser.py:216 test_parser_and_expression
example : ([AssertDist (parse (t! "(((1d2 == 2) AND ((1d20 + 6) >= 22))) > ((1d20 + 6) >= 23)")) [(0, 720), (1, 80)] 0 1] : List Bool).all id = true := by
  rw [quick_eq]; decide +kernel

-- test_python_dice_parser.py:221 test_parser_or_expression
example : ([AssertDist (parse (t! "((1d20 + 7) > 19) OR ((1d20 + 7) > 19)")) [(0, 144), (1, 256)] 0 1] : List Bool).all id = true := by
  rw [quick_eq]; decide +kernel

-- test_python_dice_parser.py:226 test_parser_max_expression
example : ([AssertDist (parse (t! "MAX(1d20 + 3, 1d20 + 3) > 15")) [(0, 144), (1, 256)] 0 1] : List Bool).all id = true := by
  rw [quick_eq]; decide +kernel

-- test_python_dice_parser.py:231 test_parser_min_expression
example : ([AssertDist (parse (t! "MIN(1d20 + 3, 1d20 + 3) > 15")) [(0, 336), (1, 64)] 0 1] : List Bool).all id = true := by
  rw [quick_eq]; decide +kernel

-- test_python_dice_parser.py:236 test_parser_abs_expression
example : ([AssertDist (parse (t! "ABS(1d4 - 1d4)")) [(0, 4), (1, 6), (2, 4), (3, 2)] 0 3] : List Bool).all id = true := by
  rw [quick_eq]; decide +kernel

-- test_python_dice_parser.py:241 test_parser_keep_expression
#guard ([AssertDist (quick (t! "18d3k4 == 12")) [(0, 39387136), (1, 348033353)] 0 1] : List Bool).all id

-- test_python_dice_parser.py:246 test_parser_drop_expression
example : ([AssertDist (parse (t! "2d20d1 < (d20 - 3)")) [(0, 4056), (1, 3944)] 0 1] : List Bool).all id = true := by
  rw [quick_eq]; decide +kernel

-- test_python_dice_parser.py:251 test_parser_fate_dice
example : ([AssertDist (parse (t! "4dFk2 >= 2dF")) [(0, 105), (1, 624)] 0 1] : List Bool).all id = true := by
  rw [quick_eq]; decide +kernel

-- test_python_dice_parser.py:256 test_parser_custom_dice
example : ([AssertDist (parse (t! "2d[-1,-1,0,0,1] <= 2dF")) [(0, 64), (1, 161)] 0 1] : List Bool).all id = true := by
  rw [quick_eq]; decide +kernel

-- test_python_dice_parser.py:261 test_parser_fate_keep_dice
example : ([AssertDist (parse (t! "3dFk2")) [((-2), 1), ((-1), 3), (0, 7), (1, 9), (2, 7)] (-2) 2] : List Bool).all id = true := by
  rw [quick_eq]; decide +kernel

-- test_python_dice_parser.py:266 test_parser_fate_drop_dice
example : ([AssertDist (parse (t! "2dFd1")) [((-1), 5), (0, 3), (1, 1)] (-1) 1] : List Bool).all id = true := by
  rw [quick_eq]; decide +kernel

-- test_python_dice_parser.py:271 test_parser_percentile_dice
#guard ([AssertDist (quick (t! "d%")) [(1, 1), (2, 1), (3, 1), (4, 1), (5, 1), (6, 1), (7, 1), (8, 1), (9, 1), (10, 1), (11, 1), (12, 1), (13, 1), (14, 1), (15, 1), (16, 1), (17, 1), (18, 1), (19, 1), (20, 1), (21, 1), (22, 1), (23, 1), (24, 1), (25, 1), (26, 1), (27, 1), (28, 1), (29, 1), (30, 1), (31, 1), (32, 1), (33, 1), (34, 1), (35, 1), (36, 1), (37, 1), (38, 1), (39, 1), (40, 1), (41, 1), (42, 1), (43, 1), (44, 1), (45, 1), (46, 1), (47, 1), (48, 1), (49, 1), (50, 1), (51, 1), (52, 1), (53, 1), (54, 1), (55, 1), (56, 1), (57, 1), (58, 1), (59, 1), (60, 1), (61, 1), (62, 1), (63, 1), (64, 1), (65, 1), (66, 1), (67, 1), (68, 1), (69, 1), (70, 1), (71, 1), (72, 1), (73, 1), (74, 1), (75, 1), (76, 1), (77, 1), (78, 1), (79, 1), (80, 1), (81, 1), (82, 1), (83, 1), (84, 1), (85, 1), (86, 1), (87, 1), (88, 1), (89, 1), (90, 1), (91, 1), (92, 1), (93, 1), (94, 1), (95, 1), (96, 1), (97, 1), (98, 1), (99, 1), (100, 1)] 1 100] : List Bool).all id

-- test_python_dice_parser.py:276 test_parser_percentile_dice_keep
#guard ([AssertDist (quick (t! "2d%k1")) [(1, 1), (2, 3), (3, 5), (4, 7), (5, 9), (6, 11), (7, 13), (8, 15), (9, 17), (10, 19), (11, 21), (12, 23), (13, 25), (14, 27), (15, 29), (16, 31), (17, 33), (18, 35), (19, 37), (20, 39), (21, 41), (22, 43), (23, 45), (24, 47), (25, 49), (26, 51), (27, 53), (28, 55), (29, 57), (30, 59), (31, 61), (32, 63), (33, 65), (34, 67), (35, 69), (36, 71), (37, 73), (38, 75), (39, 77), (40, 79), (41, 81), (42, 83), (43, 85), (44, 87), (45, 89), (46, 91), (47, 93), (48, 95), (49, 97), (50, 99), (51, 101), (52, 103), (53, 105), (54, 107), (55, 109), (56, 111), (57, 113), (58, 115), (59, 117), (60, 119), (61, 121), (62, 123), (63, 125), (64, 127), (65, 129), (66, 131), (67, 133), (68, 135), (69, 137), (70, 139), (71, 141), (72, 143), (73, 145), (74, 147), (75, 149), (76, 151), (77, 153), (78, 155), (79, 157), (80, 159), (81, 161), (82, 163), (83, 165), (84, 167), (85, 169), (86, 171), (87, 173), (88, 175), (89, 177), (90, 179), (91, 181), (92, 183), (93, 185), (94, 187), (95, 189), (96, 191), (97, 193), (98, 195), (99, 197), (100, 199)] 1 100] : List Bool).all id

-- test_python_dice_parser.py:281 test_parser_percentile_dice_drop
#guard ([AssertDist (quick (t! "2d%d1")) [(1, 199), (2, 197), (3, 195), (4, 193), (5, 191), (6, 189), (7, 187), (8, 185), (9, 183), (10, 181), (11, 179), (12, 177), (13, 175), (14, 173), (15, 171), (16, 169), (17, 167), (18, 165), (19, 163), (20, 161), (21, 159), (22, 157), (23, 155), (24, 153), (25, 151), (26, 149), (27, 147), (28, 145), (29, 143), (30, 141), (31, 139), (32, 137), (33, 135), (34, 133), (35, 131), (36, 129), (37, 127), (38, 125), (39, 123), (40, 121), (41, 119), (42, 117), (43, 115), (44, 113), (45, 111), (46, 109), (47, 107), (48, 105), (49, 103), (50, 101), (51, 99), (52, 97), (53, 95), (54, 93), (55, 91), (56, 89), (57, 87), (58, 85), (59, 83), (60, 81), (61, 79), (62, 77), (63, 75), (64, 73), (65, 71), (66, 69), (67, 67), (68, 65), (69, 63), (70, 61), (71, 59), (72, 57), (73, 55), (74, 53), (75, 51), (76, 49), (77, 47), (78, 45), (79, 43), (80, 41), (81, 39), (82, 37), (83, 35), (84, 33), (85, 31), (86, 29), (87, 27), (88, 25), (89, 23), (90, 21), (91, 19), (92, 17), (93, 15), (94, 13), (95, 11), (96, 9), (97, 7), (98, 5), (99, 3), (100, 1)] 1 100] : List Bool).all id

-- test_python_dice_parser.py:286 test_parser_custom_keep_dice
example : ([AssertDist (parse (t! "3d[-1*2,1]k2")) [((-2), 8), (0, 12), (2, 7)] (-2) 2] : List Bool).all id = true := by
  rw [quick_eq]; decide +kernel

-- test_python_dice_parser.py:291 test_parser_custom_drop_dice
example : ([AssertDist (parse (t! "2d[-6,1-2*2]d1")) [((-6), 9), (1, 12), (2, 4)] (-6) 2] : List Bool).all id = true := by
  rw [quick_eq]; decide +kernel

-- test_python_dice_parser.py:296 test_parser_state_var_expression_one
#guard ([HasMap (varAfter [(quick (t! "VAR burning_arc_over_sure_spell = ((8d6 + 8) // 2) < (2d8 + 5)"))] (t! "burning_arc_over_sure_spell")) [(0, 91100786), (1, 16394638)]] : List Bool).all id

-- test_python_dice_parser.py:304 test_parser_state_var_expression_two
example : ([HasMap (varAfter [(parse (t! "VAR apple = 1d4 - 1"))] (t! "apple")) [(0, 1), (1, 1), (2, 1), (3, 1)]] : List Bool).all id = true := by
  rw [quick_eq]; decide +kernel

-- test_python_dice_parser.py:309 test_parser_state_var_expression_two_vars_at_once
example : ([HasMap (varAfter [(parse (t! "VAR apple = 1d4")), (parse (t! "VAR food = 4")), (parse (t! "VAR apple = apple + food"))] (t! "apple")) [(5, 1), (6, 1), (7, 1), (8, 1)],
    HasMap (varAfter [(parse (t! "VAR apple = 1d4")), (parse (t! "VAR food = 4")), (parse (t! "VAR apple = apple + food"))] (t! "food")) [(4, 1)]] : List Bool).all id = true := by
  rw [quick_eq]; decide +kernel

end PyDice.Conform

/-! 44 of 45 tests replayed.  Left out:

* `test_python_dice_parser.py:16` `test_use_injected_lexer`: PythonDiceParser(self._mock_pydice_lexer)
-/
