import Verif.Conform.Basic

/-! # The tests of drop and keep

Written by `tools/conform.py` from the test files named below; see `Verif/Conform/Basic.lean`. -/

namespace PyDice.Conform

attribute [local instance] listRuntime
set_option maxRecDepth 100000

-- expression/test_drop_keep_expression.py:23 test_drop_keep_roll_keep
#guard ([decide ((distinct (rolls (dropKeepE (t! "5d10k2")))).max? = some 20)] : List Bool).all id

-- expression/test_drop_keep_expression.py:30 test_drop_keep_roll_drop
#guard ([decide ((distinct (rolls (dropKeepE (t! "5d10d3")))).min? = some 2)] : List Bool).all id

-- expression/test_drop_keep_expression.py:37 test_drop_keep_roll_keep_percentile_dice
#guard ([decide ((distinct (rolls (dropKeepE (t! "2d%k1")))).min? = some 1),
    decide ((distinct (rolls (dropKeepE (t! "2d%k1")))).max? = some 100),
    decide ((distinct (rolls (dropKeepE (t! "2d%k1")))).length = 100)] : List Bool).all id

-- expression/test_drop_keep_expression.py:46 test_drop_keep_roll_drop_percentile_dice
#guard ([decide ((distinct (rolls (dropKeepE (t! "2d%d1")))).min? = some 1),
    decide ((distinct (rolls (dropKeepE (t! "2d%d1")))).max? = some 100),
    decide ((distinct (rolls (dropKeepE (t! "2d%d1")))).length = 100)] : List Bool).all id

-- expression/test_drop_keep_expression.py:55 test_drop_keep_roll_keep_fate_dice
example : ([sameSet (rolls (dropKeepE (t! "3dFk2"))) [some (-2), some (-1), some 0, some 1, some 2]] : List Bool).all id = true := by
  decide +kernel

-- expression/test_drop_keep_expression.py:62 test_drop_keep_roll_drop_fate_dice
example : ([sameSet (rolls (dropKeepE (t! "3dFd1"))) [some (-2), some (-1), some 0, some 1, some 2]] : List Bool).all id = true := by
  decide +kernel

-- expression/test_drop_keep_expression.py:69 test_drop_keep_roll_keep_custom_dice
example : ([sameSet (rolls (dropKeepE (t! "3d[5,10,15]k2"))) [some 10, some 15, some 20, some 25, some 30]] : List Bool).all id = true := by
  decide +kernel

-- expression/test_drop_keep_expression.py:76 test_drop_keep_roll_drop_custom_dice
example : ([sameSet (rolls (dropKeepE (t! "3d[-3,2,4]d1"))) [some (-6), some (-1), some 1, some 4, some 6, some 8]] : List Bool).all id = true := by
  decide +kernel

-- expression/test_drop_keep_expression.py:83 test_drop_keep_roll_keep_to_many
example : ([decide ((distinct (rolls (dropKeepE (t! "2d3k10")))).min? = some 2),
    decide ((distinct (rolls (dropKeepE (t! "2d3k10")))).max? = some 6),
    decide ((distinct (rolls (dropKeepE (t! "2d3k10")))).length = 5)] : List Bool).all id = true := by
  decide +kernel

-- expression/test_drop_keep_expression.py:92 test_drop_keep_roll_drop_to_many
example : ([decide ((distinct (rolls (dropKeepE (t! "2d3d10")))).min? = some 0),
    decide ((distinct (rolls (dropKeepE (t! "2d3d10")))).max? = some 0),
    decide ((distinct (rolls (dropKeepE (t! "2d3d10")))).length = 1)] : List Bool).all id = true := by
  decide +kernel

-- expression/test_drop_keep_expression.py:101 test_drop_keep_roll_keep_to_zero
example : ([decide ((distinct (rolls (dropKeepE (t! "2d3k0")))).min? = some 0),
    decide ((distinct (rolls (dropKeepE (t! "2d3k0")))).max? = some 0),
    decide ((distinct (rolls (dropKeepE (t! "2d3k0")))).length = 1)] : List Bool).all id = true := by
  decide +kernel

-- expression/test_drop_keep_expression.py:110 test_drop_keep_roll_drop_to_zero
example : ([decide ((distinct (rolls (dropKeepE (t! "2d3d0")))).min? = some 2),
    decide ((distinct (rolls (dropKeepE (t! "2d3d0")))).max? = some 6),
    decide ((distinct (rolls (dropKeepE (t! "2d3d0")))).length = 5)] : List Bool).all id = true := by
  decide +kernel

-- expression/test_drop_keep_expression.py:119 test_drop_keep_max_drop
example : ([Gives (ext true (dropKeepE (t! "4d6d2"))) 12] : List Bool).all id = true := by
  decide +kernel

-- expression/test_drop_keep_expression.py:122 test_drop_keep_max_keep
example : ([Gives (ext true (dropKeepE (t! "4d6k2"))) 12] : List Bool).all id = true := by
  decide +kernel

-- expression/test_drop_keep_expression.py:125 test_drop_keep_max_keep_percentile_dice
example : ([Gives (ext true (dropKeepE (t! "59d%k2"))) 200] : List Bool).all id = true := by
  decide +kernel

-- expression/test_drop_keep_expression.py:129 test_drop_keep_max_drop_percentile_dice
example : ([Gives (ext true (dropKeepE (t! "24d%d12"))) 1200] : List Bool).all id = true := by
  decide +kernel

-- expression/test_drop_keep_expression.py:133 test_drop_keep_max_keep_fate_dice
#guard ([Gives (ext true (dropKeepE (t! "3dFk2"))) 2] : List Bool).all id

-- expression/test_drop_keep_expression.py:137 test_drop_keep_max_drop_fate_dice
#guard ([Gives (ext true (dropKeepE (t! "3dFd1"))) 2] : List Bool).all id

-- expression/test_drop_keep_expression.py:141 test_drop_keep_max_keep_custom_dice
example : ([Gives (ext true (dropKeepE (t! "3d[5,10,15]k2"))) 30] : List Bool).all id = true := by
  decide +kernel

-- expression/test_drop_keep_expression.py:145 test_drop_keep_max_drop_custom_dice
example : ([Gives (ext true (dropKeepE (t! "3d[-3,2,4]d1"))) 8] : List Bool).all id = true := by
  decide +kernel

-- expression/test_drop_keep_expression.py:149 test_drop_keep_max_keep_to_many
example : ([Gives (ext true (dropKeepE (t! "2d3k10"))) 6] : List Bool).all id = true := by
  decide +kernel

-- expression/test_drop_keep_expression.py:153 test_drop_keep_max_drop_to_many
example : ([Gives (ext true (dropKeepE (t! "2d3d10"))) 0] : List Bool).all id = true := by
  decide +kernel

-- expression/test_drop_keep_expression.py:157 test_drop_keep_max_keep_to_zero
example : ([Gives (ext true (dropKeepE (t! "2d3k0"))) 0] : List Bool).all id = true := by
  decide +kernel

-- expression/test_drop_keep_expression.py:161 test_drop_keep_max_drop_to_zero
example : ([Gives (ext true (dropKeepE (t! "2d3d0"))) 6] : List Bool).all id = true := by
  decide +kernel

-- expression/test_drop_keep_expression.py:165 test_drop_keep_min_drop
example : ([Gives (ext false (dropKeepE (t! "4d6d2"))) 2] : List Bool).all id = true := by
  decide +kernel

-- expression/test_drop_keep_expression.py:168 test_drop_keep_min_keep
example : ([Gives (ext false (dropKeepE (t! "4d6k2"))) 2] : List Bool).all id = true := by
  decide +kernel

-- expression/test_drop_keep_expression.py:171 test_drop_keep_min_keep_percentile_dice
example : ([Gives (ext false (dropKeepE (t! "14d%k12"))) 12] : List Bool).all id = true := by
  decide +kernel

-- expression/test_drop_keep_expression.py:175 test_drop_keep_min_drop_percentile_dice
example : ([Gives (ext false (dropKeepE (t! "24d%d12"))) 12] : List Bool).all id = true := by
  decide +kernel

-- expression/test_drop_keep_expression.py:179 test_drop_keep_min_keep_fate_dice
example : ([Gives (ext false (dropKeepE (t! "3dFk2"))) (-2)] : List Bool).all id = true := by
  decide +kernel

-- expression/test_drop_keep_expression.py:183 test_drop_keep_min_drop_fate_dice
example : ([Gives (ext false (dropKeepE (t! "3dFd1"))) (-2)] : List Bool).all id = true := by
  decide +kernel

-- expression/test_drop_keep_expression.py:187 test_drop_keep_min_keep_custom_dice
example : ([Gives (ext false (dropKeepE (t! "3d[5,10,15]k2"))) 10] : List Bool).all id = true := by
  decide +kernel

-- expression/test_drop_keep_expression.py:191 test_drop_keep_min_drop_custom_dice
example : ([Gives (ext false (dropKeepE (t! "3d[-3,2,4]d1"))) (-6)] : List Bool).all id = true := by
  decide +kernel

-- expression/test_drop_keep_expression.py:195 test_drop_keep_min_keep_to_many
example : ([Gives (ext false (dropKeepE (t! "2d3k10"))) 2] : List Bool).all id = true := by
  decide +kernel

-- expression/test_drop_keep_expression.py:199 test_drop_keep_min_drop_to_many
example : ([Gives (ext false (dropKeepE (t! "2d3d10"))) 0] : List Bool).all id = true := by
  decide +kernel

-- expression/test_drop_keep_expression.py:203 test_drop_keep_min_keep_to_zero
example : ([Gives (ext false (dropKeepE (t! "2d3k0"))) 0] : List Bool).all id = true := by
  decide +kernel

-- expression/test_drop_keep_expression.py:207 test_drop_keep_min_drop_to_zero
example : ([Gives (ext false (dropKeepE (t! "2d3d0"))) 2] : List Bool).all id = true := by
  decide +kernel

-- expression/test_drop_keep_expression.py:211 test_drop_keep_str_drop
example : ([Gives (txt (dropKeepE (t! "4d6d2"))) (t! "4d6d2")] : List Bool).all id = true := by
  decide +kernel

-- expression/test_drop_keep_expression.py:214 test_drop_keep_str_keep
example : ([Gives (txt (dropKeepE (t! "4d6k2"))) (t! "4d6k2")] : List Bool).all id = true := by
  decide +kernel

-- expression/test_drop_keep_expression.py:217 test_drop_keep_str_keep_percentile_dice
example : ([Gives (txt (dropKeepE (t! "14d%k12"))) (t! "14d%k12")] : List Bool).all id = true := by
  decide +kernel

-- expression/test_drop_keep_expression.py:221 test_drop_keep_str_drop_percentile_dice
example : ([Gives (txt (dropKeepE (t! "24d%d12"))) (t! "24d%d12")] : List Bool).all id = true := by
  decide +kernel

-- expression/test_drop_keep_expression.py:225 test_drop_keep_str_keep_fate_dice
example : ([Gives (txt (dropKeepE (t! "3dFk2"))) (t! "3dFk2")] : List Bool).all id = true := by
  decide +kernel

-- expression/test_drop_keep_expression.py:229 test_drop_keep_str_drop_fate_dice
example : ([Gives (txt (dropKeepE (t! "3dFd1"))) (t! "3dFd1")] : List Bool).all id = true := by
  decide +kernel

-- expression/test_drop_keep_expression.py:233 test_drop_keep_str_keep_custom_dice
example : ([Gives (txt (dropKeepE (t! "3d[5,10,15]k2"))) (t! "3d[5,10,15]k2")] : List Bool).all id = true := by
  decide +kernel

-- expression/test_drop_keep_expression.py:237 test_drop_keep_str_drop_custom_dice
example : ([Gives (txt (dropKeepE (t! "3d[-3,2,4]d1"))) (t! "3d[-3,2,4]d1")] : List Bool).all id = true := by
  decide +kernel

-- expression/test_drop_keep_expression.py:241 test_drop_keep_estimated_cost
example : ([Gives (cst (dropKeepE (t! "4d6d2"))) 48,
    Gives (cst (dropKeepE (t! "4d6k2"))) 48] : List Bool).all id = true := by
  decide +kernel

-- expression/test_drop_keep_expression.py:245 test_drop_keep_estimated_cost_missing_dice_amount
example : ([Gives (cst (dropKeepE (t! "d6d2"))) 2,
    Gives (cst (dropKeepE (t! "d6k2"))) 6] : List Bool).all id = true := by
  decide +kernel

-- expression/test_drop_keep_expression.py:251 test_drop_keep_estimated_cost_percentile_dice
example : ([Gives (cst (dropKeepE (t! "4d%d2"))) 800,
    Gives (cst (dropKeepE (t! "4d%k2"))) 800] : List Bool).all id = true := by
  decide +kernel

-- expression/test_drop_keep_expression.py:257 test_drop_keep_estimated_cost_fate_dice
example : ([Gives (cst (dropKeepE (t! "4dFd2"))) 24,
    Gives (cst (dropKeepE (t! "4dFk2"))) 24] : List Bool).all id = true := by
  decide +kernel

-- expression/test_drop_keep_expression.py:263 test_drop_keep_estimated_custom_dice_negative
example : ([Gives (cst (dropKeepE (t! "4d[-2,2,100]d2"))) 24,
    Gives (cst (dropKeepE (t! "4d[-2,2,100]k2"))) 24] : List Bool).all id = true := by
  decide +kernel

-- expression/test_drop_keep_expression.py:269 test_drop_keep_estimated_custom_dice_large_set
example : ([Gives (cst (dropKeepE (t! "4d[-2,0,2,4,6*7,31,-2,-24]d2"))) 56,
    Gives (cst (dropKeepE (t! "4d[-2,0,2,4,6*7,31,-2,-24]k2"))) 56] : List Bool).all id = true := by
  decide +kernel

-- expression/test_drop_keep_expression.py:279 test_drop_keep_get_probability_distribution_drop
example : ([HasMap (dst (dropKeepE (t! "6d4d4"))) [(2, 1909), (3, 1266), (4, 659), (5, 192), (6, 63), (7, 6), (8, 1)]] : List Bool).all id = true := by
  decide +kernel

-- expression/test_drop_keep_expression.py:286 test_drop_keep_get_probability_distribution_drop_large_dice
#guard ([HasMap (dst (dropKeepE (t! "6d8d4"))) [(2, 43653), (3, 54186), (4, 52243), (5, 40512), (6, 29573), (7, 18558), (8, 11523), (9, 6144), (10, 3367), (11, 1458), (12, 665), (13, 192), (14, 63), (15, 6), (16, 1)]] : List Bool).all id

-- expression/test_drop_keep_expression.py:309 test_drop_keep_get_probability_distribution_drop_large_number_dice
#guard ([HasMap (dst (dropKeepE (t! "20d3d16"))) [(4, 3276020625), (5, 149420940), (6, 49804890), (7, 10485360), (8, 1050835), (9, 1520), (10, 210), (11, 20), (12, 1)]] : List Bool).all id

-- expression/test_drop_keep_expression.py:326 test_drop_keep_get_probability_distribution_keep
example : ([HasMap (dst (dropKeepE (t! "6d4k2"))) [(2, 1), (3, 6), (4, 63), (5, 192), (6, 659), (7, 1266), (8, 1909)]] : List Bool).all id = true := by
  decide +kernel

-- expression/test_drop_keep_expression.py:333 test_drop_keep_get_probability_distribution_keep_large_dice
#guard ([HasMap (dst (dropKeepE (t! "6d8k2"))) [(2, 1), (3, 6), (4, 63), (5, 192), (6, 665), (7, 1458), (8, 3367), (9, 6144), (10, 11523), (11, 18558), (12, 29573), (13, 40512), (14, 52243), (15, 54186), (16, 43653)]] : List Bool).all id

-- expression/test_drop_keep_expression.py:356 test_drop_keep_get_probability_distribution_keep_large_number_dice
#guard ([HasMap (dst (dropKeepE (t! "20d3k4"))) [(4, 1), (5, 20), (6, 210), (7, 1520), (8, 1050835), (9, 10485360), (10, 49804890), (11, 149420940), (12, 3276020625)]] : List Bool).all id

-- expression/test_drop_keep_expression.py:373 test_drop_keep_get_probability_distribution_keep_percentile_dice
#guard ([HasMap (dst (dropKeepE (t! "2d%k1"))) [(1, 1), (2, 3), (3, 5), (4, 7), (5, 9), (6, 11), (7, 13), (8, 15), (9, 17), (10, 19), (11, 21), (12, 23), (13, 25), (14, 27), (15, 29), (16, 31), (17, 33), (18, 35), (19, 37), (20, 39), (21, 41), (22, 43), (23, 45), (24, 47), (25, 49), (26, 51), (27, 53), (28, 55), (29, 57), (30, 59), (31, 61), (32, 63), (33, 65), (34, 67), (35, 69), (36, 71), (37, 73), (38, 75), (39, 77), (40, 79), (41, 81), (42, 83), (43, 85), (44, 87), (45, 89), (46, 91), (47, 93), (48, 95), (49, 97), (50, 99), (51, 101), (52, 103), (53, 105), (54, 107), (55, 109), (56, 111), (57, 113), (58, 115), (59, 117), (60, 119), (61, 121), (62, 123), (63, 125), (64, 127), (65, 129), (66, 131), (67, 133), (68, 135), (69, 137), (70, 139), (71, 141), (72, 143), (73, 145), (74, 147), (75, 149), (76, 151), (77, 153), (78, 155), (79, 157), (80, 159), (81, 161), (82, 163), (83, 165), (84, 167), (85, 169), (86, 171), (87, 173), (88, 175), (89, 177), (90, 179), (91, 181), (92, 183), (93, 185), (94, 187), (95, 189), (96, 191), (97, 193), (98, 195), (99, 197), (100, 199)]] : List Bool).all id

-- expression/test_drop_keep_expression.py:380 test_drop_keep_get_probability_distribution_drop_percentile_dice
#guard ([HasMap (dst (dropKeepE (t! "2d%d1"))) [(1, 199), (2, 197), (3, 195), (4, 193), (5, 191), (6, 189), (7, 187), (8, 185), (9, 183), (10, 181), (11, 179), (12, 177), (13, 175), (14, 173), (15, 171), (16, 169), (17, 167), (18, 165), (19, 163), (20, 161), (21, 159), (22, 157), (23, 155), (24, 153), (25, 151), (26, 149), (27, 147), (28, 145), (29, 143), (30, 141), (31, 139), (32, 137), (33, 135), (34, 133), (35, 131), (36, 129), (37, 127), (38, 125), (39, 123), (40, 121), (41, 119), (42, 117), (43, 115), (44, 113), (45, 111), (46, 109), (47, 107), (48, 105), (49, 103), (50, 101), (51, 99), (52, 97), (53, 95), (54, 93), (55, 91), (56, 89), (57, 87), (58, 85), (59, 83), (60, 81), (61, 79), (62, 77), (63, 75), (64, 73), (65, 71), (66, 69), (67, 67), (68, 65), (69, 63), (70, 61), (71, 59), (72, 57), (73, 55), (74, 53), (75, 51), (76, 49), (77, 47), (78, 45), (79, 43), (80, 41), (81, 39), (82, 37), (83, 35), (84, 33), (85, 31), (86, 29), (87, 27), (88, 25), (89, 23), (90, 21), (91, 19), (92, 17), (93, 15), (94, 13), (95, 11), (96, 9), (97, 7), (98, 5), (99, 3), (100, 1)]] : List Bool).all id

-- expression/test_drop_keep_expression.py:387 test_drop_keep_get_probability_distribution_keep_fate_dice
example : ([HasMap (dst (dropKeepE (t! "3dFk2"))) [((-2), 1), ((-1), 3), (0, 7), (1, 9), (2, 7)]] : List Bool).all id = true := by
  decide +kernel

-- expression/test_drop_keep_expression.py:394 test_drop_keep_get_probability_distribution_drop_fate_dice
example : ([HasMap (dst (dropKeepE (t! "3dFd1"))) [((-2), 7), ((-1), 9), (0, 7), (1, 3), (2, 1)]] : List Bool).all id = true := by
  decide +kernel

-- expression/test_drop_keep_expression.py:401 test_drop_keep_get_probability_distribution_keep_custom_dice
example : ([HasMap (dst (dropKeepE (t! "3d[5,10,15]k2"))) [(10, 1), (15, 3), (20, 7), (25, 9), (30, 7)]] : List Bool).all id = true := by
  decide +kernel

-- expression/test_drop_keep_expression.py:408 test_drop_keep_get_probability_distribution_drop_custom_dice
example : ([HasMap (dst (dropKeepE (t! "3d[-3,2,4]d1"))) [((-6), 7), ((-1), 9), (1, 3), (4, 4), (6, 3), (8, 1)]] : List Bool).all id = true := by
  decide +kernel

-- expression/test_drop_keep_expression.py:415 test_drop_keep_get_probability_distribution_keep_to_many
example : ([HasMap (dst (dropKeepE (t! "2d3k10"))) [(2, 1), (3, 2), (4, 3), (5, 2), (6, 1)]] : List Bool).all id = true := by
  decide +kernel

-- expression/test_drop_keep_expression.py:422 test_drop_keep_get_probability_distribution_drop_to_many
example : ([HasMap (dst (dropKeepE (t! "2d3d10"))) [(0, 1)]] : List Bool).all id = true := by
  decide +kernel

-- expression/test_drop_keep_expression.py:426 test_drop_keep_get_probability_distribution_keep_to_zero
example : ([HasMap (dst (dropKeepE (t! "2d3k0"))) [(0, 1)]] : List Bool).all id = true := by
  decide +kernel

-- expression/test_drop_keep_expression.py:430 test_drop_keep_get_probability_distribution_drop_to_zero
example : ([HasMap (dst (dropKeepE (t! "2d3d0"))) [(2, 1), (3, 2), (4, 3), (5, 2), (6, 1)]] : List Bool).all id = true := by
  decide +kernel

-- expression/test_drop_keep_expression.py:437 test_drop_keep_get_probability_distribution_range
example : ([HasMap (dst (dropKeepE (t! "3d[-1-1, 0]d1"))) [((-2), 10), ((-1), 24), (0, 23), (1, 6), (2, 1)]] : List Bool).all id = true := by
  decide +kernel

-- expression/test_drop_keep_expression.py:444 test_drop_keep_get_contained_variables
example : ([Gives (vars (dropKeepE (t! "4d6d2"))) [],
    Gives (vars (dropKeepE (t! "4d6k2"))) []] : List Bool).all id = true := by
  decide +kernel

end PyDice.Conform

/-! 68 of 69 tests replayed.  Left out:

* `expression/test_drop_keep_expression.py:19` `test_drop_keep_add_production_function`: DropKeepExpression.add_production_function(self._mock_parser_gen, self
-/
