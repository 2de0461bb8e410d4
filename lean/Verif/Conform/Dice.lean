import Verif.Conform.Basic

/-! # The tests of the dice

Written by `tools/conform.py` from the test files named below; see `Verif/Conform/Basic.lean`. -/

namespace PyDice.Conform

attribute [local instance] listRuntime
set_option maxRecDepth 100000

-- expression/test_dice_expression_helper.py:7 test_numbered_dice
example : ([HasTable (singleDiceMap (t! "6")) [(1, 1), (2, 1), (3, 1), (4, 1), (5, 1), (6, 1)]] : List Bool).all id = true := by
  decide +kernel

-- expression/test_dice_expression_helper.py:13 test_fate_dice
example : ([HasTable (singleDiceMap (t! "F")) [((-1), 1), (0, 1), (1, 1)]] : List Bool).all id = true := by
  decide +kernel

-- expression/test_dice_expression_helper.py:16 test_percentile_dice
example : ([HasTable (singleDiceMap (t! "%")) [(1, 1), (2, 1), (3, 1), (4, 1), (5, 1), (6, 1), (7, 1), (8, 1), (9, 1), (10, 1), (11, 1), (12, 1), (13, 1), (14, 1), (15, 1), (16, 1), (17, 1), (18, 1), (19, 1), (20, 1), (21, 1), (22, 1), (23, 1), (24, 1), (25, 1), (26, 1), (27, 1), (28, 1), (29, 1), (30, 1), (31, 1), (32, 1), (33, 1), (34, 1), (35, 1), (36, 1), (37, 1), (38, 1), (39, 1), (40, 1), (41, 1), (42, 1), (43, 1), (44, 1), (45, 1), (46, 1), (47, 1), (48, 1), (49, 1), (50, 1), (51, 1), (52, 1), (53, 1), (54, 1), (55, 1), (56, 1), (57, 1), (58, 1), (59, 1), (60, 1), (61, 1), (62, 1), (63, 1), (64, 1), (65, 1), (66, 1), (67, 1), (68, 1), (69, 1), (70, 1), (71, 1), (72, 1), (73, 1), (74, 1), (75, 1), (76, 1), (77, 1), (78, 1), (79, 1), (80, 1), (81, 1), (82, 1), (83, 1), (84, 1), (85, 1), (86, 1), (87, 1), (88, 1), (89, 1), (90, 1), (91, 1), (92, 1), (93, 1), (94, 1), (95, 1), (96, 1), (97, 1), (98, 1), (99, 1), (100, 1)]] : List Bool).all id = true := by
  decide +kernel

-- expression/test_dice_expression_helper.py:22 test_custom_dice
example : ([HasTable (singleDiceMap (t! "[2, -9, 1]")) [(2, 1), ((-9), 1), (1, 1)]] : List Bool).all id = true := by
  decide +kernel

-- expression/test_dice_expression_helper.py:28 test_custom_dice_repeated_sides
example : ([HasTable (singleDiceMap (t! "[2, -9, 1, 1, 1, 1, 1 ,2     ]")) [(2, 2), ((-9), 1), (1, 5)]] : List Bool).all id = true := by
  decide +kernel

-- expression/test_dice_expression_helper.py:34 test_custom_dice_range
example : ([HasTable (singleDiceMap (t! "[7-9]")) [(7, 1), (8, 1), (9, 1)]] : List Bool).all id = true := by
  decide +kernel

-- expression/test_dice_expression_helper.py:40 test_custom_dice_range_negative
example : ([HasTable (singleDiceMap (t! "[-3-2]")) [((-3), 1), ((-2), 1), ((-1), 1), (0, 1), (1, 1), (2, 1)]] : List Bool).all id = true := by
  decide +kernel

-- expression/test_dice_expression_helper.py:46 test_custom_dice_range_negative_to_negative
example : ([HasTable (singleDiceMap (t! "[-3--1, -10--7, 0]")) [((-10), 1), ((-9), 1), ((-8), 1), ((-7), 1), ((-3), 1), ((-2), 1), ((-1), 1), (0, 1)]] : List Bool).all id = true := by
  decide +kernel

-- expression/test_dice_expression_helper.py:52 test_custom_dice_range_out_of_order_range
example : ([HasTable (singleDiceMap (t! "[4-1, -1--3]")) [((-3), 1), ((-2), 1), ((-1), 1), (1, 1), (2, 1), (3, 1), (4, 1)]] : List Bool).all id = true := by
  decide +kernel

-- expression/test_dice_expression_helper.py:58 test_custom_dice_multiplier
example : ([HasTable (singleDiceMap (t! "[4*1, 5*79]")) [(5, 79), (4, 1)]] : List Bool).all id = true := by
  decide +kernel

-- expression/test_dice_expression_helper.py:64 test_custom_dice_multiplier_range
example : ([HasTable (singleDiceMap (t! "[4-8*2, -1-1*10]")) [((-1), 10), (0, 10), (1, 10), (4, 2), (5, 2), (6, 2), (7, 2), (8, 2)]] : List Bool).all id = true := by
  decide +kernel

-- expression/test_dice_expression.py:24 test_dice_roll
example : ([decide ((distinct (rolls (diceE (t! "2d10")))).length = 19),
    decide ((distinct (rolls (diceE (t! "2d10")))).max? = some 20),
    decide ((distinct (rolls (diceE (t! "2d10")))).min? = some 2)] : List Bool).all id = true := by
  decide +kernel

-- expression/test_dice_expression.py:33 test_dice_roll_missing_dice_amount
example : ([decide ((distinct (rolls (diceE (t! "d10")))).length = 10),
    decide ((distinct (rolls (diceE (t! "d10")))).max? = some 10),
    decide ((distinct (rolls (diceE (t! "d10")))).min? = some 1)] : List Bool).all id = true := by
  decide +kernel

-- expression/test_dice_expression.py:42 test_dice_roll_percentile_dice
example : ([decide ((distinct (rolls (diceE (t! "1d%")))).length = 100),
    decide ((distinct (rolls (diceE (t! "1d%")))).max? = some 100),
    decide ((distinct (rolls (diceE (t! "1d%")))).min? = some 1)] : List Bool).all id = true := by
  decide +kernel

-- expression/test_dice_expression.py:51 test_dice_roll_fate_dice
example : ([sameSet (rolls (diceE (t! "2dF"))) [some (-2), some (-1), some 0, some 1, some 2]] : List Bool).all id = true := by
  decide +kernel

-- expression/test_dice_expression.py:58 test_dice_roll_custom_dice_negative
example : ([sameSet (rolls (diceE (t! "2d[-2,2,100]"))) [some (-4), some 0, some 4, some 98, some 102, some 200]] : List Bool).all id = true := by
  decide +kernel

-- expression/test_dice_expression.py:65 test_dice_roll_custom_dice_large_set
example : ([sameSet (rolls (diceE (t! "2d[-2,0,2,4,6,31]"))) [some (-4), some (-2), some 0, some 2, some 4, some 6, some 8, some 10, some 12, some 29, some 31, some 33, some 35, some 37, some 62]] : List Bool).all id = true := by
  decide +kernel

-- expression/test_dice_expression.py:72 test_dice_max
example : ([Gives (ext true (diceE (t! "4d6"))) 24] : List Bool).all id = true := by
  decide +kernel

-- expression/test_dice_expression.py:75 test_dice_max_missing_dice_amount
example : ([Gives (ext true (diceE (t! "d10"))) 10] : List Bool).all id = true := by
  decide +kernel

-- expression/test_dice_expression.py:79 test_dice_max_percentile_dice
example : ([Gives (ext true (diceE (t! "1d%"))) 100] : List Bool).all id = true := by
  decide +kernel

-- expression/test_dice_expression.py:83 test_dice_max_fate_dice
example : ([Gives (ext true (diceE (t! "2dF"))) 2] : List Bool).all id = true := by
  decide +kernel

-- expression/test_dice_expression.py:87 test_dice_max_custom_dice_negative
example : ([Gives (ext true (diceE (t! "21d[-2,2,100]"))) 2100] : List Bool).all id = true := by
  decide +kernel

-- expression/test_dice_expression.py:91 test_dice_max_custom_dice_large_set
example : ([Gives (ext true (diceE (t! "76d[-2,0,2,4,6,31]"))) 2356] : List Bool).all id = true := by
  decide +kernel

-- expression/test_dice_expression.py:95 test_dice_min
example : ([Gives (ext false (diceE (t! "4d6"))) 4] : List Bool).all id = true := by
  decide +kernel

-- expression/test_dice_expression.py:98 test_dice_min_missing_dice_amount
example : ([Gives (ext false (diceE (t! "d10"))) 1] : List Bool).all id = true := by
  decide +kernel

-- expression/test_dice_expression.py:102 test_dice_min_percentile_dice
example : ([Gives (ext false (diceE (t! "1d%"))) 1] : List Bool).all id = true := by
  decide +kernel

-- expression/test_dice_expression.py:106 test_dice_min_fate_dice
example : ([Gives (ext false (diceE (t! "4dF"))) (-4)] : List Bool).all id = true := by
  decide +kernel

-- expression/test_dice_expression.py:110 test_dice_min_custom_dice_negative
example : ([Gives (ext false (diceE (t! "21d[-2,2,100]"))) (-42)] : List Bool).all id = true := by
  decide +kernel

-- expression/test_dice_expression.py:114 test_dice_min_custom_dice_large_set
example : ([Gives (ext false (diceE (t! "d[-2,0,2,4,6,31,-2,-24]"))) (-24)] : List Bool).all id = true := by
  decide +kernel

-- expression/test_dice_expression.py:118 test_dice_str
example : ([Gives (txt (diceE (t! "4d6"))) (t! "4d6")] : List Bool).all id = true := by
  decide +kernel

-- expression/test_dice_expression.py:121 test_dice_str_missing_dice_amount
example : ([Gives (txt (diceE (t! "d10"))) (t! "d10")] : List Bool).all id = true := by
  decide +kernel

-- expression/test_dice_expression.py:125 test_dice_str_percentile_dice
example : ([Gives (txt (diceE (t! "1d%"))) (t! "1d%")] : List Bool).all id = true := by
  decide +kernel

-- expression/test_dice_expression.py:129 test_dice_str_fate_dice
example : ([Gives (txt (diceE (t! "4dF"))) (t! "4dF")] : List Bool).all id = true := by
  decide +kernel

-- expression/test_dice_expression.py:133 test_dice_str_custom_dice_negative
example : ([Gives (txt (diceE (t! "21d[-2,2,100]"))) (t! "21d[-2,2,100]")] : List Bool).all id = true := by
  decide +kernel

-- expression/test_dice_expression.py:137 test_dice_str_custom_dice_large_set
example : ([Gives (txt (diceE (t! "d[-2,0,2,4,6,31,-2,-24]"))) (t! "d[-2,0,2,4,6,31,-2,-24]")] : List Bool).all id = true := by
  decide +kernel

-- expression/test_dice_expression.py:141 test_dice_estimated_cost
example : ([Gives (cst (diceE (t! "4d6"))) 24] : List Bool).all id = true := by
  decide +kernel

-- expression/test_dice_expression.py:144 test_dice_estimated_cost_missing_dice_amount
example : ([Gives (cst (diceE (t! "d10"))) 10] : List Bool).all id = true := by
  decide +kernel

-- expression/test_dice_expression.py:148 test_dice_estimated_cost_percentile_dice
example : ([Gives (cst (diceE (t! "1d%"))) 100] : List Bool).all id = true := by
  decide +kernel

-- expression/test_dice_expression.py:152 test_dice_estimated_cost_fate_dice
example : ([Gives (cst (diceE (t! "10dF"))) 30] : List Bool).all id = true := by
  decide +kernel

-- expression/test_dice_expression.py:156 test_dice_estimated_custom_dice_negative
example : ([Gives (cst (diceE (t! "21d[-2,2,100]"))) 63] : List Bool).all id = true := by
  decide +kernel

-- expression/test_dice_expression.py:160 test_dice_estimated_custom_dice_large_set
example : ([Gives (cst (diceE (t! "2d[-2,0,2,4,6*7,31,-2,-24]"))) 14] : List Bool).all id = true := by
  decide +kernel

-- expression/test_dice_expression.py:164 test_dice_get_probability_distribution
example : ([HasMap (dst (diceE (t! "4d6"))) [(4, 1), (5, 4), (6, 10), (7, 20), (8, 35), (9, 56), (10, 80), (11, 104), (12, 125), (13, 140), (14, 146), (15, 140), (16, 125), (17, 104), (18, 80), (19, 56), (20, 35), (21, 20), (22, 10), (23, 4), (24, 1)]] : List Bool).all id = true := by
  decide +kernel

-- expression/test_dice_expression.py:173 test_dice_get_probability_distribution_missing_dice_amount
example : ([HasMap (dst (diceE (t! "d10"))) [(1, 1), (2, 1), (3, 1), (4, 1), (5, 1), (6, 1), (7, 1), (8, 1), (9, 1), (10, 1)]] : List Bool).all id = true := by
  decide +kernel

-- expression/test_dice_expression.py:182 test_dice_get_probability_distribution_percentile_dice
#guard ([HasMap (dst (diceE (t! "2d%"))) [(2, 1), (3, 2), (4, 3), (5, 4), (6, 5), (7, 6), (8, 7), (9, 8), (10, 9), (11, 10), (12, 11), (13, 12), (14, 13), (15, 14), (16, 15), (17, 16), (18, 17), (19, 18), (20, 19), (21, 20), (22, 21), (23, 22), (24, 23), (25, 24), (26, 25), (27, 26), (28, 27), (29, 28), (30, 29), (31, 30), (32, 31), (33, 32), (34, 33), (35, 34), (36, 35), (37, 36), (38, 37), (39, 38), (40, 39), (41, 40), (42, 41), (43, 42), (44, 43), (45, 44), (46, 45), (47, 46), (48, 47), (49, 48), (50, 49), (51, 50), (52, 51), (53, 52), (54, 53), (55, 54), (56, 55), (57, 56), (58, 57), (59, 58), (60, 59), (61, 60), (62, 61), (63, 62), (64, 63), (65, 64), (66, 65), (67, 66), (68, 67), (69, 68), (70, 69), (71, 70), (72, 71), (73, 72), (74, 73), (75, 74), (76, 75), (77, 76), (78, 77), (79, 78), (80, 79), (81, 80), (82, 81), (83, 82), (84, 83), (85, 84), (86, 85), (87, 86), (88, 87), (89, 88), (90, 89), (91, 90), (92, 91), (93, 92), (94, 93), (95, 94), (96, 95), (97, 96), (98, 97), (99, 98), (100, 99), (101, 100), (102, 99), (103, 98), (104, 97), (105, 96), (106, 95), (107, 94), (108, 93), (109, 92), (110, 91), (111, 90), (112, 89), (113, 88), (114, 87), (115, 86), (116, 85), (117, 84), (118, 83), (119, 82), (120, 81), (121, 80), (122, 79), (123, 78), (124, 77), (125, 76), (126, 75), (127, 74), (128, 73), (129, 72), (130, 71), (131, 70), (132, 69), (133, 68), (134, 67), (135, 66), (136, 65), (137, 64), (138, 63), (139, 62), (140, 61), (141, 60), (142, 59), (143, 58), (144, 57), (145, 56), (146, 55), (147, 54), (148, 53), (149, 52), (150, 51), (151, 50), (152, 49), (153, 48), (154, 47), (155, 46), (156, 45), (157, 44), (158, 43), (159, 42), (160, 41), (161, 40), (162, 39), (163, 38), (164, 37), (165, 36), (166, 35), (167, 34), (168, 33), (169, 32), (170, 31), (171, 30), (172, 29), (173, 28), (174, 27), (175, 26), (176, 25), (177, 24), (178, 23), (179, 22), (180, 21), (181, 20), (182, 19), (183, 18), (184, 17), (185, 16), (186, 15), (187, 14), (188, 13), (189, 12), (190, 11), (191, 10), (192, 9), (193, 8), (194, 7), (195, 6), (196, 5), (197, 4), (198, 3), (199, 2), (200, 1)]] : List Bool).all id

-- expression/test_dice_expression.py:191 test_dice_get_probability_distribution_fate_dice
example : ([HasMap (dst (diceE (t! "4dF"))) [((-4), 1), ((-3), 4), ((-2), 10), ((-1), 16), (0, 19), (1, 16), (2, 10), (3, 4), (4, 1)]] : List Bool).all id = true := by
  decide +kernel

-- expression/test_dice_expression.py:198 test_dice_get_probability_distribution_custom_dice_negative
example : ([HasMap (dst (diceE (t! "2d[-2,2,100]"))) [((-4), 1), (0, 2), (4, 1), (98, 2), (102, 2), (200, 1)]] : List Bool).all id = true := by
  decide +kernel

-- expression/test_dice_expression.py:205 test_dice_get_probability_distribution_custom_dice_large_set
example : ([HasMap (dst (diceE (t! "d[-2,0,2,4,6,31,-2,-24]"))) [((-24), 1), ((-2), 2), (0, 1), (2, 1), (4, 1), (6, 1), (31, 1)]] : List Bool).all id = true := by
  decide +kernel

-- expression/test_dice_expression.py:212 test_dice_get_probability_distribution_custom_dice_multiplier
example : ([HasMap (dst (diceE (t! "d[-2*3,0,2]"))) [((-2), 3), (0, 1), (2, 1)]] : List Bool).all id = true := by
  decide +kernel

-- expression/test_dice_expression.py:219 test_dice_get_probability_distribution_custom_dice_range
example : ([HasMap (dst (diceE (t! "d[1-2*3,0,2]"))) [(0, 1), (1, 3), (2, 4)]] : List Bool).all id = true := by
  decide +kernel

-- expression/test_dice_expression.py:226 test_dice_get_probability_distribution_custom_dice_multiplier_range
example : ([HasMap (dst (diceE (t! "d[1-2*3,-4--9*10]"))) [((-9), 10), ((-8), 10), ((-7), 10), ((-6), 10), ((-5), 10), ((-4), 10), (1, 3), (2, 3)]] : List Bool).all id = true := by
  decide +kernel

-- expression/test_dice_expression.py:233 test_dice_get_contained_variables
example : ([Gives (vars (diceE (t! "4d6"))) []] : List Bool).all id = true := by
  decide +kernel

end PyDice.Conform

/-! 51 of 52 tests replayed.  Left out:

* `expression/test_dice_expression.py:20` `test_dice_add_production_function`: DiceExpression.add_production_function(self._mock_parser_gen, self._pr
-/
