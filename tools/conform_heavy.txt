test_parser_dice_full_test
test_parser_less_than_equal_expression
test_parser_less_than_expression
test_parser_greater_than_equal_expression
test_parser_greater_than_expression
test_parser_keep_expression
test_parser_percentile_dice
test_parser_percentile_dice_keep
test_parser_percentile_dice_drop
test_parser_state_var_expression_one
test_dice_get_probability_distribution_percentile_dice
test_drop_keep_roll_keep
test_drop_keep_roll_drop
test_drop_keep_roll_keep_percentile_dice
test_drop_keep_roll_drop_percentile_dice
test_drop_keep_max_keep_fate_dice
test_drop_keep_max_drop_fate_dice
test_drop_keep_get_probability_distribution_drop_large_dice
test_drop_keep_get_probability_distribution_drop_large_number_dice
test_drop_keep_get_probability_distribution_keep_large_dice
test_drop_keep_get_probability_distribution_keep_large_number_dice
test_drop_keep_get_probability_distribution_keep_percentile_dice
test_drop_keep_get_probability_distribution_drop_percentile_dice
test_get_probability_distribution_dict
test_get_probability_distribution
test_average
