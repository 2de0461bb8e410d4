PyDice.C01_merge_terminates: propext, Classical.choice, Quot.sound
PyDice.C01_merge_constraints_normal: propext, Classical.choice, Quot.sound
PyDice.C01_add_constraint_normal: propext, Classical.choice, Quot.sound
PyDice.C01_constraint_set_normal: propext, Classical.choice, Quot.sound
PyDice.C01_combine_sets_normal: propext, Classical.choice, Quot.sound
PyDice.C02_meaning_of_built_set: propext, Classical.choice, Quot.sound
PyDice.C02_meaning_of_add: propext, Classical.choice, Quot.sound
PyDice.C02_meaning_of_combine: propext, Classical.choice, Quot.sound
PyDice.C02_meaning_of_merge: propext, Classical.choice, Quot.sound
PyDice.C02_complies_extends: propext, Classical.choice, Quot.sound
PyDice.C02_impossible_complies: propext, Quot.sound
PyDice.C03_elements_of_built_set: propext, Classical.choice, Quot.sound
PyDice.C03_order_independent: propext, Classical.choice, Quot.sound
PyDice.C03_merge_order_independent: propext, Classical.choice, Quot.sound
PyDice.C04_combine_comm: propext, Classical.choice, Quot.sound
PyDice.C04_combine_idem: propext, Classical.choice, Quot.sound
PyDice.C04_combine_unit: propext, Classical.choice, Quot.sound
PyDice.C04_combine_assoc: propext, Classical.choice, Quot.sound
PyDice.C04_impossible_absorbs: propext, Classical.choice, Quot.sound
PyDice.C05_binop_convolution: propext, Classical.choice, Quot.sound
PyDice.C05_binop_support: propext, Classical.choice, Quot.sound
PyDice.C05_binop_defined: propext, Classical.choice, Quot.sound
PyDice.C05_from_counts: propext, Classical.choice, Quot.sound
PyDice.C06_not_pushforward: propext, Classical.choice, Quot.sound
PyDice.C06_abs_pushforward: propext, Classical.choice, Quot.sound
PyDice.C06_total_unchanged: propext, Quot.sound
PyDice.C07_binop_given: propext, Classical.choice, Quot.sound
PyDice.C07_no_contradictions: propext, Classical.choice, Quot.sound
PyDice.C07_no_losses: propext, Classical.choice, Quot.sound
PyDice.C07_unary_given: propext, Classical.choice, Quot.sound
PyDice.C08_dict_form: propext, Classical.choice, Quot.sound
PyDice.C08_dict_form_zero: propext, Classical.choice, Quot.sound
PyDice.C09_max_min: propext, Quot.sound
PyDice.C09_max_min_defined: propext, Quot.sound
PyDice.C09_contains_zero: propext, Classical.choice, Quot.sound
PyDice.C09_average: propext, Classical.choice, Quot.sound
PyDice.C09_average_between: propext, Classical.choice, Quot.sound
PyDice.C09_average_linear: propext, Classical.choice, Quot.sound
PyDice.C10_at_least: propext, Classical.choice, Quot.sound
PyDice.C10_at_most: propext, Classical.choice, Quot.sound
PyDice.C10_monotone: propext, Classical.choice, Quot.sound
PyDice.C11_floordiv_error: propext, Classical.choice, Quot.sound
PyDice.C11_floordiv_floor: propext, Classical.choice, Quot.sound
PyDice.C11_expr_dist: propext, Classical.choice, Quot.sound
PyDice.C11_expr_extreme: propext, Classical.choice, Quot.sound
PyDice.C11_expr_roll: propext, Classical.choice, Quot.sound
PyDice.C11_expr_roll_cases: propext, Classical.choice, Quot.sound
PyDice.C12_dice_counts: propext, Classical.choice, Quot.sound
PyDice.C12_zero_dice: propext, Quot.sound
PyDice.C12_zero_dice_counterexample: propext, Classical.choice, Quot.sound
PyDice.C13_max_min: propext, Classical.choice, Quot.sound
PyDice.C13_roll_between: propext, Classical.choice, Quot.sound
PyDice.C13_no_faces: propext, Quot.sound
PyDice.C14_sides: propext, Classical.choice, Quot.sound
PyDice.C14_percent_fate: propext, Classical.choice, Quot.sound
PyDice.C14_custom: propext, Classical.choice, Quot.sound
PyDice.C14_order: propext, Classical.choice, Quot.sound
PyDice.C14_number: propext, Classical.choice, Quot.sound
PyDice.C14_keep_drop: propext, Classical.choice, Quot.sound
PyDice.C14_custom_term: propext, Classical.choice, Quot.sound
PyDice.C15_trailing_comma_rejected: propext, Classical.choice, Quot.sound
PyDice.C15_counterexample: propext, Classical.choice, Quot.sound
PyDice.C15_parse_rejected: propext, Classical.choice, Quot.sound
PyDice.C15_parse_accepted: propext, Classical.choice, Quot.sound
PyDice.C16_keep_drop_counts: propext, Classical.choice, Quot.sound
PyDice.C17_plain: propext, Classical.choice, Quot.sound
PyDice.C17_zero: propext, Classical.choice, Quot.sound
PyDice.C18_max_min: propext, Classical.choice, Quot.sound
PyDice.C18_roll_between: propext, Classical.choice, Quot.sound
PyDice.C19_encoding: propext, Classical.choice, Quot.sound
PyDice.C19_key_eq_iff: propext, Classical.choice, Quot.sound
PyDice.C19_update: propext, Classical.choice, Quot.sound
PyDice.C20_dice_law: propext, Classical.choice, Quot.sound
PyDice.C20_keep_drop_law: propext, Classical.choice, Quot.sound
PyDice.C20_zero_dice_counterexample: propext, Classical.choice, Quot.sound
PyDice.C20_text_counterexample: propext, Classical.choice, Quot.sound
PyDice.C21_roll_law: propext, Classical.choice, Quot.sound
PyDice.C21_partial: propext, Classical.choice, Quot.sound
PyDice.C21_program_law: propext, Classical.choice, Quot.sound
PyDice.C21_interp_partial: propext, Classical.choice, Quot.sound
PyDice.C21_law: propext, Classical.choice, Quot.sound
PyDice.C21_session_law: propext, Classical.choice, Quot.sound
PyDice.C21_stdout_law: propext, Classical.choice, Quot.sound
PyDice.C21_exact: propext, Classical.choice, Quot.sound
PyDice.C21_interp_exact: propext, Classical.choice, Quot.sound
PyDice.C21_counterexample: propext, Classical.choice, Quot.sound
PyDice.C21_reuse_counterexample: propext, Classical.choice, Quot.sound
PyDice.C21_report_exact: propext, Classical.choice, Quot.sound
PyDice.C21_text_counterexample: propext, Classical.choice, Quot.sound
PyDice.C22_dist_binary: propext, Classical.choice, Quot.sound
PyDice.C22_dist_counts: propext, Classical.choice, Quot.sound
PyDice.C22_dist_not: propext, Classical.choice, Quot.sound
PyDice.C22_roll_binary: propext, Classical.choice, Quot.sound
PyDice.C22_roll_partial: propext, Classical.choice, Quot.sound
PyDice.C22_and_counterexample: propext, Classical.choice, Quot.sound
PyDice.C22_or_counterexample: propext, Classical.choice, Quot.sound
PyDice.C22_not_counterexample: propext, Classical.choice, Quot.sound
PyDice.C22_roll_rule: propext, Classical.choice, Quot.sound
PyDice.C22_roll_not_rule: propext, Classical.choice, Quot.sound
PyDice.C22_agree: propext, Classical.choice, Quot.sound
PyDice.C22_and_odd: propext, Classical.choice, Quot.sound
PyDice.C22_text_counterexample: propext, Classical.choice, Quot.sound
PyDice.C23_defined_partial: propext, Classical.choice, Quot.sound
PyDice.C23_partial: propext, Classical.choice, Quot.sound
PyDice.C23_values_partial: propext, Classical.choice, Quot.sound
PyDice.C23_interp_partial: propext, Classical.choice, Quot.sound
PyDice.C23_zero_dice_counterexample: propext, Classical.choice, Quot.sound
PyDice.C23_nested_counterexample: propext, Classical.choice, Quot.sound
PyDice.C23_stdout_counterexample: propext, Classical.choice, Quot.sound
PyDice.C23_text_counterexample: propext, Classical.choice, Quot.sound
PyDice.C24_partial: propext, Classical.choice, Quot.sound
PyDice.C24_values_partial: propext, Classical.choice, Quot.sound
PyDice.C24_interp_partial: propext, Classical.choice, Quot.sound
PyDice.C24_variable_free_partial: propext, Classical.choice, Quot.sound
PyDice.C24_counterexample: propext, Classical.choice, Quot.sound
PyDice.C24_law: propext, Classical.choice, Quot.sound
PyDice.C24_exact: propext, Classical.choice, Quot.sound
PyDice.C24_node_exact: propext, Classical.choice, Quot.sound
PyDice.C24_interp_law: propext, Classical.choice, Quot.sound
PyDice.C24_text_counterexample: propext, Classical.choice, Quot.sound
PyDice.C25_partial: propext, Classical.choice, Quot.sound
PyDice.C25_weighted_partial: propext, Classical.choice, Quot.sound
PyDice.C25_interp_partial: propext, Classical.choice, Quot.sound
PyDice.C25_counterexample: propext, Classical.choice, Quot.sound
PyDice.C25_nested_partial: propext, Classical.choice, Quot.sound
PyDice.C25_nested_interp_partial: propext, Classical.choice, Quot.sound
PyDice.C25_text_counterexample: propext, Classical.choice, Quot.sound
PyDice.C25_nested_counterexample: propext, Classical.choice, Quot.sound
PyDice.C26_law: propext, Classical.choice, Quot.sound
PyDice.C26_partial: propext, Classical.choice, Quot.sound
PyDice.C26_interp_partial: propext, Classical.choice, Quot.sound
PyDice.C26_counterexample: propext, Classical.choice, Quot.sound
PyDice.C26_reported: propext, Classical.choice, Quot.sound
PyDice.C26_exact: propext, Classical.choice, Quot.sound
PyDice.C26_no_dice: propext, Classical.choice, Quot.sound
PyDice.C26_reported_any: propext, Classical.choice, Quot.sound
PyDice.C26_nested_law: propext, Classical.choice, Quot.sound
PyDice.C26_text_counterexample: propext, Classical.choice, Quot.sound
PyDice.C27_set_var: propext, Classical.choice, Quot.sound
PyDice.C27_assignment: propext, Classical.choice, Quot.sound
PyDice.C28_injective: propext, Quot.sound
PyDice.C28_tags_distinct: propext, Classical.choice, Quot.sound
PyDice.C28_fresh: propext, Classical.choice, Quot.sound
PyDice.C28_independent: propext, Classical.choice, Quot.sound
PyDice.C29_constant: propext, Classical.choice, Quot.sound
PyDice.C29_var: propext, Classical.choice, Quot.sound
PyDice.C29_var_untouched: propext, Classical.choice, Quot.sound
PyDice.C29_has: propext, Quot.sound
PyDice.C29_separate: propext, Classical.choice, Quot.sound
PyDice.C29_counter: propext, Classical.choice, Quot.sound
PyDice.C30_roll: propext, Classical.choice, Quot.sound
PyDice.C30_extreme: propext, Classical.choice, Quot.sound
PyDice.C30_every_run: propext
PyDice.C30_empty: propext
PyDice.C30_figures: propext, Classical.choice, Quot.sound
PyDice.C31_roll: propext, Quot.sound
PyDice.C31_extreme: propext, Quot.sound
PyDice.C31_dists: propext, Quot.sound
PyDice.C31_dictForms_averages: propext, Classical.choice, Quot.sound
PyDice.C31_histogram: propext, Quot.sound
PyDice.C31_cost: propext, Classical.choice, Quot.sound
PyDice.C32_roll: propext, Classical.choice, Quot.sound
PyDice.C32_dists: propext, Classical.choice, Quot.sound
PyDice.C32_dists_alike: propext, Classical.choice, Quot.sound
PyDice.C32_histogram: propext, Classical.choice, Quot.sound
PyDice.C32_cost: propext, Classical.choice, Quot.sound
PyDice.C32_extreme_partial: propext, Classical.choice, Quot.sound
PyDice.C32_extreme_session_partial: propext, Classical.choice, Quot.sound
PyDice.C32_extreme_counterexample: propext, Classical.choice, Quot.sound
PyDice.C32_text_counterexample: propext, Classical.choice, Quot.sound
PyDice.C33_dists: propext
PyDice.C33_content: propext
PyDice.C33_alias_partial: propext, Classical.choice, Quot.sound
PyDice.C33_counterexample: propext, Quot.sound
PyDice.C33_text_counterexample: propext, Classical.choice, Quot.sound
PyDice.C34_keeps_distributions: propext, Classical.choice, Quot.sound
PyDice.C34_call_keeps_distributions: propext, Classical.choice, Quot.sound
PyDice.C34_reference: propext, Classical.choice, Quot.sound
PyDice.C34_leaves: propext, Classical.choice, Quot.sound
PyDice.C34_sum: propext, Classical.choice, Quot.sound
PyDice.C34_nonneg: propext, Classical.choice, Quot.sound
PyDice.C34_leftover_counterexample: propext, Classical.choice, Quot.sound
PyDice.C34_not: propext, Classical.choice, Quot.sound
PyDice.C34_not_monotone: propext, Classical.choice, Quot.sound
PyDice.C34_not_counterexample: propext, Classical.choice, Quot.sound
PyDice.C34_text_counterexample: propext, Classical.choice, Quot.sound
PyDice.C35_dist: propext, Quot.sound
PyDice.C35_max_min: propext, Quot.sound
PyDice.C35_cost: propext, Classical.choice, Quot.sound
PyDice.C35_roll: propext, Classical.choice, Quot.sound
PyDice.C35_contained: propext
PyDice.C36_tokens: propext, Classical.choice, Quot.sound
PyDice.C36_lossless: propext, Classical.choice, Quot.sound
PyDice.C36_slice: propext, Classical.choice, Quot.sound
PyDice.C36_deterministic: propext, Classical.choice, Quot.sound
PyDice.C36_error: propext, Classical.choice, Quot.sound
PyDice.C36_total: propext, Classical.choice, Quot.sound
PyDice.C37_message: propext, Classical.choice, Quot.sound
PyDice.C37_value_error: propext, Classical.choice, Quot.sound
PyDice.C38_accepts: propext, Classical.choice, Quot.sound
PyDice.C38_lookahead: propext, Classical.choice, Quot.sound
PyDice.C38_unique: propext, Classical.choice, Quot.sound
PyDice.C38_rejects: propext, Classical.choice, Quot.sound
PyDice.C38_text: propext, Classical.choice, Quot.sound
PyDice.C38_text_rejects: propext, Classical.choice, Quot.sound
PyDice.C38_two_operators: propext, Classical.choice, Quot.sound
PyDice.C38_not_extends: propext, Classical.choice, Quot.sound
PyDice.C38_assign_extends: propext, Classical.choice, Quot.sound
PyDice.C39_parentheses: propext, Classical.choice, Quot.sound
PyDice.C39_strip_dist: propext, Quot.sound
PyDice.C39_strip_max_min: propext, Quot.sound
PyDice.C39_strip_roll_cost: propext, Classical.choice, Quot.sound
PyDice.C39_strip_contained: propext
PyDice.C40_print_parse: propext, Classical.choice, Quot.sound
PyDice.C40_print_injective: propext, Classical.choice, Quot.sound
PyDice.C40_parts: propext, Classical.choice, Quot.sound
PyDice.C40_every_part: propext, Classical.choice, Quot.sound
PyDice.C41_histograms: propext, Classical.choice, Quot.sound
PyDice.C41_compare_partial: propext, Classical.choice, Quot.sound
PyDice.C41_compare_counterexample: propext, Classical.choice, Quot.sound
PyDice.C41_line_plots: propext, Classical.choice, Quot.sound
PyDice.C42_one_choice: propext, Classical.choice, Quot.sound
PyDice.C42_choices_law: propext, Classical.choice, Quot.sound
PyDice.C43_parsed: propext, Classical.choice, Quot.sound
PyDice.C43_dist: propext, Classical.choice, Quot.sound
PyDice.C43_extreme: propext, Classical.choice, Quot.sound
PyDice.C43_roll: propext, Classical.choice, Quot.sound
PyDice.C43_cost: propext, Classical.choice, Quot.sound
PyDice.C43_dist_total: propext, Classical.choice, Quot.sound
PyDice.C43_roll_total: propext, Classical.choice, Quot.sound
PyDice.C43_cost_total: propext, Classical.choice, Quot.sound
PyDice.C43_needs: propext, Classical.choice, Quot.sound
PyDice.C43_dists: propext, Classical.choice, Quot.sound
PyDice.C43_histogram: propext, Classical.choice, Quot.sound
PyDice.C43_extremes: propext, Classical.choice, Quot.sound
PyDice.C43_rolls: propext, Classical.choice, Quot.sound
PyDice.C43_costs: propext, Classical.choice, Quot.sound
PyDice.C43_dictForms_averages: propext, Classical.choice, Quot.sound
PyDice.C43_classes: propext, Classical.choice, Quot.sound
PyDice.C44_rounding: propext, Classical.choice, Quot.sound
PyDice.C44_dict_form: propext, Classical.choice, Quot.sound
PyDice.C44_dict_form_order: propext, Classical.choice, Quot.sound
PyDice.C44_dict_form_sum: propext, Classical.choice, Quot.sound
PyDice.C44_average: propext, Classical.choice, Quot.sound
PyDice.C44_error: propext, Classical.choice, Quot.sound
PyDice.C44_at_least_partial: propext, Classical.choice, Quot.sound
PyDice.C44_at_most_partial: propext, Classical.choice, Quot.sound
PyDice.C44_methods: propext, Classical.choice, Quot.sound
PyDice.C44_tails_counterexample: propext, Classical.choice, Quot.sound
PyDice.C45_tokens: propext, Classical.choice, Quot.sound
PyDice.C45_positions: propext, Classical.choice, Quot.sound
PyDice.C45_layout: propext, Classical.choice, Quot.sound
PyDice.C45_around: propext, Classical.choice, Quot.sound
PyDice.C45_brackets: propext, Classical.choice, Quot.sound
PyDice.C45_compose: propext, Classical.choice, Quot.sound
PyDice.C45_methods: propext, Classical.choice, Quot.sound
PyDice.C45_counterexample: propext, Classical.choice, Quot.sound
PyDice.C46_expression: propext, Classical.choice, Quot.sound
PyDice.C46_program: propext, Classical.choice, Quot.sound
PyDice.C46_raises: propext, Classical.choice, Quot.sound
PyDice.C46_shared: propext, Classical.choice, Quot.sound
PyDice.C46_order_counterexample: propext, Classical.choice, Quot.sound
PyDice.C47_choices: propext, Classical.choice, Quot.sound
PyDice.C47_face: propext, Classical.choice, Quot.sound
PyDice.C47_support: propext, Classical.choice, Quot.sound
PyDice.C47_program: propext, Classical.choice, Quot.sound
PyDice.C47_possible: propext, Classical.choice, Quot.sound
PyDice.C47_law: propext, Classical.choice, Quot.sound
PyDice.C47_steps: propext, Classical.choice, Quot.sound
PyDice.C47_exact_counterexample: propext, Classical.choice, Quot.sound
PyDice.C48_merge: propext, Classical.choice, Quot.sound
PyDice.C48_combine: propext, Classical.choice, Quot.sound
PyDice.C48_operators: propext, Classical.choice, Quot.sound
PyDice.C48_assign: propext, Classical.choice, Quot.sound
PyDice.C48_distributions: propext, Classical.choice, Quot.sound
PyDice.C48_extremes: propext, Classical.choice, Quot.sound
PyDice.C48_histograms: propext, Classical.choice, Quot.sound
PyDice.C48_session: propext, Classical.choice, Quot.sound
PyDice.C49_numbers: propext, Classical.choice, Quot.sound
PyDice.C49_tokens: propext, Classical.choice, Quot.sound
PyDice.C49_methods: propext, Classical.choice, Quot.sound
PyDice.C50_count: propext, Classical.choice, Quot.sound
PyDice.C50_law: propext, Classical.choice, Quot.sound
PyDice.C50_defined: propext, Classical.choice, Quot.sound
PyDice.C50_laws: propext, Classical.choice, Quot.sound
PyDice.C50_roll_counterexample: propext, Classical.choice, Quot.sound
PyDice.C50_twice_counterexample: propext, Classical.choice, Quot.sound
PyDice.C51_order: propext, Classical.choice, Quot.sound
PyDice.C51_seen: propext, Classical.choice, Quot.sound
PyDice.C52_rename: propext, Classical.choice, Quot.sound
PyDice.C52_stdout_counterexample: propext, Classical.choice, Quot.sound
PyDice.C53_constraint: propext, Classical.choice, Quot.sound
PyDice.C53_outcome: propext, Classical.choice, Quot.sound
PyDice.C53_outcome_iff: propext, Classical.choice, Quot.sound
PyDice.C53_key: propext, Classical.choice, Quot.sound
PyDice.C53_hash_order: propext, Classical.choice, Quot.sound
PyDice.C53_hash_values: propext, Classical.choice, Quot.sound
PyDice.C53_print: propext, Classical.choice, Quot.sound
PyDice.C53_session: propext, Classical.choice, Quot.sound
PyDice.C53_parsed: propext, Classical.choice, Quot.sound
PyDice.C53_stored: propext, Classical.choice, Quot.sound
PyDice.C53_closed: propext, Classical.choice, Quot.sound
PyDice.C53_comma_counterexample: propext, Classical.choice, Quot.sound
PyDice.C53_order_counterexample: propext, Classical.choice, Quot.sound
PyDice.C54_dist: propext, Classical.choice, Quot.sound
PyDice.C54_dist_raises: propext, Classical.choice, Quot.sound
PyDice.C54_extreme: propext, Classical.choice, Quot.sound
PyDice.C54_roll: propext, Classical.choice, Quot.sound
PyDice.C54_call_dists: propext, Classical.choice, Quot.sound
PyDice.C54_call_histogram: propext, Classical.choice, Quot.sound
PyDice.C54_call_extreme: propext, Classical.choice, Quot.sound
PyDice.C54_call_roll: propext, Classical.choice, Quot.sound
PyDice.C54_twice_counterexample: propext, Classical.choice, Quot.sound
PyDice.C55_session: propext, Classical.choice, Quot.sound
PyDice.C55_dead_line: propext, Classical.choice, Quot.sound
PyDice.C55_swap: propext, Classical.choice, Quot.sound
PyDice.C55_isolation: propext, Classical.choice, Quot.sound
PyDice.C55_figures_counterexample: propext, Classical.choice, Quot.sound
PyDice.C56_histogram_partial: propext, Classical.choice, Quot.sound
PyDice.C56_tails_partial: propext, Classical.choice, Quot.sound
PyDice.C56_line: propext, Classical.choice, Quot.sound
PyDice.C56_compare_partial: propext, Classical.choice, Quot.sound
PyDice.C56_line_plots: propext, Classical.choice, Quot.sound
PyDice.C56_interpreter: propext, Classical.choice, Quot.sound
PyDice.C56_compare_counterexample: propext, Classical.choice, Quot.sound
PyDice.C56_large_counterexample: propext, Classical.choice, Quot.sound
PyDice.C57_split: propext, Classical.choice, Quot.sound
PyDice.C57_keep_max: propext, Classical.choice, Quot.sound
PyDice.C57_drop_min: propext, Classical.choice, Quot.sound
PyDice.C57_average: propext, Classical.choice, Quot.sound
PyDice.C57_average_ordinary: propext, Classical.choice, Quot.sound
PyDice.C57_keep_plus_drop: propext, Classical.choice, Quot.sound
PyDice.C57_mirror_dice: propext, Classical.choice, Quot.sound
PyDice.C57_mirror_keep_drop: propext, Classical.choice, Quot.sound
PyDice.C57_more_dice_keep: propext, Classical.choice, Quot.sound
PyDice.C57_more_dice_drop: propext, Classical.choice, Quot.sound
PyDice.C57_keep_beats_drop: propext, Classical.choice, Quot.sound
PyDice.C57_keep_more: propext, Classical.choice, Quot.sound
PyDice.C58_counts: propext, Classical.choice, Quot.sound
PyDice.C58_product: propext, Classical.choice, Quot.sound
PyDice.C59_arithmetic: propext, Classical.choice, Quot.sound
PyDice.C59_max_min: propext, Classical.choice, Quot.sound
PyDice.C59_comparisons: propext, Classical.choice, Quot.sound
PyDice.C59_constants: propext, Classical.choice, Quot.sound
PyDice.C59_not_abs: propext, Classical.choice, Quot.sound
PyDice.C59_reuse_counterexample: propext, Classical.choice, Quot.sound
PyDice.C60_same: propext
PyDice.C60_same_text: propext, Classical.choice, Quot.sound
PyDice.C60_unexpected: propext, Classical.choice, Quot.sound
PyDice.C60_unfinished: propext, Classical.choice, Quot.sound
PyDice.C60_unreadable: propext, Classical.choice, Quot.sound
PyDice.C60_complete: propext, Classical.choice, Quot.sound
PyDice.C60_message: propext, Classical.choice, Quot.sound
PyDice.C60_types: propext, Classical.choice, Quot.sound
PyDice.C60_position: propext, Classical.choice, Quot.sound
PyDice.C61_text_names: propext, Classical.choice, Quot.sound
PyDice.C61_same: propext, Classical.choice, Quot.sound
PyDice.C61_same_interp: propext, Classical.choice, Quot.sound
PyDice.C61_dist: propext, Classical.choice, Quot.sound
PyDice.C61_extreme: propext, Classical.choice, Quot.sound
PyDice.C61_cost: propext, Classical.choice, Quot.sound
PyDice.C61_roll: propext, Classical.choice, Quot.sound
PyDice.C61_nothing_missing: propext, Classical.choice, Quot.sound
PyDice.C61_dist_exact: propext, Classical.choice, Quot.sound
PyDice.C61_dists: propext, Classical.choice, Quot.sound
PyDice.C61_dists_exact: propext, Classical.choice, Quot.sound
PyDice.C61_histogram: propext, Classical.choice, Quot.sound
PyDice.C61_extremes: propext, Classical.choice, Quot.sound
PyDice.C61_costs: propext, Classical.choice, Quot.sound
PyDice.C61_rolls: propext, Classical.choice, Quot.sound
PyDice.C61_divisor: propext, Classical.choice, Quot.sound
PyDice.C61_dists_own: propext, Classical.choice, Quot.sound
PyDice.C61_divisor_exact: propext, Classical.choice, Quot.sound
PyDice.C62_defined: propext, Classical.choice, Quot.sound
PyDice.C62_names: propext, Classical.choice, Quot.sound
PyDice.C62_values: propext, Classical.choice, Quot.sound
PyDice.C62_reported: propext, Classical.choice, Quot.sound
PyDice.C62_exact: propext, Classical.choice, Quot.sound
PyDice.C62_text: propext, Classical.choice, Quot.sound
PyDice.C62_stdout_counterexample: propext, Classical.choice, Quot.sound
PyDice.C63_law: propext, Classical.choice, Quot.sound
PyDice.C63_line: propext, Classical.choice, Quot.sound
PyDice.C63_settled: propext, Classical.choice, Quot.sound
PyDice.C63_text: propext, Classical.choice, Quot.sound
PyDice.C63_twice_counterexample: propext, Classical.choice, Quot.sound
PyDice.C63_divisor_counterexample: propext, Classical.choice, Quot.sound
PyDice.C64_outcomes: propext, Classical.choice, Quot.sound
PyDice.C64_dists: propext, Classical.choice, Quot.sound
PyDice.C64_refused: propext, Classical.choice, Quot.sound
PyDice.C64_only_alike: propext, Classical.choice, Quot.sound
PyDice.C64_outcome_method: propext, Classical.choice, Quot.sound
PyDice.C64_dist_method: propext, Classical.choice, Quot.sound
PyDice.C64_unary: propext, Classical.choice, Quot.sound
PyDice.C64_text_tells: propext, Classical.choice, Quot.sound
PyDice.C64_dist_text_tells: propext, Classical.choice, Quot.sound
PyDice.C64_mirrored: propext, Classical.choice, Quot.sound
PyDice.C64_unreflected: propext, Classical.choice, Quot.sound
PyDice.C65_made: propext, Classical.choice, Quot.sound
PyDice.C65_counted_partial: propext, Classical.choice, Quot.sound
PyDice.C65_result_map: propext, Classical.choice, Quot.sound
PyDice.C65_value: propext, Classical.choice, Quot.sound
PyDice.C65_int_partial: propext, Classical.choice, Quot.sound
PyDice.C65_bool_counterexample: propext, Classical.choice, Quot.sound
PyDice.C65_ignored_counterexample: propext, Classical.choice, Quot.sound
PyDice.C66_same_class_partial: propext, Classical.choice, Quot.sound
PyDice.C66_raises: propext, Classical.choice, Quot.sound
PyDice.C66_text_counterexample: propext, Classical.choice, Quot.sound
PyDice.C66_dist_counterexample: propext, Classical.choice, Quot.sound
PyDice.C66_order_counterexample: propext, Classical.choice, Quot.sound
PyDice.C66_number_counterexample: propext, Classical.choice, Quot.sound
PyDice.C67_merge: propext, Classical.choice, Quot.sound
PyDice.C67_dead: propext, Classical.choice, Quot.sound
PyDice.C67_typed: propext, Classical.choice, Quot.sound
PyDice.C67_empty_set: propext, Classical.choice, Quot.sound
PyDice.C67_unseen: propext, Classical.choice, Quot.sound
PyDice.C68_same: propext, Quot.sound
PyDice.C68_pairs: propext, Classical.choice, Quot.sound
PyDice.C68_operands: propext, Quot.sound
PyDice.C68_others: propext, Quot.sound
PyDice.C68_one_more_die: propext, Classical.choice, Quot.sound
PyDice.C68_values: propext, Classical.choice, Quot.sound
PyDice.C68_dice: propext, Classical.choice, Quot.sound
PyDice.C68_dice_text: propext, Classical.choice, Quot.sound
PyDice.C68_keys: propext, Classical.choice, Quot.sound
PyDice.C68_key_table: propext, Classical.choice, Quot.sound
PyDice.C69_bill_partial: propext, Classical.choice, Quot.sound
PyDice.C69_cost_partial: propext, Classical.choice, Quot.sound
PyDice.C69_entries_counterexample: propext, Classical.choice, Quot.sound
PyDice.C69_passes_counterexample: propext, Classical.choice, Quot.sound
PyDice.C69_no_dice_counterexample: propext, Classical.choice, Quot.sound
PyDice.C70_better: propext, Classical.choice, Quot.sound
PyDice.C70_directions: propext, Classical.choice, Quot.sound
PyDice.C70_no_variables: propext, Classical.choice, Quot.sound
PyDice.C70_shared_counterexample: propext, Classical.choice, Quot.sound
PyDice.C71_middle: propext, Classical.choice, Quot.sound
PyDice.C71_peak: propext, Classical.choice, Quot.sound
PyDice.C71_ordinary: propext, Classical.choice, Quot.sound
PyDice.C71_gap_counterexample: propext, Classical.choice, Quot.sound
PyDice.C72_ParenthesisEnclosedExpression: propext, Classical.choice, Quot.sound
PyDice.C72_NotExpression: propext, Classical.choice, Quot.sound
PyDice.C72_AbsExpression: propext, Classical.choice, Quot.sound
PyDice.C72_AddExpression: propext, Classical.choice, Quot.sound
PyDice.C72_SubtractExpression: propext, Classical.choice, Quot.sound
PyDice.C72_MultiplyExpression: propext, Classical.choice, Quot.sound
PyDice.C72_IntegerDivisionExpression: propext, Classical.choice, Quot.sound
PyDice.C72_BinaryOperatorExpression: propext, Classical.choice, Quot.sound
PyDice.C72_MinMaxExpression: propext, Classical.choice, Quot.sound
PyDice.C72_ConstantIntegerExpression: propext, Classical.choice, Quot.sound
PyDice.C72_ConstantBinaryExpression: propext, Classical.choice, Quot.sound
PyDice.C72_VarAssignmentExpression: propext, Classical.choice, Quot.sound
PyDice.C72_GetVarExpression: propext, Classical.choice, Quot.sound
PyDice.C72_operator_maps: propext, Classical.choice, Quot.sound
PyDice.C73_find_range: propext, Classical.choice, Quot.sound
PyDice.C73_get_single_dice_outcome_map: propext, Classical.choice, Quot.sound
PyDice.C73_DiceExpression_init: propext, Classical.choice, Quot.sound
PyDice.C73_DiceExpression: propext, Classical.choice, Quot.sound
PyDice.C73_string_key_to_list: propext, Classical.choice, Quot.sound
PyDice.C73_int_list_to_string: propext, Classical.choice, Quot.sound
PyDice.C73_update_key_list: propext, Classical.choice, Quot.sound
PyDice.C73_build_dice_dict: propext, Classical.choice, Quot.sound
PyDice.C73_compute_iterations: propext, Classical.choice, Quot.sound
PyDice.C73_collapse_outcomes: propext, Classical.choice, Quot.sound
PyDice.C73_DropKeepExpression_init: propext, Classical.choice, Quot.sound
PyDice.C73_DropKeepExpression: propext, Classical.choice, Quot.sound
PyDice.C73_dice_token: propext, Classical.choice, Quot.sound
PyDice.C73_drop_keep_token: propext, Classical.choice, Quot.sound
PyDice.C74_ProbabilityOutcome_init: propext, Classical.choice, Quot.sound
PyDice.C74_combine: propext, Classical.choice, Quot.sound
PyDice.C74_combine_foreign: propext, Classical.choice, Quot.sound
PyDice.C74_ProbabilityOutcome_operators: propext, Classical.choice, Quot.sound
PyDice.C74_ProbabilityOutcome: propext, Classical.choice, Quot.sound
PyDice.C74_functions: propext, Classical.choice, Quot.sound
PyDice.C74_combine_distributions: propext, Classical.choice, Quot.sound
PyDice.C74_get_result_map: propext, Classical.choice, Quot.sound
PyDice.C74_not_operator: propext, Classical.choice, Quot.sound
PyDice.C74_abs: propext, Classical.choice, Quot.sound
PyDice.C74_ProbabilityDistribution_init: propext, Classical.choice, Quot.sound
PyDice.C74_ProbabilityDistribution_init_int: propext, Classical.choice, Quot.sound
PyDice.C74_ProbabilityDistribution_init_none: propext, Classical.choice, Quot.sound
PyDice.C74_ProbabilityDistribution_operators: propext, Classical.choice, Quot.sound
PyDice.C74_ProbabilityDistribution_foreign: propext, Classical.choice, Quot.sound
PyDice.C74_ProbabilityDistribution: propext, Classical.choice, Quot.sound
PyDice.C74_factories: propext, Classical.choice, Quot.sound
PyDice.C74_create: propext, Classical.choice, Quot.sound
PyDice.C75_NullConstraint: propext, Classical.choice, Quot.sound
PyDice.C75_ImpossibleConstraint: propext, Classical.choice, Quot.sound
PyDice.C75_VarValueConstraint: propext, Classical.choice, Quot.sound
PyDice.C75_ConstraintFactory: propext, Classical.choice, Quot.sound
PyDice.C75_merge_new_constraint: propext, Classical.choice, Quot.sound
PyDice.C75_merge_new_constraints: propext, Classical.choice, Quot.sound
PyDice.C75_ConstraintMerger: propext, Classical.choice, Quot.sound
PyDice.C75_ConstraintSet: propext, Classical.choice, Quot.sound
PyDice.C75_ConstraintSet_init: propext, Classical.choice, Quot.sound
PyDice.C75_add_constraint: propext, Classical.choice, Quot.sound
PyDice.C75_ConstraintSetFactory: propext, Classical.choice, Quot.sound
PyDice.C75_state_read: propext, Classical.choice, Quot.sound
PyDice.C75_set_constant: propext, Classical.choice, Quot.sound
PyDice.C75_set_var: propext, Classical.choice, Quot.sound
PyDice.C75_state_init: propext, Classical.choice, Quot.sound
PyDice.C75_state_factory: propext, Classical.choice, Quot.sound
PyDice.C76_parse: propext, Classical.choice, Quot.sound
PyDice.C76_init: propext, Classical.choice, Quot.sound
PyDice.C76_init_default: propext, Classical.choice, Quot.sound
PyDice.C76_roll: propext, Classical.choice, Quot.sound
PyDice.C76_max: propext, Classical.choice, Quot.sound
PyDice.C76_min: propext, Classical.choice, Quot.sound
PyDice.C76_dists: propext, Classical.choice, Quot.sound
PyDice.C76_dict_forms: propext, Classical.choice, Quot.sound
PyDice.C76_averages: propext, Classical.choice, Quot.sound
PyDice.C76_histograms: propext, Classical.choice, Quot.sound
PyDice.C76_cost: propext, Classical.choice, Quot.sound
PyDice.C76_figures: propext, Classical.choice, Quot.sound
PyDice.C77_dict_form: propext, Classical.choice, Quot.sound
PyDice.C77_average: propext, Classical.choice, Quot.sound
PyDice.C77_histogram_form: propext, Classical.choice, Quot.sound
PyDice.C77_histogram_numbers: propext, Classical.choice, Quot.sound
PyDice.C77_at_least: propext, Classical.choice, Quot.sound
PyDice.C77_at_most: propext, Classical.choice, Quot.sound
PyDice.C77_exact: propext, Classical.choice, Quot.sound
PyDice.C77_floats: propext, Classical.choice, Quot.sound
PyDice.C78_make_line_plot: propext, Classical.choice, Quot.sound
PyDice.C78_make_histogram: propext, Classical.choice, Quot.sound
PyDice.C78_histogram: propext, Classical.choice, Quot.sound
PyDice.C78_at_least_histogram: propext, Classical.choice, Quot.sound
PyDice.C78_at_most_histogram: propext, Classical.choice, Quot.sound
PyDice.C78_compare: propext, Classical.choice, Quot.sound
PyDice.C78_compare_at_least: propext, Classical.choice, Quot.sound
PyDice.C78_compare_at_most: propext, Classical.choice, Quot.sound
PyDice.C78_compare_histogram: propext, Classical.choice, Quot.sound
PyDice.C78_numbers: propext, Classical.choice, Quot.sound
PyDice.C79_syntax_objects: propext, Classical.choice, Quot.sound
PyDice.C79_lexer_init: propext, Classical.choice, Quot.sound
PyDice.C79_parser_init: propext, Classical.choice, Quot.sound
PyDice.C79_productions: propext
PyDice.C79_regexes: propext, Classical.choice, Quot.sound
PyDice.C79_rules: propext, Classical.choice, Quot.sound
PyDice.C79_lex: propext, Classical.choice, Quot.sound
PyDice.C79_error_handler: propext, Classical.choice, Quot.sound
PyDice.C80_constraint_set_hash: propext, Classical.choice, Quot.sound
PyDice.C80_outcome_hash: propext, Classical.choice, Quot.sound
PyDice.C80_null_hash: propext, Classical.choice, Quot.sound
PyDice.C80_impossible_hash: propext, Classical.choice, Quot.sound
PyDice.C80_var_hash: propext, Classical.choice, Quot.sound
PyDice.C80_merger_prints: propext, Classical.choice, Quot.sound
PyDice.C80_outcome_repr: propext, Classical.choice, Quot.sound
PyDice.C80_distribution_prints: propext, Classical.choice, Quot.sound
PyDice.C81_distribution: propext, Classical.choice, Quot.sound
PyDice.C81_outcome: propext, Classical.choice, Quot.sound
PyDice.C81_outcome_eq: propext, Classical.choice, Quot.sound
PyDice.C81_outcome_init: propext, Classical.choice, Quot.sound
PyDice.C81_merge: propext, Classical.choice, Quot.sound
PyDice.C81_constraint_set: propext, Classical.choice, Quot.sound
PyDice.C81_state: propext, Classical.choice, Quot.sound
PyDice.C81_division: propext, Classical.choice, Quot.sound
PyDice.C81_all: propext
PyDice.C82_outcome_factory: propext, Classical.choice, Quot.sound
PyDice.C82_distribution_factory: propext, Classical.choice, Quot.sound
PyDice.C82_constraint_set_factory: propext, Classical.choice, Quot.sound
PyDice.C82_state_factory: propext, Classical.choice, Quot.sound
PyDice.C82_interpreter: propext, Classical.choice, Quot.sound
PyDice.C83_small_counterexample: propext, Classical.choice, Quot.sound
PyDice.C83_large_counterexample: propext, Classical.choice, Quot.sound
PyDice.C83_neighbours_counterexample: propext, Classical.choice, Quot.sound
PyDice.C83_collisions_partial: propext, Classical.choice, Quot.sound
PyDice.C83_distinct_partial: propext, Classical.choice, Quot.sound
