{
 "claims": [
  {
   "property": "C01",
   "status": "proved",
   "theorems": [
    "PyDice.C01_merge_terminates",
    "PyDice.C01_merge_constraints_normal",
    "PyDice.C01_add_constraint_normal",
    "PyDice.C01_constraint_set_normal",
    "PyDice.C01_combine_sets_normal"
   ],
   "note": "Every PyRuntime; fuel is shown sufficient and irrelevant."
  },
  {
   "property": "C02",
   "status": "proved",
   "theorems": [
    "PyDice.C02_meaning_of_built_set",
    "PyDice.C02_meaning_of_add",
    "PyDice.C02_meaning_of_combine",
    "PyDice.C02_meaning_of_merge",
    "PyDice.C02_complies_extends",
    "PyDice.C02_impossible_complies"
   ],
   "note": "Every PyRuntime."
  },
  {
   "property": "C03",
   "status": "proved",
   "theorems": [
    "PyDice.C03_elements_of_built_set",
    "PyDice.C03_order_independent",
    "PyDice.C03_merge_order_independent"
   ],
   "note": "Two arbitrary runtimes, arbitrary permutation; also an element-by-element description of the result."
  },
  {
   "property": "C04",
   "status": "proved",
   "theorems": [
    "PyDice.C04_combine_comm",
    "PyDice.C04_combine_idem",
    "PyDice.C04_combine_unit",
    "PyDice.C04_combine_assoc",
    "PyDice.C04_impossible_absorbs"
   ],
   "note": "Associativity is for sets whose variable constraints allow at least one value (all sets the program builds); the other laws need no such hypothesis."
  },
  {
   "property": "C05",
   "status": "proved",
   "theorems": [
    "PyDice.C05_binop_convolution",
    "PyDice.C05_binop_support",
    "PyDice.C05_binop_defined",
    "PyDice.C05_from_counts"
   ],
   "note": "All fourteen operators, arbitrary counts; also stated from the public constructor."
  },
  {
   "property": "C06",
   "status": "proved",
   "theorems": [
    "PyDice.C06_not_pushforward",
    "PyDice.C06_abs_pushforward",
    "PyDice.C06_total_unchanged"
   ],
   "note": ""
  },
  {
   "property": "C07",
   "status": "proved",
   "theorems": [
    "PyDice.C07_binop_given",
    "PyDice.C07_no_contradictions",
    "PyDice.C07_no_losses",
    "PyDice.C07_unary_given"
   ],
   "note": "Counts given an assignment multiply; every outcome satisfiable; no compatible pair lost."
  },
  {
   "property": "C08",
   "status": "proved",
   "theorems": [
    "PyDice.C08_dict_form",
    "PyDice.C08_dict_form_zero"
   ],
   "note": "Over exact rationals, as stated; the floats are in C44."
  },
  {
   "property": "C09",
   "status": "proved",
   "theorems": [
    "PyDice.C09_max_min",
    "PyDice.C09_max_min_defined",
    "PyDice.C09_contains_zero",
    "PyDice.C09_average",
    "PyDice.C09_average_between",
    "PyDice.C09_average_linear"
   ],
   "note": "Linearity for distributions tied to no variable."
  },
  {
   "property": "C10",
   "status": "proved",
   "theorems": [
    "PyDice.C10_at_least",
    "PyDice.C10_at_most",
    "PyDice.C10_monotone"
   ],
   "note": "Over exact rationals; the floats are in C44."
  },
  {
   "property": "C11",
   "status": "proved",
   "theorems": [
    "PyDice.C11_floordiv_error",
    "PyDice.C11_floordiv_floor",
    "PyDice.C11_expr_dist",
    "PyDice.C11_expr_extreme",
    "PyDice.C11_expr_roll",
    "PyDice.C11_expr_roll_cases"
   ],
   "note": "Distributions in every reachable state; max/min when evaluating the operands does not change the state (operands with assignments inside re-evaluate); rolls for any operands."
  },
  {
   "property": "C12",
   "status": "proved",
   "theorems": [
    "PyDice.C12_dice_counts",
    "PyDice.C12_zero_dice",
    "PyDice.C12_zero_dice_counterexample"
   ],
   "note": "n >= 1 as stated. For n = 0 the code returns the distribution of one die; counterexample theorem."
  },
  {
   "property": "C13",
   "status": "proved",
   "theorems": [
    "PyDice.C13_max_min",
    "PyDice.C13_roll_between",
    "PyDice.C13_no_faces"
   ],
   "note": "n >= 1 for the distribution; rolls for any n."
  },
  {
   "property": "C14",
   "status": "proved",
   "theorems": [
    "PyDice.C14_sides",
    "PyDice.C14_percent_fate",
    "PyDice.C14_custom",
    "PyDice.C14_order",
    "PyDice.C14_number",
    "PyDice.C14_keep_drop",
    "PyDice.C14_custom_term"
   ],
   "note": "From the text of the term, any whitespace inside the brackets, to the table."
  },
  {
   "property": "C15",
   "status": "partial",
   "theorems": [
    "PyDice.C15_trailing_comma_rejected",
    "PyDice.C15_counterexample",
    "PyDice.C15_parse_rejected",
    "PyDice.C15_parse_accepted"
   ],
   "note": "Refuted: for every list of entries with a trailing comma the lexer delivers the token but the constructor, and so the parser, raises ValueError."
  },
  {
   "property": "C16",
   "status": "proved",
   "theorems": [
    "PyDice.C16_keep_drop_counts"
   ],
   "note": "For every text the constructor accepts."
  },
  {
   "property": "C17",
   "status": "proved",
   "theorems": [
    "PyDice.C17_plain",
    "PyDice.C17_zero"
   ],
   "note": "Equality of every method with the plain dice term, or with the constant 0."
  },
  {
   "property": "C18",
   "status": "proved",
   "theorems": [
    "PyDice.C18_max_min",
    "PyDice.C18_roll_between"
   ],
   "note": ""
  },
  {
   "property": "C19",
   "status": "proved",
   "theorems": [
    "PyDice.C19_encoding",
    "PyDice.C19_key_eq_iff",
    "PyDice.C19_update"
   ],
   "note": ""
  },
  {
   "property": "C20",
   "status": "proved",
   "theorems": [
    "PyDice.C20_dice_law",
    "PyDice.C20_keep_drop_law",
    "PyDice.C20_zero_dice_counterexample",
    "PyDice.C20_text_counterexample"
   ],
   "note": "n >= 1; refuted for 0 dice by a counterexample theorem. random() is a uniform real."
  },
  {
   "property": "C21",
   "status": "partial",
   "theorems": [
    "PyDice.C21_roll_law",
    "PyDice.C21_partial",
    "PyDice.C21_program_law",
    "PyDice.C21_interp_partial",
    "PyDice.C21_law",
    "PyDice.C21_session_law",
    "PyDice.C21_stdout_law",
    "PyDice.C21_exact",
    "PyDice.C21_interp_exact",
    "PyDice.C21_counterexample",
    "PyDice.C21_reuse_counterexample",
    "PyDice.C21_report_exact",
    "PyDice.C21_text_counterexample"
   ],
   "note": "Exact law of rolls for every expression and every list of lines in every state without conditions (C21_law, C21_session_law), and an exact criterion for agreement with the reported distribution (C21_exact, C21_interp_exact, C21_report_exact).  Proved for every variable-free expression whose AND is applied to 0/1 and OR, ! to values that are not negative, and for straight-line programs rolled by the interpreter (every line used at most once or with equally likely values).  Refuted elsewhere: 1 AND 2; 0d6 (C20); reused variables (the roll is right, the report wrong)."
  },
  {
   "property": "C22",
   "status": "partial",
   "theorems": [
    "PyDice.C22_dist_binary",
    "PyDice.C22_dist_counts",
    "PyDice.C22_dist_not",
    "PyDice.C22_roll_binary",
    "PyDice.C22_roll_partial",
    "PyDice.C22_and_counterexample",
    "PyDice.C22_or_counterexample",
    "PyDice.C22_not_counterexample",
    "PyDice.C22_roll_rule",
    "PyDice.C22_roll_not_rule",
    "PyDice.C22_agree",
    "PyDice.C22_and_odd",
    "PyDice.C22_text_counterexample"
   ],
   "note": "Proved for distributions and for 0/1-valuedness of rolls.  Refuted for rolls of AND, OR (bitwise on ints) and ! (any nonzero is true): 1 AND 2, -1 OR 0, !-1; the fragment where rolls follow the rule is proved, and the rule that rolls do follow, with an exact criterion for where it agrees (C22_roll_rule, C22_agree)."
  },
  {
   "property": "C23",
   "status": "partial",
   "theorems": [
    "PyDice.C23_defined_partial",
    "PyDice.C23_partial",
    "PyDice.C23_values_partial",
    "PyDice.C23_interp_partial",
    "PyDice.C23_zero_dice_counterexample",
    "PyDice.C23_nested_counterexample",
    "PyDice.C23_stdout_counterexample",
    "PyDice.C23_text_counterexample"
   ],
   "note": "Proved after every straight-line program in max (min) mode for assignment-free expressions, with exact conditions for success, also for the interpreter.  Refuted for 0dN, after nested assignments and for the name stdout.  What max() and min() answer for every straight-line program, 0dN included, is C24_law; for every program whatever, C63_law."
  },
  {
   "property": "C24",
   "status": "partial",
   "theorems": [
    "PyDice.C24_partial",
    "PyDice.C24_values_partial",
    "PyDice.C24_interp_partial",
    "PyDice.C24_variable_free_partial",
    "PyDice.C24_counterexample",
    "PyDice.C24_law",
    "PyDice.C24_exact",
    "PyDice.C24_node_exact",
    "PyDice.C24_interp_law",
    "PyDice.C24_text_counterexample"
   ],
   "note": "Refuted: the minimum of a MAX (maximum of a MIN) whose operands share a variable (VAR x = d2; MAX(x, 3 - x)).  Proved when no such node occurs outside other operators; in particular without variables.  The answer of every straight-line program (terms without dice included) and when there is one is given exactly (C24_law, C24_interp_law), with an exact criterion for being right (C24_exact, C24_node_exact).  The answers of every program whatever: C63_law."
  },
  {
   "property": "C25",
   "status": "partial",
   "theorems": [
    "PyDice.C25_partial",
    "PyDice.C25_weighted_partial",
    "PyDice.C25_interp_partial",
    "PyDice.C25_counterexample",
    "PyDice.C25_nested_partial",
    "PyDice.C25_nested_interp_partial",
    "PyDice.C25_text_counterexample",
    "PyDice.C25_nested_counterexample"
   ],
   "note": "Proved for every straight-line program and expression, in states reached by the distribution or max/min methods.  With assignments inside expressions the distribution is that of the hoisted program (C25_nested_partial), in which the assigned value and the variable are independent: refuted by (VAR x = d6) - x.  Also refuted for the name stdout.  What is reported for every program whatever, with terms without dice, nested assignments and stdout, is C62."
  },
  {
   "property": "C26",
   "status": "partial",
   "theorems": [
    "PyDice.C26_law",
    "PyDice.C26_partial",
    "PyDice.C26_interp_partial",
    "PyDice.C26_counterexample",
    "PyDice.C26_reported",
    "PyDice.C26_exact",
    "PyDice.C26_no_dice",
    "PyDice.C26_reported_any",
    "PyDice.C26_nested_law",
    "PyDice.C26_text_counterexample"
   ],
   "note": "Refuted: the number of ways to a line's value enters once per use (VAR a = 2d2; a + a).  The exact counts are proved for every straight-line program (C26_law, C26_reported; with terms without dice C26_reported_any), with an exact criterion for when the property holds (C26_exact), and the property when every line is used at most once or has equally likely values."
  },
  {
   "property": "C27",
   "status": "proved",
   "theorems": [
    "PyDice.C27_set_var",
    "PyDice.C27_assignment"
   ],
   "note": "Every state reachable by any calls of any methods, any expression including nested assignments; the result maps are equal as lists."
  },
  {
   "property": "C28",
   "status": "proved",
   "theorems": [
    "PyDice.C28_injective",
    "PyDice.C28_tags_distinct",
    "PyDice.C28_fresh",
    "PyDice.C28_independent"
   ],
   "note": "Distinctness over arbitrary histories; freshness with respect to every constraint in every stored distribution of a reachable state; independence for a new value computed without variables."
  },
  {
   "property": "C29",
   "status": "proved",
   "theorems": [
    "PyDice.C29_constant",
    "PyDice.C29_var",
    "PyDice.C29_var_untouched",
    "PyDice.C29_has",
    "PyDice.C29_separate",
    "PyDice.C29_counter"
   ],
   "note": ""
  },
  {
   "property": "C30",
   "status": "proved",
   "theorems": [
    "PyDice.C30_roll",
    "PyDice.C30_extreme",
    "PyDice.C30_every_run",
    "PyDice.C30_empty",
    "PyDice.C30_figures"
   ],
   "note": "For every parser function, every possible sequence of draws; also the converse (every run is reported)."
  },
  {
   "property": "C31",
   "status": "proved",
   "theorems": [
    "PyDice.C31_roll",
    "PyDice.C31_extreme",
    "PyDice.C31_dists",
    "PyDice.C31_dictForms_averages",
    "PyDice.C31_histogram",
    "PyDice.C31_cost"
   ],
   "note": "All modes; equality of the computations, so same draws, same results, same states, same exceptions."
  },
  {
   "property": "C32",
   "status": "partial",
   "theorems": [
    "PyDice.C32_roll",
    "PyDice.C32_dists",
    "PyDice.C32_dists_alike",
    "PyDice.C32_histogram",
    "PyDice.C32_cost",
    "PyDice.C32_extreme_partial",
    "PyDice.C32_extreme_session_partial",
    "PyDice.C32_extreme_counterexample",
    "PyDice.C32_text_counterexample"
   ],
   "note": "Proved for roll, the distribution methods, histograms and cost.  Refuted for max/min (VAR x = e sets the constant before the distribution can raise); exact description and a sufficient condition proved."
  },
  {
   "property": "C33",
   "status": "partial",
   "theorems": [
    "PyDice.C33_dists",
    "PyDice.C33_content",
    "PyDice.C33_alias_partial",
    "PyDice.C33_counterexample",
    "PyDice.C33_text_counterexample"
   ],
   "note": "Proved for the distribution methods; refuted for roll/max/min, which return the state's own dict."
  },
  {
   "property": "C34",
   "status": "proved",
   "theorems": [
    "PyDice.C34_keeps_distributions",
    "PyDice.C34_call_keeps_distributions",
    "PyDice.C34_reference",
    "PyDice.C34_leaves",
    "PyDice.C34_sum",
    "PyDice.C34_nonneg",
    "PyDice.C34_leftover_counterexample",
    "PyDice.C34_not",
    "PyDice.C34_not_monotone",
    "PyDice.C34_not_counterexample",
    "PyDice.C34_text_counterexample"
   ],
   "note": "floor(1.1 * cost) is computed in doubles as the code does (exact up to 511772684928468, off by one from there on). Non-negativity from any state without negative constants; a leftover negative constant refutes it otherwise."
  },
  {
   "property": "C35",
   "status": "proved",
   "theorems": [
    "PyDice.C35_dist",
    "PyDice.C35_max_min",
    "PyDice.C35_cost",
    "PyDice.C35_roll",
    "PyDice.C35_contained"
   ],
   "note": "No assignment inside, as stated."
  },
  {
   "property": "C36",
   "status": "proved",
   "theorems": [
    "PyDice.C36_tokens",
    "PyDice.C36_lossless",
    "PyDice.C36_slice",
    "PyDice.C36_deterministic",
    "PyDice.C36_error",
    "PyDice.C36_total"
   ],
   "note": "The list of tokens of every text."
  },
  {
   "property": "C37",
   "status": "proved",
   "theorems": [
    "PyDice.C37_message",
    "PyDice.C37_value_error"
   ],
   "note": "Line and column of the first offending character."
  },
  {
   "property": "C38",
   "status": "proved",
   "theorems": [
    "PyDice.C38_accepts",
    "PyDice.C38_lookahead",
    "PyDice.C38_unique",
    "PyDice.C38_rejects",
    "PyDice.C38_text",
    "PyDice.C38_text_rejects",
    "PyDice.C38_two_operators",
    "PyDice.C38_not_extends",
    "PyDice.C38_assign_extends"
   ],
   "note": "rply's table construction (LR(0) sets, precedences, default reductions) and driver are modelled; the table is computed from the grammar, not written down."
  },
  {
   "property": "C39",
   "status": "proved",
   "theorems": [
    "PyDice.C39_parentheses",
    "PyDice.C39_strip_dist",
    "PyDice.C39_strip_max_min",
    "PyDice.C39_strip_roll_cost",
    "PyDice.C39_strip_contained"
   ],
   "note": "Also for all parentheses of a tree at once."
  },
  {
   "property": "C40",
   "status": "proved",
   "theorems": [
    "PyDice.C40_print_parse",
    "PyDice.C40_print_injective",
    "PyDice.C40_parts",
    "PyDice.C40_every_part"
   ],
   "note": "Also injectivity of printing on parsed expressions."
  },
  {
   "property": "C41",
   "status": "partial",
   "theorems": [
    "PyDice.C41_histograms",
    "PyDice.C41_compare_partial",
    "PyDice.C41_compare_counterexample",
    "PyDice.C41_line_plots"
   ],
   "note": "First half proved.  get_compare_histogram refuted: outcomes in both ranges are handed to the plot twice; the data is listed exactly once iff the ranges are disjoint."
  },
  {
   "property": "C42",
   "status": "proved",
   "theorems": [
    "PyDice.C42_one_choice",
    "PyDice.C42_choices_law"
   ],
   "note": ""
  },
  {
   "property": "C43",
   "status": "proved",
   "theorems": [
    "PyDice.C43_parsed",
    "PyDice.C43_dist",
    "PyDice.C43_extreme",
    "PyDice.C43_roll",
    "PyDice.C43_cost",
    "PyDice.C43_dist_total",
    "PyDice.C43_roll_total",
    "PyDice.C43_cost_total",
    "PyDice.C43_needs",
    "PyDice.C43_dists",
    "PyDice.C43_histogram",
    "PyDice.C43_extremes",
    "PyDice.C43_rolls",
    "PyDice.C43_costs",
    "PyDice.C43_dictForms_averages",
    "PyDice.C43_classes"
   ],
   "note": "The cause given for ValueError from max/min of an expression that reads variables is coarse: only that it reads some."
  },
  {
   "property": "C44",
   "status": "partial",
   "theorems": [
    "PyDice.C44_rounding",
    "PyDice.C44_dict_form",
    "PyDice.C44_dict_form_order",
    "PyDice.C44_dict_form_sum",
    "PyDice.C44_average",
    "PyDice.C44_error",
    "PyDice.C44_at_least_partial",
    "PyDice.C44_at_most_partial",
    "PyDice.C44_methods",
    "PyDice.C44_tails_counterexample"
   ],
   "note": "Double arithmetic (round to nearest even, gradual underflow, overflow) is modelled exactly.  Proved for get_dict_form and average and the interpreter methods; the bounds of at_least/at_most are refuted (at_most(9) of d9 is above 1, at_most(6) of d6 below 1, at_least(10) of d[1-9*100000000000000000000,10] negative); range, monotonicity and error bounds proved."
  },
  {
   "property": "C45",
   "status": "proved",
   "theorems": [
    "PyDice.C45_tokens",
    "PyDice.C45_positions",
    "PyDice.C45_layout",
    "PyDice.C45_around",
    "PyDice.C45_brackets",
    "PyDice.C45_compose",
    "PyDice.C45_methods",
    "PyDice.C45_counterexample"
   ],
   "note": "Leaving whitespace out is not always possible (2d6-1, 1AND2): C45_counterexample."
  },
  {
   "property": "C46",
   "status": "proved",
   "theorems": [
    "PyDice.C46_expression",
    "PyDice.C46_program",
    "PyDice.C46_raises",
    "PyDice.C46_shared",
    "PyDice.C46_order_counterexample"
   ],
   "note": "The order is the one the code has: a plain left-to-right law, or one that agrees with the distributions, is false for a divisor that reads what the dividend assigns (C46_order_counterexample), and the statement excepts it.  Dice terms without dice or without positive weights are excluded."
  },
  {
   "property": "C47",
   "status": "proved",
   "theorems": [
    "PyDice.C47_choices",
    "PyDice.C47_face",
    "PyDice.C47_support",
    "PyDice.C47_program",
    "PyDice.C47_possible",
    "PyDice.C47_law",
    "PyDice.C47_steps",
    "PyDice.C47_exact_counterexample"
   ],
   "note": "Every draw below n of the roll model is replaced by floor(random() * n) in doubles (Rand.floats); C47_choices proves that random.choices in doubles is this, C47_steps that the replacement commutes with sequencing.  C47_exact_counterexample: the chances are not exact.  That random() is uniform and independent is assumed."
  },
  {
   "property": "C48",
   "status": "proved",
   "theorems": [
    "PyDice.C48_merge",
    "PyDice.C48_combine",
    "PyDice.C48_operators",
    "PyDice.C48_assign",
    "PyDice.C48_distributions",
    "PyDice.C48_extremes",
    "PyDice.C48_histograms",
    "PyDice.C48_session"
   ],
   "note": "Heap.lean models the mutable objects (sets, ConstraintSet, dicts of outcomes) with addresses; every method is proved to simulate the value model and to leave old objects alone.  Caller code that itself changes the returned dicts, and the live dict of constants returned by roll, max and min (C33), are outside this statement."
  },
  {
   "property": "C49",
   "status": "proved",
   "theorems": [
    "PyDice.C49_numbers",
    "PyDice.C49_tokens",
    "PyDice.C49_methods"
   ],
   "note": "Names cannot contain digits, so variables are the same too.  The printed form of an expression keeps the digits it was written with."
  },
  {
   "property": "C50",
   "status": "proved",
   "theorems": [
    "PyDice.C50_count",
    "PyDice.C50_law",
    "PyDice.C50_defined",
    "PyDice.C50_laws",
    "PyDice.C50_roll_counterexample",
    "PyDice.C50_twice_counterexample"
   ],
   "note": "Laws of distributions, not of roll (`C50_roll_counterexample`), and only for formulas that use every sub-expression once (`C50_twice_counterexample`)."
  },
  {
   "property": "C51",
   "status": "proved",
   "theorems": [
    "PyDice.C51_order",
    "PyDice.C51_seen"
   ],
   "note": "Exact equality of all answers, dict order and floats included. `str(distribution)` is not an answer: it prints constraint listings in set order."
  },
  {
   "property": "C52",
   "status": "proved",
   "theorems": [
    "PyDice.C52_rename",
    "PyDice.C52_stdout_counterexample"
   ],
   "note": "Stated for the parsed lines: `\u03c4` may be any rewriting of the texts that renames the parsed expressions; an example checks it for the default parser. `stdout` must keep its name (`C52_stdout_counterexample`)."
  },
  {
   "property": "C53",
   "status": "proved",
   "theorems": [
    "PyDice.C53_constraint",
    "PyDice.C53_outcome",
    "PyDice.C53_outcome_iff",
    "PyDice.C53_key",
    "PyDice.C53_hash_order",
    "PyDice.C53_hash_values",
    "PyDice.C53_print",
    "PyDice.C53_session",
    "PyDice.C53_parsed",
    "PyDice.C53_stored",
    "PyDice.C53_closed",
    "PyDice.C53_comma_counterexample",
    "PyDice.C53_order_counterexample"
   ],
   "note": "`==`, `hash` and printed forms as the code has them (`Verif/Repr.lean`) coincide with the equality the rest of the model uses in every typed session. Names with commas break it (`C53_comma_counterexample`); no program text has them."
  },
  {
   "property": "C54",
   "status": "proved",
   "theorems": [
    "PyDice.C54_dist",
    "PyDice.C54_dist_raises",
    "PyDice.C54_extreme",
    "PyDice.C54_roll",
    "PyDice.C54_call_dists",
    "PyDice.C54_call_histogram",
    "PyDice.C54_call_extreme",
    "PyDice.C54_call_roll",
    "PyDice.C54_twice_counterexample"
   ],
   "note": "Expressions and calls; distributions, histograms, max/min and the law of rolls. A part used twice: `C54_twice_counterexample` (disagreement 1)."
  },
  {
   "property": "C55",
   "status": "proved",
   "theorems": [
    "PyDice.C55_session",
    "PyDice.C55_dead_line",
    "PyDice.C55_swap",
    "PyDice.C55_isolation",
    "PyDice.C55_figures_counterexample"
   ],
   "note": "All methods (the cost only in C55_session and C55_isolation). The figures of a variable nobody mentions can make get_average raise: `C55_figures_counterexample` (disagreement 20), so their existence is a hypothesis where averages or probabilities are asked for."
  },
  {
   "property": "C56",
   "status": "partial",
   "theorems": [
    "PyDice.C56_histogram_partial",
    "PyDice.C56_tails_partial",
    "PyDice.C56_line",
    "PyDice.C56_compare_partial",
    "PyDice.C56_line_plots",
    "PyDice.C56_interpreter",
    "PyDice.C56_compare_counterexample",
    "PyDice.C56_large_counterexample"
   ],
   "note": "Proved for outcomes below 2**52 except the comparing histogram; line plots without restriction. Refuted from 2**52 on (the bin edges round, C56_large_counterexample) and for the comparing histogram (the bar over an integer in both ranges is twice as high as the difference, bars at a gap between the ranges are too wide); its exact picture is proved."
  },
  {
   "property": "C57",
   "status": "proved",
   "theorems": [
    "PyDice.C57_split",
    "PyDice.C57_keep_max",
    "PyDice.C57_drop_min",
    "PyDice.C57_average",
    "PyDice.C57_average_ordinary",
    "PyDice.C57_keep_plus_drop",
    "PyDice.C57_mirror_dice",
    "PyDice.C57_mirror_keep_drop",
    "PyDice.C57_more_dice_keep",
    "PyDice.C57_more_dice_drop",
    "PyDice.C57_keep_beats_drop",
    "PyDice.C57_keep_more"
   ],
   "note": "For at least one die in every group and positive total weight; 0dS is excluded because its distribution is that of dS (C12_zero_dice_counterexample). Exact rational averages and probabilities."
  },
  {
   "property": "C58",
   "status": "proved",
   "theorems": [
    "PyDice.C58_counts",
    "PyDice.C58_product"
   ],
   "note": "Sources are followed line by line from any reachable state; variables that exist there count as having a common source. Lines and operands contain no nested assignments. Generalises C28_independent."
  },
  {
   "property": "C59",
   "status": "proved",
   "theorems": [
    "PyDice.C59_arithmetic",
    "PyDice.C59_max_min",
    "PyDice.C59_comparisons",
    "PyDice.C59_constants",
    "PyDice.C59_not_abs",
    "PyDice.C59_reuse_counterexample"
   ],
   "note": "Exact rational averages. C59_reuse_counterexample shows that the hypothesis about common dice is needed (the defect of C26)."
  },
  {
   "property": "C60",
   "status": "proved",
   "theorems": [
    "PyDice.C60_same",
    "PyDice.C60_same_text",
    "PyDice.C60_unexpected",
    "PyDice.C60_unfinished",
    "PyDice.C60_unreadable",
    "PyDice.C60_complete",
    "PyDice.C60_message",
    "PyDice.C60_types",
    "PyDice.C60_position"
   ],
   "note": "The text of the ValueError for an unreadable die is not modelled. How rply counts lines and columns and prints a SourcePosition is an assumption (DESIGN, section 5)."
  },
  {
   "property": "C61",
   "status": "proved",
   "theorems": [
    "PyDice.C61_text_names",
    "PyDice.C61_same",
    "PyDice.C61_same_interp",
    "PyDice.C61_dist",
    "PyDice.C61_extreme",
    "PyDice.C61_cost",
    "PyDice.C61_roll",
    "PyDice.C61_nothing_missing",
    "PyDice.C61_dist_exact",
    "PyDice.C61_dists",
    "PyDice.C61_dists_exact",
    "PyDice.C61_histogram",
    "PyDice.C61_extremes",
    "PyDice.C61_costs",
    "PyDice.C61_rolls",
    "PyDice.C61_divisor",
    "PyDice.C61_dists_own",
    "PyDice.C61_divisor_exact"
   ],
   "note": "The first argument of the exception (str of a KeyError shows its repr). CPython's own texts (division by zero in CPython itself, max() of an empty sequence) are not modelled; a division below another operator is not named by max and min (example in Props/C61)."
  },
  {
   "property": "C62",
   "status": "proved",
   "theorems": [
    "PyDice.C62_defined",
    "PyDice.C62_names",
    "PyDice.C62_values",
    "PyDice.C62_reported",
    "PyDice.C62_exact",
    "PyDice.C62_text",
    "PyDice.C62_stdout_counterexample"
   ],
   "note": "Complete for get_probability_distributions: nested assignments, reassignments and stdout included; only dice without faces (d0) are excluded, and for the probabilities dice all of whose faces have weight zero.  C62_stdout_counterexample: stdout is rolled again at every reading (disagreement 23)."
  },
  {
   "property": "C63",
   "status": "proved",
   "theorems": [
    "PyDice.C63_law",
    "PyDice.C63_line",
    "PyDice.C63_settled",
    "PyDice.C63_text",
    "PyDice.C63_twice_counterexample",
    "PyDice.C63_divisor_counterexample"
   ],
   "note": "Complete for max and min of a new interpreter; only dice without faces (d0) are excluded.  C63_twice_counterexample, C63_divisor_counterexample: assignments inside an assignment or a divisor are executed twice (disagreement 24)."
  },
  {
   "property": "C64",
   "status": "proved",
   "theorems": [
    "PyDice.C64_outcomes",
    "PyDice.C64_dists",
    "PyDice.C64_refused",
    "PyDice.C64_only_alike",
    "PyDice.C64_outcome_method",
    "PyDice.C64_dist_method",
    "PyDice.C64_unary",
    "PyDice.C64_text_tells",
    "PyDice.C64_dist_text_tells",
    "PyDice.C64_mirrored",
    "PyDice.C64_unreflected"
   ],
   "note": "Objects of other classes are opaque: their operators are assumed not to know the library's classes.  C64_mirrored: a comparison with a foreign left operand is refused under the mirrored name."
  },
  {
   "property": "C65",
   "status": "partial",
   "theorems": [
    "PyDice.C65_made",
    "PyDice.C65_counted_partial",
    "PyDice.C65_result_map",
    "PyDice.C65_value",
    "PyDice.C65_int_partial",
    "PyDice.C65_bool_counterexample",
    "PyDice.C65_ignored_counterexample"
   ],
   "note": "Refuted: True is accepted and kept although the exception's text says bools are not (C65_bool_counterexample); entries with keys of other classes are silently dropped (C65_ignored_counterexample).  Proved for ints and outcomes; C65_made says what is made in general."
  },
  {
   "property": "C66",
   "status": "partial",
   "theorems": [
    "PyDice.C66_same_class_partial",
    "PyDice.C66_raises",
    "PyDice.C66_text_counterexample",
    "PyDice.C66_dist_counterexample",
    "PyDice.C66_order_counterexample",
    "PyDice.C66_number_counterexample"
   ],
   "note": "Refuted: a constraint equals any text that reads as it prints, two equal distributions are different, comparing an outcome with anything else raises, and whether it raises depends on the order.  Proved within one class; C66_raises says exactly when == raises."
  },
  {
   "property": "C67",
   "status": "proved",
   "theorems": [
    "PyDice.C67_merge",
    "PyDice.C67_dead",
    "PyDice.C67_typed",
    "PyDice.C67_empty_set",
    "PyDice.C67_unseen"
   ],
   "note": "With the texts."
  },
  {
   "property": "C68",
   "status": "proved",
   "theorems": [
    "PyDice.C68_same",
    "PyDice.C68_pairs",
    "PyDice.C68_operands",
    "PyDice.C68_others",
    "PyDice.C68_one_more_die",
    "PyDice.C68_values",
    "PyDice.C68_dice",
    "PyDice.C68_dice_text",
    "PyDice.C68_keys",
    "PyDice.C68_key_table"
   ],
   "note": "Work.lean counts the passes of the nested loops; C68_same: forgetting the count gives the modelled method.  Loops over a single table are not counted."
  },
  {
   "property": "C69",
   "status": "partial",
   "theorems": [
    "PyDice.C69_bill_partial",
    "PyDice.C69_cost_partial",
    "PyDice.C69_entries_counterexample",
    "PyDice.C69_passes_counterexample",
    "PyDice.C69_no_dice_counterexample"
   ],
   "note": "Refuted: 1d[0,1] + 1d[0,2] + 1d[0,4] + ... doubles its entries for 2 each; keep terms pass their loops more often than any polynomial of the cost; 0dS costs 0.  Proved with the bound 2 cost^2 for sums, differences, comparisons, logic, MAX, MIN and ABS of constants and dice without gaps."
  },
  {
   "property": "C70",
   "status": "proved",
   "theorems": [
    "PyDice.C70_better",
    "PyDice.C70_directions",
    "PyDice.C70_no_variables",
    "PyDice.C70_shared_counterexample"
   ],
   "note": "For parts whose dice were thrown apart; C70_shared_counterexample: after VAR x = d2, x + x is not as good as x + (3 - x), although x is as good as 3 - x."
  },
  {
   "property": "C71",
   "status": "proved",
   "theorems": [
    "PyDice.C71_middle",
    "PyDice.C71_peak",
    "PyDice.C71_ordinary",
    "PyDice.C71_gap_counterexample"
   ],
   "note": "C71_gap_counterexample: with gaps between the faces the middle may be impossible.  Faces of equal weight other than one are not covered."
  },
  {
   "property": "C72",
   "status": "proved",
   "theorems": [
    "PyDice.C72_ParenthesisEnclosedExpression",
    "PyDice.C72_NotExpression",
    "PyDice.C72_AbsExpression",
    "PyDice.C72_AddExpression",
    "PyDice.C72_SubtractExpression",
    "PyDice.C72_MultiplyExpression",
    "PyDice.C72_IntegerDivisionExpression",
    "PyDice.C72_BinaryOperatorExpression",
    "PyDice.C72_MinMaxExpression",
    "PyDice.C72_ConstantIntegerExpression",
    "PyDice.C72_ConstantBinaryExpression",
    "PyDice.C72_VarAssignmentExpression",
    "PyDice.C72_GetVarExpression",
    "PyDice.C72_operator_maps"
   ],
   "note": "The bodies are syntax trees written by tools/source.py from the source text and run by the evaluator of Verif/Source/Semantics.lean; methods of operands and of other classes are the model's (Verif/Source/World.lean), so the statement is about one class at a time.  The cost of ! is stated for double precision."
  },
  {
   "property": "C73",
   "status": "proved",
   "theorems": [
    "PyDice.C73_find_range",
    "PyDice.C73_get_single_dice_outcome_map",
    "PyDice.C73_DiceExpression_init",
    "PyDice.C73_DiceExpression",
    "PyDice.C73_string_key_to_list",
    "PyDice.C73_int_list_to_string",
    "PyDice.C73_update_key_list",
    "PyDice.C73_build_dice_dict",
    "PyDice.C73_compute_iterations",
    "PyDice.C73_collapse_outcomes",
    "PyDice.C73_DropKeepExpression_init",
    "PyDice.C73_DropKeepExpression",
    "PyDice.C73_dice_token",
    "PyDice.C73_drop_keep_token"
   ],
   "note": "As C72; the constructors are run with the methods they call (BuildsBy).  The loops are handled by induction over the lists they run through.  The methods of DropKeepExpression are stated for objects the constructor makes.  The constructors ask for texts without a leading minus sign; C73_dice_token and C73_drop_keep_token show that every token of the lexer is such."
  },
  {
   "property": "C74",
   "status": "proved",
   "theorems": [
    "PyDice.C74_ProbabilityOutcome_init",
    "PyDice.C74_combine",
    "PyDice.C74_combine_foreign",
    "PyDice.C74_ProbabilityOutcome_operators",
    "PyDice.C74_ProbabilityOutcome",
    "PyDice.C74_functions",
    "PyDice.C74_combine_distributions",
    "PyDice.C74_get_result_map",
    "PyDice.C74_not_operator",
    "PyDice.C74_abs",
    "PyDice.C74_ProbabilityDistribution_init",
    "PyDice.C74_ProbabilityDistribution_init_int",
    "PyDice.C74_ProbabilityDistribution_init_none",
    "PyDice.C74_ProbabilityDistribution_operators",
    "PyDice.C74_ProbabilityDistribution_foreign",
    "PyDice.C74_ProbabilityDistribution",
    "PyDice.C74_factories",
    "PyDice.C74_create"
   ],
   "note": "As C72 and C73, for outcomes and distributions.  The methods that make floats are in C77; the plots are in C78, __hash__ and the printed form of a distribution in C80."
  },
  {
   "property": "C75",
   "status": "proved",
   "theorems": [
    "PyDice.C75_NullConstraint",
    "PyDice.C75_ImpossibleConstraint",
    "PyDice.C75_VarValueConstraint",
    "PyDice.C75_ConstraintFactory",
    "PyDice.C75_merge_new_constraint",
    "PyDice.C75_merge_new_constraints",
    "PyDice.C75_ConstraintMerger",
    "PyDice.C75_ConstraintSet",
    "PyDice.C75_ConstraintSet_init",
    "PyDice.C75_add_constraint",
    "PyDice.C75_ConstraintSetFactory",
    "PyDice.C75_state_read",
    "PyDice.C75_set_constant",
    "PyDice.C75_set_var",
    "PyDice.C75_state_init",
    "PyDice.C75_state_factory"
   ],
   "note": "As C72 to C74, for constraints, constraint sets, the merger and the state.  The while loop of the merger runs at most fu times in the embedding; the theorem asks for fu of at least twice the new plus the old constraints.  __hash__ is in C80."
  },
  {
   "property": "C76",
   "status": "proved",
   "theorems": [
    "PyDice.C76_parse",
    "PyDice.C76_init",
    "PyDice.C76_init_default",
    "PyDice.C76_roll",
    "PyDice.C76_max",
    "PyDice.C76_min",
    "PyDice.C76_dists",
    "PyDice.C76_dict_forms",
    "PyDice.C76_averages",
    "PyDice.C76_histograms",
    "PyDice.C76_cost",
    "PyDice.C76_figures"
   ],
   "note": "As C72 to C75, for the interpreter and parse.  The parser object is any function from lines to expressions; the images of the histogram methods are named by method and distribution.  The distribution methods ask for distinct keys in the lists that model the dicts of the state, which every reachable state has."
  },
  {
   "property": "C77",
   "status": "proved",
   "theorems": [
    "PyDice.C77_dict_form",
    "PyDice.C77_average",
    "PyDice.C77_histogram_form",
    "PyDice.C77_histogram_numbers",
    "PyDice.C77_at_least",
    "PyDice.C77_at_most",
    "PyDice.C77_exact",
    "PyDice.C77_floats"
   ],
   "note": "As C74, for the methods that divide.  The theorems hold for any rounding that leaves 0 and 1 alone; C77_exact and C77_floats are the two instances the models use."
  },
  {
   "property": "C78",
   "status": "proved",
   "theorems": [
    "PyDice.C78_make_line_plot",
    "PyDice.C78_make_histogram",
    "PyDice.C78_histogram",
    "PyDice.C78_at_least_histogram",
    "PyDice.C78_at_most_histogram",
    "PyDice.C78_compare",
    "PyDice.C78_compare_at_least",
    "PyDice.C78_compare_at_most",
    "PyDice.C78_compare_histogram",
    "PyDice.C78_numbers"
   ],
   "note": "As C72, for the methods that draw.  The libraries are not modelled: their calls are written down with their arguments and never raise.  C78_numbers relates the numbers to the model of plots in doubles."
  },
  {
   "property": "C79",
   "status": "proved",
   "theorems": [
    "PyDice.C79_syntax_objects",
    "PyDice.C79_lexer_init",
    "PyDice.C79_parser_init",
    "PyDice.C79_productions",
    "PyDice.C79_regexes",
    "PyDice.C79_rules",
    "PyDice.C79_lex",
    "PyDice.C79_error_handler"
   ],
   "note": "The calls of rply are written down with their arguments and never raise; what rply makes of them is the model of C38 and the lexer of the model.  In lex, rply's lexer is the model's; the while loop runs at most fu times in the embedding, and the theorem asks for fu of at least the number of lines.  Imports and class statements are not run: the names of the classes are bound to them."
  },
  {
   "property": "C80",
   "status": "proved",
   "theorems": [
    "PyDice.C80_constraint_set_hash",
    "PyDice.C80_outcome_hash",
    "PyDice.C80_null_hash",
    "PyDice.C80_impossible_hash",
    "PyDice.C80_var_hash",
    "PyDice.C80_merger_prints",
    "PyDice.C80_outcome_repr",
    "PyDice.C80_distribution_prints"
   ],
   "note": "As C72, for the methods that hash and print.  xor of two hashes is taken on 64 bits; \u22121 becomes \u22122 as in hash."
  },
  {
   "property": "C81",
   "status": "proved",
   "theorems": [
    "PyDice.C81_distribution",
    "PyDice.C81_outcome",
    "PyDice.C81_outcome_eq",
    "PyDice.C81_outcome_init",
    "PyDice.C81_merge",
    "PyDice.C81_constraint_set",
    "PyDice.C81_state",
    "PyDice.C81_division",
    "PyDice.C81_all"
   ],
   "note": "The raise statements of a body are collected and their arguments evaluated apart from the run of the body; where a body raises, and with which class, is C72 to C76.  Of the second exception of merge, which no object of the library reaches, only the text is stated."
  },
  {
   "property": "C82",
   "status": "proved",
   "theorems": [
    "PyDice.C82_outcome_factory",
    "PyDice.C82_distribution_factory",
    "PyDice.C82_constraint_set_factory",
    "PyDice.C82_state_factory",
    "PyDice.C82_interpreter"
   ],
   "note": "Only the fields the constructors leave behind; what the methods do with a collaborator of another class is not modelled.  The interpreter without a parser or without a state is C76_init_default."
  },
  {
   "property": "C83",
   "status": "partial",
   "theorems": [
    "PyDice.C83_small_counterexample",
    "PyDice.C83_large_counterexample",
    "PyDice.C83_neighbours_counterexample",
    "PyDice.C83_collisions_partial",
    "PyDice.C83_distinct_partial"
   ],
   "note": "Refuted: -1 and -2 always have the same hash, as do n and n + k(2^61 - 1); 0 and 1 have the same hash under some hash of strings.  Proved for values below 2^61 - 1 in absolute value: only an even value and its successor can meet.  CPython's hash of ints is taken from its documentation."
  }
 ]
}