{"id": "C01", "title": "Constraint merging terminates in a normal form", "statement": "ConstraintMerger.merge_constraints / merge_new_constraints (and ConstraintSet.add_constraint / combine_sets built on them) always return, and the returned set never contains two constraints that could still be merged: it is a lone null constraint, a lone impossible constraint, or variable constraints with pairwise different variable names.", "quantifier": "every finite collection of constraints, every already-merged starting set, every iteration order a Python set may choose", "why_tests_cant": "the while loop re-queues merged constraints and iterates over hash-ordered sets; tests see one hash seed and a handful of constraint collections", "anchors": ["python_dice/src/constraint/constraint_merger.py: ConstraintMerger", "python_dice/src/constraint/constraint_set.py: ConstraintSet.add_constraint, combine_sets"]}
{"id": "C02", "title": "Constraint merging preserves meaning", "statement": "An assignment of values to variables satisfies the merged set exactly when it satisfies every constraint that was put in (the null constraint is satisfied by all assignments, the impossible one by none).  Consequently is_possible() is False only if no assignment satisfies the inputs, and for a set that is_possible(), complies(values) answers exactly as the conjunction of the inputs' complies(values).", "quantifier": "every collection of constraints, every assignment, every iteration order", "why_tests_cant": "ranges over all value sets and assignments and over set iteration orders", "anchors": ["python_dice/src/constraint/constraint_merger.py: ConstraintMerger.__merge_new_constraints", "python_dice/src/constraint/constraint_set.py: ConstraintSet.is_possible, complies", "python_dice/src/constraint/var_value_constraint.py: VarValueConstraint.merge"]}
{"id": "C03", "title": "Merging does not depend on hash or insertion order", "statement": "Adding the same constraints in any order, under any two iteration-order policies of Python's sets (any PYTHONHASHSEED), produces constraint sets with the same elements.", "quantifier": "every list of constraints, every permutation of it, every pair of set implementations", "why_tests_cant": "hash randomisation makes the iteration order differ from run to run; a test run fixes one order", "anchors": ["python_dice/src/constraint/constraint_merger.py: ConstraintMerger.__merge_new_constraint", "python_dice/src/constraint/constraint_set.py: ConstraintSet.__init__"]}
{"id": "C04", "title": "combine_sets is a meet operation", "statement": "combine_sets is commutative, associative and idempotent up to set equality, the set built from the null constraint is its unit, and a set that is not possible stays not possible when combined with anything.", "quantifier": "every pair/triple of constraint sets reachable through the API, every iteration order", "why_tests_cant": "algebraic law over unbounded sets of variables", "anchors": ["python_dice/src/constraint/constraint_set.py: ConstraintSet.combine_sets"]}
{"id": "C05", "title": "Binary distribution operators are exact convolutions", "statement": "For distributions not tied to any variable, and each of + - * // == != < <= > >= & | max_operator min_operator, get_result_map() of the combined distribution maps every value v to the sum of count_a(x)*count_b(y) over all pairs with op(x,y)=v (floor division when no divisor is zero), and contains v exactly when some pair produces it.", "quantifier": "every pair of result maps (any size, any integer values, any counts), every operator, every v", "why_tests_cant": "universally quantified over all distributions; tests check small tables", "anchors": ["python_dice/src/probability_distribution/probability_distribution.py: _combine_distributions, __add__ ... min_operator", "python_dice/src/probability_distribution/probability_outcome.py: _combine"]}
{"id": "C06", "title": "Unary distribution operators are exact push-forwards", "statement": "not_operator() and abs() move every outcome's count to 0/1 (1 iff the value is not above zero) resp. to the absolute value: the new count of v is the sum of the old counts of all values mapped to v, and the total count is unchanged.", "quantifier": "every distribution, every v", "why_tests_cant": "all distributions, including ones whose outcomes collide after mapping", "anchors": ["python_dice/src/probability_distribution/probability_distribution.py: not_operator, __abs__"]}
{"id": "C07", "title": "Correlation: combination is exact conditionally on the variables", "statement": "Fix any assignment of values to variables and look only at outcomes whose constraints agree with it.  Then the count of v in the combination of two distributions is the sum over op(x,y)=v of the two counts agreeing with the same assignment.  Outcomes that contradict each other never appear in the result.", "quantifier": "every pair of distributions over any variables, every assignment, every operator, every iteration order", "why_tests_cant": "quantifies over all joint assignments and all distributions", "anchors": ["python_dice/src/probability_distribution/probability_distribution.py: _combine_distributions", "python_dice/src/probability_distribution/probability_outcome.py: is_possible, _combine", "python_dice/src/constraint/constraint_set.py: combine_sets"]}
{"id": "C08", "title": "get_dict_form is a probability distribution", "statement": "For every distribution with positive total count, get_dict_form() has the same keys as get_result_map(), each entry is count/total, all entries are between 0 and 1 and they sum to exactly 1 (over exact rationals); with total 0 and at least one outcome it raises ZeroDivisionError.", "quantifier": "every distribution", "why_tests_cant": "arithmetical law for every table of counts", "anchors": ["python_dice/src/probability_distribution/probability_distribution.py: get_dict_form, get_result_map, __init__"]}
{"id": "C09", "title": "Distribution max, min, contains_zero and average", "statement": "max()/min() return an attained value that bounds all attained values, contains_zero() is true exactly when 0 is among the outcomes, average() is the count-weighted mean and lies between min and max; for independent distributions average(a+b)=average(a)+average(b) and average(a-b)=average(a)-average(b).", "quantifier": "every non-empty distribution / pair of distributions", "why_tests_cant": "all tables of counts", "anchors": ["python_dice/src/probability_distribution/probability_distribution.py: max, min, contains_zero, average"]}
{"id": "C10", "title": "at_least / at_most are the exact tail functions", "statement": "at_least() and at_most() have exactly the integers from min() to max() as keys (gaps included); at_least()[v]=P(X>=v) and at_most()[v]=P(X<=v), at_least()[min]=1, at_most()[max]=1, both are monotone.", "quantifier": "every distribution with positive total, every integer v between min and max", "why_tests_cant": "running sums over arbitrary tables with arbitrary gaps", "anchors": ["python_dice/src/probability_distribution/probability_distribution.py: at_least, at_most, _get_histogram_form"]}
{"id": "C11", "title": "Integer division: floors, and fails exactly when a divisor can be zero", "statement": "a // b on distributions raises ZeroDivisionError exactly when a is non-empty and 0 is an outcome of b; otherwise every outcome is the floor (towards minus infinity) of the quotient.  IntegerDivisionExpression.max/min raise it exactly when the divisor's distribution contains zero, roll exactly when the rolled divisor is zero.", "quantifier": "every pair of distributions, every signed pair of values", "why_tests_cant": "all signs and sizes, all supports", "anchors": ["python_dice/src/probability_distribution/probability_distribution.py: __floordiv__", "python_dice/src/expression/integer_division_expression.py: IntegerDivisionExpression"]}
{"id": "C12", "title": "NdS counts every tuple of faces once", "statement": "For n>=1 dice with any face table, the distribution's count of v is the weighted number of n-tuples of faces with sum v, and the total is (sum of weights)^n.", "quantifier": "every face table, every n>=1, every v", "why_tests_cant": "n-fold convolution for unbounded n", "anchors": ["python_dice/src/expression/dice_expression.py: DiceExpression.get_probability_distribution"]}
{"id": "C13", "title": "Dice max/min are the true extremes", "statement": "DiceExpression.max()/min() equal the largest/smallest outcome of its own probability distribution (n>=1, at least one face), and every roll lies between them.", "quantifier": "every face table, every n>=1, every sequence of random draws", "why_tests_cant": "all dice and all random sequences", "anchors": ["python_dice/src/expression/dice_expression.py: max, min, roll"]}
{"id": "C14", "title": "Dice notation denotes the documented face table", "statement": "S gives faces 1..S once each, % gives 1..100, F gives -1,0,1; in [..] an entry v adds one face v, a-b adds every integer between a and b inclusive whichever is larger, *m multiplies the weight by m; repeated faces accumulate, whitespace is ignored, and the order of entries does not change the weight of any face.", "quantifier": "every number of sides, every list of entries with any signs, widths and multipliers, any whitespace between entries", "why_tests_cant": "an infinite notation parsed with regexes and string splitting", "anchors": ["python_dice/src/expression/dice_expression_helper.py: get_single_dice_outcome_map, _find_range"]}
{"id": "C15", "title": "A trailing comma in a custom die is accepted", "statement": "d[1,2,] denotes the same die as d[1,2] (README: 'trailing comma allowed').", "quantifier": "every list of entries", "why_tests_cant": "statement about every list; only the token regex is tested", "anchors": ["python_dice/src/expression/dice_expression_helper.py: get_single_dice_outcome_map", "python_dice/src/syntax/dice_syntax_helper.py: _CUSTOM_TYPE", "README.md"]}
{"id": "C16", "title": "Keep/drop counts the tuples whose kept dice sum to v", "statement": "For 0<k<n, the distribution of keep-k is: count of v = weighted number of n-tuples of faces whose k highest sum to v; of drop-k: whose n-k lowest sum to v.", "quantifier": "every face table, every 0<k<n, every v", "why_tests_cant": "combinatorial identity proved by induction on the number of dice", "anchors": ["python_dice/src/expression/drop_keep_expression.py: DropKeepExpression.get_probability_distribution, _build_dice_dict, _compute_iterations, _collapse_outcomes"]}
{"id": "C17", "title": "Keep/drop boundary rules", "statement": "Keeping at least as many dice as rolled is the plain roll; dropping at least as many, or keeping zero, is always 0; dropping zero is the plain roll - identically for roll, max, min, cost and distribution.", "quantifier": "every n, k and face table on the boundary", "why_tests_cant": "all sizes", "anchors": ["python_dice/src/expression/drop_keep_expression.py: DropKeepExpression.__init__"]}
{"id": "C18", "title": "Keep/drop max/min are the true extremes and bound every roll", "statement": "DropKeepExpression.max()/min() equal the largest/smallest outcome of its distribution, and every roll lies between them.", "quantifier": "every face table, n>=1, k, every sequence of random draws", "why_tests_cant": "all dice and all random sequences", "anchors": ["python_dice/src/expression/drop_keep_expression.py: max, min, roll"]}
{"id": "C19", "title": "Keep/drop internal state encoding is lossless", "statement": "The textual keys used while computing keep/drop distributions decode to exactly the sorted list of faces they were made from, and two face lists get the same key iff they are permutations of each other.", "quantifier": "every list of integers (negative, multi-digit, empty)", "why_tests_cant": "string encoding of arbitrary integer lists", "anchors": ["python_dice/src/expression/drop_keep_expression.py: _string_key_to_list, _int_list_to_string, _update_key_list"]}
{"id": "C20", "title": "roll() of a dice term follows the reported distribution", "statement": "If every random.choices draw is uniform, roll() of a dice or keep/drop term returns v with probability exactly get_dict_form()[v].", "quantifier": "every face table with positive weight, every n and k", "why_tests_cant": "a law of a random procedure cannot be sampled exactly", "anchors": ["python_dice/src/expression/dice_expression.py: roll", "python_dice/src/expression/drop_keep_expression.py: roll", "python_dice/src/probability_distribution/probability_distribution.py: get_dict_form"]}
{"id": "C21", "title": "roll() of an expression follows the reported distribution", "statement": "For any expression without variables, roll() returns v with probability exactly get_dict_form()[v].", "quantifier": "every variable-free expression tree", "why_tests_cant": "needs induction over expressions and an exact law of a random procedure", "anchors": ["python_dice/src/expression/*.py: roll, get_probability_distribution"]}
{"id": "C22", "title": "Logical operators use 'above zero is true' and return 0 or 1", "statement": "!, AND, OR treat exactly the values above 0 as true and comparisons and logical operators only ever produce 0 or 1, both in distributions and in rolls.", "quantifier": "every operand expression, every random outcome", "why_tests_cant": "all operand values", "anchors": ["python_dice/src/expression/binary_operator_expression.py", "python_dice/src/expression/not_expression.py", "python_dice/src/probability_distribution/probability_outcome.py: __and__, __or__, not_operator", "README.md"]}
{"id": "C23", "title": "max() and min() bound every possible result", "statement": "For an expression, every outcome of its distribution lies between min() and max().", "quantifier": "every expression, every interpreter state reached by running programs in max (min) mode", "why_tests_cant": "all expressions and states", "anchors": ["python_dice/src/expression/*.py: max, min, get_probability_distribution"]}
{"id": "C24", "title": "max() and min() are attained", "statement": "max()/min() of an expression are themselves possible outcomes of its distribution.", "quantifier": "every expression and state as above", "why_tests_cant": "all expressions and states", "anchors": ["python_dice/src/expression/*.py: max, min", "python_dice/src/expression/minmax_expression.py"]}
{"id": "C25", "title": "Reused variables: exactly the consistent outcomes are possible", "statement": "After a program of assignments, the reported possible values of an expression are exactly those obtained by giving each variable one of its possible values consistently (a variable used twice has the same value both times, and derived variables agree with what they were derived from).", "quantifier": "every straight-line program of VAR lines (including reassignments) and every final expression", "why_tests_cant": "all programs; correlation across unbounded chains of variables", "anchors": ["python_dice/src/probability_distribution/probability_distribution_state.py: set_var", "python_dice/src/probability_distribution/probability_distribution.py: _combine_distributions"]}
{"id": "C26", "title": "Reused variables: probabilities are exact", "statement": "After a program of assignments, get_dict_form() of an expression equals the true probability of each value when each VAR line is rolled once and reused.", "quantifier": "every straight-line program", "why_tests_cant": "all programs; exact law", "anchors": ["python_dice/src/probability_distribution/probability_distribution_state.py: set_var", "python_dice/src/probability_distribution/probability_distribution.py: _combine_distributions"]}
{"id": "C27", "title": "Assigning a variable keeps its distribution", "statement": "After VAR x = e, get_result_map() of x equals get_result_map() of e: no count is lost or merged, whatever constraints e's outcomes carry.", "quantifier": "every distribution produced by a program, every state", "why_tests_cant": "dict keys are compared by printed hash-ordered sets; all distributions", "anchors": ["python_dice/src/probability_distribution/probability_distribution_state.py: set_var"]}
{"id": "C28", "title": "Constraint names are fresh: reassigning never entangles", "statement": "Every set_var call tags its outcomes with a name never used before by that state, even for adversarial variable names (f'{name}_{n}' is injective); so after reassignment the new variable is independent from everything computed from the old value while variables derived from the old value keep their distribution.", "quantifier": "every sequence of set_var/set_constant calls with arbitrary names", "why_tests_cant": "all call histories and names", "anchors": ["python_dice/src/probability_distribution/probability_distribution_state.py: set_var, set_constant"]}
{"id": "C29", "title": "State is a faithful store", "statement": "After any history, get_constant/get_var return what the latest set of that name stored (KeyError if none), has_* agree, and setting one name leaves all other names unchanged.", "quantifier": "every history of state operations", "why_tests_cant": "all histories", "anchors": ["python_dice/src/probability_distribution/probability_distribution_state.py: ProbabilityDistributionState"]}
{"id": "C30", "title": "Interpreter results: stdout and variables", "statement": "roll/max/min on a non-empty program return a dict whose stdout is the value of the last line and which maps each variable assigned (as a whole line) to the value its last assignment computed; variables not assigned keep their previous value.", "quantifier": "every program, every starting state, every random outcome", "why_tests_cant": "all programs and histories", "anchors": ["python_dice/src/python_dice_interpreter.py: roll, max, min"]}
{"id": "C31", "title": "Programs can be split across calls", "statement": "Running lines p followed by q in one call gives the same result and leaves the same state as running p and then q in two calls on the same interpreter, in every mode (roll with the same random draws; for get_estimated_cost the costs add up).", "quantifier": "every split of every program, every mode and starting state", "why_tests_cant": "all programs and split points", "anchors": ["python_dice/src/python_dice_interpreter.py"]}
{"id": "C32", "title": "Failure at any line keeps the effects of earlier lines only", "statement": "If line k of a program raises (lexing, parsing, missing variable, division by zero), the interpreter state is exactly that after lines 1..k-1, provided line k contains no assignment nested inside it or only a top-level one: a failed VAR x = e leaves x as it was.", "quantifier": "every program, every failing line position, every mode", "why_tests_cant": "every crash point of every program", "anchors": ["python_dice/src/python_dice_interpreter.py", "python_dice/src/expression/var_assignment_expression.py"]}
{"id": "C33", "title": "Returned dictionaries are snapshots", "statement": "The dict returned by a call does not change when the interpreter is used again.", "quantifier": "every pair of successive calls", "why_tests_cant": "aliasing over all histories", "anchors": ["python_dice/src/python_dice_interpreter.py: roll, max, min, get_probability_distributions"]}
{"id": "C34", "title": "Estimated cost", "statement": "get_estimated_cost is deterministic, is the sum of the line costs, each of which is the sum of the costs of its leaves (2 for a constant, dice times faces for dice, dice times counted dice times faces for keep and drop) except for ! and VAR, is never negative when all variables were assigned in the same costing session, a variable reference costs what its defining expression cost, and costing never changes any distribution stored in the state.", "quantifier": "every program, every state", "why_tests_cant": "all programs", "anchors": ["python_dice/src/expression/*.py: estimated_cost", "python_dice/src/python_dice_interpreter.py: get_estimated_cost"]}
{"id": "C35", "title": "Expressions depend only on the variables they contain", "statement": "For an expression without nested assignment, roll, max, min, cost and distribution are unchanged by any change of the state outside get_contained_variables(), and reading never changes the state.", "quantifier": "every such expression, every two states agreeing on the contained variables", "why_tests_cant": "non-interference is a two-run property", "anchors": ["python_dice/src/expression/*.py: get_contained_variables"]}
{"id": "C36", "title": "Lexing is lossless and deterministic", "statement": "If lexing succeeds the token texts together with the skipped whitespace spell exactly the input, in order; each token is the leftmost-rule match at its position; if it fails, it fails at the first position where neither whitespace nor any rule matches.", "quantifier": "every input text", "why_tests_cant": "all strings", "anchors": ["python_dice/src/python_dice_lexer.py", "python_dice/src/python_dice_syntax_objects.py: LEXER_SYNTAX", "python_dice/src/syntax/*.py"]}
{"id": "C37", "title": "Lexing errors point at the offending character", "statement": "Whenever lexing fails a ValueError is raised (the error-reporting code itself never fails), its first line is an excerpt of the input line containing the offending character and the caret in its second line stands under exactly that character.", "quantifier": "every input text (multi-line, any length) that fails to lex", "why_tests_cant": "all texts and positions; index arithmetic at line boundaries", "anchors": ["python_dice/src/python_dice_lexer.py: lex"]}
{"id": "C38", "title": "Parsing respects precedence and left associativity, and is unambiguous", "statement": "A token sequence is accepted iff it is the token sequence of an expression tree in which comparison/AND/OR bind tighter than * and //, these tighter than + and -, these tighter than !, and VAR name = extends furthest, all binary operators grouping to the left; the tree is unique and is the one returned; everything else raises ValueError.", "quantifier": "every token sequence", "why_tests_cant": "all token sequences", "anchors": ["python_dice/src/python_dice_parser.py", "python_dice/src/python_dice_syntax_objects.py: PRECEDENCE", "python_dice/src/expression/*.py: TOKEN_RULE/RULE"]}
{"id": "C39", "title": "Parentheses only group", "statement": "A parenthesised expression has the same roll, max, min, cost, distribution and variables as the expression inside, in every state.", "quantifier": "every expression, every state", "why_tests_cant": "all expressions", "anchors": ["python_dice/src/expression/parentheses_enclosed_expression.py"]}
{"id": "C40", "title": "str(expression) parses back to the same expression", "statement": "Lexing and parsing the text printed for any parsed expression yields the same expression again.", "quantifier": "every expression obtained by parsing some text", "why_tests_cant": "all texts; interplay of printer, regex lexer and parser", "anchors": ["python_dice/src/expression/*.py: __str__", "python_dice/src/python_dice_parser.py", "python_dice/src/python_dice_lexer.py"]}
{"id": "C41", "title": "Histogram data", "statement": "The data plotted by get_histogram / get_at_least_histogram / get_at_most_histogram lists every integer from min to max exactly once in increasing order with its probability; get_compare_histogram plots for every outcome the difference of the two probabilities once.", "quantifier": "every distribution / pair", "why_tests_cant": "all distributions", "anchors": ["python_dice/src/probability_distribution/probability_distribution.py: get_histogram, get_compare_histogram, _make_histogram, _get_histogram_form"]}
{"id": "C42", "title": "Weighted choice follows its weights", "statement": "random.choices as used for rolling never returns a face of weight 0, always returns one of the faces, and returns each face for exactly weight-many of the equally likely draws.", "quantifier": "every face table with positive total weight", "why_tests_cant": "all tables; exact law", "anchors": ["python_dice/src/expression/dice_expression.py: roll", "python_dice/src/expression/drop_keep_expression.py: roll"]}
{"id": "C43", "title": "Exceptions: only the expected classes, each with its cause", "statement": "Whatever the program texts and whatever was run before, the interpreter raises only ValueError, KeyError, ZeroDivisionError, (rolling only) IndexError or (costing a program with ! only) OverflowError. A failing call names a line that is outside the language (ValueError), or reads a variable that is not set (KeyError), or contains a division or asks for averages of weightless distributions (ZeroDivisionError), or has a die without faces (IndexError when rolled, ValueError for max/min) or without weight (ValueError when rolled). Conversely an expression whose variables are set, without division and with proper dice never fails, and one that reads an unset variable always does.", "quantifier": "all program texts, all reachable interpreter states, all random draws", "why_tests_cant": "unbounded programs, histories and draws; absence of other exceptions (TypeError, AttributeError-like, non-termination) cannot be sampled", "anchors": ["python_dice/src/python_dice_interpreter.py", "python_dice/src/expression/*.py", "python_dice/src/probability_distribution/probability_distribution_state.py: get_var, get_constant", "python_dice/src/probability_distribution/probability_distribution.py: max, min, average, get_dict_form"]}
{"id": "C44", "title": "The float figures are correctly rounded", "statement": "Every entry of get_dict_form is the double nearest to the exact probability (ties to even); it is between 0 and 1, is positive for a possible outcome, and larger counts never get smaller floats; the entries sum to 1 within 2**-53. average() is the double nearest to the exact mean and lies between min and max. at_least() and at_most() list every value of the range, stay between 0 and 1, are monotone, at_least starts with 1.0 and at_most ends with 1.0. The interpreter methods report exactly these floats.", "quantifier": "every distribution, every state, every program", "why_tests_cant": "rounding errors depend on the counts; all tables of counts cannot be enumerated, and approximate comparison in tests hides the error", "anchors": ["python_dice/src/probability_distribution/probability_distribution.py: get_dict_form, average, at_least, at_most", "python_dice/src/python_dice_interpreter.py: get_probability_distributions_dict, get_average", "python_dice/src/expression/not_expression.py: estimated_cost"]}
{"id": "C45", "title": "Layout and brackets", "statement": "Words that are tokens, separated by any whitespace, are read as exactly those tokens; so laying out a text anew (any non-empty whitespace between its tokens, any around it) gives the same expression or the same error. A text that parses, put in brackets, parses to the bracketed expression and can be the operand of every operator, of ABS, MAX, MIN, ! and of an assignment. For programs that differ only in layout and redundant brackets every method of the interpreter gives the same results, draws, exceptions and states.", "quantifier": "all texts, all programs, all whitespace", "why_tests_cant": "unbounded texts and layouts; the lexer's look-behind and look-ahead rules interact with neighbouring characters", "anchors": ["python_dice/src/python_dice_lexer.py", "python_dice/src/syntax/*.py", "python_dice/src/python_dice_parser.py", "python_dice/src/expression/parentheses_expression.py"]}
{"id": "C46", "title": "Rolling any program", "statement": "roll() of any program - assignments anywhere in an expression, reassigned variables, uses of stdout - returns the variables after a uniformly chosen way all its dice can fall, where every die is rolled once and a value once assigned is the value read; operands are taken left to right, except that a divisor is evaluated before its dividend; and it raises with the probability that such a way fails. In particular (VAR x = e) - x rolls 0. Every dice term rolls at least one die and has a face of positive weight; logical operators are applied where the code and the README agree on truth.", "quantifier": "all programs, all events about the returned variables", "why_tests_cant": "probabilistic statement over all programs; sampling cannot establish exact laws", "anchors": ["python_dice/src/python_dice_interpreter.py", "python_dice/src/expression/*.py", "python_dice/src/probability_distribution/probability_distribution_state.py"]}
{"id": "C47", "title": "Rolling in floating point", "statement": "random.choices works with doubles (random() is a multiple of 2**-53, its product with the sum of the weights is rounded). For weights adding up to at most 2**53 the chance of each face is within 2**-52 of its weight divided by the sum; for sums below 2**52 exactly the faces of positive weight can come up; and for any program the probability of any event about a roll differs from the one with exact dice by at most (number of dice) * (greatest sum of weights) / 2**53.", "quantifier": "all dice tables, all programs, all events, weights adding up to at most 2**53", "why_tests_cant": "deviations of the order 1e-16 are invisible to sampling", "anchors": ["python_dice/src/expression/dice_expression.py:37-44", "python_dice/src/expression/drop_keep_expression.py:68-80"]}
{"id": "C48", "title": "Nobody sees an object change", "statement": "Distributions, outcomes and constraint sets share mutable objects (abs and ! reuse the constraint sets of their operand). Merging and combining constraint sets, the operators of distributions, assignments and all interpreter methods leave every set, constraint set and outcome dict that existed before exactly as it was; so a distribution that was returned, or that a variable holds, reads the same after any further calls on the interpreter and any operators applied to it. Therefore results, exceptions and states are those of a computation with plain values.", "quantifier": "every well-formed heap, every program, every session of calls", "why_tests_cant": "aliasing bugs show only in particular sequences of calls that keep and reuse objects; the sequences are unbounded", "anchors": ["python_dice/src/constraint/constraint_merger.py", "python_dice/src/constraint/constraint_set.py", "python_dice/src/probability_distribution/probability_distribution.py", "python_dice/src/probability_distribution/probability_outcome.py", "python_dice/src/probability_distribution/probability_distribution_state.py:52-70", "python_dice/src/python_dice_interpreter.py"]}
{"id": "C49", "title": "Digits of any script", "statement": "Python's \\d and int accept the decimal digits of every script. A text whose digits are replaced by digits of the same value from other scripts is cut into tokens of the same types at the same places (or fails to lex at the same place), denotes the same numbers, and gives the same results, draws, exceptions and states in every method of the interpreter.", "quantifier": "every text, every program, every replacement of digits, all scripts of Unicode 14.0", "why_tests_cant": "650 digits in unboundedly many positions; the lexer, the splitting of dice terms, int and the re-parsed simplified keep/drop form must all agree on what a digit is", "anchors": ["python_dice/src/syntax", "python_dice/src/expression/dice_expression_helper.py", "python_dice/src/expression/drop_keep_expression.py:23-66", "python_dice/src/expression/constant_integer_expression.py", "python_dice/src/python_dice_lexer.py"]}
{"id": "C50", "title": "Laws of arithmetic and logic hold for distributions", "statement": "Take two formulas over the operators of the language (+, -, *, //, comparisons, AND, OR, !, ABS, MAX, MIN) and integer constants that use the same sub-expressions, each once. If the formulas are equal for all integers (or only for all integers the sub-expressions can be), the distributions of the two expressions have the same counts, the same keys and the same total, whatever expressions without assignments are put in, also when these share variables. Without // the distribution of a formula exists exactly when those of its sub-expressions do. Commutativity, associativity, De Morgan, the dualities of comparisons, floor-division by products are such laws. This fails for roll, and for formulas that use a sub-expression twice.", "quantifier": "every pair of formulas, every filling with expressions without assignments, every state an interpreter can reach, every set order", "why_tests_cant": "unboundedly many formulas and fillings; filling expressions may be correlated through shared variables, where the order of combination decides which impossible outcomes are dropped when", "anchors": ["python_dice/src/probability_distribution/probability_distribution.py:249-375", "python_dice/src/probability_distribution/probability_outcome.py", "python_dice/src/constraint/constraint_set.py"]}
{"id": "C51", "title": "Nothing a session shows depends on set orders", "statement": "A session is any list of calls of the interpreter's methods (roll, max, min, the distribution methods, averages, dict forms, histograms, cost) on one new interpreter. For the same random draws its answers are exactly the same whatever the order in which Python lists its sets (hash seed): the same dicts in the same order, the same distributions, the same floats, the same exceptions. A distribution's figures, histograms and comparison plots are functions of its value counts and total alone. Only the printed form of a distribution object depends on set orders.", "quantifier": "every session of any length, every parser, every pair of ways to list sets", "why_tests_cant": "hash seeds change between processes, so a test run sees one order; equality of outcomes is decided by comparing listings of sets, so it is not evident that the same outcomes are merged, in the same order, in all runs", "anchors": ["python_dice/src/constraint/constraint_set.py:44-60", "python_dice/src/probability_distribution/probability_outcome.py:112-120", "python_dice/src/probability_distribution/probability_distribution.py", "python_dice/src/python_dice_interpreter.py"]}
{"id": "C52", "title": "Names of variables do not matter", "statement": "If every variable x in the lines of a session is renamed to \u03c3(x), for an injective \u03c3 that keeps the name stdout, the answers are the same except that their keys are renamed: same order, values, counts, floats, draws, costs and exceptions. The name stdout is special: a variable of that name is overwritten by the next line.", "quantifier": "every session of any length, every injective renaming, every set order", "why_tests_cant": "unboundedly many programs and names; versions of variables are stored as texts made of the name and a counter (x_1), so two variables could collide, and sets of constraints are ordered by the hashes of these texts", "anchors": ["python_dice/src/probability_distribution/probability_distribution_state.py:46-70", "python_dice/src/expression/var_assignment_expression.py", "python_dice/src/expression/get_var_expression.py", "python_dice/src/constraint/var_value_constraint.py", "python_dice/src/python_dice_interpreter.py"]}
{"id": "C53", "title": "Equality and hashes of outcomes do what the dicts need", "statement": "Constraints, constraint sets and outcomes are compared through their printed forms. Two constraints print alike only if they are equal in class, name and listed values. In a session of program texts no variable name contains a comma, and then two outcomes are == exactly if their values agree and their constraint sets list the same constraints in the same order; equal outcomes have equal hashes whatever the hash of strings, so a dict takes two outcomes for one key exactly if they are equal in this sense. Two distributions print alike exactly if they list the same entries. With commas in names (reachable only by set_var from Python) sets of one and of two constraints can be == with different hashes. str(distribution) depends on set order.", "quantifier": "all constraints, all outcomes without commas in names, every session of program texts with the default parser, every hash function of strings, every set order", "why_tests_cant": "equality by printed form is an unbounded unique-readability question about names and lists of integers; string hashes change with each process", "anchors": ["python_dice/src/constraint/null_constraint.py:20-33", "python_dice/src/constraint/impossible_constraint.py:20-33", "python_dice/src/constraint/var_value_constraint.py:49-62", "python_dice/src/constraint/constraint_set.py:44-60", "python_dice/src/probability_distribution/probability_outcome.py:106-120", "python_dice/src/probability_distribution/probability_distribution.py:376-380"]}
{"id": "C54", "title": "Naming a part that is used once changes nothing", "statement": "Take any expression and one of its parts, where each part stands at one place. The line `VAR x = part` followed by the expression with `x` in place of the part gives the same as the expression itself, provided no other part reads x: distributions and histograms raise the same error or have the same values, counts and total; max and min return the same number or raise the same error; roll returns every value with the same probability. If the line `VAR x = part` raises, so does the expression. Other parts may share variables with the named part. For a part used at two places this fails (d2 - d2 against x - x).", "quantifier": "all expressions, all parts, all names, every reachable state, every set order", "why_tests_cant": "the freshly tagged constraint must be shown not to interact with any of the constraints in the other parts, for every state reached before", "anchors": ["python_dice/src/probability_distribution/probability_distribution_state.py:41-71", "python_dice/src/expression/var_assignment_expression.py:36-59", "python_dice/src/expression/get_var_expression.py:28-45", "python_dice/src/python_dice_interpreter.py:44-117"]}
{"id": "C55", "title": "Lines that have nothing to do with each other do not influence each other", "statement": "What a session of interpreter calls answers about the names it mentions does not depend on other variables. From two states that differ only under names no line mentions, the same draws lead to the same answers about all other names, in every method. A line that does not raise and whose variable (and the entry stdout) is not mentioned later can be left out, and two neighbouring lines neither of which mentions what the other assigns can change places: the answers about all other names are the same, and for rolls have the same probabilities. Calls of two programs with separate names can be interleaved in any way on one interpreter; each gets the answers it would get alone. Exceptions: the estimated cost counts every line; averages and probabilities are computed for all variables, so one variable without outcomes makes them raise.", "quantifier": "all sessions, all calls, all lines, all sets of names, every reachable state, every set order, all draws", "why_tests_cant": "all pairs of histories and all interleavings; for rolls an equality of probabilities", "anchors": ["python_dice/src/python_dice_interpreter.py:44-125", "python_dice/src/probability_distribution/probability_distribution_state.py:23-71", "python_dice/src/expression/var_assignment_expression.py:36-59", "python_dice/src/expression/get_var_expression.py:28-45"]}
{"id": "C56", "title": "The pictures show the figures", "statement": "As drawn by matplotlib (bars between neighbouring bin edges, as high as the sum of the weights of the values between them), get_histogram shows one bar of width 1 around every integer from the smallest to the largest outcome, as high as the double nearest to its probability; the at-least and at-most histograms show the figures of at_least and at_most in the same way. A vertical line stands at the double nearest to the average, from 0 to 1.1 times the highest bar, which is at least as high as every bar. The comparing histogram shows one bar of width 1 around every integer of either range, as high as the difference of the two probabilities. The line plots show the figures of both distributions over their own ranges. All of this with the floating-point numbers the code computes.", "quantifier": "all distributions, every set order", "why_tests_cant": "all distributions and all sizes of outcomes; the tests compare a handful of images", "anchors": ["python_dice/src/probability_distribution/probability_distribution.py:38-182", "python_dice/src/python_dice_interpreter.py:98-117"]}
{"id": "C57", "title": "Identities between dice expressions", "statement": "(n+m)dS has the same distribution as ndS + mdS, count by count. (n+m)dSk1 has the same probabilities as MAX(ndSk1, mdSk1), and (n+m)dSd(n+m-1) as MIN(ndSd(n-1), mdSd(m-1)). The average of ndS is n times the mean face, n(S+1)/2 for ordinary dice; the averages of ndSkK and ndSdK add up to it. If the faces are symmetric about c/2, ndS is symmetric about nc/2, and ndSkK is the mirror image of ndSd(n-K). Choosing the K highest from more dice never lowers the chance to reach a value nor the average, choosing the K lowest from more dice never raises them; keeping the K highest is at least as good as keeping the K lowest; without negative faces, keeping more dice never harms.", "quantifier": "all n, m, K, all face tables with positive total weight (custom dice included), every set order", "why_tests_cant": "all numbers of dice and all face tables", "anchors": ["python_dice/src/expression/dice_expression.py:27-58", "python_dice/src/expression/drop_keep_expression.py:30-180", "python_dice/src/probability_distribution/probability_distribution.py: __add__, max_operator, min_operator, average"]}
{"id": "C58", "title": "Expressions without common dice are independent", "statement": "After any lines, if no line has given dice to both a and b (following assignments through all variables they read, including stdout), then a op b counts every pair of outcomes of a and b: the count of each value is the sum over all pairs of the products of the counts, the totals multiply, and every pair of possible values gives a possible value. In particular the probability of `a AND b` is the product of the probabilities, and that of neither is the product of the complements.", "quantifier": "every reachable state, every list of assignments and expressions after it, every operator, every pair of expressions without common sources, every set order", "why_tests_cant": "all programs and dependency graphs", "anchors": ["python_dice/src/probability_distribution/probability_distribution.py:249-266", "python_dice/src/probability_distribution/probability_distribution_state.py:52-71", "python_dice/src/constraint/constraint_set.py", "python_dice/src/constraint/constraint_merger.py"]}
{"id": "C59", "title": "Averages", "statement": "For expressions without common dice the average of a sum, difference or product is the sum, difference or product of the averages; the averages of MAX and MIN add up to those of the operands and lie beyond them; the averages of <, == and > add up to one, <= is < plus ==, >= is > plus ==, and != is one minus ==. For every expression, whatever variables it uses, adding or multiplying by a constant shifts or scales the average, the averages of e >= k and e <= k are the entries k of at_least and at_most, the average of !e is the probability that e is not above zero, and that of ABS(e) is at least the absolute value of the average of e. (With common dice of unequal weights the average of a sum can be wrong.)", "quantifier": "every reachable state, all expressions, all integers k, every set order", "why_tests_cant": "all programs and constants", "anchors": ["python_dice/src/probability_distribution/probability_distribution.py:193-219", "python_dice/src/probability_distribution/probability_distribution.py:249-374"]}
{"id": "C60", "title": "Syntax errors name the first token that cannot stand where it stands", "statement": "If the tokens of a text are no expression, exactly one of three things is reported: the first token such that what stands before it is the beginning of some expression but no token of its type can come next (the error handler's message gives its type, text, index, line and column, which are where it stands in the text); the end of the text, if the text can be continued to an expression but is none; or ValueError from the first die whose text cannot be read, if everything before it can be read and a die can stand there. Whatever the grammar derives is accepted, whatever the precedences.", "quantifier": "every text and every sequence of tokens as the lexer delivers them", "why_tests_cant": "all texts; 'no continuation whatever' is a statement about infinitely many continuations", "anchors": ["python_dice/src/python_dice_parser.py:47-52", "python_dice/src/python_dice_parser.py:57-65", "python_dice/src/python_dice_syntax_objects.py:60-90"]}
{"id": "C61", "title": "The texts of exceptions tell the truth", "statement": "A KeyError of get_probability_distributions, the histogram methods, max, min, get_estimated_cost or roll names the first variable that is looked at without having a value, in the order in which the method evaluates the lines (stdout counting as set after each line where the method sets it), and says whether its distribution ('Var') or its constant ('Constant') is missing; a program of readable lines without divisions is refused by get_probability_distributions exactly when such a variable exists. The text of the ZeroDivisionError that max and min raise themselves is a division written in the program, in a form that reads as that very division, whose divisor has a distribution in which zero occurs. These methods raise no other exceptions with texts of their own except the lexer's and parser's.", "quantifier": "every program text, every state (every reachable state for the equivalence), every set order, every draw", "why_tests_cant": "all programs and states; 'the first missing variable' needs the order of evaluation of every nesting", "anchors": ["python_dice/src/probability_distribution/probability_distribution_state.py:31-44", "python_dice/src/expression/integer_division_expression.py:36-52"]}
{"id": "C62", "title": "What the distributions of any program are", "statement": "Every list of lines, with assignments anywhere inside expressions, variables assigned again, and the name stdout read or assigned, unfolds to a straight-line program: one assignment with a name of its own for every assignment executed, from left to right, where a variable stands for its latest assignment, an assignment used as a value stands for another copy of what is assigned, and stdout stands for another copy of the previous line. get_probability_distributions of a new interpreter succeeds exactly when the unfolding succeeds (no name without meaning, no divisor that can be zero); it reports exactly the names that stand for something; the possible values of each are those of the runs of the straight-line program; the reported probability is the share of the weights in which the ways to an assignment's value count once for every use. Rolls have the reported probabilities exactly when these weights are in proportion to the numbers of ways the dice can fall.", "quantifier": "every list of parsed lines whose dice have a face (all program texts the parser accepts with such dice), every reported name, every value, every set order", "why_tests_cant": "all programs of any length and nesting; exact rational probabilities for all of them", "anchors": ["python_dice/src/python_dice_interpreter.py:80-87", "python_dice/src/expression/var_assignment_expression.py:61-64", "python_dice/src/probability_distribution/probability_distribution_state.py:52-68"]}
{"id": "C63", "title": "What max and min answer for any program", "statement": "For every list of lines, with assignments anywhere inside expressions, variables assigned again, the name stdout read or assigned, and terms without dice, max (min) of a new interpreter answers as follows. Each expression unfolds (C62) and is answered by the largest (smallest) value it can have in a run of the straight-line program so far, except that brackets, MIN and MAX are worked out from the answers of their operands, a variable has the number last filed for it, terms without dice give 0, and a division first unfolds its divisor once more and fails if that can be zero. An assignment files its answer under its name, then unfolds what is assigned a second time and assigns that; after every line the answer is filed under stdout. The call fails exactly when one of these steps is undefined, and returns exactly the filed numbers.", "quantifier": "every list of parsed lines whose dice have a face (all program texts the parser accepts with such dice), max and min, every name, every set order", "why_tests_cant": "all programs of any length and nesting; the answer is the extreme over all runs", "anchors": ["python_dice/src/python_dice_interpreter.py:53-69", "python_dice/src/expression/var_assignment_expression.py:41-51", "python_dice/src/expression/integer_division_expression.py:36-52", "python_dice/src/expression/get_var_expression.py:35-39"]}
{"id": "C64", "title": "Wrong operands are refused", "statement": "An operator (+ - * // < <= > >= & |) or method (__equal__, __not_equal__, max_operator, min_operator) of which one operand is a ProbabilityOutcome or ProbabilityDistribution succeeds only if the other operand is one too, of the same class; the result then is that of the two as if bools were the numbers 0 and 1, with int values only.  In every other case it raises TypeError.  The text of the exception names the operator and the class of the operand, so that both can be read off it; if the foreign operand is on the left of a comparison the text speaks of the mirrored comparison.", "quantifier": "every operator, every pair of Python objects one of which is an outcome or a distribution", "why_tests_cant": "all classes of operands and all values, bools included; the tests try five or six objects per operator and never the left side", "anchors": ["python_dice/src/probability_distribution/probability_outcome.py: _combine and the operators", "python_dice/src/probability_distribution/probability_distribution.py:268-374"]}
{"id": "C65", "title": "What outcomes and distributions are made of", "statement": "The value of an outcome is an int, never a bool; every entry of the dictionary a distribution is made from is counted.", "quantifier": "every value, every dictionary", "why_tests_cant": "all objects as values and keys", "anchors": ["python_dice/src/probability_distribution/probability_outcome.py:9-14", "python_dice/src/probability_distribution/probability_distribution.py:15-36"]}
{"id": "C66", "title": "Equality of the library's objects", "statement": "== between an object of the library (constraint, constraint set, outcome, distribution) and any object answers True or False, the same in both orders, and True exactly if the two are of one class and have the same contents.", "quantifier": "every pair of objects one of which is of the library", "why_tests_cant": "all pairs of classes and contents", "anchors": ["python_dice/src/probability_distribution/probability_outcome.py:117-120", "python_dice/src/constraint/constraint_set.py:44-48", "python_dice/src/constraint/var_value_constraint.py:52-56"]}
{"id": "C67", "title": "Refusals of constraints", "statement": "merge fails exactly when can_merge answers no, with a ValueError that quotes both operands; the second raise in VarValueConstraint.merge is never reached; a constraint set of nothing is refused with the text 'can not build an empty constraint set. use a null constraint.' and any other is made; combining the constraint sets of outcomes and adding a constraint never raises.", "quantifier": "every constraint, every object offered for merging, every collection of constraints, every set order", "why_tests_cant": "all constraints and objects; unreachability of code", "anchors": ["python_dice/src/constraint/var_value_constraint.py:31-47", "python_dice/src/constraint/constraint_set.py:10-17"]}
{"id": "C68", "title": "Sizes of distributions and passes of the loops", "statement": "Combining two distributions visits every pair of their outcomes exactly once; a distribution of an expression without variables has one entry per value; n dice with S consecutive faces give n(S-1)+1 entries, and the loop of combining distributions is passed exactly ((S-1)+1)S + (2(S-1)+1)S + ... + ((n-1)(S-1)+1)S times; a term that keeps c of n dice with F faces holds exactly one key for every multiset of faces, and tries every face with every key.", "quantifier": "every pair of distributions, every expression without variables, every number of dice and of sides, every keep and drop term", "why_tests_cant": "all sizes; counts of loop passes are not visible from outside", "anchors": ["python_dice/src/probability_distribution/probability_distribution.py:251-266", "python_dice/src/expression/dice_expression.py:58-67", "python_dice/src/expression/drop_keep_expression.py:111-208"]}
{"id": "C69", "title": "The estimated cost bounds the work", "statement": "The number of entries of the distribution of an expression, and the number of passes through the nested loops that make it, are bounded by a fixed polynomial of its estimated cost.", "quantifier": "every expression built from a text, every state", "why_tests_cant": "all expressions; growth", "anchors": ["python_dice/src/expression/dice_expression.py:52-53", "python_dice/src/expression/drop_keep_expression.py:101-109", "python_dice/src/expression/add_expression.py:45-46"]}
{"id": "C70", "title": "Better parts make a better whole", "statement": "Replace parts of a formula by others: those with which it rises by parts at least as likely to reach any value, those with which it falls by parts at most as likely. If the dice of the parts were thrown apart, the distribution of the whole is at least as likely to reach any value, and its average is at least as high. Sums, MAX, MIN, AND and OR rise with their operands, differences and comparisons rise with one and fall with the other, ! turns the direction, a constant factor or divisor keeps or turns it with its sign.", "quantifier": "every formula, every choice of parts with dice thrown apart, every reachable state", "why_tests_cant": "all formulas and all distributions of the parts", "anchors": ["python_dice/src/probability_distribution/probability_distribution.py:251-266", "python_dice/src/expression/add_expression.py:48-49", "python_dice/src/expression/minmax_expression.py:51-58"]}
{"id": "C71", "title": "The middle is likeliest", "statement": "For sums and differences of integers and of dice with consecutive faces of weight one (ndS, nd%, ndF among them) the average is the middle between the lowest and the highest result; of two values the one nearer to the middle is at least as likely as the other, so values equally far from it are equally likely and none is likelier than the middle.", "quantifier": "every such expression, every number of dice and of faces, every pair of values", "why_tests_cant": "all numbers of dice and of sides", "anchors": ["python_dice/src/expression/dice_expression.py:58-67", "python_dice/src/probability_distribution/probability_distribution.py:251-266", "python_dice/src/expression/subtract_expression.py:48-49"]}
{"id": "C72", "title": "The expression classes' texts compute what the model says", "statement": "For every expression class other than the dice, the bodies of the constructor, the production function and the methods roll, max, min, estimated_cost, get_probability_distribution, get_contained_variables and __str__, as they stand in the source, run on any operands and any state, make the same draws, change the state in the same way and give the same result or exception as the model's functions; the operator tables of the binary operators and of MAX/MIN are the model's.", "quantifier": "every operand expression, every state, every random draw, every set order", "why_tests_cant": "all operand expressions and states; equality of programs", "anchors": ["python_dice/src/expression/add_expression.py:11-54", "python_dice/src/expression/binary_operator_expression.py:13-82", "python_dice/src/expression/minmax_expression.py:11-63", "python_dice/src/expression/var_assignment_expression.py:11-69"]}
{"id": "C73", "title": "The dice classes' texts compute what the model says", "statement": "The bodies of DiceExpression, DropKeepExpression and of the helper functions that read a die's faces, as they stand in the source with their loops, comprehensions and local functions, run on any text, outcome map, key or count, make the same draws and give the same result or exception as the model's functions; the constructors do so for texts whose numbers of dice and of dice kept carry no minus sign, which holds of every token.", "quantifier": "every text of a die, every outcome map, every number of dice, every state, every random draw", "why_tests_cant": "all texts and outcome maps; equality of programs with unbounded nested loops", "anchors": ["python_dice/src/expression/dice_expression.py:14-72", "python_dice/src/expression/dice_expression_helper.py:5-47", "python_dice/src/expression/drop_keep_expression.py:17-213"]}
{"id": "C74", "title": "The texts of outcomes and distributions compute what the model says", "statement": "The bodies of ProbabilityOutcome, ProbabilityDistribution (apart from the plots and the methods that make floats) and their factories, as they stand in the source, run on any outcomes and distributions, give the same result or exception as the model's operations: every operator, the nested loop that combines two distributions, the loops of the constructor, and TypeError for an operand of another kind.", "quantifier": "every outcome, every distribution, every map, every operator, every state", "why_tests_cant": "all distributions; equality of programs with unbounded nested loops", "anchors": ["python_dice/src/probability_distribution/probability_outcome.py:8-120", "python_dice/src/probability_distribution/probability_distribution.py:15-36", "python_dice/src/probability_distribution/probability_distribution.py:183-191", "python_dice/src/probability_distribution/probability_distribution.py:221-374", "python_dice/src/probability_distribution/probability_outcome_factory.py:11-17", "python_dice/src/probability_distribution/probability_distribution_factory.py:14-23"]}
{"id": "C75", "title": "The texts of the constraints and of the state do what the model says", "statement": "The bodies of NullConstraint, ImpossibleConstraint, VarValueConstraint, ConstraintMerger, ConstraintSet, ProbabilityDistributionState and their factories, as they stand in the source (apart from __hash__), run on any constraints, sets and states, give the same result or exception and leave the same state as the model's operations: the merger's while loop ends and computes the merged set, add_constraint changes only its own field, set_var counts, copies and tags every outcome.", "quantifier": "every constraint, every constraint set, every state, every distribution, every name", "why_tests_cant": "all sets and states; equality of programs with an unbounded while loop and with changes to shared objects", "anchors": ["python_dice/src/constraint/null_constraint.py:8-33", "python_dice/src/constraint/impossible_constraint.py:8-33", "python_dice/src/constraint/var_value_constraint.py:9-62", "python_dice/src/constraint/constraint_factory.py:12-25", "python_dice/src/constraint/constraint_merger.py:8-51", "python_dice/src/constraint/constraint_set.py:10-54", "python_dice/src/constraint/constraint_set_factory.py:13-29", "python_dice/src/probability_distribution/probability_distribution_state.py:15-70", "python_dice/src/probability_distribution/probability_distribution_state_factory.py:19-36"]}
{"id": "C76", "title": "The texts of the interpreter do what the model says", "statement": "The bodies of PythonDiceInterpreter (roll, max, min, the distribution, average, histogram and cost methods and the constructor) and of PythonDiceParser.parse, as they stand in the source, run on any list of lines, any parser and any state, give the same result or exception, the same dict object and leave the same state as the model's interpreter: roll, max and min give back the state's own dict, the distribution methods a new dict with one entry per variable and stdout, the histogram methods draw the last line's distribution.", "quantifier": "every list of lines, every parser, every state, every rounding of quotients", "why_tests_cant": "all scripts, parsers and states; equality of programs including which dict object is returned", "anchors": ["python_dice/src/python_dice_interpreter.py:25-125", "python_dice/src/python_dice_parser.py:58-65"]}
{"id": "C77", "title": "The texts of the methods that make floats do what the model says", "statement": "The bodies of get_dict_form, average, _get_histogram_form, at_least and at_most, as they stand in the source, run on any distribution, give the same numbers or exception as the model: with exact quotients the figures of the exact model, with quotients, sums and differences rounded to doubles the figures of the model of doubles.", "quantifier": "every distribution, every rounding that leaves 0 and 1 alone", "why_tests_cant": "all distributions; equality of programs under exact and rounded arithmetic", "anchors": ["python_dice/src/probability_distribution/probability_distribution.py:193-219", "python_dice/src/probability_distribution/probability_distribution.py:236-247"]}
{"id": "C78", "title": "The texts of the methods that draw do what the model says", "statement": "The bodies of _make_histogram and _make_line_plot, as they stand in the source, run on any lists of numbers, make exactly the calls of matplotlib, io and Pillow listed in the specification, in that order and with those arguments, or raise the exception of the model before an image is returned. The bodies of get_histogram, get_at_least_histogram, get_at_most_histogram, get_compare_histogram, get_compare, get_compare_at_least and get_compare_at_most hand these two functions the numbers of the model; on doubles these are the figures of the model of plots in floats, up to the int 0 standing for a missing value.", "quantifier": "every distribution or pair of distributions, every list of numbers, every rounding, every labels", "why_tests_cant": "the tests compare pictures of a few distributions with stored files; the claim is about every distribution and about each argument of each call", "anchors": ["python_dice/src/probability_distribution/probability_distribution.py:38-181"]}
{"id": "C79", "title": "The texts of the lexer and of the parser's constructor do what the model says", "statement": "The module level lists of python_dice_syntax_objects, run, are the tables of the model. The constructor of the lexer, as it stands in the source, gives rply exactly the token names and regular expressions of the model, in the order of the model, and leaves out white space; the constructor of the parser gives rply the token names, the precedences, each rule with the production function of its class, and the error handler, whichever of its arguments are given. The regular expressions, read as Python reads them, match what those of the model match; the rules, split as rply splits them, are the productions of the model. lex returns the tokens of the model for each text, or raises its exception with its message. The message of the error handler is that of the model for each token and for the end of the text.", "quantifier": "every text, every token, every choice of the arguments left out, every rule and every regular expression", "why_tests_cant": "the tests lex and parse some texts and compare messages of a few errors; the claim covers each text, each position of an error and each line it may lie on", "anchors": ["python_dice/src/python_dice_lexer.py:10-38", "python_dice/src/python_dice_parser.py:27-56", "python_dice/src/python_dice_syntax_objects.py:39-98", "python_dice/src/syntax/dice_syntax_helper.py:1-14"]}
{"id": "C80", "title": "The texts of __hash__ and of the remaining printing methods do what the model says", "statement": "The bodies of the five __hash__ methods, run with any hash of strings and any hash of ints, return a number of which hash makes the hash of the model, for each constraint, each set of constraints and each outcome. The bodies of the __str__ and __repr__ of the merger and of a distribution and of the __repr__ of an outcome return the texts of the model.", "quantifier": "every hash of strings and ints, every constraint, constraint set, outcome and distribution", "why_tests_cant": "the tests hash some objects in one process, with the hash of strings of that process", "anchors": ["python_dice/src/constraint/constraint_set.py:56-60", "python_dice/src/probability_distribution/probability_outcome.py:106-115", "python_dice/src/constraint/var_value_constraint.py:49-50", "python_dice/src/probability_distribution/probability_distribution.py:376-380", "python_dice/src/constraint/constraint_merger.py:53-57"]}
{"id": "C81", "title": "The messages of the exceptions in the source texts are those of the model", "statement": "For each function with a raise statement, the class and the argument of each of its raise statements, evaluated with any values of the variables, are the class and the text the model raises: operators of distributions and outcomes with an operand of any other class, == of outcomes, the constructors of outcomes and constraint sets, merge of constraints, unknown names, and division by what may be zero. No other function of the source has a raise statement, apart from lex and the error handler of the parser, which C79 is about.", "quantifier": "every operator, every operand of another class, every constraint, name and expression; every function of the source", "why_tests_cant": "the tests compare a few messages; the claim covers each class of the operand and each printed form that goes into a message", "anchors": ["python_dice/src/probability_distribution/probability_distribution.py:268-362", "python_dice/src/probability_distribution/probability_outcome.py:9-34", "python_dice/src/probability_distribution/probability_distribution_state.py:36-44", "python_dice/src/constraint/var_value_constraint.py:36-47", "python_dice/src/expression/integer_division_expression.py:33-49"]}
{"id": "C82", "title": "Collaborators handed to the constructors are the ones used", "statement": "The constructors of the factories of outcomes, distributions, constraint sets and states, run on any object for each argument or on none, leave exactly their fields behind, each holding the object given or, where none is given, the default collaborator. The constructor of the interpreter, given a parser and a state, keeps these two and makes no others, whichever factories it is given.", "quantifier": "every object given for each argument, and each choice of arguments left out", "why_tests_cant": "the tests construct with a few mocks or with the defaults; no test constructs with each combination", "anchors": ["python_dice/src/probability_distribution/probability_outcome_factory.py:11-14", "python_dice/src/probability_distribution/probability_distribution_factory.py:14-17", "python_dice/src/constraint/constraint_set_factory.py:13-26", "python_dice/src/probability_distribution/probability_distribution_state_factory.py:19-30", "python_dice/src/python_dice_interpreter.py:25-42"]}
{"id": "C83", "title": "Outcomes with different values have different hashes (refuted)", "statement": "Two outcomes with the same constraint set and different values have different hashes, as test_hash_not_the_same_value says for any two ints. Refuted: -1 and -2 have the same hash under each hash of strings, so does each n with n + k(2^61 - 1), and 0 and 1 meet under some hash of strings. Proved for values below 2^61 - 1 in absolute value: only an even value and its successor can meet.", "quantifier": "every two ints, every constraint set, every hash of strings (PYTHONHASHSEED)", "why_tests_cant": "the property test draws some pairs of ints at random under one hash seed and seldom or never draws -1 with -2; it is flaky where it does", "anchors": ["python_dice/src/probability_distribution/probability_outcome.py:112-115", "python_dice/test/probability_distribution/test_probability_outcome.py:354-359"]}
