STATUS = {
 "C01": ("proved", "Every PyRuntime; fuel is shown sufficient and irrelevant."),
 "C02": ("proved", "Every PyRuntime."),
 "C03": ("proved", "Two arbitrary runtimes, arbitrary permutation; also an element-by-element description of the result."),
 "C04": ("proved", "Associativity is for sets whose variable constraints allow at least one value (all sets the program builds); the other laws need no such hypothesis."),
 "C05": ("proved", "All fourteen operators, arbitrary counts; also stated from the public constructor."),
 "C06": ("proved", ""),
 "C07": ("proved", "Counts given an assignment multiply; every outcome satisfiable; no compatible pair lost."),
 "C08": ("proved", "Over exact rationals, as stated; the floats are in C44."),
 "C09": ("proved", "Linearity for distributions tied to no variable."),
 "C10": ("proved", "Over exact rationals; the floats are in C44."),
 "C11": ("proved", "Distributions in every reachable state; max/min when evaluating the operands does not change the state (operands with assignments inside re-evaluate); rolls for any operands."),
 "C41": ("partial", "First half proved.  get_compare_histogram refuted: outcomes in both ranges are handed to the plot twice; the data is listed exactly once iff the ranges are disjoint."),
 "C12": ("proved", "n >= 1 as stated. For n = 0 the code returns the distribution of one die; counterexample theorem."),
 "C13": ("proved", "n >= 1 for the distribution; rolls for any n."),
 "C16": ("proved", "For every text the constructor accepts."),
 "C17": ("proved", "Equality of every method with the plain dice term, or with the constant 0."),
 "C18": ("proved", ""),
 "C19": ("proved", ""),
 "C20": ("proved", "n >= 1; refuted for 0 dice by a counterexample theorem. random() is a uniform real."),
 "C42": ("proved", ""),
 "C14": ("proved", "From the text of the term, any whitespace inside the brackets, to the table."),
 "C15": ("partial", "Refuted: for every list of entries with a trailing comma the lexer delivers the token but the constructor, and so the parser, raises ValueError."),
 "C34": ("proved", "floor(1.1 * cost) is computed in doubles as the code does (exact up to 511772684928468, off by one from there on). Non-negativity from any state without negative constants; a leftover negative constant refutes it otherwise."),
 "C35": ("proved", "No assignment inside, as stated."),
 "C39": ("proved", "Also for all parentheses of a tree at once."),
 "C27": ("proved", "Every state reachable by any calls of any methods, any expression including nested assignments; the result maps are equal as lists."),
 "C28": ("proved", "Distinctness over arbitrary histories; freshness with respect to every constraint in every stored distribution of a reachable state; independence for a new value computed without variables."),
 "C29": ("proved", ""),
 "C30": ("proved", "For every parser function, every possible sequence of draws; also the converse (every run is reported)."),
 "C31": ("proved", "All modes; equality of the computations, so same draws, same results, same states, same exceptions."),
 "C32": ("partial", "Proved for roll, the distribution methods, histograms and cost.  Refuted for max/min (VAR x = e sets the constant before the distribution can raise); exact description and a sufficient condition proved."),
 "C33": ("partial", "Proved for the distribution methods; refuted for roll/max/min, which return the state's own dict."),
 "C22": ("partial", "Proved for distributions and for 0/1-valuedness of rolls.  Refuted for rolls of AND, OR (bitwise on ints) and ! (any nonzero is true): 1 AND 2, -1 OR 0, !-1; the fragment where rolls follow the rule is proved, and the rule that rolls do follow, with an exact criterion for where it agrees (C22_roll_rule, C22_agree)."),
 "C25": ("partial", "Proved for every straight-line program and expression, in states reached by the distribution or max/min methods.  With assignments inside expressions the distribution is that of the hoisted program (C25_nested_partial), in which the assigned value and the variable are independent: refuted by (VAR x = d6) - x.  Also refuted for the name stdout.  What is reported for every program whatever, with terms without dice, nested assignments and stdout, is C62."),
 "C26": ("partial", "Refuted: the number of ways to a line's value enters once per use (VAR a = 2d2; a + a).  The exact counts are proved for every straight-line program (C26_law, C26_reported; with terms without dice C26_reported_any), with an exact criterion for when the property holds (C26_exact), and the property when every line is used at most once or has equally likely values."),
 "C23": ("partial", "Proved after every straight-line program in max (min) mode for assignment-free expressions, with exact conditions for success, also for the interpreter.  Refuted for 0dN, after nested assignments and for the name stdout.  What max() and min() answer for every straight-line program, 0dN included, is C24_law; for every program whatever, C63_law."),
 "C24": ("partial", "Refuted: the minimum of a MAX (maximum of a MIN) whose operands share a variable (VAR x = d2; MAX(x, 3 - x)).  Proved when no such node occurs outside other operators; in particular without variables.  The answer of every straight-line program (terms without dice included) and when there is one is given exactly (C24_law, C24_interp_law), with an exact criterion for being right (C24_exact, C24_node_exact).  The answers of every program whatever: C63_law."),
 "C21": ("partial", "Exact law of rolls for every expression and every list of lines in every state without conditions (C21_law, C21_session_law), and an exact criterion for agreement with the reported distribution (C21_exact, C21_interp_exact, C21_report_exact).  Proved for every variable-free expression whose AND is applied to 0/1 and OR, ! to values that are not negative, and for straight-line programs rolled by the interpreter (every line used at most once or with equally likely values).  Refuted elsewhere: 1 AND 2; 0d6 (C20); reused variables (the roll is right, the report wrong)."),
 "C36": ("proved", "The list of tokens of every text."),
 "C37": ("proved", "Line and column of the first offending character."),
 "C38": ("proved", "rply's table construction (LR(0) sets, precedences, default reductions) and driver are modelled; the table is computed from the grammar, not written down."),
 "C40": ("proved", "Also injectivity of printing on parsed expressions."),
 "C43": ("proved", "The cause given for ValueError from max/min of an expression that reads variables is coarse: only that it reads some."),
 "C44": ("partial", "Double arithmetic (round to nearest even, gradual underflow, overflow) is modelled exactly.  Proved for get_dict_form and average and the interpreter methods; the bounds of at_least/at_most are refuted (at_most(9) of d9 is above 1, at_most(6) of d6 below 1, at_least(10) of d[1-9*100000000000000000000,10] negative); range, monotonicity and error bounds proved."),
 "C45": ("proved", "Leaving whitespace out is not always possible (2d6-1, 1AND2): C45_counterexample."),
 "C46": ("proved", "The order is the one the code has: a plain left-to-right law, or one that agrees with the distributions, is false for a divisor that reads what the dividend assigns (C46_order_counterexample), and the statement excepts it.  Dice terms without dice or without positive weights are excluded."),
 "C47": ("proved", "Every draw below n of the roll model is replaced by floor(random() * n) in doubles (Rand.floats); C47_choices proves that random.choices in doubles is this, C47_steps that the replacement commutes with sequencing.  C47_exact_counterexample: the chances are not exact.  That random() is uniform and independent is assumed."),
 "C48": ("proved", "Heap.lean models the mutable objects (sets, ConstraintSet, dicts of outcomes) with addresses; every method is proved to simulate the value model and to leave old objects alone.  Caller code that itself changes the returned dicts, and the live dict of constants returned by roll, max and min (C33), are outside this statement."),
 "C49": ("proved", "Names cannot contain digits, so variables are the same too.  The printed form of an expression keeps the digits it was written with."),
 "C50": ("proved", "Laws of distributions, not of roll (`C50_roll_counterexample`), and only for formulas that use every sub-expression once (`C50_twice_counterexample`)."),
 "C51": ("proved", "Exact equality of all answers, dict order and floats included. `str(distribution)` is not an answer: it prints constraint listings in set order."),
 "C52": ("proved", "Stated for the parsed lines: `τ` may be any rewriting of the texts that renames the parsed expressions; an example checks it for the default parser. `stdout` must keep its name (`C52_stdout_counterexample`)."),
 "C53": ("proved", "`==`, `hash` and printed forms as the code has them (`Verif/Repr.lean`) coincide with the equality the rest of the model uses in every typed session. Names with commas break it (`C53_comma_counterexample`); no program text has them."),
 "C54": ("proved", "Expressions and calls; distributions, histograms, max/min and the law of rolls. A part used twice: `C54_twice_counterexample` (disagreement 1)."),
 "C55": ("proved", "All methods (the cost only in C55_session and C55_isolation). The figures of a variable nobody mentions can make get_average raise: `C55_figures_counterexample` (disagreement 20), so their existence is a hypothesis where averages or probabilities are asked for."),
 "C56": ("partial", "Proved for outcomes below 2**52 except the comparing histogram; line plots without restriction. Refuted from 2**52 on (the bin edges round, C56_large_counterexample) and for the comparing histogram (the bar over an integer in both ranges is twice as high as the difference, bars at a gap between the ranges are too wide); its exact picture is proved."),
 "C57": ("proved", "For at least one die in every group and positive total weight; 0dS is excluded because its distribution is that of dS (C12_zero_dice_counterexample). Exact rational averages and probabilities."),
 "C58": ("proved", "Sources are followed line by line from any reachable state; variables that exist there count as having a common source. Lines and operands contain no nested assignments. Generalises C28_independent."),
 "C59": ("proved", "Exact rational averages. C59_reuse_counterexample shows that the hypothesis about common dice is needed (the defect of C26)."),
 "C60": ("proved", "The text of the ValueError for an unreadable die is not modelled. How rply counts lines and columns and prints a SourcePosition is an assumption (DESIGN, section 5)."),
 "C61": ("proved", "The first argument of the exception (str of a KeyError shows its repr). CPython's own texts (division by zero in CPython itself, max() of an empty sequence) are not modelled; a division below another operator is not named by max and min (example in Props/C61)."),
 "C62": ("proved", "Complete for get_probability_distributions: nested assignments, reassignments and stdout included; only dice without faces (d0) are excluded, and for the probabilities dice all of whose faces have weight zero.  C62_stdout_counterexample: stdout is rolled again at every reading (disagreement 23)."),
 "C63": ("proved", "Complete for max and min of a new interpreter; only dice without faces (d0) are excluded.  C63_twice_counterexample, C63_divisor_counterexample: assignments inside an assignment or a divisor are executed twice (disagreement 24)."),
 "C64": ("proved", "Objects of other classes are opaque: their operators are assumed not to know the library's classes.  C64_mirrored: a comparison with a foreign left operand is refused under the mirrored name."),
 "C65": ("partial", "Refuted: True is accepted and kept although the exception's text says bools are not (C65_bool_counterexample); entries with keys of other classes are silently dropped (C65_ignored_counterexample).  Proved for ints and outcomes; C65_made says what is made in general."),
 "C66": ("partial", "Refuted: a constraint equals any text that reads as it prints, two equal distributions are different, comparing an outcome with anything else raises, and whether it raises depends on the order.  Proved within one class; C66_raises says exactly when == raises."),
 "C67": ("proved", "With the texts."),
 "C68": ("proved", "Work.lean counts the passes of the nested loops; C68_same: forgetting the count gives the modelled method.  Loops over a single table are not counted."),
 "C69": ("partial", "Refuted: 1d[0,1] + 1d[0,2] + 1d[0,4] + ... doubles its entries for 2 each; keep terms pass their loops more often than any polynomial of the cost; 0dS costs 0.  Proved with the bound 2 cost^2 for sums, differences, comparisons, logic, MAX, MIN and ABS of constants and dice without gaps."),
 "C70": ("proved", "For parts whose dice were thrown apart; C70_shared_counterexample: after VAR x = d2, x + x is not as good as x + (3 - x), although x is as good as 3 - x."),
 "C71": ("proved", "C71_gap_counterexample: with gaps between the faces the middle may be impossible.  Faces of equal weight other than one are not covered."),
 "C72": ("proved", "The bodies are syntax trees written by tools/source.py from the source text and run by the evaluator of Verif/Source/Semantics.lean; methods of operands and of other classes are the model's (Verif/Source/World.lean), so the statement is about one class at a time.  The cost of ! is stated for double precision."),
 "C73": ("proved", "As C72; the constructors are run with the methods they call (BuildsBy).  The loops are handled by induction over the lists they run through.  The methods of DropKeepExpression are stated for objects the constructor makes.  The constructors ask for texts without a leading minus sign; C73_dice_token and C73_drop_keep_token show that every token of the lexer is such."),
 "C74": ("proved", "As C72 and C73, for outcomes and distributions.  The methods that make floats are in C77; the plots are in C78, __hash__ and the printed form of a distribution in C80."),
 "C75": ("proved", "As C72 to C74, for constraints, constraint sets, the merger and the state.  The while loop of the merger runs at most fu times in the embedding; the theorem asks for fu of at least twice the new plus the old constraints.  __hash__ is in C80."),
 "C76": ("proved", "As C72 to C75, for the interpreter and parse.  The parser object is any function from lines to expressions; the images of the histogram methods are named by method and distribution.  The distribution methods ask for distinct keys in the lists that model the dicts of the state, which every reachable state has."),
 "C77": ("proved", "As C74, for the methods that divide.  The theorems hold for any rounding that leaves 0 and 1 alone; C77_exact and C77_floats are the two instances the models use."),
 "C78": ("proved", "As C72, for the methods that draw.  The libraries are not modelled: their calls are written down with their arguments and never raise.  C78_numbers relates the numbers to the model of plots in doubles."),
 "C79": ("proved", "The calls of rply are written down with their arguments and never raise; what rply makes of them is the model of C38 and the lexer of the model.  In lex, rply's lexer is the model's; the while loop runs at most fu times in the embedding, and the theorem asks for fu of at least the number of lines.  Imports and class statements are not run: the names of the classes are bound to them."),
 "C80": ("proved", "As C72, for the methods that hash and print.  xor of two hashes is taken on 64 bits; −1 becomes −2 as in hash."),
 "C81": ("proved", "The raise statements of a body are collected and their arguments evaluated apart from the run of the body; where a body raises, and with which class, is C72 to C76.  Of the second exception of merge, which no object of the library reaches, only the text is stated."),
 "C82": ("proved", "Only the fields the constructors leave behind; what the methods do with a collaborator of another class is not modelled.  The interpreter without a parser or without a state is C76_init_default."),
 "C83": ("partial", "Refuted: -1 and -2 always have the same hash, as do n and n + k(2^61 - 1); 0 and 1 have the same hash under some hash of strings.  Proved for values below 2^61 - 1 in absolute value: only an even value and its successor can meet.  CPython's hash of ints is taken from its documentation."),
}
