# DESIGN - a Lean 4 model of markbrockettrobson/python_dice

What is modelled, how every property of `properties.jsonl` is stated and proved, what has to be trusted, and where the code as
it stands does not have a property it promises.

* Section 1: the shape of the model.
* Section 2: each property.
* Section 3: the trusted base.
* Section 4: what is and is not modelled.
* Section 5: what is assumed about CPython and rply.
* Section 6: disagreements between the code and its promises.
* Section 7: how the theorems were tested.

## 1. Shape of the model

All modules are under `lean/Verif/`, everything is in `namespace PyDice`.  Exceptions are values (`Except Err`), Python ints are
`Int`, counts are `Nat`, text is `List Char` (`Str`), dicts are association lists in insertion order.

The model (one definition per function of the code, each citing file and lines):

| module | models |
| --- | --- |
| `Py`, `Text` | exception classes, dict operations (`safe_add`, item assignment, lookup), `str(int)`, `int(str)`, `str.split`, `str.join` |
| `Constraint` | `src/constraint/*.py`; Python `set` as an interface (`PyRuntime`) |
| `Outcome`, `Dist` | `probability_outcome.py`, `probability_distribution.py` with their factories |
| `State` | `probability_distribution_state.py` with its factory |
| `Regex`, `Unicode` | Python's `re`: backtracking, leftmost-first, the constructs the repository uses; `\d`, `\s`, `\w` beyond ASCII by tables |
| `DiceText` | `dice_expression_helper.py`, the constructors of `DiceExpression` and `DropKeepExpression` |
| `Rand` | `random.choices` as a tree of uniform draws |
| `Repr` | `__str__`, `__eq__`, `__hash__` of constraints, constraint sets, outcomes and distributions, as the code computes them |
| `Expr` | every class of `src/expression/`: `roll`, `max`, `min`, `estimated_cost`, `get_probability_distribution`, `get_contained_variables`, `__str__` |
| `Interp` | `python_dice_interpreter.py`, including which dict *object* is returned |
| `RandF` | `random.choices` in doubles |
| `Heap` | the mutable objects once more, with addresses: sets, `ConstraintSet`, dicts of outcomes, and the methods that build and change them |
| `Float`, `FloatDist` | IEEE double arithmetic on rationals; `get_dict_form`, `average`, `at_least`, `at_most` and the interpreter methods in floats |
| `FloatPlot` | the plotting methods in floats, with the average line, up to the calls of matplotlib |
| `Lexer` | `src/syntax/*.py`, `LEXER_SYNTAX`, `python_dice_lexer.py`, rply's lexer loop |
| `Parser` | the grammar of `src/expression/*.py`, `PARSER_EXPRESSIONS`, `PRECEDENCE`, `python_dice_parser.py`, rply's table construction and driver |
| `ParserError` | the error handler of `python_dice_parser.py` and its message |
| `Work` | `get_probability_distribution` once more, counting the passes through the bodies of the nested loops |
| `Dynamic` | operators, `==`, constructors and `merge` on objects of any class, with bools and the texts of their exceptions |
| `Messages` | the evaluating methods and the interpreter once more, with the texts of the exceptions the code raises itself |

| `Source/Syntax`, `Source/Text` | the bodies of the project's functions as syntax trees, written by `tools/source.py` from the Python files |
| `Source/Semantics` | an evaluator of such trees: what the statements, operators and builtins of Python used in the project do |
| `Source/World` | the objects and library functions for the evaluator: the model's |
| `Source/Plot` | the same for the two functions that draw: a list of the calls of matplotlib, `io` and Pillow; and what the methods that compare distributions hand over |
| `Source/Gen` | the same for the constructors of lexer and parser: a list of the calls of rply; constants and static methods of the classes are the texts, run |
| `Source/Lex` | the same for `PythonDiceLexer.lex` and the parser's error handler: rply's lexer is the model's, exceptions carry their message |
| `Source/Hash` | the same for `__hash__` and the remaining `__str__`/`__repr__`, for any hash of strings and ints |
| `Source/Message` | the `raise` statements of a body and a world in which their arguments are evaluated |
| `Source/All` | the list of the functions in `Source/Text`, also written by `tools/source.py` |

The specifications (`Spec/*`) use none of the model's algorithms: meaning of a constraint (`Spec/Constraint`), counts and
totals (`Spec/Dist`), lists of tuples of faces (`Spec/Dice`), the README's dice notation as data and text (`Spec/Notation`),
reading and assigning of variables, histories, runs of programs (`Spec/Expr`, `Spec/State`, `Spec/Interp`), "the list of equally
likely results of a program" (`Spec/Program`), the texts of tokens and how a text is read (`Spec/Lexer`), derivation trees and
grouping (`Spec/Parser`), look-ahead sets (`Spec/Lalr`), words and gaps (`Spec/Layout`), outcomes of programs with assignments
anywhere (`Spec/Rolls`, `Spec/Nested`), causes of exceptions (`Spec/Errors`), correct rounding (`Spec/Float`), numbers of draws
(`Spec/Draws`), heaps whose old objects are unchanged, sessions of calls (`Spec/Heap`),
digits of other scripts (`Spec/Script`), formulas with holes and sums over tuples (`Spec/Algebra`), what a session shows and
renaming (`Spec/Twin`), entries and typed sessions (`Spec/Repr`), results with the same numbers (`Spec/Naming`), states that differ only under
some names (`Spec/Separate`), bars of a histogram (`Spec/Drawn`), prices of leaves (`Spec/Cost`), equal and dominating chances (`Spec/Identities`), the lines whose dice have gone
into a variable (`Spec/Sources`), how far tokens can be read (`Spec/Syntax`), what rolls mean with their own idea of
truth (`Spec/RollWays`); weights of a program that count a line once per use (`Spec/Uses`); one die for terms without dice (`Spec/OneDie`); the answers of `max` and `min` (`Spec/Claimed`); the straight-line program a program amounts to (`Spec/Unfold`); the answers of `max` and `min` for any program (`Spec/Reckon`);
looking at and filling places in order (`Spec/Messages`); objects of one kind, bools as numbers (`Spec/Dynamic`); dice without gaps, the bill of an expression, sizes (`Spec/Work`); rising and falling formulas, dice thrown apart (`Spec/Order`); sums of
consecutively numbered dice (`Spec/Bell`); running a function's text gives a model function's result (`Spec/Source`, `Spec/SourceClass`).

`Lemmas/*` are helpers, `Props/*` hold the property theorems (`Cnn_...`) with their examples.

### Sets and hash seeds
`ConstraintMerger` and `ConstraintSet` iterate over Python sets, compare them through `str(set)` and hash strings, so behaviour
could depend on `PYTHONHASHSEED` and on the history of the set object.  The model is parametrised by `PyRuntime`: an arbitrary
type of set objects with an arbitrary iteration order per object, subject only to the laws of finite sets.  Copies, deep copies
and intersections may have any order.  Every theorem about constraints, distributions, states and programs holds for *every*
`PyRuntime`; counterexamples hold either for every runtime or exhibit one (`listRuntime`, insertion order).

### Randomness
`roll` is a tree (`Rand`) whose only effect is "draw a uniform integer below n".  `random.choices` computes
`bisect(cum_weights, random() * total)`; with integer weights only the integer part of `random() * total` matters, and that is
what is drawn; `RandF` has the same in doubles, and C47 bounds the difference.  Probabilities are exact rationals (`Rand.expect`); statements about "every roll" quantify over every possible
outcome of the tree (`Rand.Possible`).

### Loops
`while` loops carry fuel and return the mark `diverges` when it runs out.  That this mark is never returned is proved
(`C01_merge_terminates`, `C36_total`, `C38_text_rejects`), so fuel is no restriction.

## 2. The properties

Status `partial` means that the code violates the property as promised: the negation is proved with a concrete witness
(`..._counterexample`), and the strongest true part found is proved (`..._partial`).

| id | where | how |
| --- | --- | --- |
| C01-C04 | `Props/C01_C04` | Invariant of the merge loop (measure 2·queue + set): the result's *meaning* (set of satisfying assignments) is the intersection, its shape is a normal form; the normal form is determined by its meaning, hence order independence across two arbitrary runtimes; lattice laws follow from meaning. |
| C05-C07 | `Props/C05_C07` | `expectation` functional Σ count·f(value) restricted to an assignment is bilinear under combination; convolution is the indicator case. Dict collisions are handled by `Resp` (functions respecting the dict's `==`). |
| C08-C10 | `Props/C08_C11` | list sums over rationals, running sums over the sorted range of keys. |
| C11 | `Props/C08_C11`, `Props/C22` | exact error conditions for distributions, `max`/`min` and rolls of `//`. |
| C12, C13, C42 | `Props/C12_C13` | induction on the number of dice against the list of all tuples of faces; counting draws under `bisect`. |
| C14, C15 | `Props/C14_C15`, `Props/C40` | abstract notation (`Spec/Notation`), printed with any whitespace; the regular expressions and splits map the text to the table. C15 is refuted for every list of entries, both at the constructor and through lexer and parser. |
| C16-C20 | `Props/C16_C20` | a dict keyed by texts is a multiset of sorted lists (C19); "insert and forget the least" keeps the k highest; the roll law by counting tuples. |
| C21 | `Props/C21` | the law of a roll is that of the list `ways` of equally likely results, by induction; equality with the reported distribution on the fragment where the logical operators agree.  `C21_law`, `C21_session_law`: the law of rolls without conditions, over `rollWays` (`Spec/RollWays`), which has the rolls' own idea of truth; `C21_exact`, `C21_interp_exact`: agreement holds if and only if both lists contain every value equally often. |
| C22 | `Props/C22`, `Props/C22_Rolls` | per operator; the rule rolls follow (bitwise `AND`, any nonzero number true for `OR` and `!`) and exactly where it agrees (`C22_agree`). |
| C23, C24 | `Props/C23_C24`, `Props/C24_Law` | invariant linking constants, stored distributions and the runs of the straight-line program. `C24_law` and `C24_interp_law` say what `max()`/`min()` answer for every straight-line program (also with `0dN`): the true extreme except that MIN, MAX, variables and terms without dice are worked out from answers; `C24_exact` and `C24_node_exact` say exactly when that is right. |
| C25, C26 | `Props/C25_C26` | `C26_law` gives the exact count for every straight-line program: each line's number of ways is raised to the number of its uses. C25 and C26's true part follow. `Props/C26_Exact`: the reported probability of every value (`Spec/Uses` counts the weights), an exact criterion for when it is right (`C26_exact`) and for when rolls agree with it (`C21_report_exact`), and the same with terms without dice, each counted as one die (`C26_reported_any`, `Spec/OneDie`). |
| C27, C28 | `Props/C27_C29` | "tidy" invariant of all reachable states: names in constraints are versions already used; version names are injective texts. |
| C29 | `Props/C27_C29` | induction over histories. |
| C30-C33 | `Props/C30_C33` | traces (`RollRun`, `ExtremeRun`, `DistRun`, ...) of a program, stated for every parser function; C33 compares the returned object's content in later states. |
| C34, C35, C39 | `Props/C34_C39` | induction over expressions. |
| C36, C37 | `Props/C36_C37` | the lexer computes exactly the (unique) reading of the text; index arithmetic for the message. |
| C38 | `Props/C38` | the computed LR table is shown equal to an explicit one, its look-ahead sets to be the LALR(1) sets; soundness by an invariant of the stack, completeness by induction over derivations, progress by a measure. |
| C40 | `Props/C40` | printed tokens cannot run into each other (adjacency lemmas per rule) + C38. |
| C41 | `Props/C41` | sorted-range lemmas; the compare histogram is refuted. |
| C43 | `Props/C43` | induction on expressions with the causes of `Spec/Errors`; names are never forgotten, stored distributions are tidy (C27). |
| C44 | `Props/C44` | `toDouble` is proved to be the one correct rounding of `Spec/Float`; error analysis of the running sums by induction. |
| C45 | `Props/C45` | a token between gaps is what its rule matches, and no earlier rule; what a rule sees of its neighbours is one character; parsing looks at types and texts only. |
| C46 | `Props/C46` | `Spec/Rolls` threads the variables through the list of equally likely outcomes; induction over expressions and lines. The same file treats the distributions of expressions with assignments inside (C25, C26): making the assignments first gives the same distribution. |
| C47 | `Props/C47` | counting the multiples of 2^-53 whose rounded product reaches a bound (within 1 of the ideal), hence single faces; total variation per draw and induction over the tree for programs. |
| C48 | `Props/C48` | simulation: each method on the heap against the same method on values, with "only objects created by this call change" as invariant (nested invariants for the loops that change one new set, constraint set or dict); induction over expressions, lines, sessions. |
| C49 | `Props/C49` | writing all digits in ASCII commutes with every step: matching a pattern that treats all digits alike, lexing, splitting, `int`, building terms, the parser's turns; the expressions obtained have the same methods since names hold no digits. |
| C50 | `Props/C50` | a sum over the combination of two distributions of any function of value and set of agreeing assignments (zero on the empty set) is the sum over all pairs; by induction over the formula the distribution is a sum over all choices of one outcome per hole, which does not depend on the order of the holes. Possible keys the same way for each assignment of the variables. |
| C51 | `Props/C51_C52` | a second interpreter is written over distributions whose outcomes carry the *set of agreeing assignments* instead of a listing (`Lemmas/Abstract`, `AbsInterp`); it does not mention the runtime. Because all reachable distributions are tidy (outcomes that can hold together carry the same listing), two outcomes are `==` exactly when value and set of assignments agree, so every step of the model is mirrored exactly, insertion orders of dicts included. |
| C52 | `Props/C51_C52` | renaming acts on sets of assignments by precomposition with the injective map of version names `x_k ↦ σ(x)_k` (identity elsewhere); this action is injective and commutes with intersection and tagging, hence with every step of the second interpreter (`Lemmas/Rename`). |
| C53 | `Props/C53` | the printed forms are uniquely readable: integers end at a character that is no digit, names at the first comma, items at `,` or `}` (`Lemmas/Repr`: prefix codes, induction over the listing). A constraint alone is readable even with commas in its name (from the last `=`). Names: every name in a tidy distribution's constraints is a version `x_k` of a name that was set; names set in typed sessions are spelt with letters and `_` (C38), an invariant over all calls (`Lemmas/ReprNames`). |
| C54 | `Props/C54` | the stored copy is the part's distribution with one more constraint on a name no constraint in the state has (C28); in the sum over tuples of C50 a choice of outcomes can hold together with that constraint exactly if it can without it. Errors by induction over the expression: the same keys, so the same divisions by zero. Rolls: expected values over independent draws can be taken in any order (`Rand.expect_swap`). |
| C55 | `Props/C55` | a relational induction over expressions: on states that agree off X, an expression that does not mention X has one result and leaves states that agree off X (distributions, extremes, costs; rolls draw by draw, `Rand.Same`). A frame induction says a line changes only what it assigns and `stdout`. Every call is a run of lines and a report (`runCall_report`). Dropped lines and swaps in rolls: expected values over independent draws can be taken in any order. |
| C56 | `Props/C56` | half-integers below 2**52 are doubles, so the bins are exact there; a bar counts the copies of one entry of the sorted list (`exactHist_bar`); the rest by sorting and counting. |
| C57 | `Props/C57` | every dice or keep/drop term lists the scores of all tuples (`ListsScores`, also for the simplified forms); tuples of n + m dice are pairs of tuples; mirroring permutes the faces; larger scores dominate tuple by tuple. |
| C58 | `Props/C58_C59` | invariant `Sourced`: the tags of different lines are different and every stored distribution fixes only tags of its sources; so outcomes of expressions without common sources can always hold together and no pair is discarded. |
| C59 | `Props/C58_C59` | means over pairs split when no pair is discarded; unary operators map outcomes one by one; `C59_reuse_counterexample` shows the sum law fails with common dice of unequal weights. |
| C60 | `Props/C60` | the parser with reports erases to the parser (`C60_same`); the tokens consumed by every configuration can be completed; a small stack automaton accepts everything the grammar derives, so that a token for which the table has no action can be followed by nothing; the three descriptions exclude each other, hence the equivalences and completeness. |
| C61 | `Props/C61` | the model with texts erases to the model (`C61_same`); every method is shown to look at and fill places in the order of a list of steps read off the expression (`Tracks`, composed along binds), so that the first failing look-up is the first missing place; `C40_every_part`: every part of a parsed expression reads back from its text. |
| C62 | `Props/C62` | the unfolding is followed along the evaluation (`Lemmas/Unfold`): every stored distribution is that of what the name stands for, computed in a state whose variables are the assignments under their own names, with the marks of the real state; then the laws of lines (`reported_lines`, `hasKey_run`, `dist_defined`) apply. `C62_exact` compares with the law of rolls of any program (C46). |
| C63 | `Props/C63` | the state is kept in step with a ledger: the unfolding of C62 and the numbers filed under names (`Lemmas/Reckon`); distributions taken on the way have the values of what is unfolded (`amounts`, `hasKey_run`), so their maximum is the largest value; the other forms follow the evaluation. |
| C64 | `Props/C64_C67` | case distinction over the classes of the operands; on operands of a kind the loops over objects are the typed loops mapped along "bools are numbers", which keeps equality of keys (`Lemmas/Dynamic`); the texts are uniquely readable because no name of an operator has a blank. |
| C65 | `Props/C64_C67` | the loop of the constructor is that of the typed model over the entries it keeps; sums of counts. |
| C66 | `Props/C64_C67` | case distinction; unique readability of printed constraints (C53). |
| C67 | `Props/C64_C67` | case distinction; C01 for the sets. |
| C68 | `Props/C68_C69` | the counting model erases to the plain one, by induction; outcomes tied to nothing carry equal constraint sets, so entries are values; sums of intervals are intervals; keys are counted by a bijection with `Sym (Fin F) k` (`Lemmas/Work`, `Lemmas/Keys`). |
| C69 | `Props/C68_C69` | positive part: spans of values and passes by induction over the expression; negative part: `1d[0,1] + 1d[0,2] + ...` takes every value below a power of two; multisets outgrow powers. |
| C70 | `Props/C70` | a distribution dominates another iff its mean of every rising indicator is at least as high (summation by parts, `Lemmas/Order`); the mean of a filled pattern is an iterated mean over the parts, which are exchanged one after the other. |
| C71 | `Props/C71` | the counts are those of the sums of one number of each of a list of intervals; adding an interval to a symmetric count that rises up to the middle keeps it so, since the difference of neighbouring sums telescopes (`Lemmas/Bell`). |
| C72 | `Props/C72` | the evaluator is run symbolically on the syntax tree of each body (`simp` with the evaluator's equations, `Source/Run`); what remains is the model's equation for the class. |
| C73 | `Props/C73` | as C72; each loop of the text is shown equal to the model's recursion by induction over the list it runs through, with the rest of the program as a continuation (`Lemmas/SourceDice`). |
| C74 | `Props/C74` | as C73, for outcomes and distributions (`Lemmas/SourceDist`): the loops of the constructor, of `_combine_distributions`, `get_result_map`, `not_operator` and `__abs__`, and each operator. |
| C75 | `Props/C75` | as C73, for constraints, sets, merger and state (`Lemmas/SourceConstraint`): the loop of `__merge_new_constraint` that returns from its middle, the `while` loop of `__merge_new_constraints` (bounded by `mergeFuel`), the loop of `ConstraintSet.__init__` that changes the object under construction, and the loop of `set_var` on the state. |
| C76 | `Props/C76` | as C73, for the interpreter and `parse` (`Lemmas/SourceInterp`): one lemma per loop over the lines, then the dict comprehensions, which copy a list with distinct keys. `C76_figures` gives the exact and the double-precision instance of the two methods that divide. |
| C77 | `Props/C77` | as C74, for the methods that divide (`Lemmas/SourceFloat`). The world has a rounding for quotients of ints and one for other float operations; the theorems hold for any that leave 0 and 1 alone, `C77_exact` and `C77_floats` are the instances of the two models. |
| C78 | `Props/C78` | the texts of the methods that draw. `_make_histogram` and `_make_line_plot` run in a world of their own (`Source/Plot`) that writes the calls of matplotlib, `io` and Pillow down in a list; the lists they must make are written out in `Spec/SourcePlot`. The seven methods that call these two run in the world of C72. `C78_numbers` shows that on doubles the numbers drawn are those of `FloatPlot`, about which C56 speaks. |
| C79 | `Props/C79` | the texts of `python_dice_syntax_objects`, of the two constructors, of `lex` and of the error handler. The constructors are closed programs, so the kernel runs them; the calls of rply they must make are computed from the model's tables in `Spec/SourceGen`. `C79_regexes` and `C79_rules` connect these strings to the regular expressions and productions of the model through the readers of `Conform/Source`. `C79_lex` is an induction over the lines before the error (`Lemmas/SourceLex`). |
| C80 | `Props/C80` | the texts of the methods that hash and print; one induction over the elements of a set (`Lemmas/SourceHash`). |
| C81 | `Props/C81` | the arguments of the `raise` statements (`Source/Message`), compared with the texts in `Dynamic` and `Messages`; `C81_all` is a run over the list of all functions by the kernel. |
| C82 | `Props/C82` | the texts of the constructors run by the evaluator on arbitrary objects, one case per choice of arguments left out; each case is by computation. |
| C83 | `Props/C83` | refuted by computing CPython's hash of ints (`pyIntHash` in `Lemmas/IntHash`); positive part: xor with the same numbers is injective, and `hash` joins only −1 and −2, whose xor is 1. |
| texts | `Props/Texts` | the refutations run from program text with the modelled lexer, parser and interpreter (evaluated by the kernel). |

Details and exact hypotheses are in the doc comments of the theorems; the notes in `MANIFEST.json` say what each claim covers.

## 3. Trusted base

* Lean 4.33.0's kernel (`vcheck` replays every declaration).
* Axioms: `propext`, `Quot.sound`, `Classical.choice` (Lean's standard ones) and nothing else; `AXIOMS.txt` lists the axioms of
  every manifest theorem (regenerate with `tools/axioms.py`).  No `sorry`, no `native_decide`, no axiom of ours.  `decide +kernel`
  is used for closed facts (e.g. the equality of the computed LR table with the explicit one) and is checked by the kernel.
* For C83, `pyIntHash`: CPython's hash of ints on a 64 bit machine as its documentation has it ("Hashing of numeric types").
* The reading of the Python code: the definitions of the model modules listed in section 1.
* For the theorems about source texts (C72 and following) the reading of the code is replaced by: the exporter `tools/source.py` (a
  direct transcription of `ast` nodes), the evaluator `Source/Semantics` with the simplifications listed at its head, and the tables of
  `Source/World`, which say which model function stands for which method or class.  The theorems show, class by class, that a body calling
  other methods by these tables does what the table says of itself.  The methods that draw, hash, print, lex and make the parser run with the tables
  of `Source/Plot`, `Source/Hash`, `Source/Lex` and `Source/Gen`; in these the calls of matplotlib, Pillow, `io` and rply's generators are written
  down and never raise.
* The assumptions of section 5.

## 4. What is and is not modelled

Modelled: every function of `src/` that computes something, i.e. all of `src/constraint`, `src/expression`,
`src/probability_distribution`, `src/syntax`, `python_dice_lexer.py`, `python_dice_parser.py`, `python_dice_interpreter.py`,
`python_dice_syntax_objects.py`.

Not modelled:

* matplotlib and PIL: of the plotting methods the data handed to matplotlib is modelled (bins, weights, line points), and in C78 all calls with their
  arguments; what the libraries do with them is not.
  `Spec/Drawn` says what bars `axis.hist` draws (numpy sums the weights of a bar in floats; the specification sums exactly).
* the abstract classes of `interface/`, dependency injection (default collaborators are used), `__repr__` (it returns `__str__`), the texts of
  exceptions raised by CPython itself (only their classes; those of the code's own `raise` statements are modelled).
* arguments of wrong types, except operands and constructor arguments of outcomes and distributions, `==` and `merge` (`Verif/Dynamic.lean`, C64-C67).
* floating point is modelled throughout: `random.choices` is modelled both exactly and in doubles (`RandF`, sums of weights up to 2**53; see "Randomness").  `floor(cost * 1.1)`, probabilities, averages and tails are modelled in doubles
  (`Verif/Float.lean`, `Verif/FloatDist.lean`), as are the plots (`Verif/FloatPlot.lean`); the theorems C08-C10 and C41 speak about the exact figures, C44 and C56 about the floats.  Signed
  zeros are not told apart; a double is its value as a rational.
* in the source texts (C72 and following) a `raise` is of a class; its argument is not evaluated by the run, except in `lex` (C79), but apart from it
  (C79 for the error handler, C81 for the others).  Imports, class statements, decorators other than rply's and type annotations are not exported.
* lone surrogates in a text (a Python `str` can hold them, a `Char` cannot); they belong to none of the character classes.
* Python's limit of 4300 digits for `int(str)`/`str(int)`, the recursion limit, memory and time.

## 5. Assumptions about CPython and rply

* A `set` iterates over its elements once each in an order that is a function of the object; `copy`, `union`, `intersection`,
  `deepcopy` give sets with the right elements in any order.  `deepcopy` may also re-order the integer sets inside constraints.
* The model compares constraints by structure and constraint sets and outcomes by their listings; that this is what the code's
  `__eq__` (on printed forms) and `__hash__` amount to is C53.  Assumed: `hash` of a `str` or `int` is a function of its value,
  hashes are 64 bits, and a dict takes two keys for one iff hashes and keys are equal.
* `dict` keeps insertion order; assigning to an existing key keeps its place and its key object.
* `random.random()` is a uniform multiple of 2**-53, independent of the earlier ones (C47); outside C47 it is a uniform real.
* the model files other than `Heap` treat objects as values; C48 proves that this is right.
* nested loops over two dicts visit pairs in order (the model flattens them).
* `\d`, `\s`, `\w` and the digits of `int` are those of Unicode 14.0 (CPython 3.11; tables written by `tools/unicode_tables.py`).
* rply's lexer: skip ignore matches, then the first rule in order of addition that matches at the position with
  `pattern.match(text, pos)`.
* rply's parser generator: LR(0) item sets, precedence of a production = that of its rightmost terminal, conflicts settled as in
  `LRTable.from_grammar`, default reductions, the driver of `LRParser.parse`.  Look-ahead sets are LALR(1) sets in
  the textbook sense (`Spec/Lalr`; `C38_lookahead` proves that here they are the FOLLOW sets the model uses).
* rply calls the error handler with the look-ahead token when the row has no action, at the end of the text with `Token("$end", "$end")`,
  whose position is `None`; a position prints as `SourcePosition(idx=…, lineno=…, colno=…)`, lines and columns counted from 1.

## 6. Disagreements found

All are theorems of the model unless marked otherwise.

1. **Reused variables are weighted wrongly** (C26_counterexample): after `VAR a = 2d2`, `a + a` is 4 with probability 1/4 but 1/6 is
   reported: `set_var` keeps the count on each tagged outcome and combining two of them multiplies the count again.
2. **Rolled `AND`/`OR` are bitwise, rolled `!` is "is zero"** (C22_and/or/not_counterexample, C21_counterexample): `1 AND 2` rolls
   0, `-1 OR 0` rolls 1, `!-1` rolls 0; distributions use "above zero is true" as the README says.
3. **`0dN`** has the distribution of `1dN` although it rolls 0 and its max and min are 0 (C12_zero_dice_counterexample,
   C20_zero_dice_counterexample, C23_zero_dice_counterexample).
4. **A trailing comma in a custom die** is documented and accepted by the lexer, but every such die raises `ValueError`
   (C15_trailing_comma_rejected, C15_parse_rejected).
5. **min of MAX / max of MIN with a shared variable is not attained** (C24_counterexample): after `VAR x = d2` the minimum of
   `MAX(x, 3 - x)` is 1; the value is always 2.
6. **Nested assignments leave stale constants in max/min mode** (C23_nested_counterexample).
7. **The name `stdout`** is a legal variable name and is overwritten by every line (C23_stdout_counterexample,
   C25_counterexample, C32_extreme_counterexample).
8. **`roll`, `max`, `min` return the interpreter's own dict**, which later calls change (C33_counterexample); `get_estimated_cost`
   and `roll` write into the same constants that `max`/`min` read (C34_leftover_counterexample).
9. **A failing `VAR x = e` in max/min mode can leave the constant `x` set** (C32_extreme_counterexample).
10. **`get_compare_histogram`** hands outcomes in both ranges to the plot twice (C41_compare_counterexample).
11. **An impossible constraint "complies" with everything** (C02_impossible_complies).
12. **`1-1` and `2d6-1` do not parse**: the lexer prefers the integer `-1` to the minus sign (C45_counterexample).
13. **Comparisons and AND/OR bind tighter than arithmetic** (C38): `1 + 2 == 3` is `1 + (2 == 3)`.  By design of `PRECEDENCE`, but
    surprising.
14. **`at_least`/`at_most` leave the interval [0, 1]** (C44_tails_counterexample): running float sums give
    `at_most()[9] = 1.0000000000000002` for `d9`, `at_most()[6] = 0.9999999999999999` for `d6`, and a negative `at_least()[10]` for
    `d[1-9*100000000000000000000,10]`, although 10 is possible.
15. **The cost of `!e` is `floor(cost * 1.1)` in floats** (C34_not_counterexample): off by one from cost 511772684928469 on, negative
    leftovers are rounded away from zero, and costs near `2 ** 1024` raise `OverflowError` (as do averages of that size).
16. Faces of weight zero (`d[1*0,2]`) appear in the support, `max` and `min`; `d0` has no faces and rolling it raises (C13_no_faces).
17. **Assignments inside expressions** (C25_nested_counterexample): `(VAR x = d6) - x` always rolls 0, but 0 is reported with
    probability 1/6: the assignment returns the distribution that is not tied to `x`.
18. **Order of evaluation of `//`** (C46_order_counterexample): rolling evaluates the divisor first, distributions the dividend: after
    `VAR x = 2`, `(VAR x = 4) // x` rolls 2 and is reported to be 1.

19. **Equality by printed form** (C53_comma_counterexample): a constraint set with one constraint on a variable named
    `x, values={1}, VarValueConstraint: name=y` is `==` a set with two constraints, though their hashes differ.  Only `set_var` called
    from Python accepts such names.  `str(distribution)` depends on the hash seed (C53_order_counterexample).

20. **One variable without outcomes spoils all averages** (C55_figures_counterexample): after `VAR y = d0`, `get_average(["d2"])` raises
    `ZeroDivisionError` though it does not mention `y`: the average and the probabilities of every stored variable are computed.

21. **The comparing histogram is wrong where the ranges meet** (C56_compare_counterexample): the bar over an integer in both ranges is
    twice the difference of the probabilities, since the integer is handed to the plot twice (see 10); between two ranges with a gap
    the bar of the last integer before the gap reaches over the whole gap.

22. **Histograms of outcomes from 2**52 on are wrong** (C56_large_counterexample): `value - 0.5` rounds to an integer, so outcomes are
    counted in the bar of a neighbour.

23. **`stdout` is rolled again at every reading** (C62_stdout_counterexample): after the line `d2`, `stdout - stdout` always rolls 0 but
    0 is reported with probability 1/2: the interpreter stores the distribution of a line under `stdout` without tying its outcomes
    together.

24. **`max` and `min` execute inner assignments twice** (C63_twice_counterexample, C63_divisor_counterexample): an assignment computes
    the extreme of its operand and then its distribution, a division the distribution of its divisor and then its own.  After
    `VAR x = 1`, `VAR y = (VAR x = x + 1)` every roll of `y + 0` is 2 and `max` answers 3 (but 2 for `y`); `12 // (VAR x = x + 1)`
    rolls 6 and `max` answers 4.

25. **Odd corners of the classes** (C64-C66): `ProbabilityOutcome(True, …)` is accepted although the `TypeError` for other values says "can
    not have a bool value"; a distribution silently drops entries whose keys are neither ints nor outcomes; `outcome == 1` raises
    `TypeError` instead of answering; constraints equal strings that look like them; `5 < distribution` is refused with a text about
    `__gt__`; distributions define `__equal__` but no `__eq__`, so two equal ones are `!=`.

26. **The estimated cost says little about the work** (C69_entries_counterexample, C69_passes_counterexample,
    C69_no_dice_counterexample): costs of operands are added where sizes multiply.  Every `1d[0,2^i]` in a sum costs 2 and doubles the
    number of entries; `NdSkK` passes its loops about `S^(K+1)/K!` times for a cost of `N*K*S`; `0dS` costs 0.

27. **Outcomes with different values may have the same hash** (C83_small_counterexample, C83_large_counterexample,
    C83_neighbours_counterexample): −1 and −2 always do, since `hash(-1)` is −2.  `test_hash_not_the_same_value` asserts the contrary for any two
    ints and fails if it ever draws that pair.  No result depends on it: equal hashes are legal, and the dicts then compare with `==` (C53).

## 7. Testing the theorems

`seeded/mutations.py` lists wrong programs: single edits of model definitions.  `seeded/run.py` applies each in a scratch copy
outside `/verif`, rebuilds, and logs in `seeded/LOG.jsonl` which declarations fail.  An edit that survives means a theorem is too
weak; the log records what was tightened.  `seeded/auto.py SEED COUNT` samples further wrong programs by chance: token edits (`<` for
`≤`, `+` for `-`, one operand for another, and so on) over all definitions of the model; its entries have ids `A…`.
`seeded/text.py SEED BATCHES` changes the Python source instead: in a scratch copy it changes one node of some functions (another
operator, a negated condition, a dropped statement, swapped arguments, ...), exports the source again with `tools/source.py` and builds the
theorems about source texts; its entries have ids `S…`.  In its first runs the changed messages of exceptions survived, since the run of a body does
not evaluate them; C81 was added for these.  Constants of the classes, the tables of `python_dice_syntax_objects` and the patterns of
`dice_syntax_helper` are changed as well.  A change may leave the meaning as it is, like the swapped arguments of `xor` in S4-7,
S4-11 and S4-17: there a proof script fails though the claim still holds, and the log says so.

### Conformance with the source and with the project's tests

`Verif/Conform/` ties the model to the text of the project.  `tools/conform.py` reads `/repo` with `ast` (nothing is imported or run)
and writes the modules.

* `Conform/Grammar`: the token names and regular expressions, the rule strings of the productions, `PRECEDENCE`, the patterns of
  `dice_expression_helper.py`, as they stand in the source.  `Conform/Source` has a reader of such texts.  `tokens_read`, `source_matches`,
  `ignore_read`, `productions_read`, `precedence_read` and `helper_read` say that what is read is what the model has; so the hand
  translation of the regular expressions and of the grammar is not to be trusted, only the reader is.
* `Conform/{Syntax,Lexer,Parser,Interpreter,Dice,DropKeep,Nodes,Distribution}`: 326 tests of `python_dice/test`, each an evaluation of
  the model compared with what the test expects (`decide +kernel`; 26 long ones by `#guard`, listed in `tools/conform_heavy.txt`).  Where
  a test rolls many times and looks at the set of results, the set of the results of all draws is compared.  All agree.  What is left
  out (mocks, images, arguments of wrong types) is listed at the end of each module.
* `Conform/Readme`: the examples of `README.md`, written by hand.
* These are tests, not proofs, and carry no claim.
* Three tests of `test_probability_distribution.py` (`…_average`, `…_at_least`, `…_at_most`) call `assertAlmostEqual(…, delta=1e8)` and so
  compare nothing; most of the figures they expect are wrong (of `d4 - d4`, 15 of 16 outcomes are at least -2, not 6 of 7).
