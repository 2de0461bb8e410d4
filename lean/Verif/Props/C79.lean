import Verif.Lemmas.SourceGen
import Verif.Lemmas.SourceLex
/-!
# C79: the texts of the lexer and of the parser's constructor do what the model says

The two constructors run in a world in which the calls of rply are written down (`Source/Gen`); `lex` and the error handler run in a world in which
rply's lexer is the model of rply (`Source/Lex`).
-/
namespace PyDice
open Source Conform

set_option maxRecDepth 100000

/-- `python_dice_syntax_objects.py:39-98`: the module level assignments make the tables of the model and call nothing of rply. -/
theorem C79_syntax_objects : exec makeWorld [] Text.python_dice_syntax_objects classEnv = making [] (.next, globals) := by
  funext b
  unfold making
  rw [List.append_nil]
  rfl

/-- `python_dice_lexer.py:10-16`: which rules the lexer generator is given, in which order, and that white space is left out. -/
theorem C79_lexer_init : Text.PythonDiceLexer.__init__.runIn makeWorld [] [.none] globals =
    making lexerCalls (.none, globals ++ [("self._lexer", .obj .rplyLexer)]) := by
  rw [← making_foldl]
  rfl

set_option maxHeartbeats 4000000 in
/-- `python_dice_parser.py:26-56`: the token names and the precedence the parser generator is given, the rules with the function behind each, the
    error handler, and what the three fields hold, whichever of the arguments are given. -/
theorem C79_parser_init (l f s : Option String) :
    Text.PythonDiceParser.__init__.runIn makeWorld [] [.none, optArg l, optArg f, optArg s] globals =
    making parserCalls (.none, globals ++ [("self._lexer", .obj (.other (l.getD "PythonDiceLexer"))), ("self._parser", .obj .rplyParser),
      ("self._probability_distribution_state_factory", .obj (.other (s.getD "ProbabilityDistributionStateFactory")))]) := by
  rw [← making_foldl]
  cases l <;> cases f <;> cases s <;> krfl

/-- The function that `add_production_function` hands over for a rule is the one whose text C73 speaks about. -/
theorem C79_productions : ∀ c ∈ expressionClasses, ∃ p, methodText c.1 "add_production_function" = some p ∧
    nested p = some (c.2.1, c.2.2.params, c.2.2.body) := by
  simp only [expressionClasses, List.forall_mem_cons]
  refine ⟨⟨_, rfl, rfl⟩, ⟨_, rfl, rfl⟩, ⟨_, rfl, rfl⟩, ⟨_, rfl, rfl⟩, ⟨_, rfl, rfl⟩, ⟨_, rfl, rfl⟩, ⟨_, rfl, rfl⟩, ⟨_, rfl, rfl⟩, ⟨_, rfl, rfl⟩,
    ⟨_, rfl, rfl⟩, ⟨_, rfl, rfl⟩, ⟨_, rfl, rfl⟩, ⟨_, rfl, rfl⟩, ⟨_, rfl, rfl⟩, ⟨_, rfl, rfl⟩, ?_⟩
  intro x h
  cases h

/-- The regular expressions the lexer generator is given, read as Python reads them, match what those of the model match. -/
theorem C79_regexes (c : GenCall) (h : c ∈ lexerCalls) (ha : c.path = ["LexerGenerator", "add"]) :
    ∃ (t : TokType) (pat : Pat) (src : Str), c.args = [.str t.tokenName, .str src] ∧ readRe src = some pat ∧ ∀ p, Re.matchesAt t.regex p = Re.matchesAt pat.re p := by
  simp only [lexerCalls, List.mem_append, List.mem_cons, List.mem_map] at h
  rcases h with (h | ⟨t, _, h⟩) | h | h | h
  · subst h; simp at ha
  · subst h
    obtain ⟨pat, h1, h2⟩ := source_matches t
    exact ⟨t, pat, source t, rfl, h1, h2⟩
  · subst h; simp at ha
  · subst h; simp at ha
  · cases h

/-- The rules the parser generator is given, split as rply splits them, are the productions of the model, from the second on (the first is the
    one rply adds). -/
theorem C79_rules : productions.tail.map (fun p => readRule (ruleText p)) = productions.tail.map some ∧
    productions.tail.length = expressionClasses.length := by
  decide

/-- `python_dice_lexer.py:18-38`: `lex` returns the tokens of the model, or raises its exception with its message: for each text, when the loop
    over the lines may run as often as there are lines. -/
theorem C79_lex (fu : Nat) (text : Str) (hf : (splitOn (· == '\n') text).length ≤ fu) :
    PyFun.run (lexWorld fu) Text.PythonDiceLexer.lex [.obj .this, .str text] = lexed (lex text) := lex_run fu text hf

/-- `python_dice_parser.py:49-53`: the error handler is one `raise` of a `ValueError`, and its message is that of the model. -/
theorem C79_error_handler (fu : Nat) (text : Str) (t : Option Token) (state : Source.Val LObj) :
    ∃ body e, findDefn "error_handler" Text.PythonDiceParser.__init__.body = some body ∧ raisedMessage body = some e ∧
      Prod.fst <$> evalE (lexWorld fu) [] e [("_", state), ("token", .obj (.seen text t))] = .ok (.str (handlerMessage text t)) :=
  handler_message fu text t state

section
open Lean in
local macro "s!!" s:str : term => do
  let cs ← s.getString.toList.mapM fun c => pure (Syntax.mkCharLit c)
  `([$[$(cs.toArray)],*])

/-- A text of one line. -/
example : (splitOn (· == '\n') (s!! "1d6 ? 2")).length ≤ 1 := by decide
/-- The lexer is given a rule for dice. -/
example : ∃ c ∈ lexerCalls, c.path = ["LexerGenerator", "add"] ∧ ∃ r, c.args = [.str TokType.dice.tokenName, .str r] :=
  ⟨_, by simp only [lexerCalls, List.mem_append, List.mem_cons, List.mem_map]; exact .inl (.inr ⟨.dice, by decide, rfl⟩), rfl, _, rfl⟩
/-- A parser with a lexer of its own. -/
example : optArg (some "lexer") = .obj (.other "lexer") := rfl
/-- The rule of a sum. -/
example : readRule (ruleText ⟨.expr, [.expr, .tok .add, .expr]⟩) = some ⟨.expr, [.expr, .tok .add, .expr]⟩ := by decide
example : ("AddExpression", "add", Text.AddExpression.production) ∈ expressionClasses := by simp [expressionClasses]
/-- The end of the text where a token was expected. -/
example : handlerMessage [] none = (s!! "Ran into a $end ($end) where it wasn't expected, at position None.") := by decide
end

end PyDice
