import Verif.Conform.Source
import Verif.DiceText

/-! # The texts of the rules, as they stand in the source

Written by `tools/conform.py` from `python_dice_syntax_objects.py`, `src/syntax/*.py`, `src/expression/*.py` and
`python_dice_lexer.py`, whose constants it reads without running them. -/

namespace PyDice.Conform

/-- `(TOKEN_NAME, TOKEN_REGEX)` of the classes of `LEXER_SYNTAX`, in order. -/
def tokenTexts : List (Str × Str) :=
  [((t! "OPEN_PARENTHESIS"), (t! "\\(")),
   ((t! "CLOSE_PARENTHESIS"), (t! "\\)")),
   ((t! "COMMA"), (t! "\\,")),
   ((t! "NOT"), (t! "!(?!=)")),
   ((t! "DROP_KEEP_DICE"), (t! "\\d*d(\\d+|%|F|\\[(\\s*(-?\\d+--?\\d+(\\*\\d+)?|-?\\d+(\\*\\d+)?)\\s*,\\s*)*\\s*(-?\\d+--?\\d+(\\*\\d+)?|-?\\d+(\\*\\d+)?)\\s*(,?)\\s*\\])[kd]\\d+")),
   ((t! "DICE"), (t! "\\d*d(\\d+|%|F|\\[(\\s*(-?\\d+--?\\d+(\\*\\d+)?|-?\\d+(\\*\\d+)?)\\s*,\\s*)*\\s*(-?\\d+--?\\d+(\\*\\d+)?|-?\\d+(\\*\\d+)?)\\s*(,?)\\s*\\])")),
   ((t! "BINARY_OPERATOR"), (t! "==|!=|<=|<|>=|>|\\bAND\\b|\\bOR\\b")),
   ((t! "CONSTANT_INTEGER"), (t! "-?\\d+")),
   ((t! "CONSTANT_BINARY"), (t! "\\bTrue\\b|\\bFalse\\b")),
   ((t! "ADD"), (t! "\\+")),
   ((t! "SUBTRACT"), (t! "\\-")),
   ((t! "MULTIPLY"), (t! "\\*")),
   ((t! "INTEGER_DIVISION"), (t! "//")),
   ((t! "MINMAX"), (t! "\\bMAX\\b|\\bMIN\\b")),
   ((t! "ABS"), (t! "\\bABS\\b")),
   ((t! "ASSIGNMENT"), (t! "=(?!=)(?<!==)")),
   ((t! "VAR"), (t! "\\bVAR\\b")),
   ((t! "NAME"), (t! "\\b[a-z_]+\\b"))]

/-- `RULE` / `TOKEN_RULE` of the classes of `PARSER_EXPRESSIONS`, in order. -/
def ruleTexts : List Str :=
  [(t! "expression : OPEN_PARENTHESIS expression CLOSE_PARENTHESIS"),
   (t! "expression : NOT expression"),
   (t! "expression : DROP_KEEP_DICE"),
   (t! "expression : DICE"),
   (t! "expression : CONSTANT_INTEGER"),
   (t! "expression : CONSTANT_BINARY"),
   (t! "expression : expression ADD expression"),
   (t! "expression : expression SUBTRACT expression"),
   (t! "expression : expression MULTIPLY expression"),
   (t! "expression : expression INTEGER_DIVISION expression"),
   (t! "expression : expression BINARY_OPERATOR expression"),
   (t! "expression : MINMAX OPEN_PARENTHESIS expression COMMA expression CLOSE_PARENTHESIS"),
   (t! "expression : ABS OPEN_PARENTHESIS expression CLOSE_PARENTHESIS"),
   (t! "expression : VAR NAME ASSIGNMENT expression"),
   (t! "expression : NAME")]

/-- `PRECEDENCE`. -/
def precedenceTexts : List (Str × List Str) :=
  [((t! "nonassoc"), [(t! "VAR")]),
   ((t! "left"), [(t! "ASSIGNMENT")]),
   ((t! "left"), [(t! "OPEN_PARENTHESIS")]),
   ((t! "left"), [(t! "NOT")]),
   ((t! "left"), [(t! "ADD"), (t! "SUBTRACT")]),
   ((t! "left"), [(t! "INTEGER_DIVISION"), (t! "MULTIPLY")]),
   ((t! "left"), [(t! "BINARY_OPERATOR")])]

/-- The arguments of `ignore`. -/
def ignoreTexts : List Str := [(t! "\\s+")]

/-- The patterns of `re.match` in `dice_expression_helper.py`, in order. -/
def helperTexts : List Str :=
  [(t! "\\d+--?\\d+"),
   (t! "-?\\d+--\\d+"),
   (t! "\\d+"),
   (t! "(-?\\d+--?\\d+|-?\\d+)\\*\\d+"),
   (t! "-?\\d+--?\\d+")]

set_option maxRecDepth 100000

/-- The rules of the model are those of the source, in the same order, with the same names. -/
theorem tokens_read : tokenTexts = lexerSyntax.map fun t => (t.tokenName, source t) := rfl

/-- What is skipped between tokens. -/
theorem ignore_read : ∃ pat, ignoreTexts.map readRe = [some pat] ∧ pat.re = reIgnore := ⟨_, rfl, rfl⟩

/-- The productions of the model are those of the source, in the same order; production 0 is rply's own. -/
theorem productions_read : ruleTexts.map readRule = productions.tail.map some := by decide +kernel

/-- The precedences of the model are those of the source. -/
theorem precedence_read : precedenceTexts.map readPrecedence = precedence.map some := by decide +kernel

/-- The patterns of `dice_expression_helper.py` match as those of the model do. -/
theorem helper_read : ∃ a b c d e, helperTexts.map readRe = [some a, some b, some c, some d, some e] ∧
    norm a.re = norm rePosStart ∧ norm b.re = norm reNegEnd ∧ norm c.re = norm (Re.plus Re.digit) ∧
    norm d.re = norm reMultiplied ∧ norm e.re = norm reRange :=
  ⟨_, _, _, _, _, rfl, rfl, rfl, rfl, rfl, rfl⟩

end PyDice.Conform
