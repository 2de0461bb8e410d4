import Verif.DiceText
/-!
# `src/syntax/*.py`, `src/python_dice_syntax_objects.py:39-58` and `src/python_dice_lexer.py`

The loop over the text is rply's (`rply/lexer.py`, `LexerStream.next`); rply is not part of the repository, and its loop is
modelled from its documented behaviour: skip what an ignore rule matches, then take the first rule (in the order of `add`) whose
pattern matches at the position.  The patterns are matched with `re.match(text, position)`, so that `\b` and `(?<!==)` see the
characters before the position.  Simplification: of rply's `SourcePosition` only the index is kept.
-/

namespace PyDice

/-- The token names: `TOKEN_NAME`, line 5 of each `src/syntax/*_syntax.py` (line 6 of `dice_syntax.py`, `drop_keep_syntax.py`). -/
inductive TokType where
  | openP | closeP | comma | not | dropKeep | dice | binop | constInt | constBin | add | sub | mul | div | minmax | abs | assign
  | var | name
  deriving DecidableEq, Repr

/-- A token: its name, its text and the index at which it begins (`rply.Token`). -/
structure Token where
  type : TokType
  text : Str
  idx : Nat
  deriving DecidableEq, Repr

/-! ### The patterns -/

/-- `\b` `w` `\b`. -/
def Re.keyword (w : Str) : Re := .seq .wordB (.seq (Re.lit w) .wordB)

/-- `[a-z_]`. -/
def isNameChar (c : Char) : Bool := (decide (97 ≤ c.toNat) && decide (c.toNat ≤ 122)) || c == '_'

/-- `-?\d+--?\d+(\*\d+)?|-?\d+(\*\d+)?`: `_CUSTOM_TYPE_ENTRY` (`dice_syntax_helper.py:7`). -/
def reEntry : Re :=
  let times : Re := .opt (.seq (Re.chr '*') (Re.plus Re.digit))
  .alt (.seq reRange times) (.seq reInt times)

/-- `\[(\s*ENTRY\s*,\s*)*\s*ENTRY\s*(,?)\s*\]`: `_CUSTOM_TYPE` (`dice_syntax_helper.py:8`). -/
def reCustom : Re :=
  let ws : Re := .star Re.space
  .seq (Re.chr '[') (.seq (.star (.seq ws (.seq reEntry (.seq ws (.seq (Re.chr ',') ws)))))
    (.seq ws (.seq reEntry (.seq ws (.seq (.opt (Re.chr ',')) (.seq ws (Re.chr ']')))))))

/-- `\d+|%|F|CUSTOM`: `_DICE_TYPE` (`dice_syntax_helper.py:4-10`). -/
def reDiceType : Re := .alt (Re.plus Re.digit) (.alt (Re.chr '%') (.alt (Re.chr 'F') reCustom))

/-- `\d*dTYPE`: `DICE_SYNTAX` (`dice_syntax_helper.py:1-2, 13`). -/
def reDice : Re := .seq (.star Re.digit) (.seq (Re.chr 'd') reDiceType)

/-- `DICE_SYNTAX` followed by `[kd]\d+`: `DROP_KEEP_DICE_SYNTAX` (`dice_syntax_helper.py:11, 14`). -/
def reDropKeep : Re :=
  .seq (.star Re.digit) (.seq (Re.chr 'd') (.seq reDiceType (.seq (.cls (fun c => c == 'k' || c == 'd')) (Re.plus Re.digit))))

/-- `==|!=|<=|<|>=|>|\bAND\b|\bOR\b` (`binary_operator_syntax.py:6`). -/
def reBinop : Re :=
  .alt (Re.lit ['=', '=']) (.alt (Re.lit ['!', '=']) (.alt (Re.lit ['<', '=']) (.alt (Re.chr '<') (.alt (Re.lit ['>', '='])
    (.alt (Re.chr '>') (.alt (Re.keyword ['A', 'N', 'D']) (Re.keyword ['O', 'R'])))))))

/-- `TOKEN_REGEX` of each class, line 6 (line 7 of `dice_syntax.py`, `drop_keep_syntax.py`) of `src/syntax/*_syntax.py`. -/
def TokType.regex : TokType → Re
  | .openP => Re.chr '('
  | .closeP => Re.chr ')'
  | .comma => Re.chr ','
  | .not => .seq (Re.chr '!') (.notAhead (Re.chr '='))
  | .dropKeep => reDropKeep
  | .dice => reDice
  | .binop => reBinop
  | .constInt => reInt
  | .constBin => .alt (Re.keyword ['T', 'r', 'u', 'e']) (Re.keyword ['F', 'a', 'l', 's', 'e'])
  | .add => Re.chr '+'
  | .sub => Re.chr '-'
  | .mul => Re.chr '*'
  | .div => Re.lit ['/', '/']
  | .minmax => .alt (Re.keyword ['M', 'A', 'X']) (Re.keyword ['M', 'I', 'N'])
  | .abs => Re.keyword ['A', 'B', 'S']
  | .assign => .seq (Re.chr '=') (.seq (.notAhead (Re.chr '=')) (.notBehind ['=', '=']))
  | .var => Re.keyword ['V', 'A', 'R']
  | .name => .seq .wordB (.seq (Re.plus (.cls isNameChar)) .wordB)

/-- `LEXER_SYNTAX` (`python_dice_syntax_objects.py:39-58`): the order in which the rules are tried. -/
def lexerSyntax : List TokType :=
  [.openP, .closeP, .comma, .not, .dropKeep, .dice, .binop, .constInt, .constBin, .add, .sub, .mul, .div, .minmax, .abs, .assign,
   .var, .name]

/-- `partial_lexer.ignore(r"\s+")` (`python_dice_lexer.py:15`). -/
def reIgnore : Re := Re.plus Re.space

/-! ### The loop -/

/-- The characters between two positions, `text[p:q]`. -/
def between (p q : Pos) : Str := p.after.take (p.after.length - q.after.length)

/-- The first rule that matches, and where its match ends (the `for` loop of `LexerStream.next`). -/
def firstRule : List TokType → Pos → Option (TokType × Pos)
  | [], _ => none
  | t :: ts, p => match Re.matchAt t.regex p with
    | some q => some (t, q)
    | none => firstRule ts p

/-- How lexing can end: normally, or with rply's `LexingError` at an index; `diverges` when the model runs out of fuel
    (`lexText_terminates`: it does not). -/
inductive LexResult where
  | tokens (ts : List Token)
  | lexingError (idx : Nat)
  | diverges
  deriving DecidableEq, Repr

/-- Put a token in front. -/
def LexResult.cons (t : Token) : LexResult → LexResult
  | .tokens ts => .tokens (t :: ts)
  | r => r

/-- `list(lexer.lex(text))`: `LexerStream.next` until `StopIteration`.  The fuel bounds the number of matches. -/
def lexLoop : Nat → Pos → LexResult
  | 0, _ => .diverges
  | n + 1, p =>
    if p.after = [] then .tokens []
    else match Re.matchAt reIgnore p with
      | some q => lexLoop n q
      | none => match firstRule lexerSyntax p with
        | some (t, q) => (lexLoop n q).cons ⟨t, between p q, p.before.length⟩
        | none => .lexingError p.before.length

/-- rply's lexer on a text. -/
def lexText (text : Str) : LexResult := lexLoop (text.length + 1) ⟨[], text⟩

/-! ### `PythonDiceLexer.lex` -/

/-- The exceptions `PythonDiceLexer.lex` can raise: its `ValueError` with a message; an `IndexError` if the search for the line ran
    past the last one. -/
inductive LexFail where
  | valueError (message : Str)
  | indexError
  | diverges
  deriving DecidableEq, Repr

/-- The `while` loop that looks for the line (`python_dice_lexer.py:25-28`): the line and the column. -/
def findLine : List Str → Nat → Option (Str × Nat)
  | [], _ => none
  | line :: rest, col => if line.length < col then findLine rest (col - (line.length + 1)) else some (line, col)

/-- The text of the `ValueError` (`python_dice_lexer.py:30-35`), from the length of the text, the line and the column. -/
def lexMessage (textLength : Nat) (line : Str) (col : Nat) : Str :=
  let start := col - 50
  let stop := min textLength (col + 50)
  ((line.take stop).drop start) ++ '\n' :: (List.replicate (col - start) '-' ++ ['^'])

/-- `PythonDiceLexer.lex` (`python_dice_lexer.py:18-38`). -/
def lex (text : Str) : Except LexFail (List Token) :=
  match lexText text with
  | .tokens ts => .ok ts
  | .diverges => .error .diverges
  | .lexingError idx => match findLine (splitOn (· == '\n') text) idx with
    | none => .error .indexError
    | some (line, col) => .error (.valueError (lexMessage text.length line col))

end PyDice
