import Verif.Parser
/-!
# The syntax errors: `src/python_dice_parser.py:47-52`

`Parser.lean` keeps of an error in the text only that it is a `ValueError`.  Here the parser is modelled once more with what the error
handler is given and the message it raises (`parseReported`, with `C60_same` the connection).  The handler is called by rply's
`LRParser.parse` when the row of the state has no action for the look-ahead: with the look-ahead token, or with
`Token("$end", "$end")`, which has no position, at the end of the text.  rply is not part of the repository: that, the text of a
`SourcePosition` and how its line and column are counted are assumptions about it.
-/

namespace PyDice

/-- `TOKEN_NAME`, line 5 of each `src/syntax/*_syntax.py` (line 6 of `dice_syntax.py`, `drop_keep_syntax.py`). -/
def TokType.tokenName : TokType → Str
  | .openP => "OPEN_PARENTHESIS".toList
  | .closeP => "CLOSE_PARENTHESIS".toList
  | .comma => "COMMA".toList
  | .not => "NOT".toList
  | .dropKeep => "DROP_KEEP_DICE".toList
  | .dice => "DICE".toList
  | .binop => "BINARY_OPERATOR".toList
  | .constInt => "CONSTANT_INTEGER".toList
  | .constBin => "CONSTANT_BINARY".toList
  | .add => "ADD".toList
  | .sub => "SUBTRACT".toList
  | .mul => "MULTIPLY".toList
  | .div => "INTEGER_DIVISION".toList
  | .minmax => "MINMAX".toList
  | .abs => "ABS".toList
  | .assign => "ASSIGNMENT".toList
  | .var => "VAR".toList
  | .name => "NAME".toList

/-- The line of an index as rply's lexer counts it: one more for every newline it has passed. -/
def sourceLine (text : Str) (idx : Nat) : Nat := 1 + (text.take idx).count '\n'

/-- The column of an index as rply's lexer counts it (`LexerStream._update_pos`): the distance from the newline before it, or from just
    before the text. -/
def sourceCol (text : Str) (idx : Nat) : Nat := ((text.take idx).reverse.takeWhile (· != '\n')).length + 1

/-- `str(token.getsourcepos())`: rply's `SourcePosition(idx=…, lineno=…, colno=…)`. -/
def sourcePos (text : Str) (idx : Nat) : Str :=
  "SourcePosition(idx=".toList ++ natStr idx ++ ", lineno=".toList ++ natStr (sourceLine text idx) ++ ", colno=".toList ++
    natStr (sourceCol text idx) ++ ")".toList

/-- The message of the error handler (`python_dice_parser.py:50-52`) for a token of the text, or for the end of the text. -/
def handlerMessage (text : Str) (t : Option Token) : Str :=
  let (name, str, pos) := match t with
    | some t => (t.type.tokenName, t.text, sourcePos text t.idx)
    | none => ("$end".toList, "$end".toList, "None".toList)
  "Ran into a ".toList ++ name ++ " (".toList ++ str ++ ") where it wasn't expected, at position ".toList ++ pos ++ ".".toList

/-- Why the parser stopped: the error handler was called with a token (`none`: the end of the text), or a production raised. -/
inductive ParseFail where
  | unexpected (t : Option Token)
  | raised (err : Err)
  deriving DecidableEq, Repr

/-- The row of the state has no action: `LRParser.parse` calls the error handler. -/
def handlerCalled (tb : Table) (c : Config) : Bool :=
  let row := tb.row (topState c.stack)
  row.default.isNone && (row.act (lookahead c.input)).isNone

/-- The loop of `LRParser.parse` as in `drive`, with what the error handler is called with. -/
def driveReported (tb : Table) : Nat → Config → Except ParseFail Expr
  | 0, _ => .error (.raised .diverges)
  | n + 1, c =>
    if handlerCalled tb c then .error (.unexpected c.input.head?)
    else match turn tb c with
      | .next c' => driveReported tb n c'
      | .done e => .ok e
      | .fail err => .error (.raised err)

/-- rply's parser on a list of tokens as in `parseTokens`. -/
def parseReported (ts : List Token) : Except ParseFail Expr := driveReported lrTable (3 * ts.length + 1) ⟨[], ts⟩

/-- How `PythonDiceParser.parse` fails: with a message of the lexer or of the error handler, or with what a production raised (the
    text of that exception is not modelled). -/
inductive ParseError where
  | message (m : Str)
  | other (err : Err)
  deriving DecidableEq, Repr

/-- `PythonDiceParser.parse` (`python_dice_parser.py:57-65`) with its messages. -/
def parseText (text : Str) : Except ParseError Expr :=
  match lex text with
  | .error (.valueError m) => .error (.message m)
  | .error .indexError => .error (.other .index)
  | .error .diverges => .error (.other .diverges)
  | .ok ts => match parseReported ts with
    | .ok e => .ok e
    | .error (.unexpected t) => .error (.message (handlerMessage text t))
    | .error (.raised err) => .error (.other err)

end PyDice
