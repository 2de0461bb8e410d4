import Verif.Source.Semantics
import Verif.Source.Text
import Verif.ParserError
/-!
# The world of `PythonDiceLexer.lex` and of the parser's error handler

`python_dice_lexer.py:18-38` calls the lexer that rply has built, catches rply's exception and raises one of its own.  The objects here are the lexer,
the stream of tokens it hands out, the tokens and the exceptions; what rply does with a text is `lexText`.
The error handler (`python_dice_parser.py:48-52`) is given the token at which the parser stopped; the token and its position are objects here.
-/
namespace PyDice.Source

/-- The objects `PythonDiceLexer.lex` works with. -/
inductive LObj where
  /-- the `PythonDiceLexer` -/
  | this
  /-- the lexer built by rply -/
  | lexer
  /-- `rply.lexer.LexerStream`: the tokens of a text, found while they are asked for -/
  | stream (text : Str)
  | token (t : Token)
  /-- `rply.errors.LexingError` -/
  | lexingError (idx : Nat)
  /-- `rply.token.SourcePosition` -/
  | position (idx : Nat)
  /-- `ValueError(message)` -/
  | valueError (message : Str)
  /-- the token of a text that the error handler is given; without one, rply's token for the end of the text -/
  | seen (text : Str) (t : Option Token)
  /-- `rply.token.SourcePosition`, with the text to count lines and columns in; without an index, the `None` of the token for the end -/
  | place (text : Str) (idx : Option Nat)
  deriving DecidableEq

/-- What can be raised: an exception object, or one of the other exceptions of the model. -/
inductive LExc where
  | raised (o : LObj)
  | err (e : Err)

/-- Computations that may raise. -/
abbrev LexM := Except LExc

/-- Raising one of the other exceptions. -/
def lexRaise {α : Type} (e : Err) : LexM α := .error (.err e)

/-- `list(stream)`: the tokens, or the exception raised on the way. -/
def streamOf : LexResult → LexM (List (Val LObj))
  | .tokens ts => .ok (ts.map fun t => .obj (.token t))
  | .lexingError i => .error (.raised (.lexingError i))
  | .diverges => .error (.err .diverges)

/-- `try … except rply.errors.LexingError`. -/
def catchLexing {α : Type} : LexM α → LexM (α ⊕ Val LObj)
  | .ok a => .ok (.inl a)
  | .error (.raised (.lexingError i)) => .ok (.inr (.obj (.lexingError i)))
  | .error e => .error e

/-- Methods. -/
def lexMethod (o : LObj) (f : String) (args : List (Val LObj)) : LexM (Val LObj × Option LObj) :=
  match o, f, args with
  | .lexer, "lex", [.str text] => .ok (.obj (.stream text), none)
  | .seen _ t, "gettokentype", [] => .ok (.str (match t with | some t => t.type.tokenName | none => "$end".toList), none)
  | .seen _ t, "getstr", [] => .ok (.str (match t with | some t => t.text | none => "$end".toList), none)
  | .seen text t, "getsourcepos", [] => .ok (.obj (.place text (t.map Token.idx)), none)
  | .lexingError i, "getsourcepos", [] => .ok (.obj (.position i), none)
  | _, _, _ => lexRaise .type

/-- Attributes. -/
def lexAttr (o : LObj) (a : String) : LexM (Val LObj) :=
  match o, a with
  | .this, "_lexer" => .ok (.obj .lexer)
  | .position i, "idx" => .ok (.int i)
  | _, _ => lexRaise .type

/-- Functions. -/
def lexFunc (path : List String) (args : List (Val LObj)) : LexM (Val LObj) :=
  match path, args with
  | ["ValueError"], [.str message] => .ok (.obj (.valueError message))
  | _, _ => lexRaise .type

/-- The world of `PythonDiceLexer.lex`. -/
def lexWorld (fuel : Nat) : World LObj LexM where
  raise := lexRaise
  attr := lexAttr
  setAttr _ _ _ := lexRaise .type
  method := lexMethod
  func := lexFunc
  bin _ _ _ := lexRaise .type
  cmp _ _ _ := lexRaise .type
  getItem _ _ := lexRaise .type
  setItem _ _ _ := lexRaise .type
  contains _ _ := lexRaise .type
  iter
    | .stream text => streamOf (lexText text)
    | _ => lexRaise .type
  truth _ := pure true
  str
    | .place text (some idx) => .ok (sourcePos text idx)
    | .place _ none => .ok "None".toList
    | _ => lexRaise .type
  strFl _ := lexRaise .type
  mkSet _ := lexRaise .type
  isInst _ _ := false
  callLam _ _ _ := lexRaise .type
  toFl q := .ok q
  rnd q := q
  fuel := fuel
  throw
    | .obj o => .error (.raised o)
    | _ => lexRaise .type
  attempt
    | ["rply", "errors", "LexingError"], x => catchLexing x
    | _, _ => lexRaise .type

/-- What the model says `PythonDiceLexer.lex` does, as a computation of this world. -/
def lexed : Except LexFail (List Token) → LexM (Val LObj)
  | .ok ts => .ok (.list (ts.map fun t => .obj (.token t)))
  | .error (.valueError message) => .error (.raised (.valueError message))
  | .error .indexError => .error (.err .index)
  | .error .diverges => .error (.err .diverges)

/-- The body of the function of that name among the statements. -/
def findDefn (f : String) : PyS → Option PyS
  | .seq _ rest => findDefn f rest
  | .defn g _ body rest => if g = f then some body else findDefn f rest
  | _ => none

/-- The argument of the exception, if the body is `raise ValueError(argument)`. -/
def raisedMessage : PyS → Option PyE
  | .seq (.raise (.callName "ValueError" (.cons e .nil))) .done => some e
  | _ => none

end PyDice.Source
