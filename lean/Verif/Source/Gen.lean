import Verif.Source.Semantics
import Verif.Source.Text
/-!
# The world in which the lexer and the parser are made

`PythonDiceLexer.__init__` (`python_dice_lexer.py:10-16`) and `PythonDiceParser.__init__` (`python_dice_parser.py:26-56`) hand rules to rply.  In this
world the calls of rply are written down in their order, with their arguments; none of them raises.  The classes of the project are objects; their
constants and static methods are those of the source texts, run.
-/
namespace PyDice.Source

/-- The objects of this world. -/
inductive GObj where
  /-- a class of the project -/
  | cls (name : String)
  /-- `rply.LexerGenerator`, and what it builds -/
  | lexerGen | rplyLexer
  /-- `rply.ParserGenerator`, and what it builds -/
  | parserGen | rplyParser
  /-- the decorator `parser_generator.production(rule)` -/
  | rule (text : Str)
  /-- any other object, by a name -/
  | other (name : String)
  deriving DecidableEq

/-- A call of rply: what is called, and the arguments. -/
structure GenCall where
  path : List String
  args : List (Val GObj)

/-- Computations that may raise and that write down calls. -/
abbrev GenM := StateT (List GenCall) (Except Err)

/-- Raising. -/
def genRaise {α : Type} (e : Err) : GenM α := fun _ => .error e

/-- Write down a call and return its result. -/
def genCall {α : Type} (path : List String) (args : List (Val GObj)) (r : α) : GenM α := fun l => .ok (r, l ++ [⟨path, args⟩])

/-- The texts of the constants of the classes. -/
def constText (c a : String) : Option PyE :=
  match c, a with
  | "AbsSyntax", "TOKEN_NAME" => some Text.AbsSyntax.TOKEN_NAME
  | "AbsSyntax", "TOKEN_REGEX" => some Text.AbsSyntax.TOKEN_REGEX
  | "AddSyntax", "TOKEN_NAME" => some Text.AddSyntax.TOKEN_NAME
  | "AddSyntax", "TOKEN_REGEX" => some Text.AddSyntax.TOKEN_REGEX
  | "AssignmentSyntax", "TOKEN_NAME" => some Text.AssignmentSyntax.TOKEN_NAME
  | "AssignmentSyntax", "TOKEN_REGEX" => some Text.AssignmentSyntax.TOKEN_REGEX
  | "BinaryOperatorSyntax", "TOKEN_NAME" => some Text.BinaryOperatorSyntax.TOKEN_NAME
  | "BinaryOperatorSyntax", "TOKEN_REGEX" => some Text.BinaryOperatorSyntax.TOKEN_REGEX
  | "CloseParenthesisSyntax", "TOKEN_NAME" => some Text.CloseParenthesisSyntax.TOKEN_NAME
  | "CloseParenthesisSyntax", "TOKEN_REGEX" => some Text.CloseParenthesisSyntax.TOKEN_REGEX
  | "CommaSyntax", "TOKEN_NAME" => some Text.CommaSyntax.TOKEN_NAME
  | "CommaSyntax", "TOKEN_REGEX" => some Text.CommaSyntax.TOKEN_REGEX
  | "ConstantBinarySyntax", "TOKEN_NAME" => some Text.ConstantBinarySyntax.TOKEN_NAME
  | "ConstantBinarySyntax", "TOKEN_REGEX" => some Text.ConstantBinarySyntax.TOKEN_REGEX
  | "ConstantIntegerSyntax", "TOKEN_NAME" => some Text.ConstantIntegerSyntax.TOKEN_NAME
  | "ConstantIntegerSyntax", "TOKEN_REGEX" => some Text.ConstantIntegerSyntax.TOKEN_REGEX
  | "DiceSyntax", "TOKEN_NAME" => some Text.DiceSyntax.TOKEN_NAME
  | "DiceSyntax", "TOKEN_REGEX" => some Text.DiceSyntax.TOKEN_REGEX
  | "DropKeepSyntax", "TOKEN_NAME" => some Text.DropKeepSyntax.TOKEN_NAME
  | "DropKeepSyntax", "TOKEN_REGEX" => some Text.DropKeepSyntax.TOKEN_REGEX
  | "IntegerDivisionSyntax", "TOKEN_NAME" => some Text.IntegerDivisionSyntax.TOKEN_NAME
  | "IntegerDivisionSyntax", "TOKEN_REGEX" => some Text.IntegerDivisionSyntax.TOKEN_REGEX
  | "MinMaxSyntax", "TOKEN_NAME" => some Text.MinMaxSyntax.TOKEN_NAME
  | "MinMaxSyntax", "TOKEN_REGEX" => some Text.MinMaxSyntax.TOKEN_REGEX
  | "MultiplySyntax", "TOKEN_NAME" => some Text.MultiplySyntax.TOKEN_NAME
  | "MultiplySyntax", "TOKEN_REGEX" => some Text.MultiplySyntax.TOKEN_REGEX
  | "NameSyntax", "TOKEN_NAME" => some Text.NameSyntax.TOKEN_NAME
  | "NameSyntax", "TOKEN_REGEX" => some Text.NameSyntax.TOKEN_REGEX
  | "NotSyntax", "TOKEN_NAME" => some Text.NotSyntax.TOKEN_NAME
  | "NotSyntax", "TOKEN_REGEX" => some Text.NotSyntax.TOKEN_REGEX
  | "OpenParenthesisSyntax", "TOKEN_NAME" => some Text.OpenParenthesisSyntax.TOKEN_NAME
  | "OpenParenthesisSyntax", "TOKEN_REGEX" => some Text.OpenParenthesisSyntax.TOKEN_REGEX
  | "SubtractSyntax", "TOKEN_NAME" => some Text.SubtractSyntax.TOKEN_NAME
  | "SubtractSyntax", "TOKEN_REGEX" => some Text.SubtractSyntax.TOKEN_REGEX
  | "VarSyntax", "TOKEN_NAME" => some Text.VarSyntax.TOKEN_NAME
  | "VarSyntax", "TOKEN_REGEX" => some Text.VarSyntax.TOKEN_REGEX
  | "AbsExpression", "TOKEN_RULE" => some Text.AbsExpression.TOKEN_RULE
  | "AddExpression", "RULE" => some Text.AddExpression.RULE
  | "BinaryOperatorExpression", "RULE" => some Text.BinaryOperatorExpression.RULE
  | "ConstantBinaryExpression", "TOKEN_RULE" => some Text.ConstantBinaryExpression.TOKEN_RULE
  | "ConstantIntegerExpression", "TOKEN_RULE" => some Text.ConstantIntegerExpression.TOKEN_RULE
  | "DiceExpression", "TOKEN_RULE" => some Text.DiceExpression.TOKEN_RULE
  | "DropKeepExpression", "TOKEN_RULE" => some Text.DropKeepExpression.TOKEN_RULE
  | "GetVarExpression", "TOKEN_RULE" => some Text.GetVarExpression.TOKEN_RULE
  | "IntegerDivisionExpression", "TOKEN_RULE" => some Text.IntegerDivisionExpression.TOKEN_RULE
  | "MinMaxExpression", "TOKEN_RULE" => some Text.MinMaxExpression.TOKEN_RULE
  | "MultiplyExpression", "TOKEN_RULE" => some Text.MultiplyExpression.TOKEN_RULE
  | "NotExpression", "TOKEN_RULE" => some Text.NotExpression.TOKEN_RULE
  | "ParenthesisEnclosedExpression", "RULE" => some Text.ParenthesisEnclosedExpression.RULE
  | "SubtractExpression", "TOKEN_RULE" => some Text.SubtractExpression.TOKEN_RULE
  | "VarAssignmentExpression", "TOKEN_RULE" => some Text.VarAssignmentExpression.TOKEN_RULE
  | _, _ => none

/-- The texts of the static methods of the classes. -/
def methodText (c f : String) : Option PyFun :=
  match c, f with
  | "AbsSyntax", "get_token_name" => some Text.AbsSyntax.get_token_name
  | "AbsSyntax", "get_token_regex" => some Text.AbsSyntax.get_token_regex
  | "AddSyntax", "get_token_name" => some Text.AddSyntax.get_token_name
  | "AddSyntax", "get_token_regex" => some Text.AddSyntax.get_token_regex
  | "AssignmentSyntax", "get_token_name" => some Text.AssignmentSyntax.get_token_name
  | "AssignmentSyntax", "get_token_regex" => some Text.AssignmentSyntax.get_token_regex
  | "BinaryOperatorSyntax", "get_token_name" => some Text.BinaryOperatorSyntax.get_token_name
  | "BinaryOperatorSyntax", "get_token_regex" => some Text.BinaryOperatorSyntax.get_token_regex
  | "CloseParenthesisSyntax", "get_token_name" => some Text.CloseParenthesisSyntax.get_token_name
  | "CloseParenthesisSyntax", "get_token_regex" => some Text.CloseParenthesisSyntax.get_token_regex
  | "CommaSyntax", "get_token_name" => some Text.CommaSyntax.get_token_name
  | "CommaSyntax", "get_token_regex" => some Text.CommaSyntax.get_token_regex
  | "ConstantBinarySyntax", "get_token_name" => some Text.ConstantBinarySyntax.get_token_name
  | "ConstantBinarySyntax", "get_token_regex" => some Text.ConstantBinarySyntax.get_token_regex
  | "ConstantIntegerSyntax", "get_token_name" => some Text.ConstantIntegerSyntax.get_token_name
  | "ConstantIntegerSyntax", "get_token_regex" => some Text.ConstantIntegerSyntax.get_token_regex
  | "DiceSyntax", "get_token_name" => some Text.DiceSyntax.get_token_name
  | "DiceSyntax", "get_token_regex" => some Text.DiceSyntax.get_token_regex
  | "DropKeepSyntax", "get_token_name" => some Text.DropKeepSyntax.get_token_name
  | "DropKeepSyntax", "get_token_regex" => some Text.DropKeepSyntax.get_token_regex
  | "IntegerDivisionSyntax", "get_token_name" => some Text.IntegerDivisionSyntax.get_token_name
  | "IntegerDivisionSyntax", "get_token_regex" => some Text.IntegerDivisionSyntax.get_token_regex
  | "MinMaxSyntax", "get_token_name" => some Text.MinMaxSyntax.get_token_name
  | "MinMaxSyntax", "get_token_regex" => some Text.MinMaxSyntax.get_token_regex
  | "MultiplySyntax", "get_token_name" => some Text.MultiplySyntax.get_token_name
  | "MultiplySyntax", "get_token_regex" => some Text.MultiplySyntax.get_token_regex
  | "NameSyntax", "get_token_name" => some Text.NameSyntax.get_token_name
  | "NameSyntax", "get_token_regex" => some Text.NameSyntax.get_token_regex
  | "NotSyntax", "get_token_name" => some Text.NotSyntax.get_token_name
  | "NotSyntax", "get_token_regex" => some Text.NotSyntax.get_token_regex
  | "OpenParenthesisSyntax", "get_token_name" => some Text.OpenParenthesisSyntax.get_token_name
  | "OpenParenthesisSyntax", "get_token_regex" => some Text.OpenParenthesisSyntax.get_token_regex
  | "SubtractSyntax", "get_token_name" => some Text.SubtractSyntax.get_token_name
  | "SubtractSyntax", "get_token_regex" => some Text.SubtractSyntax.get_token_regex
  | "VarSyntax", "get_token_name" => some Text.VarSyntax.get_token_name
  | "VarSyntax", "get_token_regex" => some Text.VarSyntax.get_token_regex
  | "AbsExpression", "add_production_function" => some Text.AbsExpression.add_production_function
  | "AddExpression", "add_production_function" => some Text.AddExpression.add_production_function
  | "BinaryOperatorExpression", "add_production_function" => some Text.BinaryOperatorExpression.add_production_function
  | "ConstantBinaryExpression", "add_production_function" => some Text.ConstantBinaryExpression.add_production_function
  | "ConstantIntegerExpression", "add_production_function" => some Text.ConstantIntegerExpression.add_production_function
  | "DiceExpression", "add_production_function" => some Text.DiceExpression.add_production_function
  | "DropKeepExpression", "add_production_function" => some Text.DropKeepExpression.add_production_function
  | "GetVarExpression", "add_production_function" => some Text.GetVarExpression.add_production_function
  | "IntegerDivisionExpression", "add_production_function" => some Text.IntegerDivisionExpression.add_production_function
  | "MinMaxExpression", "add_production_function" => some Text.MinMaxExpression.add_production_function
  | "MultiplyExpression", "add_production_function" => some Text.MultiplyExpression.add_production_function
  | "NotExpression", "add_production_function" => some Text.NotExpression.add_production_function
  | "ParenthesisEnclosedExpression", "add_production_function" => some Text.ParenthesisEnclosedExpression.add_production_function
  | "SubtractExpression", "add_production_function" => some Text.SubtractExpression.add_production_function
  | "VarAssignmentExpression", "add_production_function" => some Text.VarAssignmentExpression.add_production_function
  | _, _ => none

/-- The classes. -/
def classNames : List String :=
  ["AbsSyntax", "AddSyntax", "AssignmentSyntax", "BinaryOperatorSyntax", "CloseParenthesisSyntax", "CommaSyntax", "ConstantBinarySyntax", "ConstantIntegerSyntax", "DiceSyntax", "DropKeepSyntax", "IntegerDivisionSyntax", "MinMaxSyntax", "MultiplySyntax", "NameSyntax", "NotSyntax", "OpenParenthesisSyntax", "SubtractSyntax", "VarSyntax", "AbsExpression", "AddExpression", "BinaryOperatorExpression", "ConstantBinaryExpression", "ConstantIntegerExpression", "DiceExpression", "DropKeepExpression", "GetVarExpression", "IntegerDivisionExpression", "MinMaxExpression", "MultiplyExpression", "NotExpression", "ParenthesisEnclosedExpression", "SubtractExpression", "VarAssignmentExpression"]

/-- The names of the classes, bound to them. -/
def classEnv : Env GObj := classNames.map fun c => (c, .obj (.cls c))

/-- A world without objects; `attr` are the attributes of objects, `func` the functions, `method` the methods. -/
def genWorld (attr : GObj → String → GenM (Val GObj)) (func : List String → List (Val GObj) → GenM (Val GObj))
    (method : GObj → String → List (Val GObj) → GenM (Val GObj × Option GObj)) : World GObj GenM where
  raise := genRaise
  attr := attr
  setAttr _ _ _ := genRaise .type
  method := method
  func := func
  bin _ _ _ := genRaise .type
  cmp _ _ _ := genRaise .type
  getItem _ _ := genRaise .type
  setItem _ _ _ := genRaise .type
  contains _ _ := genRaise .type
  iter _ := genRaise .type
  truth _ := pure true
  str _ := genRaise .type
  strFl _ := genRaise .type
  mkSet _ := genRaise .type
  isInst _ _ := false
  callLam _ _ _ := genRaise .type
  toFl q := .ok q
  rnd q := q
  fuel := 0
  throw _ := genRaise .type
  attempt _ _ := genRaise .type

/-- The world in which the constants of `dice_syntax_helper.py` and of the classes are computed. -/
def constWorld : World GObj GenM := genWorld (fun _ _ => genRaise .type) (fun _ _ => genRaise .type) (fun _ _ _ => genRaise .type)

/-- A constant of a class: its text, evaluated among the constants of `dice_syntax_helper.py`. -/
def classConst (c a : String) : GenM (Val GObj) :=
  match constText c a with
  | some e => do
    let (_, env) ← exec constWorld [] Text.dice_syntax_helper []
    let (v, _) ← evalE constWorld [] e env
    return v
  | none => genRaise .type

/-- Attributes of classes. -/
def genAttr (o : GObj) (a : String) : GenM (Val GObj) :=
  match o with
  | .cls c => classConst c a
  | _ => genRaise .type

/-- Functions: rply's generators, and the classes the parser's constructor makes objects of. -/
def genFunc (path : List String) (args : List (Val GObj)) : GenM (Val GObj) :=
  match path, args with
  | ["rply", "LexerGenerator"], args => genCall path args (.obj .lexerGen)
  | ["rply", "ParserGenerator"], args => genCall path args (.obj .parserGen)
  | [c], [] => pure (.obj (.other c))
  | _, _ => genRaise .type

/-- Methods of rply's objects. -/
def genMethod (o : GObj) (f : String) (args : List (Val GObj)) : GenM (Val GObj × Option GObj) :=
  match o, f, args with
  | .lexerGen, "add", args => genCall ["LexerGenerator", "add"] args (.none, none)
  | .lexerGen, "ignore", args => genCall ["LexerGenerator", "ignore"] args (.none, none)
  | .lexerGen, "build", args => genCall ["LexerGenerator", "build"] args (.obj .rplyLexer, none)
  | .parserGen, "production", [.str r] => pure (.obj (.rule r), none)
  | .rule r, "__call__", [f] => genCall ["ParserGenerator", "production"] [.str r, f] (f, none)
  | .parserGen, "error", [f] => genCall ["ParserGenerator", "error"] [f] (f, none)
  | .parserGen, "build", args => genCall ["ParserGenerator", "build"] args (.obj .rplyParser, none)
  | _, _, _ => genRaise .type

/-- The world in which the static methods run. -/
def staticWorld : World GObj GenM := genWorld genAttr genFunc genMethod

/-- Methods; those of classes are run. -/
def makeMethod (o : GObj) (f : String) (args : List (Val GObj)) : GenM (Val GObj × Option GObj) :=
  match o with
  | .cls c => match methodText c f with
    | some p => do
      let (r, _) ← p.runIn staticWorld [] args classEnv
      return (r, none)
    | none => genRaise .type
  | o => genMethod o f args

/-- The world in which the constructors run. -/
def makeWorld : World GObj GenM := genWorld genAttr genFunc makeMethod

end PyDice.Source
