import Verif.Source.Gen
import Verif.Conform.Source
/-!
# What the constructors of the lexer and the parser hand to rply

Written down from the rules of the model (`lexerSyntax`, `productions`, `precedence`), independently of the texts in `Verif/Source/Text.lean`.
-/
namespace PyDice.Source

/-- The class of `src/syntax/` that describes a token. -/
def className : TokType → String
  | .openP => "OpenParenthesisSyntax"
  | .closeP => "CloseParenthesisSyntax"
  | .comma => "CommaSyntax"
  | .not => "NotSyntax"
  | .dropKeep => "DropKeepSyntax"
  | .dice => "DiceSyntax"
  | .binop => "BinaryOperatorSyntax"
  | .constInt => "ConstantIntegerSyntax"
  | .constBin => "ConstantBinarySyntax"
  | .add => "AddSyntax"
  | .sub => "SubtractSyntax"
  | .mul => "MultiplySyntax"
  | .div => "IntegerDivisionSyntax"
  | .minmax => "MinMaxSyntax"
  | .abs => "AbsSyntax"
  | .assign => "AssignmentSyntax"
  | .var => "VarSyntax"
  | .name => "NameSyntax"

/-- The class of `src/expression/` behind each production (from the first on), the production function inside it, and its text. -/
def expressionClasses : List (String × String × PyFun) :=
  [("ParenthesisEnclosedExpression", "parenthesis_enclosed", Text.ParenthesisEnclosedExpression.production),
   ("NotExpression", "not_operation", Text.NotExpression.production),
   ("DropKeepExpression", "drop_keep", Text.DropKeepExpression.production),
   ("DiceExpression", "dice", Text.DiceExpression.production),
   ("ConstantIntegerExpression", "constant_integer", Text.ConstantIntegerExpression.production),
   ("ConstantBinaryExpression", "constant_binary", Text.ConstantBinaryExpression.production),
   ("AddExpression", "add", Text.AddExpression.production),
   ("SubtractExpression", "subtract", Text.SubtractExpression.production),
   ("MultiplyExpression", "multiply", Text.MultiplyExpression.production),
   ("IntegerDivisionExpression", "integer_division", Text.IntegerDivisionExpression.production),
   ("BinaryOperatorExpression", "binary_operator", Text.BinaryOperatorExpression.production),
   ("MinMaxExpression", "min_max", Text.MinMaxExpression.production),
   ("AbsExpression", "abs_operation", Text.AbsExpression.production),
   ("VarAssignmentExpression", "var_assignment_operation", Text.VarAssignmentExpression.production),
   ("GetVarExpression", "get_var", Text.GetVarExpression.production)]

/-- The name of a symbol in a rule. -/
def symName : Sym → Str
  | .tok t => t.tokenName
  | .eof => "$end".toList
  | .expr => "expression".toList
  | .start => "S'".toList

/-- A production as rply reads it: the symbols, with a blank in front of each but the first. -/
def ruleText (p : Production) : Str := symName p.lhs ++ " :".toList ++ p.rhs.flatMap fun s => ' ' :: symName s

/-- How rply names an associativity. -/
def assocName : Assoc → Str
  | .left => "left".toList
  | .right => "right".toList
  | .nonassoc => "nonassoc".toList

/-- `PRECEDENCE`. -/
def precedenceV : Val GObj :=
  .list (precedence.map fun p => .tuple [.str (assocName p.1), .list (p.2.map fun t => .str t.tokenName)])

/-- The names that `python_dice_syntax_objects.py` imports and those it defines. -/
def globals : Env GObj := classEnv ++
  [("LEXER_SYNTAX", .list (lexerSyntax.map fun t => .obj (.cls (className t)))),
   ("PARSER_EXPRESSIONS", .list (expressionClasses.map fun c => .obj (.cls c.1))),
   ("PRECEDENCE", precedenceV)]

/-- The calls that make the lexer. -/
def lexerCalls : List GenCall :=
  ⟨["rply", "LexerGenerator"], []⟩ ::
  lexerSyntax.map (fun t => ⟨["LexerGenerator", "add"], [.str t.tokenName, .str (Conform.source t)]⟩) ++
  [⟨["LexerGenerator", "ignore"], [.str ['\\', 's', '+']]⟩, ⟨["LexerGenerator", "build"], []⟩]

/-- The calls that make the parser. -/
def parserCalls : List GenCall :=
  ⟨["rply", "ParserGenerator"], [.list (lexerSyntax.map fun t => .str t.tokenName), .kwv "precedence" precedenceV]⟩ ::
  (productions.tail.zip expressionClasses).map
    (fun p => ⟨["ParserGenerator", "production"], [.str (ruleText p.1), .glob [p.2.2.1]]⟩) ++
  [⟨["ParserGenerator", "error"], [.glob ["error_handler"]]⟩, ⟨["ParserGenerator", "build"], []⟩]

/-- Make calls and return a value. -/
def making {α : Type} (calls : List GenCall) (r : α) : GenM α := fun before => .ok (r, before ++ calls)

/-- An argument of the constructor that may be left out. -/
def optArg : Option String → Val GObj
  | none => .none
  | some n => .obj (.other n)

/-- The function nested in another one: its name, parameters and body. -/
def nested (f : PyFun) : Option (String × List String × PyS) :=
  match f.body with
  | .defn n ps b _ => some (n, ps, b)
  | _ => none

end PyDice.Source
