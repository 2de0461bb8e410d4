import Verif.Source.Semantics
import Verif.Source.Text
import Verif.Parser
import Verif.Interp
import Verif.Repr
/-!
# The model as a world for the project's functions

What the objects, classes and library functions used by the bodies in `Verif/Source/Text.lean` are: the model's.  A call of a method of an object is
the model's function for that method; that the model's function does what the method's own body says is what the theorems of C72 show, one by one.
The calls follow the structure of the objects (a method calls methods of parts, or other methods earlier in the order of the theorems), so
the equations determine the functions.
-/

namespace PyDice.Source
open PyRuntime

section
variable [R : PyRuntime]

/-- An int or a float. -/
inductive PyNum where
  | i (n : Int)
  | f (x : ℚ)
  deriving DecidableEq

/-- The number. -/
def PyNum.q : PyNum → ℚ
  | .i n => n
  | .f x => x

/-- The number as a float. -/
def PyNum.float (toFl : ℚ → Res ℚ) : PyNum → Res ℚ
  | .i n => toFl n
  | .f x => .ok x

/-- As a value. -/
def PyNum.val {Ω : Type} : PyNum → Val Ω
  | .i n => .int n
  | .f x => .flt x

/-- What `_make_histogram` draws: x values, weights and bins of the histogram, and where the average line stands and how high it is. -/
structure HistPic where
  xs : List Int
  ys : List PyNum
  bins : List ℚ
  line : Option (ℚ × ℚ)

/-- What `_make_line_plot` draws: the x and y values of two lines. -/
structure LinePic where
  xs : List Int
  ys : List PyNum
  xs' : List Int
  ys' : List PyNum

/-- The objects. -/
inductive Obj where
  | outcome (o : Outcome)
  | dist (d : Dist)
  /-- a `ConstraintSet`, represented by its `_constraints_set` -/
  | cset (s : CSet)
  /-- a Python `set` of constraints -/
  | raw (s : CSet)
  /-- `set()` -/
  | noset
  | con (c : Constraint)
  /-- a Python `set` of ints -/
  | ints (l : List Int)
  /-- a Python `set` of names -/
  | names (l : List Str)
  | expr (e : Expr)
  /-- the interpreter's state and its three dicts -/
  | state | consts | vars | times
  /-- an object without data of its own: the factories and the merger -/
  | svc (cls : String)
  /-- a parser, given by what it makes of a line -/
  | parser (parse : Str → Res Expr)
  /-- the parser of rply inside it, the tokens of a line, and an interpreter with that parser -/
  | rply (parse : Str → Res Expr) | stream (line : Str) | interp (parse : Str → Res Expr)
  /-- a token of rply -/
  | token (text : Str)
  /-- the result of `re.match` -/
  | reMatch
  /-- the image that `_make_histogram` draws, and the one that `_make_line_plot` draws with two labels -/
  | drawn (p : HistPic) | lines (p : LinePic) (one two : Str)

/-- Values over these objects. -/
abbrev V := Val Obj

/-- `==` of objects that occur as dict keys. -/
def Obj.eqv : Obj → Obj → Bool
  | .outcome a, .outcome b => a == b
  | .con a, .con b => decide (a = b)
  | .cset a, .cset b => csEq a b
  | _, _ => false

instance : BEq Obj := ⟨Obj.eqv⟩

/-- A step that may raise. -/
def liftR {α : Type} (r : Res α) : RollM α := RollM.ofEval (EvalM.ofRes r)

/-- A step on the state. -/
def liftE {α : Type} (m : EvalM α) : RollM α := RollM.ofEval m

/-- Raising. -/
def throwM {α : Type} (e : Err) : RollM α := liftR (.error e)

/-! ### Dicts as values -/

/-- A dict of outcomes. -/
def encO (d : List (Outcome × Nat)) : List (V × V) := d.map fun p => (.obj (.outcome p.1), .int (p.2 : Int))
/-- A dict of ints. -/
def encI (d : List (Int × Nat)) : List (V × V) := d.map fun p => (.int p.1, .int (p.2 : Int))
/-- A dict of texts. -/
def encS (d : List (Str × Nat)) : List (V × V) := d.map fun p => (.str p.1, .int (p.2 : Int))
/-- A dict of floats. -/
def encQ (d : List (Int × ℚ)) : List (V × V) := d.map fun p => (.int p.1, .flt p.2)
/-- A dict of ints by name. -/
def encC (d : List (Str × Int)) : List (V × V) := d.map fun p => (.str p.1, .int p.2)
/-- A dict of distributions by name. -/
def encD (d : List (Str × Dist)) : List (V × V) := d.map fun p => (.str p.1, .obj (.dist p.2))

/-- Read back `encO`. -/
def decO : List (V × V) → Option (List (Outcome × Nat))
  | [] => some []
  | (.obj (.outcome o), .int n) :: t => ((o, n.toNat) :: ·) <$> decO t
  | _ => none
/-- Read back `encI`. -/
def decI : List (V × V) → Option (List (Int × Nat))
  | [] => some []
  | (.int i, .int n) :: t => ((i, n.toNat) :: ·) <$> decI t
  | _ => none
/-- Read back `encS`. -/
def decS : List (V × V) → Option (List (Str × Nat))
  | [] => some []
  | (.str s, .int n) :: t => ((s, n.toNat) :: ·) <$> decS t
  | _ => none
/-- Read back a dict of numbers; an int is a number too. -/
def decQ : List (V × V) → Option (List (Int × ℚ))
  | [] => some []
  | (.int i, .flt q) :: t => ((i, q) :: ·) <$> decQ t
  | (.int i, .int q) :: t => ((i, (q : ℚ)) :: ·) <$> decQ t
  | _ => none
/-- Read a list of ints. -/
def decInts : List V → Option (List Int)
  | [] => some []
  | .int i :: t => (i :: ·) <$> decInts t
  | _ => none
/-- Read a list of numbers. -/
def decNums : List V → Option (List ℚ)
  | [] => some []
  | .flt q :: t => (q :: ·) <$> decNums t
  | .int i :: t => ((i : ℚ) :: ·) <$> decNums t
  | _ => none

/-- Read a list of numbers, ints and floats apart. -/
def decN : List V → Option (List PyNum)
  | [] => some []
  | .flt q :: t => (.f q :: ·) <$> decN t
  | .int i :: t => (.i i :: ·) <$> decN t
  | _ => none

/-- Continue with a decoded argument. -/
def withDec {α β : Type} (o : Option α) (f : α → RollM β) : RollM β := match o with | some a => f a | none => throwM .type

/-- A `set` of constraints. -/
def asRaw : Obj → Option CSet
  | .raw s => some s
  | .noset => some empty
  | _ => none

/-- A `set` of names. -/
def asNames : Obj → Option (List Str)
  | .names l => some l
  | .noset => some []
  | _ => none

/-- Arguments by the parameter names of the function called (without `self`). -/
def withArgs {β : Type} (f : PyFun) (args : List V) (k : List V → RollM β) : RollM β :=
  match bindArgs f.defaults f.params.tail args with
  | some vs => k vs
  | none => throwM .type

/-- The operator on outcomes that a combination function and the flag `binary_values` stand for. -/
def opOf : V → Bool → Option BinOp
  | .glob ["operator", "add"], false => some .add
  | .glob ["operator", "sub"], false => some .sub
  | .glob ["operator", "mul"], false => some .mul
  | .glob ["operator", "floordiv"], false => some .floordiv
  | .glob ["operator", "eq"], false => some .eq
  | .glob ["operator", "ne"], false => some .ne
  | .glob ["operator", "lt"], false => some .lt
  | .glob ["operator", "le"], false => some .le
  | .glob ["operator", "gt"], false => some .gt
  | .glob ["operator", "ge"], false => some .ge
  | .glob ["operator", "and_"], true => some .and
  | .glob ["operator", "or_"], true => some .or
  | .glob ["max"], false => some .max
  | .glob ["min"], false => some .min
  | _, _ => none

/-- The operator behind `+`, `-`, `*`, `//`. -/
def bopOf : BOp → Option BinOp
  | .add => some .add | .sub => some .sub | .mul => some .mul | .floordiv => some .floordiv | .div => none

/-- The operator behind `<`, `<=`, `>`, `>=`. -/
def copOf : COp → Option BinOp
  | .lt => some .lt | .le => some .le | .gt => some .gt | .ge => some .ge | _ => none

/-! ### Attributes -/

/-- Attributes of outcomes (`probability_outcome.py:13-22`). -/
def attrOutcome (o : Outcome) : String → RollM V
  | "value" => pure (.int o.value)
  | "_value" => pure (.int o.value)
  | "constraint_set" => pure (.obj (.cset o.cs))
  | "_constraint_set" => pure (.obj (.cset o.cs))
  | _ => throwM .type

/-- Attributes of distributions (`probability_distribution.py:20-22`). -/
def attrDist (d : Dist) : String → RollM V
  | "_result_map" => pure (.dict (encO d.resultMap))
  | "_outcome_count" => pure (.int (d.outcomeCount : Int))
  | "_probability_outcome_factory" => pure (.obj (.svc "ProbabilityOutcomeFactory"))
  | _ => throwM .type

/-- Attributes of constraint sets (`constraint_set.py:11-21`). -/
def attrCSet (s : CSet) : String → RollM V
  | "_constraints_set" => pure (.obj (.raw s))
  | "_constraint_merger" => pure (.obj (.svc "ConstraintMerger"))
  | "constraints" => pure (.obj (.raw (copy s)))
  | _ => throwM .type

/-- Attributes of variable constraints (`var_value_constraint.py:9-20`). -/
def attrCon : Constraint → String → RollM V
  | .varValue n _, "name" => pure (.str n)
  | .varValue n _, "_name" => pure (.str n)
  | .varValue _ vs, "values" => pure (.obj (.ints vs))
  | .varValue _ vs, "_values" => pure (.obj (.ints vs))
  | .varValue _ _, "_constraint_factory" => pure (.obj (.svc "ConstraintFactory"))
  | _, _ => throwM .type

/-- Attributes of the state (`probability_distribution_state.py:15-22`). -/
def attrState : String → RollM V
  | "_constants" => pure (.obj .consts)
  | "_var" => pure (.obj .vars)
  | "_number_of_times_set" => pure (.obj .times)
  | "_probability_distribution_factory" => pure (.obj (.svc "ProbabilityDistributionFactory"))
  | "_constraint_factory" => pure (.obj (.svc "ConstraintFactory"))
  | _ => throwM .type

/-- Attributes of the factories. -/
def attrSvc : String → String → RollM V
  | "ConstraintFactory", "impossible_constraint" => pure (.obj (.con .impossible))
  | "ConstraintFactory", "null_constraint" => pure (.obj (.con .null))
  | "ConstraintFactory", "__impossible_constraint" => pure (.obj (.con .impossible))
  | "ConstraintFactory", "__null_constraint" => pure (.obj (.con .null))
  | "ConstraintSetFactory", "_constraint_merger" => pure (.obj (.svc "ConstraintMerger"))
  | "ConstraintSetFactory", "_constraint_factory" => pure (.obj (.svc "ConstraintFactory"))
  | "ProbabilityOutcomeFactory", "_constraint_set_factory" => pure (.obj (.svc "ConstraintSetFactory"))
  | "ProbabilityDistributionFactory", "_probability_outcome_factory" => pure (.obj (.svc "ProbabilityOutcomeFactory"))
  | "ProbabilityDistributionStateFactory", "_probability_distribution_factory" =>
    pure (.obj (.svc "ProbabilityDistributionFactory"))
  | "ProbabilityDistributionStateFactory", "_constraint_factory" => pure (.obj (.svc "ConstraintFactory"))
  | _, _ => throwM .type

/-- Attributes of the parser (`python_dice_parser.py:40,55-56`). -/
def attrParser (p : Str → Res Expr) : String → RollM V
  | "_lexer" => pure (.obj (.svc "PythonDiceLexer"))
  | "_parser" => pure (.obj (.rply p))
  | "_probability_distribution_state_factory" => pure (.obj (.svc "ProbabilityDistributionStateFactory"))
  | _ => throwM .type

/-- Attributes of the interpreter (`python_dice_interpreter.py:40-42`). -/
def attrInterp (p : Str → Res Expr) : String → RollM V
  | "_parser" => pure (.obj (.parser p))
  | "_state" => pure (.obj .state)
  | "_probability_distribution_factory" => pure (.obj (.svc "ProbabilityDistributionFactory"))
  | _ => throwM .type

/-- `MAX` / `MIN`. -/
def minmaxText (isMax : Bool) : Str := if isMax then ['M', 'A', 'X'] else ['M', 'I', 'N']

/-- `BinaryOperatorExpression.OPERATOR_MAP` (`binary_operator_expression.py:27-36`). -/
def operatorMap : List (V × V) :=
  [(.str ['=', '='], .lam ["x", "y"] (.callAttr (.name "BinaryOperatorExpression") "__equal__"
      (.cons (.name "x") (.cons (.name "y") .nil)))),
   (.str ['!', '='], .lam ["x", "y"] (.callAttr (.name "BinaryOperatorExpression") "__not_equal__"
      (.cons (.name "x") (.cons (.name "y") .nil)))),
   (.str ['<', '='], .glob ["operator", "le"]), (.str ['<'], .glob ["operator", "lt"]),
   (.str ['>', '='], .glob ["operator", "ge"]), (.str ['>'], .glob ["operator", "gt"]),
   (.str ['A', 'N', 'D'], .glob ["operator", "and_"]), (.str ['O', 'R'], .glob ["operator", "or_"])]

/-- `MinMaxExpression.OPERATOR_MAP` (`minmax_expression.py:14`). -/
def minmaxMap : List (V × V) := [(.str ['M', 'A', 'X'], .glob ["max"]), (.str ['M', 'I', 'N'], .glob ["min"])]

/-- `_simplified_form` of a keep/drop term (`drop_keep_expression.py:35-53`). -/
def simplifiedV : Simplified → V
  | .none => .none
  | .dice d => .obj (.expr (.dice d))
  | .zero => .obj (.expr (.constInt ['0']))

/-- The fields of the expression classes, as their constructors set them. -/
def attrExpr : Expr → String → RollM V
  | .paren e, "_expression" => pure (.obj (.expr e))
  | .not e, "_expression" => pure (.obj (.expr e))
  | .abs e, "_expression" => pure (.obj (.expr e))
  | .dropKeep t, "_string_form" => pure (.str t.form)
  | .dropKeep t, "_number_of_dice" => pure (.int (t.number : Int))
  | .dropKeep t, "_single_dice_outcome_map" => pure (.dict (encI t.table))
  | .dropKeep t, "_number_to_keep_or_drop" => pure (.int (t.count : Int))
  | .dropKeep t, "_simplified_form" => pure (simplifiedV t.simplified)
  | .dropKeep _, "_probability_distribution_factory" => pure (.obj (.svc "ProbabilityDistributionFactory"))
  | .dice t, "_string_form" => pure (.str t.form)
  | .dice t, "_number_of_dice" => pure (.int (t.number : Int))
  | .dice t, "_single_dice_outcome_map" => pure (.dict (encI t.table))
  | .dice _, "_probability_distribution_factory" => pure (.obj (.svc "ProbabilityDistributionFactory"))
  | .constInt t, "_number" => pure (.str t)
  | .constInt _, "_probability_distribution_factory" => pure (.obj (.svc "ProbabilityDistributionFactory"))
  | .constBin t, "_binary_string" => pure (.str t)
  | .constBin _, "_probability_distribution_factory" => pure (.obj (.svc "ProbabilityDistributionFactory"))
  | .add a _, "_expression_one" => pure (.obj (.expr a))
  | .add _ b, "_expression_two" => pure (.obj (.expr b))
  | .sub a _, "_expression_one" => pure (.obj (.expr a))
  | .sub _ b, "_expression_two" => pure (.obj (.expr b))
  | .mul a _, "_expression_one" => pure (.obj (.expr a))
  | .mul _ b, "_expression_two" => pure (.obj (.expr b))
  | .div a _, "_expression_one" => pure (.obj (.expr a))
  | .div _ b, "_expression_two" => pure (.obj (.expr b))
  | .bin _ a _, "_expression_one" => pure (.obj (.expr a))
  | .bin _ _ b, "_expression_two" => pure (.obj (.expr b))
  | .bin op _ _, "_operator" => pure (.str op.text)
  | .bin _ _ _, "OPERATOR_MAP" => pure (.dict operatorMap)
  | .minmax _ a _, "_expression_one" => pure (.obj (.expr a))
  | .minmax _ _ b, "_expression_two" => pure (.obj (.expr b))
  | .minmax k _ _, "_min_max" => pure (.str (minmaxText k))
  | .minmax _ _ _, "OPERATOR_MAP" => pure (.dict minmaxMap)
  | .assign _ _, "_state" => pure (.obj .state)
  | .assign n _, "_name" => pure (.str n)
  | .assign _ e, "_expression" => pure (.obj (.expr e))
  | .getVar _, "_state" => pure (.obj .state)
  | .getVar n, "_name" => pure (.str n)
  | _, _ => throwM .type

/-- Attributes of objects. -/
def attrObj : Obj → String → RollM V
  | .outcome o, a => attrOutcome o a
  | .dist d, a => attrDist d a
  | .cset s, a => attrCSet s a
  | .con c, a => attrCon c a
  | .state, a => attrState a
  | .svc c, a => attrSvc c a
  | .expr e, a => attrExpr e a
  | .parser p, a => attrParser p a
  | .interp p, a => attrInterp p a
  | .token t, "value" => pure (.str t)
  | _, _ => throwM .type

/-! ### Methods -/

/-- An outcome as a value. -/
def oV : Outcome → V := fun o => .obj (.outcome o)
/-- A distribution as a value. -/
def dV : Dist → V := fun d => .obj (.dist d)

/-- Methods of outcomes (`probability_outcome.py`). -/
def methodOutcome (o : Outcome) (f : String) (args : List V) : RollM V :=
  match f, args with
  | "_combine", args => withArgs Text.ProbabilityOutcome._combine args fun
    | [g, .obj (.outcome p), .bool b] => withDec (opOf g b) fun op => oV <$> liftR (Outcome.combine op o p)
    | _ => throwM .type
  | "_value_to_binary_value", [.int v] => pure (.bool (valueToBinary v))
  | "_binary_to_int", [.bool b] => pure (.int (binaryToInt b))
  | "is_possible", [] => pure (.bool o.isPossible)
  | "not_operator", [] => pure (oV o.notOp)
  | "__equal__", [.obj (.outcome p)] => oV <$> liftR (Outcome.combine .eq o p)
  | "__not_equal__", [.obj (.outcome p)] => oV <$> liftR (Outcome.combine .ne o p)
  | "max_operator", [.obj (.outcome p)] => oV <$> liftR (Outcome.combine .max o p)
  | "min_operator", [.obj (.outcome p)] => oV <$> liftR (Outcome.combine .min o p)
  | "__str__", [] => pure (.str o.text)
  | _, _ => throwM .type

/-- The operator on distributions behind a combination function handed to `_combine_distributions`. -/
def distOpOf : V → Option BinOp
  | .glob ["operator", "add"] => some .add
  | .glob ["operator", "sub"] => some .sub
  | .glob ["operator", "mul"] => some .mul
  | .glob ["operator", "floordiv"] => some .floordiv
  | .glob ["operator", "lt"] => some .lt
  | .glob ["operator", "le"] => some .le
  | .glob ["operator", "gt"] => some .gt
  | .glob ["operator", "ge"] => some .ge
  | .glob ["operator", "and_"] => some .and
  | .glob ["operator", "or_"] => some .or
  | .lam ["x", "y"] (.callAttr (.name "x") "__equal__" (.cons (.name "y") .nil)) => some .eq
  | .lam ["x", "y"] (.callAttr (.name "x") "__not_equal__" (.cons (.name "y") .nil)) => some .ne
  | .lam ["x", "y"] (.callAttr (.name "x") "max_operator" (.cons (.name "y") .nil)) => some .max
  | .lam ["x", "y"] (.callAttr (.name "x") "min_operator" (.cons (.name "y") .nil)) => some .min
  | _ => none

/-- Methods of distributions (`probability_distribution.py`). -/
def methodDist (d : Dist) (f : String) (args : List V) : RollM V :=
  match f, args with
  | "get_result_map", [] => pure (.dict (encI d.getResultMap))
  | "get_constraint_result_map", [] => pure (.dict (encO d.getConstraintResultMap))
  | "max", [] => .int <$> liftR d.max
  | "min", [] => .int <$> liftR d.min
  | "contains_zero", [] => pure (.bool d.containsZero)
  | "not_operator", [] => pure (dV d.notOp)
  | "_combine_distributions", [g, .obj (.dist e)] => withDec (distOpOf g) fun op =>
    (fun m => .dict (encO m)) <$> liftR (combineLoop op (pairsOf d.resultMap e.getConstraintResultMap) [])
  | "__equal__", [.obj (.dist e)] => dV <$> liftR (Dist.binop .eq d e)
  | "__not_equal__", [.obj (.dist e)] => dV <$> liftR (Dist.binop .ne d e)
  | "max_operator", [.obj (.dist e)] => dV <$> liftR (Dist.binop .max d e)
  | "min_operator", [.obj (.dist e)] => dV <$> liftR (Dist.binop .min d e)
  | _, _ => throwM .type

/-- Methods of constraint sets (`constraint_set.py`) and of `set`s of constraints; the second component is the changed object. -/
def methodCSet (s : CSet) (f : String) (args : List V) : RollM (V × Option Obj) :=
  match f, args with
  | "add_constraint", [.obj (.con c)] => do return (.none, some (.cset (← liftR (addConstraint s c))))
  | "is_possible", [] => pure (.bool (csPossible s), none)
  | "combine_sets", [.obj (.cset t)] => do return (.obj (.cset (← liftR (combineSets s t))), none)
  | "__str__", [] => pure (.str (csText s), none)
  | _, _ => throwM .type

/-- Methods of Python's `set` on constraints. -/
def methodRaw (s : CSet) (f : String) (args : List V) : RollM (V × Option Obj) :=
  match f, args with
  | "copy", [] => pure (.obj (.raw (copy s)), none)
  | "union", [.obj (.raw t)] => pure (.obj (.raw (union s t)), none)
  | "remove", [.obj (.con c)] => pure (.none, some (.raw (erase s c)))
  | "add", [.obj (.con c)] => pure (.none, some (.raw (insert s c)))
  | _, _ => throwM .type

/-- The partial function that a dict of ints by name is. -/
def intsByName (v : List (V × V)) (n : Str) : Option Int := match dictGet? v (.str n) with
  | some (.int i) => some i
  | _ => none

/-- Methods of constraints. -/
def methodCon (c : Constraint) (f : String) (args : List V) : RollM V :=
  match f, args with
  | "can_merge", [.obj (.con d)] => pure (.bool (c.canMerge d))
  | "merge", [.obj (.con d)] => (fun r => .obj (.con r)) <$> liftR (c.merge d)
  | "is_possible", [] => pure (.bool c.isPossible)
  | "complies", [.kwv "var_values" (.dict v)] => pure (.bool (c.complies (intsByName v)))
  | "__str__", [] => pure (.str c.text)
  | "__eq__", [.obj (.con d)] => pure (.bool (decide (c.text = d.text)))
  | _, _ => throwM .type

/-- A distribution from a dict of outcomes or of ints. -/
def createDist (l : List (V × V)) : RollM V :=
  match decO l with
  | some m => pure (dV (mkDist m))
  | none => withDec (decI l) fun m => dV <$> liftR (mkDistInt m)

/-- Methods of the factories and the merger. -/
def methodSvc (cls f : String) (args : List V) : RollM V :=
  match cls, f, args with
  | "ConstraintFactory", "var_value_constraint", args => withArgs Text.ConstraintFactory.var_value_constraint args fun
    | [.str n, .obj (.ints vs)] => pure (.obj (.con (.varValue n vs)))
    | _ => throwM .type
  | "ConstraintMerger", "merge_new_constraints", args => withArgs Text.ConstraintMerger.merge_new_constraints args fun
    | [.obj s, .obj (.con c)] => withDec (asRaw s) fun s => (fun r => .obj (.raw r)) <$> liftR (mergeNewConstraints s c)
    | _ => throwM .type
  | "ConstraintSetFactory", "create_constraint_set", [] => (fun r => .obj (.cset r)) <$> liftR createConstraintSet
  | "ProbabilityOutcomeFactory", "create_empty", args => withArgs Text.ProbabilityOutcomeFactory.create_empty args fun
    | [.int v] => oV <$> liftR (createEmpty v)
    | _ => throwM .type
  | "ProbabilityDistributionFactory", "create", args => withArgs Text.ProbabilityDistributionFactory.create args fun
    | [.none] => pure (dV (mkDist []))
    | [.dict l] => createDist l
    | _ => throwM .type
  | "ProbabilityDistributionStateFactory", "create_new_empty_set", [] => pure (.obj .state)
  | "PythonDiceLexer", "lex", [.str t] => pure (.obj (.stream t))
  | _, _, _ => throwM .type

/-- Methods of the state (`probability_distribution_state.py`). -/
def methodState (f : String) (args : List V) : RollM V :=
  match f, args with
  | "get_constant", [.str n] => .int <$> liftE (EvalM.read fun s => s.getConstant n)
  | "get_var", [.str n] => dV <$> liftE (EvalM.read fun s => s.getVar n)
  | "has_constant", [.str n] => .bool <$> liftE (EvalM.read fun s => .ok (s.hasConstant n))
  | "has_var", [.str n] => .bool <$> liftE (EvalM.read fun s => .ok (s.hasVar n))
  | "set_constant", [.str n, .int v] => (fun _ => .none) <$> liftE (EvalM.setConstant n v)
  | "set_var", [.str n, .obj (.dist d)] => (fun _ => .none) <$> liftE (EvalM.setVar n d)
  | "get_constant_dict", [] => pure (.obj .consts)
  | "get_var_dict", [] => pure (.obj .vars)
  | _, _ => throwM .type

/-- Methods of expressions. -/
def methodExpr (e : Expr) (f : String) (args : List V) : RollM V :=
  match f, args with
  | "roll", [] => .int <$> e.roll
  | "max", [] => .int <$> liftE (e.extreme true)
  | "min", [] => .int <$> liftE (e.extreme false)
  | "estimated_cost", [] => .int <$> liftE e.cost
  | "get_probability_distribution", [] => dV <$> liftE e.dist
  | "get_contained_variables", [] => pure (.obj (.names e.contained))
  | "_get_value", [] => match e with
    | .constBin t => pure (.int (binValue t))
    | _ => throwM .type
  | "_is_keep", [] => match e with
    | .dropKeep t => pure (.bool t.keep)
    | _ => throwM .type
  | _, _ => throwM .type

/-- The content of one of the state's dicts. -/
def contentOf : Obj → RollM (List (V × V))
  | .consts => (fun s => encC s) <$> liftE (EvalM.read fun s => .ok s.constants)
  | .vars => (fun s => encD s) <$> liftE (EvalM.read fun s => .ok s.var)
  | .times => (fun s => encS s) <$> liftE (EvalM.read fun s => .ok s.timesSet)
  | _ => throwM .type

/-- `self._constants[n] = v`. -/
def putConst (n : Str) (v : Int) : EvalM Unit := fun s => (.ok (), { s with constants := dictSet s.constants n v })

/-- `self._var[n] = d`. -/
def putVar (n : Str) (d : Dist) : EvalM Unit := fun s => (.ok (), { s with var := dictSet s.var n d })

/-- `self._number_of_times_set[n] = k`. -/
def putTimes (n : Str) (k : Nat) : EvalM Unit := fun s => (.ok (), { s with timesSet := dictSet s.timesSet n k })

/-- Methods of objects, apart from those that make floats. -/
def methodObj (o : Obj) (f : String) (args : List V) : RollM (V × Option Obj) :=
  match o, f, args with
  | .outcome o, f, args => do return (← methodOutcome o f args, none)
  | .dist d, f, args => do return (← methodDist d f args, none)
  | .cset s, f, args => methodCSet s f args
  | .raw s, f, args => methodRaw s f args
  | .noset, f, args => methodRaw empty f args
  | .con c, f, args => do return (← methodCon c f args, none)
  | .ints l, "intersection", [.obj (.ints k)] => pure (.obj (.ints (inter l k)), none)
  | .names l, "union", [.obj k] => withDec (asNames k) fun k => pure (.obj (.names (l ++ k)), none)
  | .expr e, f, args => do return (← methodExpr e f args, none)
  | .state, f, args => do return (← methodState f args, none)
  | .svc c, f, args => do return (← methodSvc c f args, none)
  | .parser p, "parse", [.str t, .kwv "state" (.obj .state)] => do
    return (.tuple [.obj (.expr (← liftR (p t))), .obj .state], none)
  | .rply p, "parse", [.obj (.stream t), .kwv "state" (.obj .state)] => do return (.obj (.expr (← liftR (p t))), none)
  | o, "items", [] => do return (.list ((← contentOf o).map fun p => .tuple [p.1, p.2]), none)
  | o, "keys", [] => do return (.list ((← contentOf o).map Prod.fst), none)
  | _, _, _ => throwM .type

/-! ### The figures of a distribution, with the floats of the world -/

/-- `get_dict_form` (`probability_distribution.py:236-237`). -/
def dictFormG (toFl : ℚ → Res ℚ) (d : Dist) : Res (List (Int × ℚ)) :=
  d.getResultMap.mapM (fun p =>
    if d.outcomeCount = 0 then .error .zeroDivision else do return (p.1, ← toFl ((p.2 : ℚ) / (d.outcomeCount : ℚ))))

/-- `average` (`probability_distribution.py:193-197`). -/
def averageG (toFl : ℚ → Res ℚ) (d : Dist) : Res ℚ :=
  let total := d.getResultMap.foldl (fun t p => t + p.1 * (p.2 : Int)) (0 : Int)
  if d.outcomeCount = 0 then .error .zeroDivision else toFl ((total : ℚ) / (d.outcomeCount : ℚ))

/-- `_get_histogram_form` (`probability_distribution.py:239-247`) as a dict of values: missing keys get the int 0. -/
def histV (base : List (Int × ℚ)) : Res (List (V × V)) :=
  let itemList := base.mergeSort (fun a b => decide (a.1 ≤ b.1))
  match itemList.head?, itemList.getLast? with
  | some lo, some hi => .ok ((pyRange lo.1 (hi.1 + 1)).foldl
      (fun d i => if (dictGet? d (.int i)).isSome then d else dictSet d (.int i) (.int 0)) (encQ base))
  | _, _ => .error .index

/-- The loop of `at_least` (`probability_distribution.py:205-207`). -/
def atLeastLoopG (rnd : ℚ → ℚ) (h : List (Int × ℚ)) : List Int → ℚ → List (Int × ℚ) → List (Int × ℚ)
  | [], _, acc => acc
  | v :: rest, above, acc =>
    atLeastLoopG rnd h rest (rnd (above - (dictGet? h v).getD 0)) (dictSet acc v (rnd (above / 1)))

/-- `at_least` (`probability_distribution.py:199-208`). -/
def atLeastG (toFl : ℚ → Res ℚ) (rnd : ℚ → ℚ) (d : Dist) : Res (List (Int × ℚ)) := do
  let h ← getHistogramForm (← dictFormG toFl d)
  return atLeastLoopG rnd h ((h.map Prod.fst).mergeSort (fun a b => decide (a ≤ b))) 1 []

/-- The loop of `at_most` (`probability_distribution.py:216-218`). -/
def atMostLoopG (rnd : ℚ → ℚ) (h : List (Int × ℚ)) : List Int → ℚ → List (Int × ℚ) → List (Int × ℚ)
  | [], _, acc => acc
  | v :: rest, below, acc =>
    let below' := rnd (below + (dictGet? h v).getD 0)
    atMostLoopG rnd h rest below' (dictSet acc v (rnd (below' / 1)))

/-- `at_most` (`probability_distribution.py:210-219`). -/
def atMostG (toFl : ℚ → Res ℚ) (rnd : ℚ → ℚ) (d : Dist) : Res (List (Int × ℚ)) := do
  let h ← getHistogramForm (← dictFormG toFl d)
  return atMostLoopG rnd h ((h.map Prod.fst).mergeSort (fun a b => decide (a ≤ b))) 0 []

/-! ### The plots, with the floats of the world -/

/-- `(list(t) for t in zip(*sorted(zip(xs, ys))))` (`probability_distribution.py:135, 168-169`); unpacking the two lists raises `ValueError` when there
    is nothing to unpack. -/
def sortedPairs (xs : List Int) (ys : List PyNum) : Res (List Int × List PyNum) :=
  let s := (xs.zip ys).mergeSort (fun a b => decide (a.1 < b.1 ∨ (a.1 = b.1 ∧ a.2.q ≤ b.2.q)))
  if s.length = 0 then .error .value else .ok (s.map Prod.fst, s.map Prod.snd)

/-- The first of the largest of some numbers. -/
def maxN : List PyNum → PyNum → PyNum
  | [], x => x
  | y :: t, x => if x.q < y.q then maxN t y else maxN t x

/-- `max_height * 1.1` (`probability_distribution.py:149`). -/
def heightG (toFl : ℚ → Res ℚ) (rnd : ℚ → ℚ) (x : PyNum) : Res ℚ := do return rnd ((← x.float toFl) * rnd (11 / 10))

/-- `value - 0.5` (`probability_distribution.py:136`). -/
def lowG (toFl : ℚ → Res ℚ) (rnd : ℚ → ℚ) (v : Int) : Res ℚ := do return rnd ((← toFl (v : ℚ)) - rnd (1 / 2))

/-- `x_values[-1] + 0.5` (`probability_distribution.py:137`). -/
def highG (toFl : ℚ → Res ℚ) (rnd : ℚ → ℚ) (v : Int) : Res ℚ := do return rnd ((← toFl (v : ℚ)) + rnd (1 / 2))

/-- `_make_histogram` up to the calls of matplotlib (`probability_distribution.py:129-152`). -/
def makeHistG (toFl : ℚ → Res ℚ) (rnd : ℚ → ℚ) (xs : List Int) (ys : List PyNum) (average : Option ℚ) : Res HistPic := do
  let (xs, ys) ← sortedPairs xs ys
  let bins ← xs.mapM (lowG toFl rnd)
  match xs.getLast?, ys with
  | some last, y :: t =>
    let top ← highG toFl rnd last
    match average with
    | none => return ⟨xs, ys, bins ++ [top], none⟩
    | some a => return ⟨xs, ys, bins ++ [top], some (a, ← heightG toFl rnd (maxN t y))⟩
  | _, _ => .error .index

/-- `_make_line_plot` up to the calls of matplotlib (`probability_distribution.py:160-172`). -/
def makeLinesG (xs : List Int) (ys : List PyNum) (xs' : List Int) (ys' : List PyNum) : Res LinePic := do
  let l ← sortedPairs xs ys
  let l' ← sortedPairs xs' ys'
  return ⟨l.1, l.2, l'.1, l'.2⟩

/-- `_get_histogram_form` (`probability_distribution.py:239-247`) as a dict of numbers: missing keys get the int 0. -/
def histN (base : List (Int × ℚ)) : Res (List (Int × PyNum)) :=
  let itemList := base.mergeSort (fun a b => decide (a.1 ≤ b.1))
  match itemList.head?, itemList.getLast? with
  | some lo, some hi => .ok ((pyRange lo.1 (hi.1 + 1)).foldl
      (fun d i => if (dictGet? d i).isSome then d else dictSet d i (.i 0)) (base.map fun p => (p.1, PyNum.f p.2)))
  | _, _ => .error .index

/-- `[data[x] for x in xs]` where every `x` is a key. -/
def lookupN (data : List (Int × PyNum)) (xs : List Int) : List PyNum := xs.map (fun x => (dictGet? data x).getD (.i 0))

/-- A dict of floats. -/
def fltN (l : List (Int × ℚ)) : List (Int × PyNum) := l.map fun p => (p.1, .f p.2)

/-- `get_histogram` (`probability_distribution.py:38-41`). -/
def histogramG (toFl : ℚ → Res ℚ) (rnd : ℚ → ℚ) (d : Dist) : Res HistPic := do
  let h ← histN (← dictFormG toFl d)
  makeHistG toFl rnd (h.map Prod.fst) (lookupN h (h.map Prod.fst)) (some (← averageG toFl d))

/-- `get_at_least_histogram` (`probability_distribution.py:43-46`). -/
def atLeastHistogramG (toFl : ℚ → Res ℚ) (rnd : ℚ → ℚ) (d : Dist) : Res HistPic := do
  let h := fltN (← atLeastG toFl rnd d)
  makeHistG toFl rnd (h.map Prod.fst) (lookupN h (h.map Prod.fst)) (some (← averageG toFl d))

/-- `get_at_most_histogram` (`probability_distribution.py:48-51`). -/
def atMostHistogramG (toFl : ℚ → Res ℚ) (rnd : ℚ → ℚ) (d : Dist) : Res HistPic := do
  let h := fltN (← atMostG toFl rnd d)
  makeHistG toFl rnd (h.map Prod.fst) (lookupN h (h.map Prod.fst)) (some (← averageG toFl d))

/-- The methods of distributions that draw. -/
def methodPlot (toFl : ℚ → Res ℚ) (rnd : ℚ → ℚ) (o : Obj) (f : String) (args : List V) : RollM V :=
  match o, f, args with
  | .dist _, "_make_histogram", [.list xs, .list ys] => withDec (decInts xs) fun xs => withDec (decN ys) fun ys =>
    (fun p => .obj (.drawn p)) <$> liftR (makeHistG toFl rnd xs ys none)
  | .dist _, "_make_histogram", [.list xs, .list ys, .flt a] => withDec (decInts xs) fun xs => withDec (decN ys) fun ys =>
    (fun p => .obj (.drawn p)) <$> liftR (makeHistG toFl rnd xs ys (some a))
  | .dist _, "_make_line_plot", [.list xs, .list ys, .list xs', .list ys', .str a, .str b] =>
    withDec (decInts xs) fun xs => withDec (decN ys) fun ys => withDec (decInts xs') fun xs' => withDec (decN ys') fun ys' =>
      (fun p => .obj (.lines p a b)) <$> liftR (makeLinesG xs ys xs' ys')
  | .dist d, "get_histogram", [] => (fun p => .obj (.drawn p)) <$> liftR (histogramG toFl rnd d)
  | .dist d, "get_at_least_histogram", [] => (fun p => .obj (.drawn p)) <$> liftR (atLeastHistogramG toFl rnd d)
  | .dist d, "get_at_most_histogram", [] => (fun p => .obj (.drawn p)) <$> liftR (atMostHistogramG toFl rnd d)
  | _, _, _ => throwM .type

/-- The methods of distributions that make floats. -/
def methodFl (toFl : ℚ → Res ℚ) (rnd : ℚ → ℚ) (o : Obj) (f : String) (args : List V) : RollM V :=
  match o, f, args with
  | .dist d, "get_dict_form", [] => (fun m => .dict (encQ m)) <$> liftR (dictFormG toFl d)
  | .dist d, "average", [] => .flt <$> liftR (averageG toFl d)
  | .dist _, "_get_histogram_form", [.dict l] => withDec (decQ l) fun base => .dict <$> liftR (histV base)
  | .dist d, "at_least", [] => (fun m => .dict (encQ m)) <$> liftR (atLeastG toFl rnd d)
  | .dist d, "at_most", [] => (fun m => .dict (encQ m)) <$> liftR (atMostG toFl rnd d)
  | _, _, _ => throwM .type

/-- Methods of objects. -/
def methodAll (toFl : ℚ → Res ℚ) (rnd : ℚ → ℚ) (o : Obj) (f : String) (args : List V) : RollM (V × Option Obj) :=
  if f ∈ ["get_dict_form", "average", "_get_histogram_form", "at_least", "at_most"] then do return (← methodFl toFl rnd o f args, none)
  else if f ∈ ["_make_histogram", "_make_line_plot", "get_histogram", "get_at_least_histogram", "get_at_most_histogram"] then do
    return (← methodPlot toFl rnd o f args, none)
  else methodObj o f args

/-! ### Functions -/

/-- `operator.and_` and `operator.or_`. -/
def bitOp (isAnd : Bool) : V → V → RollM V
  | .int x, .int y => pure (.int (if isAnd then pyBitAnd x y else pyBitOr x y))
  | .obj (.outcome a), .obj (.outcome b) => oV <$> liftR (Outcome.combine (if isAnd then .and else .or) a b)
  | .obj (.dist a), .obj (.dist b) => dV <$> liftR (Dist.binop (if isAnd then .and else .or) a b)
  | _, _ => throwM .type

/-- `==`/`!=` as `BinaryOperatorExpression` defines them (`binary_operator_expression.py:14-24`). -/
def eqStatic (isEq : Bool) : V → V → RollM V
  | .obj (.dist a), .obj (.dist b) => dV <$> liftR (Dist.binop (if isEq then .eq else .ne) a b)
  | .int x, .int y => pure (.bool (if isEq then decide (x = y) else decide (x ≠ y)))
  | _, _ => throwM .type

/-- The regular expressions of `dice_expression_helper.py` as terms of the model (`Verif/Conform/Source.lean` reads such texts). -/
def reOf : Str → Option Re
  | ['\\', 'd', '+'] => some (Re.plus Re.digit)
  | ['\\', 'd', '+', '-', '-', '?', '\\', 'd', '+'] => some rePosStart
  | ['-', '?', '\\', 'd', '+', '-', '-', '\\', 'd', '+'] => some reNegEnd
  | ['-', '?', '\\', 'd', '+', '-', '-', '?', '\\', 'd', '+'] => some reRange
  | ['(', '-', '?', '\\', 'd', '+', '-', '-', '?', '\\', 'd', '+', '|', '-', '?', '\\', 'd', '+', ')', '\\', '*', '\\', 'd', '+'] =>
    some reMultiplied
  | _ => none

/-- `re.split` at the separators that occur. -/
def sepOf : Str → Option (Char → Bool)
  | ['-'] => some (· == '-')
  | [','] => some (· == ',')
  | ['\\', '*'] => some (· == '*')
  | ['[', 'd', 'k', ']'] => some (fun c => c == 'd' || c == 'k')
  | _ => none

/-- A list of natural numbers. -/
def decNats (l : List V) : Option (List Nat) := (List.map Int.toNat) <$> decInts l

/-- Static methods of `ConstraintMerger` (`constraint_merger.py:14-51`). -/
def funcMerger (f : String) (args : List V) : RollM V :=
  match f, args with
  | "__merge_new_constraints", [.obj a, .obj b] => withDec (asRaw a) fun a => withDec (asRaw b) fun b =>
    (fun r => .obj (.raw r)) <$> liftR (mergeNewAll (iter (copy a)) b)
  | "__merge_new_constraint", [.obj (.con c), .obj s] => withDec (asRaw s) fun s => do
    match ← liftR (mergeOne c s) with
    | ([], s') => return .tuple [.obj .noset, .obj (.raw s')]
    | (x :: _, s') => return .tuple [.obj (.raw (insert empty x)), .obj (.raw s')]
  | _, _ => throwM .type

/-- Functions of module `operator` on objects. -/
def funcOperator (f : String) (args : List V) : RollM V :=
  match f, args with
  | "and_", [a, b] => bitOp true a b
  | "or_", [a, b] => bitOp false a b
  | _, _ => throwM .type

/-- Static methods of `BinaryOperatorExpression` (`binary_operator_expression.py:13-24`). -/
def funcBin (f : String) (args : List V) : RollM V :=
  match f, args with
  | "__equal__", [a, b] => eqStatic true a b
  | "__not_equal__", [a, b] => eqStatic false a b
  | _, _ => throwM .type

/-- `copy.deepcopy`. -/
def funcCopy (f : String) (args : List V) : RollM V :=
  match f, args with
  | "deepcopy", [.obj (.outcome o)] => pure (oV ⟨o.value, deepcopy o.cs⟩)
  | _, _ => throwM .type

/-- `random.choices`. -/
def funcRandom (f : String) (args : List V) : RollM V :=
  match f, args with
  | "choices", [.list ks, .kwv "weights" (.list ws), .kwv "k" (.int k)] =>
    withDec (decInts ks) fun ks => withDec (decNats ws) fun ws =>
      (fun l => .list (l.map .int)) <$> RollM.ofRand (choices (ks.zip ws) k.toNat)
  | _, _ => throwM .type

/-- Functions of module `re`. -/
def funcRe (f : String) (args : List V) : RollM V :=
  match f, args with
  | "match", [.str p, .str t] => withDec (reOf p) fun r => pure (if Re.isMatch r t then .obj .reMatch else .none)
  | "split", [.str p, .str t] => withDec (sepOf p) fun q => pure (.list ((splitOn q t).map .str))
  | "sub", [.str ['(', '\\', '[', '|', '\\', ']', '|', '\\', 's', '+', ')'], .str [], .str t] =>
    pure (.str (stripBrackets t))
  | _, _ => throwM .type

/-- Static methods of `DropKeepExpression` (`drop_keep_expression.py:130-208`). -/
def funcDropKeep (f : String) (args : List V) : RollM V :=
  match f, args with
  | "_string_key_to_list", [.str t] => (fun l => .list (l.map .int)) <$> liftR (keyToList t)
  | "_int_list_to_string", [.list l] => withDec (decInts l) fun l => pure (.str (listToKey l))
  | "_update_key_list", [.str t, .int v, .bool b] => .str <$> liftR (updateKey b t v)
  | "_build_dice_dict", [.int n, .dict t] => withDec (decI t) fun t =>
    (fun l => .dict (encS l)) <$> liftR (buildDiceDict n.toNat t)
  | "_compute_iterations", [.dict d, .int n, .dict t, .bool b] =>
    withDec (decS d) fun d => withDec (decI t) fun t =>
      (fun l => .dict (encS l)) <$> liftR (iterKeys (updateKey b) t n.toNat d)
  | "_collapse_outcomes", [.dict d] => withDec (decS d) fun d =>
    (fun l => .dict (encI l)) <$> liftR (collapse d [])
  | _, _ => throwM .type

/-- Classes whose objects have no data of their own. -/
def funcSimple (f : String) : RollM V :=
  match f with
  | "ConstraintMerger" => pure (.obj (.svc "ConstraintMerger"))
  | "ConstraintFactory" => pure (.obj (.svc "ConstraintFactory"))
  | "ConstraintSetFactory" => pure (.obj (.svc "ConstraintSetFactory"))
  | "ProbabilityOutcomeFactory" => pure (.obj (.svc "ProbabilityOutcomeFactory"))
  | "ProbabilityDistributionFactory" => pure (.obj (.svc "ProbabilityDistributionFactory"))
  | "ProbabilityDistributionStateFactory" => pure (.obj (.svc "ProbabilityDistributionStateFactory"))
  | "NullConstraint" => pure (.obj (.con .null))
  | "ImpossibleConstraint" => pure (.obj (.con .impossible))
  | _ => throwM .type

/-- Constructors with arguments. -/
def funcClass (f : String) (args : List V) : RollM V :=
  match f, args with
  | "VarValueConstraint", args => withArgs Text.VarValueConstraint.__init__ args fun
    | [.str n, .obj (.ints vs), .obj (.svc "ConstraintFactory")] => pure (.obj (.con (.varValue n vs)))
    | _ => throwM .type
  | "ConstraintSet", [.obj s, .obj (.svc "ConstraintMerger")] => withDec (asRaw s) fun s =>
    (fun r => .obj (.cset r)) <$> liftR (mkConstraintSet (iter s))
  | "ProbabilityOutcome", args => withArgs Text.ProbabilityOutcome.__init__ args fun
    | [.int v, .obj (.cset s)] => pure (oV ⟨v, s⟩)
    | _ => throwM .type
  | "ProbabilityDistribution", args => withArgs Text.ProbabilityDistribution.__init__ args fun
    | [.obj (.svc "ProbabilityOutcomeFactory"), .none] => pure (dV (mkDist []))
    | [.obj (.svc "ProbabilityOutcomeFactory"), .dict l] => createDist l
    | _ => throwM .type
  | "ProbabilityDistributionState", args => withArgs Text.ProbabilityDistributionState.__init__ args fun
    | [.obj (.svc "ProbabilityDistributionFactory"), .obj (.svc "ConstraintFactory")] => pure (.obj .state)
    | _ => throwM .type
  | "ConstantIntegerExpression", args => withArgs Text.ConstantIntegerExpression.__init__ args fun
    | [.str t, .obj (.svc "ProbabilityDistributionFactory")] => pure (.obj (.expr (.constInt t)))
    | _ => throwM .type
  | "DiceExpression", args => withArgs Text.DiceExpression.__init__ args fun
    | [.str t, .obj (.svc "ProbabilityDistributionFactory")] => (fun d => .obj (.expr (.dice d))) <$> liftR (mkDice t)
    | _ => throwM .type
  | _, _ => throwM .type

/-- Constructors of the expression classes with expressions as parts (`add_expression.py:25-31` and so on). -/
def funcExpr (f : String) (args : List V) : RollM V :=
  match f, args with
  | "ParenthesisEnclosedExpression", [.obj (.expr e)] => pure (.obj (.expr (.paren e)))
  | "NotExpression", [.obj (.expr e)] => pure (.obj (.expr (.not e)))
  | "AbsExpression", [.obj (.expr e)] => pure (.obj (.expr (.abs e)))
  | "AddExpression", [.obj (.expr a), .obj (.expr b)] => pure (.obj (.expr (.add a b)))
  | "SubtractExpression", [.obj (.expr a), .obj (.expr b)] => pure (.obj (.expr (.sub a b)))
  | "MultiplyExpression", [.obj (.expr a), .obj (.expr b)] => pure (.obj (.expr (.mul a b)))
  | "IntegerDivisionExpression", [.obj (.expr a), .obj (.expr b)] => pure (.obj (.expr (.div a b)))
  | "BinaryOperatorExpression", [.str op, .obj (.expr a), .obj (.expr b)] => match cmpOf op with
    | some op => pure (.obj (.expr (.bin op a b)))
    | none => throwM .key
  | "MinMaxExpression", [.str op, .obj (.expr a), .obj (.expr b)] => match minmaxOf op with
    | some k => pure (.obj (.expr (.minmax k a b)))
    | none => throwM .key
  | "VarAssignmentExpression", [.obj .state, .str n, .obj (.expr e)] => pure (.obj (.expr (.assign n e)))
  | "GetVarExpression", [.obj .state, .str n] => pure (.obj (.expr (.getVar n)))
  | "ConstantBinaryExpression", [.str t, .obj (.svc "ProbabilityDistributionFactory")] => pure (.obj (.expr (.constBin t)))
  | "DropKeepExpression", [.str t, .obj (.svc "ProbabilityDistributionFactory")] =>
    (fun d => .obj (.expr (.dropKeep d))) <$> liftR (mkDropKeep t)
  | _, _ => throwM .type

/-- Other functions. -/
def funcOther (f : String) (args : List V) : RollM V :=
  match f, args with
  | "set", [] => pure (.obj .noset)
  | "abs", [.obj (.outcome o)] => pure (oV o.absOp)
  | "abs", [.obj (.dist d)] => pure (dV d.absOp)
  | "_find_range", [.str t] => (fun l => .list (l.map .int)) <$> liftR (findRange t)
  | "get_single_dice_outcome_map", [.str t] => (fun l => .dict (encI l)) <$> liftR (singleDiceMap t)
  | "iter", [v] => pure v
  | _, _ => throwM .type

/-- What kind of function a name is: 0 a class without arguments, 1 a class, 2 a function, 3 one of the expression classes of `funcExpr`. -/
def kindOf (f : String) : Nat :=
  if f ∈ ["ConstraintMerger", "ConstraintFactory", "ConstraintSetFactory", "ProbabilityOutcomeFactory", "ProbabilityDistributionFactory",
      "ProbabilityDistributionStateFactory", "NullConstraint", "ImpossibleConstraint"] then 0
  else if f ∈ ["set", "abs", "iter", "_find_range", "get_single_dice_outcome_map"] then 2
  else if f ∈ ["ParenthesisEnclosedExpression", "NotExpression", "AbsExpression", "AddExpression", "SubtractExpression", "MultiplyExpression",
      "IntegerDivisionExpression", "BinaryOperatorExpression", "MinMaxExpression", "VarAssignmentExpression", "GetVarExpression",
      "ConstantBinaryExpression", "DropKeepExpression"] then 3 else 1

/-- Classes, static methods and library functions. -/
def funcObj (path : List String) (args : List V) : RollM V :=
  match path with
  | [f] => if kindOf f = 0 then funcSimple f else if kindOf f = 1 then funcClass f args else if kindOf f = 3 then funcExpr f args
    else funcOther f args
  | ["ConstraintMerger", f] => funcMerger f args
  | ["operator", f] => funcOperator f args
  | ["BinaryOperatorExpression", f] => funcBin f args
  | ["copy", f] => funcCopy f args
  | ["random", f] => funcRandom f args
  | ["re", f] => funcRe f args
  | ["DropKeepExpression", f] => funcDropKeep f args
  | _ => throwM .type

/-- The world of the model.  `toFl`/`rnd` say how floats are computed: exactly, or in double precision;
    `fuel` bounds the passes of a `while` loop. -/
def world0 (toFl : ℚ → Res ℚ) (rnd : ℚ → ℚ) (fuel : Nat) : World Obj RollM where
  raise := throwM
  attr := attrObj
  setAttr
    | .outcome o, "constraint_set", .obj (.cset s) => pure (.outcome ⟨o.value, s⟩)
    | _, _, _ => throwM .type
  method := methodAll toFl rnd
  func := funcObj
  bin op
    | .obj (.outcome a), .obj (.outcome b) => withDec (bopOf op) fun op => oV <$> liftR (Outcome.combine op a b)
    | .obj (.dist a), .obj (.dist b) => withDec (bopOf op) fun op => dV <$> liftR (Dist.binop op a b)
    | _, _ => throwM .type
  cmp op
    | .obj (.outcome a), .obj (.outcome b) => withDec (copOf op) fun op => oV <$> liftR (Outcome.combine op a b)
    | .obj (.dist a), .obj (.dist b) => withDec (copOf op) fun op => dV <$> liftR (Dist.binop op a b)
    | .obj (.cset a), .obj (.cset b) => match op with
      | .eq => pure (.bool (csCodeEq a b))
      | _ => throwM .type
    | _, _ => throwM .type
  getItem
    | o, k => do match dictGet? (← contentOf o) k with
      | some v => return v
      | none => throwM .key
  setItem
    | .consts, .str n, .int v => liftE (putConst n v)
    | .vars, .str n, .obj (.dist d) => liftE (putVar n d)
    | .times, .str n, .int v => liftE (putTimes n v.toNat)
    | _, _, _ => throwM .type
  contains
    | .ints l, .int i => pure (decide (i ∈ l))
    | o, k => do return (dictGet? (← contentOf o) k).isSome
  iter
    | .raw s => pure ((iter s).map fun c => .obj (.con c))
    | .noset => pure []
    | .ints l => pure (l.map .int)
    | _ => throwM .type
  truth _ := pure true
  str
    | .con c => pure c.text
    | .cset s => pure (csText s)
    | .outcome o => pure o.text
    | .ints l => pure (reprSet (l.map intStr))
    | .raw s => pure (reprSet ((iter s).map Constraint.text))
    | .expr e => pure e.str
    | _ => throwM .type
  mkSet
    | [.obj (.con c)] => pure (.obj (.raw (insert empty c)))
    | [.int v] => pure (.obj (.ints [v]))
    | [.str n] => pure (.obj (.names [n]))
    | _ => throwM .type
  isInst
    | .outcome _, c => c == "IProbabilityOutcome"
    | .dist _, c => c == "IProbabilityDistribution"
    | .con (.varValue _ _), c => c == "IVarValueConstraint"
    | _, _ => false
  callLam _ _ _ := throwM .type
  strFl _ := throwM .type
  toFl := toFl
  rnd := rnd
  fuel := fuel
  throw _ := throwM .type
  attempt _ _ := throwM .type

end

end PyDice.Source
