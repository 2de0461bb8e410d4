import Verif.Interp
import Verif.ParserError
/-!
# The texts of the exceptions that evaluation raises

`Verif/Expr.lean` and `Verif/Interp.lean` once more, with the texts of the exceptions that the code raises itself:
`probability_distribution_state.py:38, 43`, `integer_division_expression.py:36, 42, 48`, and those of the lexer and the parser.
-/

namespace PyDice
open PyRuntime

/-- A raised exception: its class with `args[0]` (`none`: raised without arguments), or the class alone where the text is not modelled
    (exceptions of CPython itself: `int`, `max` of nothing, `random.choices`, `//`, `float`; merging of constraints). -/
inductive Exc where
  | own (cls : Err) (text : Option Str)
  | other (cls : Err)
  deriving DecidableEq, Repr

/-- The class of a raised exception. -/
def Exc.cls : Exc → Err
  | .own c _ => c
  | .other c => c

/-- `f"Constant named {name} not in state."` (`probability_distribution_state.py:38`). -/
def noConstantText (name : Str) : Str := "Constant named ".toList ++ name ++ " not in state.".toList

/-- `f"Var named {name} not in state."` (`probability_distribution_state.py:43`). -/
def noVarText (name : Str) : Str := "Var named ".toList ++ name ++ " not in state.".toList

/-- `f"{str(self)}, divisor could be zero"` (`integer_division_expression.py:42, 48`). -/
def couldBeZeroText (a b : Expr) : Str := (Expr.div a b).str ++ ", divisor could be zero".toList

section
variable [R : PyRuntime]

/-- `get_constant` (`probability_distribution_state.py:36-39`) with its text. -/
def State.getConstantX (s : State) (name : Str) : Except Exc Int :=
  match dictGet? s.constants name with
  | some v => .ok v
  | none => .error (.own .key (some (noConstantText name)))

/-- `get_var` (`probability_distribution_state.py:41-44`) with its text. -/
def State.getVarX (s : State) (name : Str) : Except Exc Dist :=
  match dictGet? s.var name with
  | some v => .ok v
  | none => .error (.own .key (some (noVarText name)))

/-- A deterministic method as in `EvalM`, with texts. -/
def EvalX (α : Type) := State → Except Exc α × State

/-- Sequencing; an exception keeps the state reached so far. -/
def EvalX.bind {α β : Type} (m : EvalX α) (f : α → EvalX β) : EvalX β := fun s =>
  match m s with
  | (.ok a, s') => f a s'
  | (.error e, s') => (.error e, s')

instance : Monad EvalX where
  pure a := fun s => (.ok a, s)
  bind := EvalX.bind

/-- A step whose exceptions have no modelled text. -/
def EvalX.plain {α : Type} (m : EvalM α) : EvalX α := fun s => ((m s).1.mapError .other, (m s).2)

/-- Raising. -/
def EvalX.raise {α : Type} (x : Exc) : EvalX α := fun s => (.error x, s)

/-- Reading from the state. -/
def EvalX.read {α : Type} (f : State → Except Exc α) : EvalX α := fun s => (f s, s)

/-- A method that may draw random numbers as in `RollM`, with texts. -/
def RollX (α : Type) := State → Rand (Except Exc α × State)

/-- Sequencing; an exception keeps the state reached so far. -/
def RollX.bind {α β : Type} (m : RollX α) (f : α → RollX β) : RollX β := fun s =>
  Rand.bind (m s) fun
    | (.ok a, s') => f a s'
    | (.error e, s') => .pure (.error e, s')

instance : Monad RollX where
  pure a := fun s => .pure (.ok a, s)
  bind := RollX.bind

/-- A deterministic step of a roll. -/
def RollX.ofEval {α : Type} (m : EvalX α) : RollX α := fun s => .pure (m s)

/-- A random step that does not touch the state and whose exceptions have no modelled text. -/
def RollX.ofRand {α : Type} (r : Rand (Res α)) : RollX α := fun s => Rand.bind r fun a => .pure (a.mapError .other, s)

/-- `get_probability_distribution` of every class with the texts of its exceptions; the lines are those of `Expr.dist`. -/
def Expr.distX : Expr → EvalX Dist
  | .paren e => e.distX
  | .not e => do return (← e.distX).notOp
  | .dropKeep t => EvalX.plain (EvalM.ofRes t.dist)
  | .dice t => EvalX.plain (EvalM.ofRes t.dist)
  | .constInt text => EvalX.plain (EvalM.ofRes (do constDist (← pyInt text)))
  | .constBin text => EvalX.plain (EvalM.ofRes (constDist (binValue text)))
  | .add a b => do let x ← a.distX; let y ← b.distX; EvalX.plain (EvalM.ofRes (Dist.binop .add x y))
  | .sub a b => do let x ← a.distX; let y ← b.distX; EvalX.plain (EvalM.ofRes (Dist.binop .sub x y))
  | .mul a b => do let x ← a.distX; let y ← b.distX; EvalX.plain (EvalM.ofRes (Dist.binop .mul x y))
  | .div a b => do let x ← a.distX; let y ← b.distX; EvalX.plain (EvalM.ofRes (Dist.binop .floordiv x y))
  | .bin op a b => do let x ← a.distX; let y ← b.distX; EvalX.plain (EvalM.ofRes (Dist.binop op.toBinOp x y))
  | .minmax isMax a b => do
    let x ← a.distX; let y ← b.distX; EvalX.plain (EvalM.ofRes (Dist.binop (if isMax then .max else .min) x y))
  | .abs e => do return (← e.distX).absOp
  | .assign name e => do
    let d ← e.distX
    EvalX.plain (EvalM.setVar name d)
    return d
  | .getVar name => EvalX.read (fun s => s.getVarX name)

/-- `self.get_probability_distribution().max()` (or `.min()`). -/
def viaDistX (isMax : Bool) (m : EvalX Dist) : EvalX Int := do
  let d ← m
  EvalX.plain (EvalM.ofRes (if isMax then d.max else d.min))

/-- `max` and `min` of every class with the texts of their exceptions; the lines are those of `Expr.extreme`. -/
def Expr.extremeX (isMax : Bool) : Expr → EvalX Int
  | .paren e => e.extremeX isMax
  | .not e => viaDistX isMax (Expr.distX (.not e))
  | .dropKeep t => EvalX.plain (EvalM.ofRes (t.extreme isMax))
  | .dice t => EvalX.plain (EvalM.ofRes (t.extreme isMax))
  | .constInt text => EvalX.plain (EvalM.ofRes (pyInt text))
  | .constBin text => EvalX.plain (EvalM.ofRes (.ok (binValue text)))
  | .add a b => viaDistX isMax (Expr.distX (.add a b))
  | .sub a b => viaDistX isMax (Expr.distX (.sub a b))
  | .mul a b => viaDistX isMax (Expr.distX (.mul a b))
  | .div a b => do
    let divisor ← b.distX
    if divisor.containsZero then EvalX.raise (.own .zeroDivision (some (couldBeZeroText a b)))
    else viaDistX isMax (Expr.distX (.div a b))
  | .bin op a b => viaDistX isMax (Expr.distX (.bin op a b))
  | .minmax k a b => do
    let x ← a.extremeX isMax
    let y ← b.extremeX isMax
    return minmaxOp k x y
  | .abs e => viaDistX isMax (Expr.distX (.abs e))
  | .assign name e => do
    let v ← e.extremeX isMax
    EvalX.plain (EvalM.setConstant name v)
    let d ← e.distX
    EvalX.plain (EvalM.setVar name d)
    return v
  | .getVar name => EvalX.read (fun s => s.getConstantX name)

/-- `estimated_cost` of every class with the texts of its exceptions; the lines are those of `Expr.cost`. -/
def Expr.costX : Expr → EvalX Int
  | .paren e => e.costX
  | .not e => do let c ← e.costX; EvalX.plain (EvalM.ofRes (notCost c))
  | .dropKeep t => pure t.cost
  | .dice t => pure t.cost
  | .constInt _ => pure 2
  | .constBin _ => pure 2
  | .add a b => do let x ← a.costX; let y ← b.costX; return x + y
  | .sub a b => do let x ← a.costX; let y ← b.costX; return x + y
  | .mul a b => do let x ← a.costX; let y ← b.costX; return x + y
  | .div a b => do let x ← a.costX; let y ← b.costX; return x + y
  | .bin _ a b => do let x ← a.costX; let y ← b.costX; return x + y
  | .minmax _ a b => do let x ← a.costX; let y ← b.costX; return x + y
  | .abs e => e.costX
  | .assign name e => do
    let c ← e.costX
    EvalX.plain (EvalM.setConstant name c)
    return 2 + c
  | .getVar name => EvalX.read (fun s => s.getConstantX name)

/-- `roll` of every class with the texts of its exceptions; the lines are those of `Expr.roll`. -/
def Expr.rollX : Expr → RollX Int
  | .paren e => e.rollX
  | .not e => do return (if (← e.rollX) ≠ 0 then 0 else 1)
  | .dropKeep t => RollX.ofRand t.roll
  | .dice t => RollX.ofRand t.roll
  | .constInt text => RollX.ofEval (EvalX.plain (EvalM.ofRes (pyInt text)))
  | .constBin text => pure (binValue text)
  | .add a b => do let x ← a.rollX; let y ← b.rollX; return x + y
  | .sub a b => do let x ← a.rollX; let y ← b.rollX; return x - y
  | .mul a b => do let x ← a.rollX; let y ← b.rollX; return x * y
  | .div a b => do
    let y ← b.rollX
    if y = 0 then RollX.ofEval (EvalX.raise (.own .zeroDivision none))
    else do let x ← a.rollX; return x.fdiv y
  | .bin op a b => do let x ← a.rollX; let y ← b.rollX; return (if op.onInts x y then 1 else 0)
  | .minmax k a b => do let x ← a.rollX; let y ← b.rollX; return minmaxOp k x y
  | .abs e => do return pyAbs (← e.rollX)
  | .assign name e => do
    let v ← e.rollX
    RollX.ofEval (EvalX.plain (EvalM.setConstant name v))
    return v
  | .getVar name => RollX.ofEval (EvalX.read (fun s => s.getConstantX name))

/-! ### The interpreter -/

/-- What the interpreter gets from the parser (`python_dice_parser.py:50-52`, `python_dice_lexer.py:36-38`). -/
def parseX (text : Str) : Except Exc Expr :=
  match parseText text with
  | .ok e => .ok e
  | .error (.message m) => .error (.own .value (some m))
  | .error (.other err) => .error (.other err)

/-- The parsing step of a line. -/
def EvalX.ofParse {α : Type} (r : Except Exc α) : EvalX α := fun s => (r, s)

/-- The loop of the distribution methods (`python_dice_interpreter.py:74-77, 83-86, 92-95`). -/
def distLinesX : List Str → EvalX Unit
  | [] => pure ()
  | l :: ls => do
    let e ← EvalX.ofParse (parseX l)
    let d ← e.distX
    (fun s => (.ok (), { s with var := dictSet s.var stdoutName d }) : EvalX Unit)
    distLinesX ls

/-- `get_probability_distributions` (`python_dice_interpreter.py:80-87`). -/
def interpDistsX (lines : List Str) : EvalX (List (Str × Dist)) := do
  distLinesX lines
  (fun s => (.ok (if lines = [] then [] else s.var), s) : EvalX _)

/-- The common loop of the three histogram methods (`python_dice_interpreter.py:99-102, 106-109, 113-116`). -/
def lastDistX : List Str → Dist → EvalX Dist
  | [], d => pure d
  | l :: ls, _ => do
    let e ← EvalX.ofParse (parseX l)
    let d ← e.distX
    lastDistX ls d

/-- The distribution the three histogram methods draw (`python_dice_interpreter.py:98-117`). -/
def interpHistogramDistX (lines : List Str) : EvalX Dist := lastDistX lines (mkDist [])

/-- The loop of `max` / `min` (`python_dice_interpreter.py:55-59, 64-68`). -/
def extremeLinesX (isMax : Bool) : List Str → EvalX Unit
  | [] => pure ()
  | l :: ls => do
    let e ← EvalX.ofParse (parseX l)
    let v ← e.extremeX isMax
    (fun s => (.ok (), { s with constants := dictSet s.constants stdoutName v }) : EvalX Unit)
    extremeLinesX isMax ls

/-- `PythonDiceInterpreter.max` / `min` (`python_dice_interpreter.py:53-69`). -/
def interpExtremeX (isMax : Bool) (lines : List Str) : EvalX (List (Str × Int)) := do
  extremeLinesX isMax lines
  (fun s => (.ok (constantsReturned lines s), s) : EvalX _)

/-- The loop of `get_estimated_cost` (`python_dice_interpreter.py:121-124`). -/
def costLinesX : List Str → Int → EvalX Int
  | [], total => pure total
  | l :: ls, total => do
    let e ← EvalX.ofParse (parseX l)
    let c ← e.costX
    costLinesX ls (total + c)

/-- `get_estimated_cost` (`python_dice_interpreter.py:119-125`). -/
def interpCostX (lines : List Str) : EvalX Int := costLinesX lines 0

/-- The loop of `roll` (`python_dice_interpreter.py:46-50`). -/
def rollLinesX : List Str → RollX Unit
  | [] => pure ()
  | l :: ls => do
    let e ← RollX.ofEval (EvalX.ofParse (parseX l))
    let v ← e.rollX
    (fun s => .pure (.ok (), { s with constants := dictSet s.constants stdoutName v }) : RollX Unit)
    rollLinesX ls

/-- `PythonDiceInterpreter.roll` (`python_dice_interpreter.py:44-51`). -/
def interpRollX (lines : List Str) : RollX (List (Str × Int)) := do
  rollLinesX lines
  (fun s => .pure (.ok (constantsReturned lines s), s) : RollX _)

end

end PyDice
