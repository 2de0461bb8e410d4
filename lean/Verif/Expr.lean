import Verif.State
import Verif.DiceText
import Verif.Rand
import Verif.Float
/-!
# `src/expression/*.py`
-/

namespace PyDice
open PyRuntime

/-- The strings of `BinaryOperatorExpression.OPERATOR_MAP` (`binary_operator_expression.py:27-36`). -/
inductive CmpOp where
  | eq | ne | le | lt | ge | gt | and | or
  deriving DecidableEq, Repr

/-- The distribution operator each string stands for (`binary_operator_expression.py:14-36`). -/
def CmpOp.toBinOp : CmpOp → BinOp
  | .eq => .eq | .ne => .ne | .le => .le | .lt => .lt | .ge => .ge | .gt => .gt | .and => .and | .or => .or

/-- Bitwise and/or of Python ints (`operator.and_`, `operator.or_` on ints): two's complement with infinitely many bits. -/
def pyBitAnd (x y : Int) : Int :=
  match x, y with
  | .ofNat a, .ofNat b => .ofNat (a &&& b)
  | .ofNat a, .negSucc b => .ofNat (a &&& (a ^^^ (a &&& b)))
  | .negSucc a, .ofNat b => .ofNat (b &&& (b ^^^ (b &&& a)))
  | .negSucc a, .negSucc b => .negSucc (a ||| b)

/-- See `pyBitAnd`: `x | y = ~(~x & ~y)`. -/
def pyBitOr (x y : Int) : Int := -1 - pyBitAnd (-1 - x) (-1 - y)

/-- The operator each string stands for on two rolled ints, as a truth value (`binary_operator_expression.py:27-36, 58-59`):
    `AND` and `OR` are *bitwise* on ints. -/
def CmpOp.onInts : CmpOp → Int → Int → Bool
  | .eq, x, y => decide (x = y)
  | .ne, x, y => decide (x ≠ y)
  | .le, x, y => decide (x ≤ y)
  | .lt, x, y => decide (x < y)
  | .ge, x, y => decide (x ≥ y)
  | .gt, x, y => decide (x > y)
  | .and, x, y => decide (pyBitAnd x y ≠ 0)
  | .or, x, y => decide (pyBitOr x y ≠ 0)

/-- The expression classes.  Each node is one class of `src/expression/`; the fields are the constructor arguments, and for dice
    what the constructor computes from the text. -/
inductive Expr where
  /-- `ParenthesisEnclosedExpression` -/
  | paren (e : Expr)
  /-- `NotExpression` -/
  | not (e : Expr)
  /-- `DropKeepExpression` -/
  | dropKeep (t : DropKeepTerm)
  /-- `DiceExpression` -/
  | dice (t : DiceTerm)
  /-- `ConstantIntegerExpression` -/
  | constInt (text : Str)
  /-- `ConstantBinaryExpression` -/
  | constBin (text : Str)
  /-- `AddExpression` -/
  | add (a b : Expr)
  /-- `SubtractExpression` -/
  | sub (a b : Expr)
  /-- `MultiplyExpression` -/
  | mul (a b : Expr)
  /-- `IntegerDivisionExpression` -/
  | div (a b : Expr)
  /-- `BinaryOperatorExpression` -/
  | bin (op : CmpOp) (a b : Expr)
  /-- `MinMaxExpression` -/
  | minmax (isMax : Bool) (a b : Expr)
  /-- `AbsExpression` -/
  | abs (e : Expr)
  /-- `VarAssignmentExpression` -/
  | assign (name : Str) (e : Expr)
  /-- `GetVarExpression` -/
  | getVar (name : Str)
  deriving DecidableEq

/-- `_get_value` (`constant_binary_expression.py:29-30`). -/
def binValue (text : Str) : Int := if text = ['T', 'r', 'u', 'e'] then 1 else 0

/-- Python's `max(a, b)` on ints. -/
def pyMax (a b : Int) : Int := if b > a then b else a
/-- Python's `min(a, b)` on ints. -/
def pyMin (a b : Int) : Int := if b < a then b else a
/-- Python's `abs` on ints. -/
def pyAbs (a : Int) : Int := if a < 0 then -a else a
/-- `MinMaxExpression.OPERATOR_MAP` (`minmax_expression.py:14`). -/
def minmaxOp (isMax : Bool) (a b : Int) : Int := if isMax then pyMax a b else pyMin a b

/-- `dice_rolls[-k:]`. -/
def pyTail (l : List Int) (k : Nat) : List Int := if k = 0 then l else l.drop (l.length - k)

/-- Insertion into a sorted list. -/
def ins (x : Int) : List Int → List Int
  | [] => [x]
  | y :: l => if x ≤ y then x :: y :: l else y :: ins x l

/-- `list.sort()` on ints: the increasing rearrangement. -/
def sortInts (l : List Int) : List Int := l.foldr ins []

/-- `_string_key_to_list` (`drop_keep_expression.py:153-157`). -/
def keyToList (s : Str) : Res (List Int) :=
  if s = [] then .ok [] else (splitOn (· == '|') s).mapM pyInt

/-- `_int_list_to_string` (`drop_keep_expression.py:159-162`). -/
def listToKey (l : List Int) : Str := joinWith '|' ((sortInts l).map intStr)

/-- The two nested loops over faces and old keys shared by `_build_dice_dict` and `_compute_iterations`
    (`drop_keep_expression.py:139-149, 189-193`), over the visited pairs in order; `next` computes the new key. -/
def keyLoop (next : Str → Int → Res Str) : List ((Int × Nat) × (Str × Nat)) → List (Str × Nat) → Res (List (Str × Nat))
  | [], acc => .ok acc
  | ((face, count), (oldKey, oldValue)) :: rest, acc => do
    let key ← next oldKey face
    keyLoop next rest (safeAdd acc key (oldValue * count))

/-- The outer `for _ in range(n)` loop of both functions. -/
def iterKeys (next : Str → Int → Res Str) (table : List (Int × Nat)) : Nat → List (Str × Nat) → Res (List (Str × Nat))
  | 0, d => .ok d
  | n + 1, d => do iterKeys next table n (← keyLoop next (pairsOf table d) [])

/-- The key computed in `_build_dice_dict` (`drop_keep_expression.py:142-147`). -/
def addKey (old : Str) (face : Int) : Res Str := do return listToKey (sortInts ((← keyToList old) ++ [face]))

/-- `_update_key_list` (`drop_keep_expression.py:164-173`): keep forgets the lowest (`[1:]`), drop the highest (`[:-1]`). -/
def updateKey (keep : Bool) (old : Str) (face : Int) : Res Str := do
  let l := sortInts ((← keyToList old) ++ [face])
  return listToKey (if keep then l.drop 1 else l.dropLast)

/-- `_build_dice_dict` (`drop_keep_expression.py:130-151`). -/
def buildDiceDict (n : Nat) (table : List (Int × Nat)) : Res (List (Str × Nat)) := iterKeys addKey table n [([], 1)]

/-- `_collapse_outcomes` (`drop_keep_expression.py:197-208`). -/
def collapse : List (Str × Nat) → List (Int × Nat) → Res (List (Int × Nat))
  | [], acc => .ok acc
  | (key, n) :: rest, acc => do
    let l ← keyToList key
    collapse rest (safeAdd acc l.sum n)

/-- The outcome map that `DropKeepExpression.get_probability_distribution` builds (`drop_keep_expression.py:115-127`). -/
def dropKeepMap (t : DropKeepTerm) : Res (List (Int × Nat)) := do
  let select := if t.keep then t.count else t.number - t.count
  let remaining := if t.keep then t.number - t.count else t.count
  let d ← buildDiceDict select t.table
  let d ← iterKeys (updateKey t.keep) t.table remaining d
  collapse d []

section
variable [R : PyRuntime]

/-- The loop of `DiceExpression.get_probability_distribution` (`dice_expression.py:65-66`). -/
def addDice (single : Dist) : Nat → Dist → Res Dist
  | 0, d => .ok d
  | n + 1, d => do addDice single n (← Dist.binop .add d single)

/-- `DiceExpression.get_probability_distribution` (`dice_expression.py:58-67`). -/
def DiceTerm.dist (t : DiceTerm) : Res Dist := do
  let single ← mkDistInt t.table
  let d ← mkDistInt single.getResultMap
  addDice single (t.number - 1) d

/-- `ConstantIntegerExpression("0").get_probability_distribution()`. -/
def constDist (v : Int) : Res Dist := mkDistInt [(v, 1)]

/-- `DropKeepExpression.get_probability_distribution` (`drop_keep_expression.py:111-128`). -/
def DropKeepTerm.dist (t : DropKeepTerm) : Res Dist :=
  match t.simplified with
  | .dice d => d.dist
  | .zero => constDist 0
  | .none => do mkDistInt (← dropKeepMap t)

/-! ### Computations on the state -/

/-- A deterministic method: it may raise, and it may change the state either way. -/
def EvalM (α : Type) := State → Res α × State

/-- Sequencing; an exception keeps the state reached so far. -/
def EvalM.bind {α β : Type} (m : EvalM α) (f : α → EvalM β) : EvalM β := fun s =>
  match m s with
  | (.ok a, s') => f a s'
  | (.error e, s') => (.error e, s')

instance : Monad EvalM where
  pure a := fun s => (.ok a, s)
  bind := EvalM.bind

/-- A computation that does not touch the state. -/
def EvalM.ofRes {α : Type} (r : Res α) : EvalM α := fun s => (r, s)

/-- Reading from the state. -/
def EvalM.read {α : Type} (f : State → Res α) : EvalM α := fun s => (f s, s)

/-- `self._state.set_constant(name, v)`. -/
def EvalM.setConstant (name : Str) (v : Int) : EvalM Unit := fun s => (.ok (), s.setConstant name v)

/-- `self._state.set_var(name, d)`. -/
def EvalM.setVar (name : Str) (d : Dist) : EvalM Unit := fun s => s.setVar name d

/-- A method that may draw random numbers. -/
def RollM (α : Type) := State → Rand (Res α × State)

/-- Sequencing; an exception keeps the state reached so far. -/
def RollM.bind {α β : Type} (m : RollM α) (f : α → RollM β) : RollM β := fun s =>
  Rand.bind (m s) fun
    | (.ok a, s') => f a s'
    | (.error e, s') => .pure (.error e, s')

instance : Monad RollM where
  pure a := fun s => .pure (.ok a, s)
  bind := RollM.bind

/-- A deterministic step of a roll. -/
def RollM.ofEval {α : Type} (m : EvalM α) : RollM α := fun s => .pure (m s)

/-- A random step that does not touch the state. -/
def RollM.ofRand {α : Type} (r : Rand (Res α)) : RollM α := fun s => Rand.bind r fun a => .pure (a, s)

/-! ### `get_probability_distribution` -/

/-- `get_probability_distribution` of every class: `parentheses_enclosed_expression.py:43-44`, `not_expression.py:44-45`,
    `constant_integer_expression.py:44-45`, `constant_binary_expression.py:47-48`, `add_expression.py:48-49`,
    `subtract_expression.py:48-49`, `multiply_expression.py:48-49`, `integer_division_expression.py:57-60`,
    `binary_operator_expression.py:73-77`, `minmax_expression.py:51-58`, `abs_expression.py:43-44`,
    `var_assignment_expression.py:61-64`, `get_var_expression.py:47-48`. -/
def Expr.dist : Expr → EvalM Dist
  | .paren e => e.dist
  | .not e => do return (← e.dist).notOp
  | .dropKeep t => EvalM.ofRes t.dist
  | .dice t => EvalM.ofRes t.dist
  | .constInt text => EvalM.ofRes (do constDist (← pyInt text))
  | .constBin text => EvalM.ofRes (constDist (binValue text))
  | .add a b => do let x ← a.dist; let y ← b.dist; EvalM.ofRes (Dist.binop .add x y)
  | .sub a b => do let x ← a.dist; let y ← b.dist; EvalM.ofRes (Dist.binop .sub x y)
  | .mul a b => do let x ← a.dist; let y ← b.dist; EvalM.ofRes (Dist.binop .mul x y)
  | .div a b => do let x ← a.dist; let y ← b.dist; EvalM.ofRes (Dist.binop .floordiv x y)
  | .bin op a b => do let x ← a.dist; let y ← b.dist; EvalM.ofRes (Dist.binop op.toBinOp x y)
  | .minmax isMax a b => do
    let x ← a.dist; let y ← b.dist; EvalM.ofRes (Dist.binop (if isMax then .max else .min) x y)
  | .abs e => do return (← e.dist).absOp
  | .assign name e => do
    let d ← e.dist
    EvalM.setVar name d
    return d
  | .getVar name => EvalM.read (fun s => s.getVar name)

/-! ### `max` and `min` -/

/-- `DiceExpression.max` / `min` (`dice_expression.py:46-50`). -/
def DiceTerm.extreme (isMax : Bool) (t : DiceTerm) : Res Int := do
  let v ← (if isMax then listMax else listMin) (t.table.map Prod.fst)
  return v * t.number

/-- `DropKeepExpression.max` / `min` (`drop_keep_expression.py:82-96`). -/
def DropKeepTerm.extreme (isMax : Bool) (t : DropKeepTerm) : Res Int :=
  match t.simplified with
  | .dice d => d.extreme isMax
  | .zero => .ok 0
  | .none => do
    let v ← (if isMax then listMax else listMin) (t.table.map Prod.fst)
    return (if t.keep then (t.count : Int) else (t.number : Int) - t.count) * v

/-- `self.get_probability_distribution().max()` (or `.min()`). -/
def viaDist (isMax : Bool) (m : EvalM Dist) : EvalM Int := do
  let d ← m
  EvalM.ofRes (if isMax then d.max else d.min)

/-- `max` (`isMax`) and `min` of every class: `parentheses_enclosed_expression.py:31-35`, `not_expression.py:32-36`,
    `constant_integer_expression.py:32-36`, `constant_binary_expression.py:35-39`, `add_expression.py:36-40`,
    `subtract_expression.py:36-40`, `multiply_expression.py:36-40`, `integer_division_expression.py:39-49`,
    `binary_operator_expression.py:61-65`, `minmax_expression.py:39-43`, `abs_expression.py:31-35`,
    `var_assignment_expression.py:41-51`, `get_var_expression.py:35-39`. -/
def Expr.extreme (isMax : Bool) : Expr → EvalM Int
  | .paren e => e.extreme isMax
  | .not e => viaDist isMax (Expr.dist (.not e))
  | .dropKeep t => EvalM.ofRes (t.extreme isMax)
  | .dice t => EvalM.ofRes (t.extreme isMax)
  | .constInt text => EvalM.ofRes (pyInt text)
  | .constBin text => EvalM.ofRes (.ok (binValue text))
  | .add a b => viaDist isMax (Expr.dist (.add a b))
  | .sub a b => viaDist isMax (Expr.dist (.sub a b))
  | .mul a b => viaDist isMax (Expr.dist (.mul a b))
  | .div a b => do
    let divisor ← b.dist
    if divisor.containsZero then EvalM.ofRes (.error .zeroDivision)
    else viaDist isMax (Expr.dist (.div a b))
  | .bin op a b => viaDist isMax (Expr.dist (.bin op a b))
  | .minmax k a b => do
    let x ← a.extreme isMax
    let y ← b.extreme isMax
    return minmaxOp k x y
  | .abs e => viaDist isMax (Expr.dist (.abs e))
  | .assign name e => do
    let v ← e.extreme isMax
    EvalM.setConstant name v
    EvalM.setVar name (← e.dist)
    return v
  | .getVar name => EvalM.read (fun s => s.getConstant name)

/-! ### `estimated_cost` -/

/-- `DiceExpression.estimated_cost` (`dice_expression.py:52-53`). -/
def DiceTerm.cost (t : DiceTerm) : Int := (t.number : Int) * t.table.length

/-- `DropKeepExpression.estimated_cost` (`drop_keep_expression.py:101-109`). -/
def DropKeepTerm.cost (t : DropKeepTerm) : Int :=
  match t.simplified with
  | .dice d => d.cost
  | .zero => 2
  | .none => ((t.number : Int) * (if t.keep then (t.count : Int) else (t.number : Int) - t.count)) * t.table.length

/-- `int(math.floor(cost * 1.1))` (`not_expression.py:41-42`): the int becomes a float, the product is rounded, and the floor of
    an infinite product is an `OverflowError` too. -/
def notCost (c : Int) : Res Int := do
  let x ← toFloat (c : ℚ)
  let p ← toFloat (x * toDouble (11 / 10))
  return p.floor

/-- `estimated_cost` of every class: `parentheses_enclosed_expression.py:40-41`, `not_expression.py:41-42`,
    `constant_integer_expression.py:41-42`, `constant_binary_expression.py:44-45`, `add_expression.py:45-46`,
    `subtract_expression.py:45-46`, `multiply_expression.py:45-46`, `integer_division_expression.py:54-55`,
    `binary_operator_expression.py:70-71`, `minmax_expression.py:48-49`, `abs_expression.py:40-41`,
    `var_assignment_expression.py:56-59`, `get_var_expression.py:44-45`. -/
def Expr.cost : Expr → EvalM Int
  | .paren e => e.cost
  | .not e => do let c ← e.cost; EvalM.ofRes (notCost c)
  | .dropKeep t => pure t.cost
  | .dice t => pure t.cost
  | .constInt _ => pure 2
  | .constBin _ => pure 2
  | .add a b => do let x ← a.cost; let y ← b.cost; return x + y
  | .sub a b => do let x ← a.cost; let y ← b.cost; return x + y
  | .mul a b => do let x ← a.cost; let y ← b.cost; return x + y
  | .div a b => do let x ← a.cost; let y ← b.cost; return x + y
  | .bin _ a b => do let x ← a.cost; let y ← b.cost; return x + y
  | .minmax _ a b => do let x ← a.cost; let y ← b.cost; return x + y
  | .abs e => e.cost
  | .assign name e => do
    let c ← e.cost
    EvalM.setConstant name c
    return 2 + c
  | .getVar name => EvalM.read (fun s => s.getConstant name)

/-! ### `roll` -/

/-- `DiceExpression.roll` (`dice_expression.py:37-44`). -/
def DiceTerm.roll (t : DiceTerm) : Rand (Res Int) :=
  Rand.bind (choices t.table t.number) fun
    | .ok l => .pure (.ok l.sum)
    | .error e => .pure (.error e)

/-- `DropKeepExpression.roll` (`drop_keep_expression.py:68-80`). -/
def DropKeepTerm.roll (t : DropKeepTerm) : Rand (Res Int) :=
  match t.simplified with
  | .dice d => d.roll
  | .zero => .pure (.ok 0)
  | .none => Rand.bind (choices t.table t.number) fun
    | .ok l =>
      let l := sortInts l
      .pure (.ok (if t.keep then (pyTail l t.count).sum else (l.take (t.number - t.count)).sum))
    | .error e => .pure (.error e)

/-- `roll` of every class: `parentheses_enclosed_expression.py:28-29`, `not_expression.py:29-30`,
    `constant_integer_expression.py:29-30`, `constant_binary_expression.py:32-33`, `add_expression.py:33-34`,
    `subtract_expression.py:33-34`, `multiply_expression.py:33-34`, `integer_division_expression.py:33-37` (the divisor is rolled
    first), `binary_operator_expression.py:58-59`, `minmax_expression.py:36-37`, `abs_expression.py:28-29`,
    `var_assignment_expression.py:36-39`, `get_var_expression.py:32-33`. -/
def Expr.roll : Expr → RollM Int
  | .paren e => e.roll
  | .not e => do return (if (← e.roll) ≠ 0 then 0 else 1)
  | .dropKeep t => RollM.ofRand t.roll
  | .dice t => RollM.ofRand t.roll
  | .constInt text => RollM.ofEval (EvalM.ofRes (pyInt text))
  | .constBin text => pure (binValue text)
  | .add a b => do let x ← a.roll; let y ← b.roll; return x + y
  | .sub a b => do let x ← a.roll; let y ← b.roll; return x - y
  | .mul a b => do let x ← a.roll; let y ← b.roll; return x * y
  | .div a b => do
    let y ← b.roll
    if y = 0 then RollM.ofEval (EvalM.ofRes (.error .zeroDivision))
    else do let x ← a.roll; return x.fdiv y
  | .bin op a b => do let x ← a.roll; let y ← b.roll; return (if op.onInts x y then 1 else 0)
  | .minmax k a b => do let x ← a.roll; let y ← b.roll; return minmaxOp k x y
  | .abs e => do return pyAbs (← e.roll)
  | .assign name e => do
    let v ← e.roll
    RollM.ofEval (EvalM.setConstant name v)
    return v
  | .getVar name => RollM.ofEval (EvalM.read (fun s => s.getConstant name))

end

/-! ### `get_contained_variables` and `__str__` -/

/-- `get_contained_variables` of every class (a set; listed here): `parentheses_enclosed_expression.py:46-49`,
    `not_expression.py:47-50`, `dice_expression.py:69-72`, `drop_keep_expression.py:210-213`, `add_expression.py:51-54`,
    `subtract_expression.py:51-54`, `multiply_expression.py:51-54`, `integer_division_expression.py:62-65`,
    `binary_operator_expression.py:79-82`, `minmax_expression.py:60-63`, `abs_expression.py:46-49`,
    `constant_integer_expression.py:47-50`, `constant_binary_expression.py:50-53`,
    `var_assignment_expression.py:66-69` (empty!), `get_var_expression.py:50-53`. -/
def Expr.contained : Expr → List Str
  | .paren e => e.contained
  | .not e => e.contained
  | .dropKeep _ => []
  | .dice _ => []
  | .constInt _ => []
  | .constBin _ => []
  | .add a b => a.contained ++ b.contained
  | .sub a b => a.contained ++ b.contained
  | .mul a b => a.contained ++ b.contained
  | .div a b => a.contained ++ b.contained
  | .bin _ a b => a.contained ++ b.contained
  | .minmax _ a b => a.contained ++ b.contained
  | .abs e => e.contained
  | .assign _ _ => []
  | .getVar name => [name]

/-- The operator text. -/
def CmpOp.text : CmpOp → Str
  | .eq => ['=', '='] | .ne => ['!', '='] | .le => ['<', '='] | .lt => ['<'] | .ge => ['>', '='] | .gt => ['>']
  | .and => ['A', 'N', 'D'] | .or => ['O', 'R']

/-- `__str__` of every class: `parentheses_enclosed_expression.py:37-38`, `not_expression.py:38-39`, `dice_expression.py:55-56`,
    `drop_keep_expression.py:98-99`, `constant_integer_expression.py:38-39`, `constant_binary_expression.py:41-42`,
    `add_expression.py:42-43`, `subtract_expression.py:42-43`, `multiply_expression.py:42-43`,
    `integer_division_expression.py:51-52`, `binary_operator_expression.py:67-68`, `minmax_expression.py:45-46`,
    `abs_expression.py:37-38`, `var_assignment_expression.py:53-54`, `get_var_expression.py:41-42`. -/
def Expr.str : Expr → Str
  | .paren e => '(' :: e.str ++ [')']
  | .not e => '!' :: e.str
  | .dropKeep t => t.form
  | .dice t => t.form
  | .constInt text => text
  | .constBin text => text
  | .add a b => a.str ++ [' ', '+', ' '] ++ b.str
  | .sub a b => a.str ++ [' ', '-', ' '] ++ b.str
  | .mul a b => a.str ++ [' ', '*', ' '] ++ b.str
  | .div a b => a.str ++ [' ', '/', '/', ' '] ++ b.str
  | .bin op a b => a.str ++ ' ' :: op.text ++ ' ' :: b.str
  | .minmax k a b => (if k then ['M', 'A', 'X', '('] else ['M', 'I', 'N', '(']) ++ a.str ++ [',', ' '] ++ b.str ++ [')']
  | .abs e => ['A', 'B', 'S', '('] ++ e.str ++ [')']
  | .assign name e => ['V', 'A', 'R', ' '] ++ name ++ [' ', '=', ' '] ++ e.str
  | .getVar name => name

end PyDice
