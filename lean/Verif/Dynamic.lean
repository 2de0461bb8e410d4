import Verif.Messages
import Verif.Repr
/-!
# Operands of any type

The rest of the model is typed: an operator takes two outcomes or two distributions.  The code takes any object and tests its class
(`isinstance`).  Here are the operators, the comparisons and the constructors of `src/probability_distribution` and the merging of
`src/constraint` on arbitrary Python objects, with the texts of the exceptions they raise.
-/

namespace PyDice
open PyRuntime

/-- What passes `isinstance(x, int)`: the ints and the two bools. -/
inductive PyNum where
  | int (n : Int)
  | bool (b : Bool)
  deriving DecidableEq, Repr

/-- The number a bool stands for. -/
def PyNum.toInt : PyNum → Int
  | .int n => n
  | .bool b => if b then 1 else 0

/-- `str(x)`. -/
def PyNum.text : PyNum → Str
  | .int n => intStr n
  | .bool true => "True".toList
  | .bool false => "False".toList

section
variable [R : PyRuntime]

/-- `ProbabilityOutcome` (`probability_outcome.py:8-22`): `_value` may be a bool. -/
structure OutcomeP where
  value : PyNum
  cs : CSet

/-- `ProbabilityOutcome.__eq__` between outcomes (`probability_outcome.py:117-120`), as a dict compares its keys; `True == 1`. -/
instance : BEq OutcomeP := ⟨fun a b => decide (a.value.toInt = b.value.toInt) && csEq a.cs b.cs⟩

/-- `ProbabilityDistribution` (`probability_distribution.py:20-22`). -/
structure DistP where
  resultMap : List (OutcomeP × Nat)
  outcomeCount : Nat

/-- A Python object.  `dist` has an identity, `id(x)`.  `other`: an object of any class that is not one of the library's, nor a number,
    with `str(type(x))` and `str(x)`; its operators do not know the classes of the library (they return `NotImplemented`). -/
inductive PyObj where
  | num (n : PyNum)
  | constraint (c : Constraint)
  | cset (s : CSet)
  | outcome (o : OutcomeP)
  | dist (id : Nat) (d : DistP)
  | other (cls text : Str)

/-- `ProbabilityOutcome.__str__` (`probability_outcome.py:106-107`). -/
def OutcomeP.text (o : OutcomeP) : Str := txtOutcome ++ o.value.text ++ txtCs ++ csText o.cs

/-- `ProbabilityDistribution.__str__` (`probability_distribution.py:376-377`). -/
def DistP.text (d : DistP) : Str := txtDist ++ reprDict (d.resultMap.map fun p => p.1.text ++ txtColon ++ natStr p.2)

/-- `str(x)`. -/
def PyObj.text : PyObj → Str
  | .num n => n.text
  | .constraint c => c.text
  | .cset s => csText s
  | .outcome o => o.text
  | .dist _ d => d.text
  | .other _ t => t

/-- `str(ProbabilityDistribution)`. -/
def distClass : Str := "<class 'python_dice.src.probability_distribution.probability_distribution.ProbabilityDistribution'>".toList

/-- `str(type(x))`. -/
def PyObj.cls : PyObj → Str
  | .num (.int _) => "<class 'int'>".toList
  | .num (.bool _) => "<class 'bool'>".toList
  | .constraint .null => "<class 'python_dice.src.constraint.null_constraint.NullConstraint'>".toList
  | .constraint .impossible => "<class 'python_dice.src.constraint.impossible_constraint.ImpossibleConstraint'>".toList
  | .constraint (.varValue _ _) => "<class 'python_dice.src.constraint.var_value_constraint.VarValueConstraint'>".toList
  | .cset _ => "<class 'python_dice.src.constraint.constraint_set.ConstraintSet'>".toList
  | .outcome _ => "<class 'python_dice.src.probability_distribution.probability_outcome.ProbabilityOutcome'>".toList
  | .dist _ _ => distClass
  | .other c _ => c

/-! ### Outcomes -/

/-- `ProbabilityOutcome.__init__` (`probability_outcome.py:9-14`). -/
def mkOutcomeP (x : PyObj) (cs : CSet) : Except Exc OutcomeP :=
  match x with
  | .num n => .ok ⟨n, cs⟩
  | _ => .error (.own .type (some "can not have a bool value for a probability outcome".toList))

/-- `combination_function.__name__` of each operator (`probability_outcome.py:57-101`). -/
def BinOp.funName : BinOp → Str
  | .add => "add".toList
  | .sub => "sub".toList
  | .mul => "mul".toList
  | .floordiv => "floordiv".toList
  | .eq => "eq".toList
  | .ne => "ne".toList
  | .lt => "lt".toList
  | .le => "le".toList
  | .gt => "gt".toList
  | .ge => "ge".toList
  | .and => "and_".toList
  | .or => "or_".toList
  | .max => "max".toList
  | .min => "min".toList

/-- `combination_function` on numbers (`probability_outcome.py:34-39, 57-101`): arithmetic gives ints, comparisons and `&`, `|` of truth
    values give bools, `max` and `min` give one of their arguments, the first when they are equal. -/
def BinOp.applyP : BinOp → PyNum → PyNum → Except Exc PyNum
  | .add, x, y => .ok (.int (x.toInt + y.toInt))
  | .sub, x, y => .ok (.int (x.toInt - y.toInt))
  | .mul, x, y => .ok (.int (x.toInt * y.toInt))
  | .floordiv, x, y => if y.toInt = 0 then .error (.other .zeroDivision) else .ok (.int (x.toInt.fdiv y.toInt))
  | .eq, x, y => .ok (.bool (decide (x.toInt = y.toInt)))
  | .ne, x, y => .ok (.bool (decide (x.toInt ≠ y.toInt)))
  | .lt, x, y => .ok (.bool (decide (x.toInt < y.toInt)))
  | .le, x, y => .ok (.bool (decide (x.toInt ≤ y.toInt)))
  | .gt, x, y => .ok (.bool (decide (x.toInt > y.toInt)))
  | .ge, x, y => .ok (.bool (decide (x.toInt ≥ y.toInt)))
  | .and, x, y => .ok (.bool (valueToBinary x.toInt && valueToBinary y.toInt))
  | .or, x, y => .ok (.bool (valueToBinary x.toInt || valueToBinary y.toInt))
  | .max, x, y => .ok (if y.toInt > x.toInt then y else x)
  | .min, x, y => .ok (if y.toInt < x.toInt then y else x)

/-- `if isinstance(new_value, bool): new_value = self._binary_to_int(new_value)` (`probability_outcome.py:41-42`). -/
def PyNum.unbool : PyNum → PyNum
  | .bool b => .int (binaryToInt b)
  | n => n

/-- `ProbabilityOutcome._combine` (`probability_outcome.py:24-44`). -/
def OutcomeP.combine (op : BinOp) (a : OutcomeP) (x : PyObj) : Except Exc OutcomeP :=
  match x with
  | .outcome b => do
    let v ← op.applyP a.value b.value
    let cs ← (combineSets a.cs b.cs).mapError Exc.other
    mkOutcomeP (.num v.unbool) cs
  | x => .error (.own .type (some ("No ".toList ++ op.funName ++ " between ProbabilityOutcome and ".toList ++ x.cls ++ ".".toList)))

/-- `ProbabilityOutcome.is_possible` (`probability_outcome.py:46-47`). -/
def OutcomeP.isPossible (o : OutcomeP) : Bool := csPossible o.cs

/-- `ProbabilityOutcome.not_operator` (`probability_outcome.py:93-95`). -/
def OutcomeP.notOp (o : OutcomeP) : OutcomeP := ⟨.int (if valueToBinary o.value.toInt then 0 else 1), o.cs⟩

/-- `ProbabilityOutcome.__abs__` (`probability_outcome.py:103-104`); `abs(True)` is the int 1. -/
def OutcomeP.absOp (o : OutcomeP) : OutcomeP := ⟨.int (if o.value.toInt < 0 then -o.value.toInt else o.value.toInt), o.cs⟩

/-! ### Distributions -/

/-- One entry of the loop of `ProbabilityDistribution.__init__` (`probability_distribution.py:29-33`): int keys become outcomes tied to
    nothing, outcomes are kept, keys of any other class match neither `isinstance` and are passed over. -/
def keyStep (d : List (OutcomeP × Nat)) (p : PyObj × Nat) : Except Exc (List (OutcomeP × Nat)) :=
  match p.1 with
  | .num n => do
    let o ← mkOutcomeP (.num n) (← (createConstraintSet).mapError Exc.other)
    pure (safeAdd d o p.2)
  | .outcome o => pure (safeAdd d o p.2)
  | _ => pure d

/-- `ProbabilityDistribution.__init__` (`probability_distribution.py:15-36`).  Simplification: the counts are natural numbers. -/
def mkDistP (m : List (PyObj × Nat)) : Except Exc DistP := do
  let rm ← m.foldlM keyStep []
  return ⟨rm, rm.foldl (fun c p => c + p.2) 0⟩

/-- The method of each operator of `ProbabilityDistribution`, as its `TypeError` names it (`probability_distribution.py:268-362`). -/
def BinOp.methodName : BinOp → Str
  | .add => "__add__".toList
  | .sub => "__sub__".toList
  | .mul => "__mul__".toList
  | .floordiv => "__floordiv__".toList
  | .eq => "__equal__".toList
  | .ne => "__not_equal__".toList
  | .lt => "__lt__".toList
  | .le => "__le__".toList
  | .gt => "__gt__".toList
  | .ge => "__ge__".toList
  | .and => "__and__".toList
  | .or => "__or__".toList
  | .max => "max_operator".toList
  | .min => "min_operator".toList

/-- `_combine_distributions` (`probability_distribution.py:249-266`): the loop body over the visited pairs. -/
def combineLoopP (op : BinOp) : List ((OutcomeP × Nat) × (OutcomeP × Nat)) → List (OutcomeP × Nat) →
    Except Exc (List (OutcomeP × Nat))
  | [], acc => .ok acc
  | (p, q) :: rest, acc => do
    let o ← p.1.combine op (.outcome q.1)
    if o.isPossible then combineLoopP op rest (safeAdd acc o (p.2 * q.2)) else combineLoopP op rest acc

/-- The operators of `ProbabilityDistribution` (`probability_distribution.py:268-338, 352-362`). -/
def DistP.binop (op : BinOp) (a : DistP) (x : PyObj) : Except Exc DistP :=
  match x with
  | .dist _ b => do
    let m ← combineLoopP op (pairsOf a.resultMap b.resultMap) []
    mkDistP (m.map fun p => (.outcome p.1, p.2))
  | x => .error (.own .type (some ("No ".toList ++ op.methodName ++ " between ".toList ++ distClass ++ " and ".toList ++ x.cls)))

/-- `not_operator` (`probability_distribution.py:340-350`). -/
def DistP.notOp (d : DistP) : Except Exc DistP :=
  mkDistP ((d.resultMap.foldl (fun m p => safeAdd m p.1.notOp p.2) []).map fun p => (.outcome p.1, p.2))

/-- `__abs__` (`probability_distribution.py:364-374`). -/
def DistP.absOp (d : DistP) : Except Exc DistP :=
  mkDistP ((d.resultMap.foldl (fun m p => safeAdd m p.1.absOp p.2) []).map fun p => (.outcome p.1, p.2))

/-- `get_result_map` (`probability_distribution.py:221-231`); equal numbers are one key, the first one met. -/
def DistP.getResultMap (d : DistP) : List (PyNum × Nat) :=
  haveI : BEq PyNum := ⟨fun a b => decide (a.toInt = b.toInt)⟩
  d.resultMap.foldl (fun m p => safeAdd m p.1.value p.2) []

/-! ### Python's operators -/

/-- The operators of Python that the library's classes define. -/
inductive PyOp where
  | add | sub | mul | floordiv | lt | le | gt | ge | and | or
  deriving DecidableEq, Repr

/-- `+ - * // < <= > >= & |`. -/
def PyOp.bin : PyOp → BinOp
  | .add => .add
  | .sub => .sub
  | .mul => .mul
  | .floordiv => .floordiv
  | .lt => .lt
  | .le => .le
  | .gt => .gt
  | .ge => .ge
  | .and => .and
  | .or => .or

/-- The method of the right operand that Python calls when the left operand returns `NotImplemented`: comparisons are mirrored; the
    library's classes define no `__radd__` and the like. -/
def PyOp.mirrored : PyOp → Option PyOp
  | .lt => some .gt
  | .le => some .ge
  | .gt => some .lt
  | .ge => some .le
  | _ => none

/-- `x ∘ y`, where one of the operands at least is an outcome or a distribution: the method of the left operand, or, if the left operand
    is not of the library, the mirrored method of the right one; CPython's own `TypeError` if there is none.  (When neither operand is of
    the library the definition says nothing about Python.) -/
def pyOp (op : PyOp) (x y : PyObj) : Except Exc (OutcomeP ⊕ DistP) :=
  match x with
  | .outcome a => (a.combine op.bin y).map Sum.inl
  | .dist _ a => (a.binop op.bin y).map Sum.inr
  | x => match op.mirrored, y with
    | some r, .outcome b => (b.combine r.bin x).map Sum.inl
    | some r, .dist _ b => (b.binop r.bin x).map Sum.inr
    | _, _ => .error (.other .type)

/-- `o == x` for an outcome `o` (`probability_outcome.py:117-120`). -/
def OutcomeP.eqPy (o : OutcomeP) (x : PyObj) : Except Exc Bool :=
  match x with
  | .outcome b => .ok (decide (o.value.toInt = b.value.toInt) && csCodeEq o.cs b.cs)
  | x => .error (.own .type (some ("No == between ProbabilityOutcome and ".toList ++ x.cls ++ ".".toList)))

/-- `x == y`, where one of the operands at least is of the library.  Constraints and constraint sets compare printed forms
    (`var_value_constraint.py:52-53`, `constraint_set.py:44-45`), with anything; distributions have no `__eq__` and compare by identity;
    an operand whose class does not know the other leaves it to the other's `__eq__`. -/
def pyEq (x y : PyObj) : Except Exc Bool :=
  match x, y with
  | .constraint c, y => .ok (decide (c.text = y.text))
  | .cset s, y => .ok (decide (csText s = y.text))
  | .outcome o, y => o.eqPy y
  | .dist i _, .dist j _ => .ok (decide (i = j))
  | x, .constraint c => .ok (decide (c.text = x.text))
  | x, .cset s => .ok (decide (csText s = x.text))
  | x, .outcome o => o.eqPy x
  | _, _ => .ok false

/-! ### Constraints -/

/-- `can_merge` (`null_constraint.py:11-12`, `impossible_constraint.py:11-12`, `var_value_constraint.py:31-34`). -/
def Constraint.canMergeP (c : Constraint) (x : PyObj) : Bool :=
  match c, x with
  | .null, _ => true
  | .impossible, _ => true
  | .varValue n _, .constraint (.varValue m _) => m == n
  | .varValue _ _, _ => false

/-- `merge` (`null_constraint.py:17-18`, `impossible_constraint.py:17-18`, `var_value_constraint.py:36-47`). -/
def Constraint.mergeP (c : Constraint) (x : PyObj) : Except Exc PyObj :=
  match c with
  | .null => .ok x
  | .impossible => .ok (.constraint .impossible)
  | .varValue n vs =>
    if !c.canMergeP x then .error (.own .value (some ("can not merge ".toList ++ x.text ++ " with ".toList ++ c.text)))
    else match x with
      | .constraint (.varValue _ ws) =>
        let common := inter vs ws
        if common.length = 0 then .ok (.constraint .impossible) else .ok (.constraint (.varValue n common))
      | x => .error (.own .value
          (some ("can not merge ".toList ++ x.text ++ " with ".toList ++ c.text ++ " however can_merge returned true".toList)))

/-- `ConstraintSet.__init__` (`constraint_set.py:10-17`) with the text of its own exception. -/
def mkConstraintSetP (cs : List Constraint) : Except Exc CSet :=
  if cs.length = 0 then .error (.own .value (some "can not build an empty constraint set. use a null constraint.".toList))
  else (addAll empty cs).mapError .other

end

end PyDice
