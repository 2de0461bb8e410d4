import Verif.Expr
/-!
# How often the innermost loops run

`get_probability_distribution` once more, counting the passes through the bodies of its two nested loops: the one over pairs of outcomes
in `_combine_distributions` and the one over faces and keys in `_build_dice_dict` and `_compute_iterations`.  Loops over the entries of a
single table (constructors, `not_operator`, `__abs__`, `set_var`, `_collapse_outcomes`) are not counted.  When a method raises, the
count is lost.
-/

namespace PyDice

/-- `keyLoop` (`drop_keep_expression.py:139-149, 189-193`), counting the passes. -/
def keyLoopW (next : Str → Int → Res Str) : List ((Int × Nat) × (Str × Nat)) → List (Str × Nat) → Nat → Res (List (Str × Nat) × Nat)
  | [], acc, n => .ok (acc, n)
  | ((face, count), (oldKey, oldValue)) :: rest, acc, n => do
    let key ← next oldKey face
    keyLoopW next rest (safeAdd acc key (oldValue * count)) (n + 1)

/-- `iterKeys` (`drop_keep_expression.py:137-150, 187-194`), counting the passes of the inner loops. -/
def iterKeysW (next : Str → Int → Res Str) (table : List (Int × Nat)) : Nat → List (Str × Nat) → Nat → Res (List (Str × Nat) × Nat)
  | 0, d, n => .ok (d, n)
  | k + 1, d, n => do
    let (d', n') ← keyLoopW next (pairsOf table d) [] n
    iterKeysW next table k d' n'

/-- `dropKeepMap` (`drop_keep_expression.py:115-127`), counting. -/
def dropKeepMapW (t : DropKeepTerm) : Res (List (Int × Nat) × Nat) := do
  let select := if t.keep then t.count else t.number - t.count
  let remaining := if t.keep then t.number - t.count else t.count
  let (d, n) ← iterKeysW addKey t.table select [([], 1)] 0
  let (d, n) ← iterKeysW (updateKey t.keep) t.table remaining d n
  return (← collapse d [], n)

section
variable [R : PyRuntime]

/-- `combineLoop` (`probability_distribution.py:261-265`), counting the passes. -/
def combineLoopW (op : BinOp) : List ((Outcome × Nat) × (Outcome × Nat)) → List (Outcome × Nat) → Nat →
    Res (List (Outcome × Nat) × Nat)
  | [], acc, n => .ok (acc, n)
  | (p, q) :: rest, acc, n => do
    let o ← Outcome.combine op p.1 q.1
    if o.isPossible then combineLoopW op rest (safeAdd acc o (p.2 * q.2)) (n + 1) else combineLoopW op rest acc (n + 1)

/-- The operators of distributions (`probability_distribution.py:268-338, 352-362`), with the number of passes. -/
def Dist.binopW (op : BinOp) (a b : Dist) : Res (Dist × Nat) := do
  let (m, n) ← combineLoopW op (pairsOf a.resultMap b.getConstraintResultMap) [] 0
  return (mkDist m, n)

/-- `addDice` (`dice_expression.py:65-66`), counting; `w` passes before. -/
def addDiceW (single : Dist) : Nat → Dist → Nat → Res (Dist × Nat)
  | 0, d, w => .ok (d, w)
  | n + 1, d, w => do
    let (d', k) ← Dist.binopW .add d single
    addDiceW single n d' (w + k)

/-- `DiceExpression.get_probability_distribution` (`dice_expression.py:58-67`), counting. -/
def DiceTerm.distW (t : DiceTerm) : Res (Dist × Nat) := do
  let single ← mkDistInt t.table
  let d ← mkDistInt single.getResultMap
  addDiceW single (t.number - 1) d 0

/-- `DropKeepExpression.get_probability_distribution` (`drop_keep_expression.py:111-128`), counting. -/
def DropKeepTerm.distW (t : DropKeepTerm) : Res (Dist × Nat) :=
  match t.simplified with
  | .dice d => d.distW
  | .zero => do return (← constDist 0, 0)
  | .none => do
    let (m, n) ← dropKeepMapW t
    return (← mkDistInt m, n)

/-- Both operands and then the operator, the passes added up. -/
def EvalM.binopW (op : BinOp) (a b : EvalM (Dist × Nat)) : EvalM (Dist × Nat) := do
  let x ← a
  let y ← b
  let z ← EvalM.ofRes (Dist.binopW op x.1 y.1)
  return (z.1, x.2 + y.2 + z.2)

/-- `get_probability_distribution` of every class, see `Expr.dist` for the lines, with the number of passes through the bodies of the
    nested loops. -/
def Expr.distW : Expr → EvalM (Dist × Nat)
  | .paren e => e.distW
  | .not e => do let x ← e.distW; return (x.1.notOp, x.2)
  | .dropKeep t => EvalM.ofRes t.distW
  | .dice t => EvalM.ofRes t.distW
  | .constInt text => EvalM.ofRes (do return (← constDist (← pyInt text), 0))
  | .constBin text => EvalM.ofRes (do return (← constDist (binValue text), 0))
  | .add a b => EvalM.binopW .add a.distW b.distW
  | .sub a b => EvalM.binopW .sub a.distW b.distW
  | .mul a b => EvalM.binopW .mul a.distW b.distW
  | .div a b => EvalM.binopW .floordiv a.distW b.distW
  | .bin op a b => EvalM.binopW op.toBinOp a.distW b.distW
  | .minmax isMax a b => EvalM.binopW (if isMax then .max else .min) a.distW b.distW
  | .abs e => do let x ← e.distW; return (x.1.absOp, x.2)
  | .assign name e => do
    let x ← e.distW
    EvalM.setVar name x.1
    return x
  | .getVar name => do let d ← EvalM.read (fun s => s.getVar name); return (d, 0)

end

end PyDice
