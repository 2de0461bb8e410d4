import Verif.Interp
/-!
# The distributions as mutable objects

The other model files treat Python objects as values.  Here the parts of the code that assign to fields or change containers are
modelled once more with a heap, so that sharing of objects is visible: `set` objects holding constraints (changed by `add` and
`remove`), `ConstraintSet` objects (whose `_constraints_set` is re-assigned by `add_constraint`) and `dict` objects from outcomes to
counts (changed by item assignment).  `Verif/Props/C48.lean` proves that nobody can tell the difference.

Not on the heap, because nothing changes them after their construction: constraints (`_name`, `_values`), outcomes (`_value`,
`_constraint_set`, see `OutRef`) and distributions (`_result_map`, `_outcome_count`, see `DistRef`): such an object is the tuple of its
fields.
-/

namespace PyDice
open PyRuntime

/-- A `ProbabilityOutcome` object (`probability_outcome.py:9-14`): its value and the *address* of its `ConstraintSet`. -/
structure OutRef where
  value : Int
  cs : Nat
  deriving DecidableEq

/-- A `ProbabilityDistribution` object (`probability_distribution.py:20-22`): the address of `_result_map`, and `_outcome_count`. -/
structure DistRef where
  map : Nat
  count : Nat
  deriving DecidableEq

section
variable [R : PyRuntime]

/-- The mutable objects.  Addresses are indices; a new object gets the next one. -/
structure Heap where
  /-- `set` objects holding constraints -/
  sets : List CSet
  /-- `ConstraintSet` objects: the address of `_constraints_set` (`constraint_set.py:11`) -/
  csets : List Nat
  /-- `dict` objects from outcomes to counts -/
  dicts : List (List (OutRef × Nat))

/-- The content of a `set` object. -/
def Heap.set (h : Heap) (a : Nat) : CSet := h.sets.getD a empty
/-- The set a `ConstraintSet` object holds. -/
def Heap.constraints (h : Heap) (a : Nat) : CSet := h.set (h.csets.getD a 0)
/-- The content of a `dict` object. -/
def Heap.dict (h : Heap) (a : Nat) : List (OutRef × Nat) := h.dicts.getD a []

/-- A method that works on the heap: it may raise, and it may change the heap either way. -/
def HeapM (α : Type) := Heap → Res α × Heap

/-- Sequencing; an exception keeps the heap reached so far. -/
def HeapM.bind {α β : Type} (m : HeapM α) (f : α → HeapM β) : HeapM β := fun h =>
  match m h with
  | (.ok a, h') => f a h'
  | (.error e, h') => (.error e, h')

instance : Monad HeapM where
  pure a := fun h => (.ok a, h)
  bind := HeapM.bind

/-- A computation that does not touch the heap. -/
def HeapM.ofRes {α : Type} (r : Res α) : HeapM α := fun h => (r, h)
/-- Reading from the heap. -/
def HeapM.read {α : Type} (f : Heap → α) : HeapM α := fun h => (.ok (f h), h)

/-- A new `set` object. -/
def newSet (s : CSet) : HeapM Nat := fun h => (.ok h.sets.length, { h with sets := h.sets ++ [s] })
/-- Changing a `set` object in place. -/
def changeSet (a : Nat) (f : CSet → CSet) : HeapM Unit := fun h => (.ok (), { h with sets := h.sets.set a (f (h.set a)) })
/-- A new `ConstraintSet` object whose `_constraints_set` is the `set` object at `a`. -/
def newCSet (a : Nat) : HeapM Nat := fun h => (.ok h.csets.length, { h with csets := h.csets ++ [a] })
/-- `self._constraints_set = ...`. -/
def assignCSet (self a : Nat) : HeapM Unit := fun h => (.ok (), { h with csets := h.csets.set self a })
/-- A new empty `dict` object. -/
def newDict : HeapM Nat := fun h => (.ok h.dicts.length, { h with dicts := h.dicts ++ [[]] })
/-- Changing a `dict` object in place. -/
def changeDict (a : Nat) (f : Heap → List (OutRef × Nat) → List (OutRef × Nat)) : HeapM Unit := fun h =>
  (.ok (), { h with dicts := h.dicts.set a (f h (h.dict a)) })

/-! ### `constraint_merger.py`, `constraint_set.py` -/

/-- The `for` loop of `__merge_new_constraint` (`constraint_merger.py:36-48`): addresses of the changed and the unchanged set. -/
def mergeScanH (new : Constraint) (set : Nat) : List Constraint → HeapM (Option (Nat × Nat))
  | [] => pure none
  | c :: rest =>
    if c.canMerge new then do
      let unchanged ← newSet (copy (← HeapM.read (·.set set)))
      changeSet unchanged (erase · c)
      let changed ← newSet (insert empty (← HeapM.ofRes (c.merge new)))
      return some (changed, unchanged)
    else if new.canMerge c then do
      let unchanged ← newSet (copy (← HeapM.read (·.set set)))
      let changed ← newSet (insert empty (← HeapM.ofRes (new.merge c)))
      changeSet unchanged (erase · c)
      return some (changed, unchanged)
    else mergeScanH new set rest

/-- `__merge_new_constraint` (`constraint_merger.py:32-51`): `constraint_set.add` changes the argument. -/
def mergeOneH (new : Constraint) (set : Nat) : HeapM (Nat × Nat) := do
  match ← mergeScanH new set (iter (← HeapM.read (·.set set))) with
  | some p => return p
  | none => do
    changeSet set (insert · new)
    let nothing ← newSet empty
    return (nothing, set)

/-- The `while` loop of `__merge_new_constraints` (`constraint_merger.py:21-30`), as `mergeLoop`. -/
def mergeLoopH : Nat → List Constraint → Nat → HeapM Nat
  | _, [], clean => pure clean
  | 0, _ :: _, _ => HeapM.ofRes (.error .diverges)
  | fuel + 1, cur :: rest, clean => do
    let p ← mergeOneH cur clean
    let unclean ← HeapM.read (·.set p.1)
    mergeLoopH fuel ((iter unclean).reverse ++ rest) p.2

/-- `__merge_new_constraints` (`constraint_merger.py:14-30`); the list `values_to_merge` is local. -/
def mergeNewAllH (news set : Nat) : HeapM Nat := do
  let values ← newSet (copy (← HeapM.read (·.set news)))
  let clean ← newSet (copy (← HeapM.read (·.set set)))
  let stack ← HeapM.read fun h => (iter (h.set values)).reverse
  let fuel ← HeapM.read fun h => mergeFuel stack (h.set clean)
  mergeLoopH fuel stack clean

/-- `merge_new_constraints` (`constraint_merger.py:11-12`). -/
def mergeNewConstraintsH (set : Nat) (new : Constraint) : HeapM Nat := do mergeNewAllH (← newSet (insert empty new)) set

/-- `ConstraintSet.add_constraint` (`constraint_set.py:23-26`). -/
def addConstraintH (self : Nat) (c : Constraint) : HeapM Unit := do
  let a ← mergeNewConstraintsH (← HeapM.read (·.csets.getD self 0)) c
  assignCSet self a

/-- The loop of `ConstraintSet.__init__` (`constraint_set.py:16-17`). -/
def addAllH (self : Nat) : List Constraint → HeapM Unit
  | [] => pure ()
  | c :: rest => do addConstraintH self c; addAllH self rest

/-- `ConstraintSet.__init__` (`constraint_set.py:10-17`). -/
def mkConstraintSetH (arg : Nat) : HeapM Nat := do
  let self ← newCSet (← newSet empty)
  let cs ← HeapM.read fun h => iter (h.set arg)
  if cs.length = 0 then HeapM.ofRes (.error .value)
  else do
    addAllH self cs
    return self

/-- `ConstraintSet.combine_sets` (`constraint_set.py:40-42`); `constraints` makes a copy (`:19-21`). -/
def combineSetsH (self other : Nat) : HeapM Nat := do
  let copied ← newSet (copy (← HeapM.read (·.constraints other)))
  let joined ← newSet (union (← HeapM.read (·.constraints self)) (← HeapM.read (·.set copied)))
  mkConstraintSetH joined

/-- `ConstraintSetFactory.create_constraint_set` (`constraint_set_factory.py:28-29`). -/
def createConstraintSetH : HeapM Nat := do mkConstraintSetH (← newSet (insert empty .null))

/-! ### `probability_outcome.py`, `probability_distribution.py` -/

/-- The outcome at this moment. -/
def Heap.outcome (h : Heap) (o : OutRef) : Outcome := ⟨o.value, h.constraints o.cs⟩

/-- `ProbabilityOutcome.__eq__` (`probability_outcome.py:117-120`) looks at the present content of the constraint sets. -/
@[instance_reducible] def Heap.outEq (h : Heap) : BEq OutRef := ⟨fun a b => h.outcome a == h.outcome b⟩

/-- `safe_add` on a `dict` object. -/
def safeAddH (a : Nat) (k : OutRef) (n : Nat) : HeapM Unit := changeDict a fun h d => @safeAdd _ h.outEq d k n

/-- `d[key] = n` on a `dict` object. -/
def dictSetH (a : Nat) (k : OutRef) (n : Nat) : HeapM Unit := changeDict a fun h d => @dictSet _ _ h.outEq d k n

/-- `ProbabilityOutcome._combine` (`probability_outcome.py:24-44`). -/
def OutRef.combine (op : BinOp) (a b : OutRef) : HeapM OutRef := do
  let v ← HeapM.ofRes (op.apply a.value b.value)
  let cs ← combineSetsH a.cs b.cs
  return ⟨v, cs⟩

/-- `ProbabilityOutcome.not_operator` (`probability_outcome.py:93-95`): the new outcome *shares* the constraint set. -/
def OutRef.notOp (o : OutRef) : OutRef := ⟨if valueToBinary o.value then 0 else 1, o.cs⟩

/-- `ProbabilityOutcome.__abs__` (`probability_outcome.py:103-104`): the new outcome *shares* the constraint set. -/
def OutRef.absOp (o : OutRef) : OutRef := ⟨if o.value < 0 then -o.value else o.value, o.cs⟩

/-- `ProbabilityOutcomeFactory.create_empty` (`probability_outcome_factory.py:16-17`). -/
def createEmptyH (v : Int) : HeapM OutRef := do return ⟨v, ← createConstraintSetH⟩

/-- The loop of `ProbabilityDistribution.__init__` over outcome keys (`probability_distribution.py:29, 33-34`). -/
def addOutcomesH (a : Nat) : List (OutRef × Nat) → HeapM Unit
  | [] => pure ()
  | p :: rest => do safeAddH a p.1 p.2; addOutcomesH a rest

/-- The last loop of `ProbabilityDistribution.__init__` (`probability_distribution.py:35-36`). -/
def countH (a : Nat) : HeapM DistRef := do return ⟨a, ← HeapM.read fun h => (h.dict a).foldl (fun c p => c + p.2) 0⟩

/-- `ProbabilityDistribution.__init__` on a `dict` object with outcome keys (`probability_distribution.py:15-36`). -/
def mkDistH (arg : Nat) : HeapM DistRef := do
  let a ← newDict
  addOutcomesH a (← HeapM.read (·.dict arg))
  countH a

/-- The loop of `ProbabilityDistribution.__init__` over int keys (`probability_distribution.py:29-32`). -/
def addIntsH (a : Nat) : List (Int × Nat) → HeapM Unit
  | [] => pure ()
  | p :: rest => do safeAddH a (← createEmptyH p.1) p.2; addIntsH a rest

/-- `ProbabilityDistribution.__init__` on a dict with int keys (`probability_distribution.py:15-36`). -/
def mkDistIntH (m : List (Int × Nat)) : HeapM DistRef := do
  let a ← newDict
  addIntsH a m
  countH a

/-- `get_result_map` (`probability_distribution.py:221-231`). -/
def DistRef.getResultMap (d : DistRef) : HeapM (List (Int × Nat)) :=
  HeapM.read fun h => (h.dict d.map).foldl (fun m p => safeAdd m p.1.value p.2) []

/-- `_combine_distributions` (`probability_distribution.py:249-266`): the loop body over the visited pairs. -/
def combineLoopH (op : BinOp) (acc : Nat) : List ((OutRef × Nat) × (OutRef × Nat)) → HeapM Unit
  | [] => pure ()
  | (p, q) :: rest => do
    let o ← OutRef.combine op p.1 q.1
    if ← HeapM.read fun h => (h.outcome o).isPossible then do
      safeAddH acc o (p.2 * q.2)
      combineLoopH op acc rest
    else combineLoopH op acc rest

/-- The binary operators (`probability_distribution.py:268-338, 352-362`). -/
def DistRef.binop (op : BinOp) (a b : DistRef) : HeapM DistRef := do
  let acc ← newDict
  combineLoopH op acc (pairsOf (← HeapM.read (·.dict a.map)) (← HeapM.read (·.dict b.map)))
  mkDistH acc

/-- The loop of `not_operator` and `__abs__` (`probability_distribution.py:348-349, 372-373`). -/
def mapLoopH (f : OutRef → OutRef) (acc : Nat) : List (OutRef × Nat) → HeapM Unit
  | [] => pure ()
  | p :: rest => do safeAddH acc (f p.1) p.2; mapLoopH f acc rest

/-- `not_operator` (`probability_distribution.py:340-350`). -/
def DistRef.notOp (d : DistRef) : HeapM DistRef := do
  let acc ← newDict
  mapLoopH OutRef.notOp acc (← HeapM.read (·.dict d.map))
  mkDistH acc

/-- `__abs__` (`probability_distribution.py:364-374`). -/
def DistRef.absOp (d : DistRef) : HeapM DistRef := do
  let acc ← newDict
  mapLoopH OutRef.absOp acc (← HeapM.read (·.dict d.map))
  mkDistH acc

/-! ### `probability_distribution_state.py` -/

/-- `copy.deepcopy(outcome)` (`probability_distribution_state.py:67`): new objects all the way down. -/
def deepcopyH (o : OutRef) : HeapM OutRef := do
  let set ← newSet (deepcopy (← HeapM.read (·.constraints o.cs)))
  return ⟨o.value, ← newCSet set⟩

/-- The copy with its new constraint (`probability_distribution_state.py:64-68`). -/
def tagOutcomeH (newName : Str) (o : OutRef) : HeapM OutRef := do
  let new ← deepcopyH o
  addConstraintH new.cs (.varValue newName [o.value])
  return new

/-- The loop of `set_var` (`probability_distribution_state.py:63-69`). -/
def tagLoopH (newName : Str) (acc : Nat) : List (OutRef × Nat) → HeapM Unit
  | [] => pure ()
  | (o, n) :: rest => do
    let new ← tagOutcomeH newName o
    dictSetH acc new n
    tagLoopH newName acc rest

/-- The part of `set_var` that builds the new distribution (`probability_distribution_state.py:62-70`). -/
def tagDistH (newName : Str) (d : DistRef) : HeapM DistRef := do
  let acc ← newDict
  tagLoopH newName acc (← HeapM.read (·.dict d.map))
  mkDistH acc

/-- The heap and `ProbabilityDistributionState` (`probability_distribution_state.py:15-22`).  The three dicts of the state are seen
    by nobody else in the distribution methods (`C33` treats the dicts of ints). -/
structure HState where
  heap : Heap
  var : List (Str × DistRef)
  constants : List (Str × Int)
  timesSet : List (Str × Nat)

/-- A method of an expression or of the interpreter. -/
def HEvalM (α : Type) := HState → Res α × HState

/-- Sequencing; an exception keeps the state reached so far. -/
def HEvalM.bind {α β : Type} (m : HEvalM α) (f : α → HEvalM β) : HEvalM β := fun s =>
  match m s with
  | (.ok a, s') => f a s'
  | (.error e, s') => (.error e, s')

instance : Monad HEvalM where
  pure a := fun s => (.ok a, s)
  bind := HEvalM.bind

/-- A computation that does not touch the state. -/
def HEvalM.ofRes {α : Type} (r : Res α) : HEvalM α := fun s => (r, s)

/-- A computation on the heap only. -/
def HEvalM.ofHeap {α : Type} (m : HeapM α) : HEvalM α := fun s =>
  match m s.heap with
  | (r, h) => (r, { s with heap := h })

/-- `get_var` (`probability_distribution_state.py:41-44`): the object itself. -/
def HEvalM.getVar (name : Str) : HEvalM DistRef := fun s =>
  (match dictGet? s.var name with
    | some d => .ok d
    | none => .error .key, s)

/-- `get_constant` (`probability_distribution_state.py:36-39`). -/
def HEvalM.getConstant (name : Str) : HEvalM Int := fun s =>
  (match dictGet? s.constants name with
    | some v => .ok v
    | none => .error .key, s)

/-- `set_constant` (`probability_distribution_state.py:46-50`). -/
def HEvalM.setConstant (name : Str) (v : Int) : HEvalM Unit := fun s =>
  (.ok (), { s with constants := dictSet s.constants name v, timesSet := bump s.timesSet name })

/-- `set_var` (`probability_distribution_state.py:52-70`). -/
def HEvalM.setVar (name : Str) (d : DistRef) : HEvalM Unit := fun s =>
  let times := bump s.timesSet name
  let newName := versionName name ((dictGet? times name).getD 0)
  match tagDistH newName d s.heap with
  | (.error e, h) => (.error e, { s with timesSet := times, heap := h })
  | (.ok d', h) => (.ok (), { s with timesSet := times, heap := h, var := dictSet s.var name d' })

/-! ### `src/expression/*.py` -/

/-- The loop of `DiceExpression.get_probability_distribution` (`dice_expression.py:65-66`). -/
def addDiceH (single : DistRef) : Nat → DistRef → HeapM DistRef
  | 0, d => pure d
  | n + 1, d => do addDiceH single n (← DistRef.binop .add d single)

/-- `DiceExpression.get_probability_distribution` (`dice_expression.py:58-67`). -/
def DiceTerm.distH (t : DiceTerm) : HeapM DistRef := do
  let single ← mkDistIntH t.table
  let d ← mkDistIntH (← single.getResultMap)
  addDiceH single (t.number - 1) d

/-- `DropKeepExpression.get_probability_distribution` (`drop_keep_expression.py:111-128`). -/
def DropKeepTerm.distH (t : DropKeepTerm) : HeapM DistRef :=
  match t.simplified with
  | .dice d => d.distH
  | .zero => mkDistIntH [(0, 1)]
  | .none => do mkDistIntH (← HeapM.ofRes (dropKeepMap t))

/-- `get_probability_distribution` of every class, see `Expr.dist`. -/
def Expr.distH : Expr → HEvalM DistRef
  | .paren e => e.distH
  | .not e => do let x ← e.distH; HEvalM.ofHeap x.notOp
  | .dropKeep t => HEvalM.ofHeap t.distH
  | .dice t => HEvalM.ofHeap t.distH
  | .constInt text => do let v ← HEvalM.ofRes (pyInt text); HEvalM.ofHeap (mkDistIntH [(v, 1)])
  | .constBin text => HEvalM.ofHeap (mkDistIntH [(binValue text, 1)])
  | .add a b => do let x ← a.distH; let y ← b.distH; HEvalM.ofHeap (DistRef.binop .add x y)
  | .sub a b => do let x ← a.distH; let y ← b.distH; HEvalM.ofHeap (DistRef.binop .sub x y)
  | .mul a b => do let x ← a.distH; let y ← b.distH; HEvalM.ofHeap (DistRef.binop .mul x y)
  | .div a b => do let x ← a.distH; let y ← b.distH; HEvalM.ofHeap (DistRef.binop .floordiv x y)
  | .bin op a b => do let x ← a.distH; let y ← b.distH; HEvalM.ofHeap (DistRef.binop op.toBinOp x y)
  | .minmax isMax a b => do
    let x ← a.distH; let y ← b.distH; HEvalM.ofHeap (DistRef.binop (if isMax then .max else .min) x y)
  | .abs e => do let x ← e.distH; HEvalM.ofHeap x.absOp
  | .assign name e => do
    let d ← e.distH
    HEvalM.setVar name d
    return d
  | .getVar name => HEvalM.getVar name

/-- `self.get_probability_distribution().max()` (or `.min()`). -/
def viaDistH (isMax : Bool) (m : HEvalM DistRef) : HEvalM Int := do
  let d ← m
  let values ← HEvalM.ofHeap d.getResultMap
  HEvalM.ofRes ((if isMax then listMax else listMin) (values.map Prod.fst))

/-- `max` and `min` of every class, see `Expr.extreme`. -/
def Expr.extremeH (isMax : Bool) : Expr → HEvalM Int
  | .paren e => e.extremeH isMax
  | .not e => viaDistH isMax (Expr.distH (.not e))
  | .dropKeep t => HEvalM.ofRes (t.extreme isMax)
  | .dice t => HEvalM.ofRes (t.extreme isMax)
  | .constInt text => HEvalM.ofRes (pyInt text)
  | .constBin text => HEvalM.ofRes (.ok (binValue text))
  | .add a b => viaDistH isMax (Expr.distH (.add a b))
  | .sub a b => viaDistH isMax (Expr.distH (.sub a b))
  | .mul a b => viaDistH isMax (Expr.distH (.mul a b))
  | .div a b => do
    let divisor ← b.distH
    let values ← HEvalM.ofHeap divisor.getResultMap
    if (dictGet? values 0).isSome && true then HEvalM.ofRes (.error .zeroDivision)
    else viaDistH isMax (Expr.distH (.div a b))
  | .bin op a b => viaDistH isMax (Expr.distH (.bin op a b))
  | .minmax k a b => do
    let x ← a.extremeH isMax
    let y ← b.extremeH isMax
    return minmaxOp k x y
  | .abs e => viaDistH isMax (Expr.distH (.abs e))
  | .assign name e => do
    let v ← e.extremeH isMax
    HEvalM.setConstant name v
    HEvalM.setVar name (← e.distH)
    return v
  | .getVar name => HEvalM.getConstant name

/-! ### `python_dice_interpreter.py` -/

/-- One line of the distribution methods (`python_dice_interpreter.py:74-77, 83-86, 92-95`). -/
def distLineH (parse : Str → Res Expr) (line : Str) : HEvalM Unit := do
  let e ← HEvalM.ofRes (parse line)
  let d ← e.distH
  fun s => (.ok (), { s with var := dictSet s.var stdoutName d })

/-- The loop of the distribution methods. -/
def distLinesH (parse : Str → Res Expr) : List Str → HEvalM Unit
  | [] => pure ()
  | l :: ls => do distLineH parse l; distLinesH parse ls

/-- `get_probability_distributions` (`python_dice_interpreter.py:80-87`): a new dict of the state's own distribution objects. -/
def interpDistsH (parse : Str → Res Expr) (lines : List Str) : HEvalM (List (Str × DistRef)) := do
  distLinesH parse lines
  fun s => (.ok (if lines = [] then [] else s.var), s)

/-- One line of `max` / `min` (`python_dice_interpreter.py:56-59, 65-68`). -/
def extremeLineH (parse : Str → Res Expr) (isMax : Bool) (line : Str) : HEvalM Unit := do
  let e ← HEvalM.ofRes (parse line)
  let v ← e.extremeH isMax
  fun s => (.ok (), { s with constants := dictSet s.constants stdoutName v })

/-- The loop of `max` / `min`. -/
def extremeLinesH (parse : Str → Res Expr) (isMax : Bool) : List Str → HEvalM Unit
  | [] => pure ()
  | l :: ls => do extremeLineH parse isMax l; extremeLinesH parse isMax ls

/-- The loop of the three histogram methods (`python_dice_interpreter.py:99-102, 106-109, 113-116`). -/
def lastDistH (parse : Str → Res Expr) : List Str → DistRef → HEvalM DistRef
  | [], d => pure d
  | l :: ls, _ => do
    let e ← HEvalM.ofRes (parse l)
    let d ← e.distH
    lastDistH parse ls d

/-- The distribution the three histogram methods draw (`python_dice_interpreter.py:98-117`). -/
def interpHistogramDistH (parse : Str → Res Expr) (lines : List Str) : HEvalM DistRef := do
  let none ← HEvalM.ofHeap (mkDistIntH [])
  lastDistH parse lines none

end

end PyDice
