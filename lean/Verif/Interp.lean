import Verif.Expr
/-!
# `src/python_dice_interpreter.py`

The parser is a constructor argument of the interpreter (`python_dice_interpreter.py:27`); here it is a function
`parse : Str → Res Expr`.  `Verif/Parser.lean` models the default one.
-/

namespace PyDice
open PyRuntime

section
variable [R : PyRuntime]

/-- The key under which the interpreter stores a line's result. -/
def stdoutName : Str := ['s', 't', 'd', 'o', 'u', 't']

/-- One line of `roll`: parse, `token.roll()`, store the result under `"stdout"` in the state's own constant dict
    (`python_dice_interpreter.py:47-50`). -/
def rollLine (parse : Str → Res Expr) (line : Str) : RollM Unit := do
  let e ← RollM.ofEval (EvalM.ofRes (parse line))
  let v ← e.roll
  fun s => .pure (.ok (), { s with constants := dictSet s.constants stdoutName v })

/-- The loop of `roll` (`python_dice_interpreter.py:46-50`). -/
def rollLines (parse : Str → Res Expr) : List Str → RollM Unit
  | [] => pure ()
  | l :: ls => do rollLine parse l; rollLines parse ls

/-- What `roll`, `max` and `min` return: the state's constant dict *itself* (shown as its content at return), or `{}` when there
    were no lines (`python_dice_interpreter.py:45, 49-51`). -/
def constantsReturned (lines : List Str) (s : State) : List (Str × Int) := if lines = [] then [] else s.constants

/-- `PythonDiceInterpreter.roll` (`python_dice_interpreter.py:44-51`). -/
def interpRoll (parse : Str → Res Expr) (lines : List Str) : RollM (List (Str × Int)) := do
  rollLines parse lines
  fun s => .pure (.ok (constantsReturned lines s), s)

/-- One line of `max` / `min` (`python_dice_interpreter.py:56-59, 65-68`). -/
def extremeLine (parse : Str → Res Expr) (isMax : Bool) (line : Str) : EvalM Unit := do
  let e ← EvalM.ofRes (parse line)
  let v ← e.extreme isMax
  fun s => (.ok (), { s with constants := dictSet s.constants stdoutName v })

/-- The loop of `max` / `min`. -/
def extremeLines (parse : Str → Res Expr) (isMax : Bool) : List Str → EvalM Unit
  | [] => pure ()
  | l :: ls => do extremeLine parse isMax l; extremeLines parse isMax ls

/-- `PythonDiceInterpreter.max` / `min` (`python_dice_interpreter.py:53-69`). -/
def interpExtreme (parse : Str → Res Expr) (isMax : Bool) (lines : List Str) : EvalM (List (Str × Int)) := do
  extremeLines parse isMax lines
  fun s => (.ok (constantsReturned lines s), s)

/-- One line of the distribution methods: the result goes under `"stdout"` into the state's own variable dict
    (`python_dice_interpreter.py:74-77, 83-86, 92-95`). -/
def distLine (parse : Str → Res Expr) (line : Str) : EvalM Unit := do
  let e ← EvalM.ofRes (parse line)
  let d ← e.dist
  fun s => (.ok (), { s with var := dictSet s.var stdoutName d })

/-- The loop of the distribution methods. -/
def distLines (parse : Str → Res Expr) : List Str → EvalM Unit
  | [] => pure ()
  | l :: ls => do distLine parse l; distLines parse ls

/-- `get_probability_distributions` (`python_dice_interpreter.py:80-87`); the returned dict is a new one. -/
def interpDists (parse : Str → Res Expr) (lines : List Str) : EvalM (List (Str × Dist)) := do
  distLines parse lines
  fun s => (.ok (if lines = [] then [] else s.var), s)

/-- A dict comprehension `{key: f(value) for key, value in d.items()}` over a dict. -/
def mapValues {α β : Type} (f : α → Res β) (d : List (Str × α)) : Res (List (Str × β)) :=
  d.mapM fun p => do return (p.1, ← f p.2)

/-- `get_probability_distributions_dict` (`python_dice_interpreter.py:71-78`). -/
def interpDictForms (parse : Str → Res Expr) (lines : List Str) : EvalM (List (Str × List (Int × ℚ))) := do
  let d ← interpDists parse lines
  EvalM.ofRes (mapValues Dist.getDictForm d)

/-- `get_average` (`python_dice_interpreter.py:89-96`). -/
def interpAverages (parse : Str → Res Expr) (lines : List Str) : EvalM (List (Str × ℚ)) := do
  let d ← interpDists parse lines
  EvalM.ofRes (mapValues Dist.average d)

/-- The common loop of the three histogram methods (`python_dice_interpreter.py:99-102, 106-109, 113-116`): the last line's
    distribution, and nothing is stored under `"stdout"`. -/
def lastDist (parse : Str → Res Expr) : List Str → Dist → EvalM Dist
  | [], d => pure d
  | l :: ls, _ => do
    let e ← EvalM.ofRes (parse l)
    let d ← e.dist
    lastDist parse ls d

/-- The distribution the three histogram methods draw (`python_dice_interpreter.py:98-117`). -/
def interpHistogramDist (parse : Str → Res Expr) (lines : List Str) : EvalM Dist := lastDist parse lines (mkDist [])

/-- The loop of `get_estimated_cost`. -/
def costLines (parse : Str → Res Expr) : List Str → Int → EvalM Int
  | [], total => pure total
  | l :: ls, total => do
    let e ← EvalM.ofRes (parse l)
    let c ← e.cost
    costLines parse ls (total + c)

/-- `get_estimated_cost` (`python_dice_interpreter.py:119-125`). -/
def interpCost (parse : Str → Res Expr) (lines : List Str) : EvalM Int := costLines parse lines 0

/-! ### Which dict object is returned

`interpRoll` and `interpExtreme` show the content of the returned dict at the moment of return.  The object itself is, unless there
were no lines, the state's own `_constants` (`python_dice_interpreter.py:45-51, 54-60, 63-69`;
`probability_distribution_state.py:29-30`). -/

/-- A dict of ints that a caller holds. -/
inductive IntDict where
  /-- an object nobody else refers to -/
  | own (content : List (Str × Int))
  /-- the `_constants` object of the interpreter's state -/
  | constants

/-- What is in the dict when the interpreter is in the given state. -/
def IntDict.content (s : State) : IntDict → List (Str × Int)
  | .own c => c
  | .constants => s.constants

/-- The object `roll`, `max` and `min` return. -/
def dictReturned (lines : List Str) : IntDict := if lines = [] then .own [] else .constants

/-- `PythonDiceInterpreter.roll`, returning the object. -/
def interpRollObject (parse : Str → Res Expr) (lines : List Str) : RollM IntDict := do
  rollLines parse lines
  return dictReturned lines

/-- `PythonDiceInterpreter.max` / `min`, returning the object. -/
def interpExtremeObject (parse : Str → Res Expr) (isMax : Bool) (lines : List Str) : EvalM IntDict := do
  extremeLines parse isMax lines
  return dictReturned lines

/-- A dict of distributions that a caller holds; the distribution methods build a new dict
    (`python_dice_interpreter.py:78, 87, 96`), and nothing changes a distribution object after its construction (C48). -/
structure OwnDict (α : Type) where
  content : List (Str × α)

/-- `get_probability_distributions`, returning the object. -/
def interpDistsObject (parse : Str → Res Expr) (lines : List Str) : EvalM (OwnDict Dist) := do
  return ⟨← interpDists parse lines⟩

end

end PyDice
