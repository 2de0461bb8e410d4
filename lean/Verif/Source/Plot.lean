import Verif.Source.World
/-!
# The libraries that draw, as a world

The static methods `_make_histogram` and `_make_line_plot` of distributions work on lists of numbers and call matplotlib, `io` and Pillow.  In this world
the calls are written down in their order, with their arguments; the libraries themselves are left out, and none of their functions raises.
-/
namespace PyDice.Source

/-- What the libraries hand out. -/
inductive PObj where
  | figure | axis | buffer | image
  deriving DecidableEq

/-- The name of the receiver of a method call. -/
def PObj.name : PObj → String
  | .figure => "figure"
  | .axis => "axis"
  | .buffer => "buffer"
  | .image => "image"

/-- A call of a library: the dotted name, and the arguments. -/
structure LibCall where
  path : List String
  args : List (Val PObj)

/-- Computations that may raise and that write down calls. -/
abbrev PlotM := StateT (List LibCall) (Except Err)

/-- Raising. -/
def plotRaise {α : Type} (e : Err) : PlotM α := fun _ => .error e

/-- A step that may raise. -/
def plotR {α : Type} : Res α → PlotM α
  | .ok a => pure a
  | .error e => plotRaise e

/-- Write down a call and return its result. -/
def libCall {α : Type} (path : List String) (args : List (Val PObj)) (r : α) : PlotM α := fun l => .ok (r, l ++ [⟨path, args⟩])

/-- Functions of the libraries. -/
def plotFunc (path : List String) (args : List (Val PObj)) : PlotM (Val PObj) :=
  match path with
  | ["pyplot", "subplots"] => libCall path args (.tuple [.obj .figure, .obj .axis])
  | ["pyplot", "savefig"] => libCall path args .none
  | ["io", "BytesIO"] => libCall path args (.obj .buffer)
  | ["Image", "open"] => libCall path args (.obj .image)
  | _ => plotRaise .type

/-- The world; `fs` is how floats are printed. -/
def plotWorld (toFl : ℚ → Res ℚ) (rnd : ℚ → ℚ) (fs : ℚ → Str) : World PObj PlotM where
  raise := plotRaise
  attr _ _ := plotRaise .type
  setAttr _ _ _ := plotRaise .type
  method o f args := libCall [o.name, f] args (.none, none)
  func := plotFunc
  bin _ _ _ := plotRaise .type
  cmp _ _ _ := plotRaise .type
  getItem _ _ := plotRaise .type
  setItem _ _ _ := plotRaise .type
  contains _ _ := plotRaise .type
  iter _ := plotRaise .type
  truth _ := pure true
  str _ := plotRaise .type
  strFl q := pure (fs q)
  mkSet _ := plotRaise .type
  isInst _ _ := false
  callLam _ _ _ := plotRaise .type
  toFl := toFl
  rnd := rnd
  fuel := 0
  throw _ := plotRaise .type
  attempt _ _ := plotRaise .type

/-! ### The methods that compare distributions -/

section
variable [R : PyRuntime] (fl : ℚ → Res ℚ) (rd : ℚ → ℚ)

/-- `a + b` of numbers. -/
def addN (x y : PyNum) : Res PyNum :=
  match x, y with
  | .i a, .i b => .ok (.i (a + b))
  | x, y => do let a ← x.float fl; let b ← y.float fl; return .f (rd (a + b))

/-- `a - b` of numbers. -/
def subN (x y : PyNum) : Res PyNum :=
  match x, y with
  | .i a, .i b => .ok (.i (a - b))
  | x, y => do let a ← x.float fl; let b ← y.float fl; return .f (rd (a - b))

/-- `y_value_calculator` (`probability_distribution.py:59-65`). -/
def yValueG (this other : List (Int × PyNum)) (key : Int) : Res PyNum := do
  let v ← match dictGet? this key with
    | some x => addN fl rd (.i 0) x
    | none => .ok (.i 0)
  match dictGet? other key with
  | some y => subN fl rd v y
  | none => return v

/-- `get_compare_histogram` (`probability_distribution.py:53-67`). -/
def compareHistogramG (d d' : Dist) : Res HistPic := do
  let a ← histN (← dictFormG fl d)
  let b ← histN (← dictFormG fl d')
  let xs := a.map Prod.fst ++ b.map Prod.fst
  makeHistG fl rd xs (← xs.mapM (yValueG fl rd a b)) none

/-- The lines of two dicts. -/
def linesOf (a b : List (Int × PyNum)) : Res LinePic :=
  makeLinesG (a.map Prod.fst) (lookupN a (a.map Prod.fst)) (b.map Prod.fst) (lookupN b (b.map Prod.fst))

/-- `get_compare` (`probability_distribution.py:69-87`). -/
def compareG (d d' : Dist) : Res LinePic := do
  let a ← histN (← dictFormG fl d)
  let b ← histN (← dictFormG fl d')
  linesOf a b

/-- `get_compare_at_least` (`probability_distribution.py:89-107`). -/
def compareAtLeastG (d d' : Dist) : Res LinePic := do
  let a ← atLeastG fl rd d
  let b ← atLeastG fl rd d'
  linesOf (fltN a) (fltN b)

/-- `get_compare_at_most` (`probability_distribution.py:109-127`). -/
def compareAtMostG (d d' : Dist) : Res LinePic := do
  let a ← atMostG fl rd d
  let b ← atMostG fl rd d'
  linesOf (fltN a) (fltN b)

end
end PyDice.Source
