import Verif.Interp
/-!
# Vocabulary about histories of the state (specification)
-/

namespace PyDice

section
variable [R : PyRuntime]

/-- One call that changes the state. -/
inductive StateOp where
  | setConstant (name : Str) (v : Int)
  | setVar (name : Str) (d : Dist)

/-- The state after the call. -/
def StateOp.run (s : State) : StateOp → State
  | .setConstant n v => s.setConstant n v
  | .setVar n d => (s.setVar n d).2

/-- The state after a history of calls. -/
def runOps (s : State) (ops : List StateOp) : State := ops.foldl StateOp.run s

/-- The value that the last `set_constant` of the name in the history was given. -/
def latestConstant (name : Str) : List StateOp → Option Int
  | [] => none
  | .setConstant n v :: ops => (latestConstant name ops).or (if n = name then some v else none)
  | .setVar _ _ :: ops => latestConstant name ops

/-- The history contains a `set_var` of the name. -/
def SetsVar (name : Str) (ops : List StateOp) : Prop := ∃ d, .setVar name d ∈ ops

/-- How often the name was set, by either call. -/
def timesIn (name : Str) : List StateOp → Nat
  | [] => 0
  | .setConstant n _ :: ops => timesIn name ops + if n = name then 1 else 0
  | .setVar n _ :: ops => timesIn name ops + if n = name then 1 else 0

/-- The constraint names that the `set_var` calls of a history use, in order, as read off the state. -/
def tagsOf (s : State) : List StateOp → List Str
  | [] => []
  | .setConstant n v :: ops => tagsOf (StateOp.run s (.setConstant n v)) ops
  | .setVar n d :: ops =>
    let s' := StateOp.run s (.setVar n d)
    versionName n ((dictGet? s'.timesSet n).getD 0) :: tagsOf s' ops

/-- The states an interpreter can get into: any sequence of calls of any methods with any program texts, or of methods of single
    expressions, each of which may succeed or raise. -/
inductive Reachable (parse : Str → Res Expr) : State → Prop where
  | new : Reachable parse State.new
  | roll {s : State} (lines : List Str) {x : Res (List (Str × Int)) × State} (h : Reachable parse s)
      (hx : Rand.Possible x (interpRoll parse lines s)) : Reachable parse x.2
  | extreme {s : State} (isMax : Bool) (lines : List Str) (h : Reachable parse s) :
      Reachable parse (interpExtreme parse isMax lines s).2
  | dists {s : State} (lines : List Str) (h : Reachable parse s) : Reachable parse (interpDists parse lines s).2
  | dictForms {s : State} (lines : List Str) (h : Reachable parse s) : Reachable parse (interpDictForms parse lines s).2
  | averages {s : State} (lines : List Str) (h : Reachable parse s) : Reachable parse (interpAverages parse lines s).2
  | histogram {s : State} (lines : List Str) (h : Reachable parse s) : Reachable parse (interpHistogramDist parse lines s).2
  | cost {s : State} (lines : List Str) (h : Reachable parse s) : Reachable parse (interpCost parse lines s).2
  | exprRoll {s : State} (e : Expr) {x : Res Int × State} (h : Reachable parse s) (hx : Rand.Possible x (e.roll s)) :
      Reachable parse x.2
  | exprExtreme {s : State} (isMax : Bool) (e : Expr) (h : Reachable parse s) : Reachable parse (e.extreme isMax s).2
  | exprDist {s : State} (e : Expr) (h : Reachable parse s) : Reachable parse (e.dist s).2
  | exprCost {s : State} (e : Expr) (h : Reachable parse s) : Reachable parse (e.cost s).2

end

end PyDice
