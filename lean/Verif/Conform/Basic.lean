import Verif.Lemmas.Parser
import Verif.Interp
import Verif.FloatDist
import Verif.Repr
import Verif.ParserError
import Verif.Conform.Source

/-! # Helpers for replaying the project's own tests on the model

The modules `Verif/Conform/*.lean` evaluate the model on the inputs of `python_dice/test/**` and compare with the results those tests
expect.  They are tests of the fidelity of the model, not proofs of properties: each `example` is one computation, done by the kernel.
The set iteration order is that of `listRuntime`; no expectation replayed here depends on it. -/

namespace PyDice.Conform

attribute [local instance] listRuntime

/-- `parse` with the table of `lrTable_eq` in place of its construction. -/
def quick (text : Str) : Res Expr :=
  match lex text with
  | .ok ts => drive PTable.rows (3 * ts.length + 1) ⟨[], ts⟩
  | .error (.valueError _) => .error .value
  | .error .indexError => .error .index
  | .error .diverges => .error .diverges

theorem quick_eq : parse = quick := by
  funext text
  unfold parse quick
  cases h : lex text with
  | ok ts => simp only [parseTokens, PTable.lrTable_eq]
  | error e => cases e <;> rfl

/-- Equality of dictionaries without regard to order. -/
def sameDict {κ ν : Type} [DecidableEq κ] [DecidableEq ν] (a b : List (κ × ν)) : Bool :=
  decide (a.length = b.length) && a.all fun p => decide (dictGet? b p.1 = some p.2)

/-- Equality of sets given as lists. -/
def sameSet {κ : Type} [DecidableEq κ] (a b : List κ) : Bool := a.all (fun x => decide (x ∈ b)) && b.all (fun x => decide (x ∈ a))

/-- Did the call return this? -/
def Gives {α : Type} [DecidableEq α] (r : Res α) (v : α) : Bool := decide (r = .ok v)

/-- Did the call raise this? -/
def Raises {α : Type} (r : Res α) (e : Err) : Bool := match r with
  | .ok _ => false
  | .error e' => decide (e' = e)

/-- `DiceExpression(form)`. -/
def diceE (form : Str) : Res Expr := (mkDice form).map Expr.dice
/-- `DropKeepExpression(form)`. -/
def dropKeepE (form : Str) : Res Expr := (mkDropKeep form).map Expr.dropKeep

/-- `ConstantIntegerExpression(text)`. -/
def constIntE (text : Str) : Res Expr := .ok (.constInt text)
/-- `ConstantBinaryExpression(text)`. -/
def constBinE (text : Str) : Res Expr := .ok (.constBin text)

/-- A call of a method on an expression that may not exist. -/
def on {α : Type} (r : Res Expr) (m : Expr → EvalM α) (s : State) : Res α := r.bind fun e => (m e s).1

/-- `expression.max()` / `expression.min()` in a new state. -/
def ext (isMax : Bool) (r : Res Expr) : Res Int := on r (Expr.extreme isMax) State.new
/-- `expression.estimated_cost()`. -/
def cst (r : Res Expr) : Res Int := on r Expr.cost State.new
/-- `str(expression)`. -/
def txt (r : Res Expr) : Res Str := r.map Expr.str
/-- `expression.get_contained_variables()`. -/
def vars (r : Res Expr) : Res (List Str) := r.map Expr.contained
/-- `expression.get_probability_distribution()`. -/
def dst (r : Res Expr) : Res Dist := on r Expr.dist State.new
/-- `.get_result_map()` equals this dictionary. -/
def HasMap (r : Res Dist) (m : List (Int × Nat)) : Bool := match r with
  | .ok d => sameDict d.getResultMap m
  | .error _ => false

/-- `.get_dict_form()` equals this dictionary, in floats. -/
def HasDict (r : Res Dist) (m : List (Int × ℚ)) : Bool := match r.bind Dist.getDictFormF with
  | .ok d => sameDict d m
  | .error _ => false

/-- `get_single_dice_outcome_map(text)` equals this dictionary. -/
def HasTable (r : Res (List (Int × Nat))) (m : List (Int × Nat)) : Bool := match r with
  | .ok t => sameDict t m
  | .error _ => false

/-- An operator between two distributions. -/
def distOp (op : BinOp) (a b : Res Dist) : Res Dist := a.bind fun x => b.bind fun y => x.binop op y

/-- `str(distribution)`. -/
def distTxt (r : Res Dist) : Res Str := r.map Dist.text

/-- `state.get_var(name)` after `get_probability_distribution()` of some expressions. -/
def varAfter (es : List (Res Expr)) (name : Str) : Res Dist :=
  (es.foldl (fun s e => match e with | .ok e => (e.dist s).2 | .error _ => s) State.new).getVar name

/-- The results of all sequences of draws. -/
def leaves {α : Type} : Rand α → List α
  | .pure a => [a]
  | .draw n k => (List.range n).flatMap fun t => leaves (k t)

/-- Without repetitions. -/
def distinct (l : List (Option Int)) : List Int :=
  (l.foldl (fun acc x => match x with | some v => if v ∈ acc then acc else v :: acc | none => acc) [])

/-- What `expression.roll()` can give; `none` for an exception. -/
def rolls (r : Res Expr) : List (Option Int) := match r with
  | .ok e => (leaves (e.roll State.new)).map fun a => a.1.toOption
  | .error _ => [none]

/-- What `interpreter.roll(program)[name]` can give. -/
def interpRolls (parse : Str → Res Expr) (program : List Str) (name : Str) : List (Option Int) :=
  (leaves (interpRoll parse program State.new)).map fun a => a.1.toOption.bind fun m => dictGet? m name

/-- The names of the tokens. -/
def names (r : Except LexFail (List Token)) (l : List Str) : Bool := match r with
  | .ok ts => decide (ts.map (fun t => t.type.tokenName) = l)
  | .error _ => false

/-- The texts of the tokens. -/
def values (r : Except LexFail (List Token)) (l : List Str) : Bool := match r with
  | .ok ts => decide (ts.map Token.text = l)
  | .error _ => false

/-- All tokens have this name. -/
def allNamed (r : Except LexFail (List Token)) (name : Str) : Bool := match r with
  | .ok ts => ts.all fun t => decide (t.type.tokenName = name)
  | .error _ => false

/-- The checks of `assert_distribution` (`test_python_dice_parser.py:23-28`), but for the rolls. -/
def AssertDist (r : Res Expr) (m : List (Int × Nat)) (lo hi : Int) : Bool :=
  Gives (ext true r) hi && Gives (ext false r) lo && HasMap (dst r) m

/-- The calls of an interpreter whose results the tests look at. -/
inductive Query where
  /-- `get_probability_distributions(program)[name].get_result_map()` -/
  | map (name : Str) (m : List (Int × Nat))
  /-- `get_probability_distributions_dict(program)[name]`, in floats -/
  | dict (name : Str) (m : List (Int × ℚ))
  /-- `get_probability_distributions(program)[name].get_dict_form()`, in floats -/
  | dictOf (name : Str) (m : List (Int × ℚ))
  /-- `get_average(program)[name]`, in floats -/
  | average (name : Str) (q : ℚ)
  /-- `max(program)[name]` -/
  | max (name : Str) (v : Int)
  /-- `min(program)[name]` -/
  | min (name : Str) (v : Int)
  /-- `get_estimated_cost(program)` -/
  | cost (v : Int)

/-- The value of a key of a returned dictionary. -/
def at? {α : Type} (r : Res (List (Str × α))) (name : Str) : Option α := match r with
  | .ok m => dictGet? m name
  | .error _ => none

/-- One call on an interpreter in a state: is the result the expected one, and the state after it. -/
def Query.ask (parse : Str → Res Expr) (program : List Str) (s : State) : Query → Bool × State
  | .map name m => let r := interpDists parse program s
    ((match at? r.1 name with | some d => sameDict d.getResultMap m | none => false), r.2)
  | .dict name m => let r := interpDictFormsF parse program s
    ((match at? r.1 name with | some d => sameDict d m | none => false), r.2)
  | .dictOf name m => let r := interpDists parse program s
    ((match at? r.1 name with | some d => HasDict (.ok d) m | none => false), r.2)
  | .average name q => let r := interpAveragesF parse program s
    (decide (at? r.1 name = some q), r.2)
  | .max name v => let r := interpExtreme parse true program s
    (decide (at? r.1 name = some v), r.2)
  | .min name v => let r := interpExtreme parse false program s
    (decide (at? r.1 name = some v), r.2)
  | .cost v => let r := interpCost parse program s
    (Gives r.1 v, r.2)

/-- Several calls on one interpreter, one after the other. -/
def session (parse : Str → Res Expr) : List (List Str × Query) → State → Bool
  | [], _ => true
  | (program, q) :: rest, s => let r := q.ask parse program s
    r.1 && session parse rest r.2

end PyDice.Conform
