import Verif.Spec.State
import Verif.Spec.Expr
import Verif.FloatDist
import Verif.Spec.Twin
import Mathlib.Data.Set.Basic
/-!
# Lines that have nothing to do with each other (specification)
-/

namespace PyDice

/-- Every variable name in an expression. -/
def Expr.names (e : Expr) : List Str := e.reads ++ e.assigned

/-- Two dicts hold the same under every key that is not one of `X`. -/
def SameOutside {α : Type} (X : Set Str) (d d' : List (Str × α)) : Prop := ∀ n, n ∉ X → dictGet? d n = dictGet? d' n

/-- No line mentions one of the names `X`. -/
def Unaware (parse : Str → Res Expr) (X : Set Str) (lines : List Str) : Prop :=
  ∀ l ∈ lines, ∀ e, parse l = .ok e → ∀ n ∈ e.names, n ∉ X

/-- The names a line assigns, and `stdout`, where every method but the histograms and the cost puts a line's result. -/
def touches (parse : Str → Res Expr) (l : Str) : Set Str := {n | n = stdoutName ∨ ∃ e, parse l = .ok e ∧ n ∈ e.assigned}

/-- The answers to the calls that are marked. -/
def marked : List Bool → List Answer → List Answer
  | true :: ms, a :: as => a :: marked ms as
  | false :: ms, _ :: as => marked ms as
  | _, _ => []

/-- The same draws lead to results that are related. -/
inductive Rand.Same {α β : Type} (Q : α → β → Prop) : Rand α → Rand β → Prop where
  | pure {a : α} {b : β} (h : Q a b) : Rand.Same Q (.pure a) (.pure b)
  | draw {n : Nat} {k : Nat → Rand α} {k' : Nat → Rand β} (h : ∀ t < n, Rand.Same Q (k t) (k' t)) : Rand.Same Q (.draw n k) (.draw n k')

/-- Two answers say the same about every name that is not one of `X`.  An answer that raises does so with the same exception; only when
    the figures of the variables raise may the exceptions differ (the first variable in the order of the dict raises). -/
inductive Answer.Alike (X : Set Str) : Answer → Answer → Prop where
  | same (a : Answer) : Answer.Alike X a a
  | ints {d d' : List (Str × Int)} (h : SameOutside X d d') : Answer.Alike X (.ints (.ok d)) (.ints (.ok d'))
  | dists {d d' : List (Str × Seen)} (h : SameOutside X d d') : Answer.Alike X (.dists (.ok d)) (.dists (.ok d'))
  | dictForms {d d' : List (Str × List (Int × ℚ))} (h : SameOutside X d d') : Answer.Alike X (.dictForms (.ok d)) (.dictForms (.ok d'))
  | averages {d d' : List (Str × ℚ)} (h : SameOutside X d d') : Answer.Alike X (.averages (.ok d)) (.averages (.ok d'))
  | noDictForms (e e' : Err) : Answer.Alike X (.dictForms (.error e)) (.dictForms (.error e'))
  | noAverages (e e' : Err) : Answer.Alike X (.averages (.error e)) (.averages (.error e'))

/-- The answer is not an exception. -/
def Answer.Fine : Answer → Prop
  | .ints r => ∃ a, r = .ok a
  | .dists r => ∃ a, r = .ok a
  | .dictForms r => ∃ a, r = .ok a
  | .averages r => ∃ a, r = .ok a
  | .drawn r => ∃ a, r = .ok a
  | .cost r => ∃ a, r = .ok a

/-- A call of the same method with other lines. -/
def Call.withLines (l : List Str) : Call → Call
  | .roll _ => .roll l
  | .extreme k _ => .extreme k l
  | .dists _ => .dists l
  | .dictForms _ => .dictForms l
  | .averages _ => .averages l
  | .histogram _ => .histogram l
  | .cost _ => .cost l

/-- The call asks for the estimated cost. -/
def Call.IsCost : Call → Prop
  | .cost _ => True
  | _ => False

/-- The call asks for probabilities or averages of the variables. -/
def Call.AsksFigures : Call → Prop
  | .dictForms _ => True
  | .averages _ => True
  | _ => False

section
variable [R : PyRuntime]

/-- Two states that differ only in what they hold under the names `X`. -/
structure AgreeOff (X : Set Str) (s t : State) : Prop where
  var : SameOutside X s.var t.var
  constants : SameOutside X s.constants t.constants
  timesSet : SameOutside X s.timesSet t.timesSet

/-- The variables named in `X` (but for `stdout`, which every line overwrites) have an average and probabilities. -/
def HasFigures (X : Set Str) (s : State) : Prop :=
  ∀ n ∈ X, n ≠ stdoutName → ∀ d, dictGet? s.var n = some d → (∃ m, d.getDictFormF = .ok m) ∧ ∃ a, d.averageF = .ok a

end

end PyDice
