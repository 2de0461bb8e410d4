import Verif.Spec.Unfold
/-!
# What `max` and `min` answer for any program (specification)
-/

namespace PyDice

/-- The largest (smallest) of the numbers. -/
def best (isMax : Bool) (l : List Int) : Option Int := if isMax then l.max? else l.min?

/-- What `max` (`min`) knows: the straight-line program so far with what every name stands for, and the answers filed under names. -/
structure Ledger where
  unfolding : Unfolding
  filed : Str → Option Int

/-- Nothing is known. -/
def Ledger.start : Ledger := ⟨.start, fun _ => none⟩

/-- The number is filed under the name. -/
def Ledger.file (k : Ledger) (x : Str) (v : Int) : Ledger := ⟨k.unfolding, fun n => if n = x then some v else k.filed n⟩

/-- The values the expression can have after the assignments. -/
def Unfolding.values (u : Unfolding) (e : Expr) : List Int := (runs u.prog Env.empty).flatMap (vals e)

/-- The expression is unfolded (one die standing for every term without dice); the answer is the largest (smallest) value it can
    have. -/
def Ledger.settle (isMax : Bool) (k : Ledger) (e : Expr) : Option (Int × Ledger) :=
  (e.oneDie.unfold k.unfolding).bind fun r => (best isMax (r.2.values r.1)).map fun v => (v, ⟨r.2, k.filed⟩)

/-- The answer for an expression and what is known after it.  Brackets, `MIN` and `MAX` are worked out from the answers for their
    operands, a variable has the number filed for it, terms without dice give 0, and everything else is settled.  A division unfolds its
    divisor once more, beforehand.  An assignment files the answer, and then unfolds what is assigned and assigns it. -/
def Expr.answer (isMax : Bool) : Expr → Ledger → Option (Int × Ledger)
  | .paren e, k => e.answer isMax k
  | .minmax m a b, k => (a.answer isMax k).bind fun x => (b.answer isMax x.2).map fun y =>
      (if m then max x.1 y.1 else min x.1 y.1, y.2)
  | .getVar n, k => (k.filed n).map fun v => (v, k)
  | .assign x e, k => (e.answer isMax k).bind fun r => (e.oneDie.unfold r.2.unfolding).map fun w =>
      (r.1, Ledger.file ⟨w.2.assign x w.1, r.2.filed⟩ x r.1)
  | .dice t, k => if t.number = 0 then some (0, k) else k.settle isMax (.dice t)
  | .dropKeep t, k => if t.number = 0 then some (0, k) else k.settle isMax (.dropKeep t)
  | .div a b, k => (b.oneDie.unfold k.unfolding).bind fun r =>
      if 0 ∈ r.2.values r.1 then none else Ledger.settle isMax ⟨r.2, k.filed⟩ (.div a b)
  | .not e, k => k.settle isMax (.not e)
  | .constInt text, k => k.settle isMax (.constInt text)
  | .constBin text, k => k.settle isMax (.constBin text)
  | .add a b, k => k.settle isMax (.add a b)
  | .sub a b, k => k.settle isMax (.sub a b)
  | .mul a b, k => k.settle isMax (.mul a b)
  | .bin op a b, k => k.settle isMax (.bin op a b)
  | .abs e, k => k.settle isMax (.abs e)

/-- The lines of a program; after each of them its answer is filed under `stdout`. -/
def answerLines (isMax : Bool) : List Expr → Ledger → Option Ledger
  | [], k => some k
  | e :: es, k => (e.answer isMax k).bind fun r => answerLines isMax es (r.2.file stdoutName r.1)

end PyDice
