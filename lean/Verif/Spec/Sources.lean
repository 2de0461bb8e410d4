import Verif.Spec.Expr
import Verif.Spec.Interp
import Verif.Spec.State
import Mathlib.Data.Set.Insert
/-!
# Specification vocabulary: where the dice of a variable were thrown
-/

namespace PyDice

/-- For every variable, the lines whose dice have gone into it. -/
abbrev Sources := Str → Set Nat

/-- The lines whose dice go into an expression through the variables it reads. -/
def Sources.of (o : Sources) (e : Expr) : Set Nat := {i | ∃ n ∈ e.reads, i ∈ o n}

/-- What line number `i` changes: the assigned variable has the sources of its expression and this line itself, and so has the result of
    the line, which is stored under `stdout`. -/
def Sources.step (o : Sources) (i : Nat) : Expr → Sources
  | .assign x e => fun n => if n = stdoutName ∨ n = x then insert i (o.of e) else o n
  | e => fun n => if n = stdoutName then insert i (o.of e) else o n

/-- The sources after the lines, numbered from `i`. -/
def Sources.after (o : Sources) (i : Nat) : List Expr → Sources
  | [] => o
  | e :: es => (o.step i e).after (i + 1) es

/-- An assignment to a variable, or an expression; no assignments inside. -/
def Expr.IsLine : Expr → Prop
  | .assign _ e => e.NoAssign
  | e => e.NoAssign

/-- The dice that went into the two expressions were thrown in different lines: from a state that the interpreter can reach some lines
    have been computed, and no line whose dice went into the one expression gave dice to the other.  All variables that existed before
    these lines count as having a common source, number 0.  Dice written in the expressions themselves are not shared with anything. -/
def NoCommonDice [PyRuntime] (parse : Str → Res Expr) (t : State) (a b : Expr) : Prop :=
  ∃ (s : State) (lines : List Str) (tr : List (Expr × Dist)), Reachable parse s ∧ DistRun parse s lines tr t ∧ (∀ p ∈ tr, p.1.IsLine) ∧
    a.NoAssign ∧ b.NoAssign ∧ Disjoint (Sources.of (Sources.after (fun _ => {0}) 1 (tr.map Prod.fst)) a)
      (Sources.of (Sources.after (fun _ => {0}) 1 (tr.map Prod.fst)) b)

end PyDice
