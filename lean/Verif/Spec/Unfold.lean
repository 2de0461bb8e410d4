import Verif.Spec.OneDie
import Verif.Spec.Uses
/-!
# The straight-line program that a program amounts to (specification)

Lines may assign anywhere inside an expression, assign to a variable again, read it before and after, and read or assign `stdout`.
Nothing here refers to distributions or constraints.
-/

namespace PyDice

/-- The name of the assignment with the given number. -/
def slot (i : Nat) : Str := List.replicate (i + 1) 'v'

/-- The assignments executed so far, each with a name of its own, and what every name stands for now. -/
structure Unfolding where
  prog : Program
  now : Str → Option Expr

/-- Nothing has been executed. -/
def Unfolding.start : Unfolding := ⟨[], fun _ => none⟩

/-- From now on the name stands for the expression. -/
def Unfolding.let' (u : Unfolding) (x : Str) (e : Expr) : Unfolding := ⟨u.prog, fun n => if n = x then some e else u.now n⟩

/-- A variable is assigned the expression: one more assignment, for which the variable stands from now on. -/
def Unfolding.assign (u : Unfolding) (x : Str) (e : Expr) : Unfolding :=
  Unfolding.let' ⟨u.prog ++ [(slot u.prog.length, e)], u.now⟩ x (.getVar (slot u.prog.length))

/-- The expression in terms of the assignments executed so far, and the assignments after it, from left to right.  An assignment has
    the value of what is assigned.  `none`: a variable stands for nothing, a constant is no number or a divisor can be zero. -/
def Expr.unfold : Expr → Unfolding → Option (Expr × Unfolding)
  | .paren e, u => (e.unfold u).map fun r => (.paren r.1, r.2)
  | .not e, u => (e.unfold u).map fun r => (.not r.1, r.2)
  | .dropKeep t, u => some (.dropKeep t, u)
  | .dice t, u => some (.dice t, u)
  | .constInt text, u => (pyInt text).toOption.map fun _ => (.constInt text, u)
  | .constBin text, u => some (.constBin text, u)
  | .add a b, u => (a.unfold u).bind fun x => (b.unfold x.2).map fun y => (.add x.1 y.1, y.2)
  | .sub a b, u => (a.unfold u).bind fun x => (b.unfold x.2).map fun y => (.sub x.1 y.1, y.2)
  | .mul a b, u => (a.unfold u).bind fun x => (b.unfold x.2).map fun y => (.mul x.1 y.1, y.2)
  | .div a b, u => (a.unfold u).bind fun x => (b.unfold x.2).bind fun y =>
      if ∀ env ∈ runs y.2.prog Env.empty, 0 ∉ vals y.1 env then some (.div x.1 y.1, y.2) else none
  | .bin op a b, u => (a.unfold u).bind fun x => (b.unfold x.2).map fun y => (.bin op x.1 y.1, y.2)
  | .minmax k a b, u => (a.unfold u).bind fun x => (b.unfold x.2).map fun y => (.minmax k x.1 y.1, y.2)
  | .abs e, u => (e.unfold u).map fun r => (.abs r.1, r.2)
  | .assign x e, u => (e.unfold u).map fun r => (r.1, r.2.assign x r.1)
  | .getVar n, u => (u.now n).map fun e => (e, u)

/-- The lines of a program; after each of them `stdout` stands for its expression. -/
def unfoldLines : List Expr → Unfolding → Option Unfolding
  | [], u => some u
  | e :: es, u => (e.unfold u).bind fun r => unfoldLines es (r.2.let' stdoutName r.1)

end PyDice
