import Verif.Repr
import Verif.Spec.Twin
/-!
# Vocabulary about printed forms (specification)
-/

namespace PyDice

/-- The variable named by a constraint, if any, has no comma in its name. -/
def Constraint.NoComma : Constraint → Prop
  | .varValue n _ => ',' ∉ n
  | _ => True

/-- What an entry of a distribution shows: value, the constraints in the order in which their set lists them, and the count. -/
abbrev ShownEntry := Int × List Constraint × Nat

section
variable [R : PyRuntime]

/-- No variable named in the outcome's constraints has a comma in its name. -/
def Outcome.NoComma (o : Outcome) : Prop := ∀ c ∈ PyRuntime.iter o.cs, c.NoComma

/-- The entries of a distribution. -/
def Dist.entries (d : Dist) : List ShownEntry := d.resultMap.map fun p => (p.1.value, PyRuntime.iter p.1.cs, p.2)

/-- The states that an interpreter gets into when its methods are called with program texts: any calls one after the other, each of
    which may succeed or raise. -/
inductive Typed (parse : Str → Res Expr) : State → Prop where
  | new : Typed parse State.new
  | call {s : State} (c : Call) {x : Answer × State} (h : Typed parse s) (hx : Rand.Possible x (runCall parse c s)) : Typed parse x.2

end

end PyDice
