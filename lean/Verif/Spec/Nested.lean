import Verif.Spec.Program
/-!
# Assignments inside expressions (specification)
-/

namespace PyDice

/-- The expression with every assignment replaced by what is assigned. -/
def Expr.inlined : Expr → Expr
  | .paren e => .paren e.inlined
  | .not e => .not e.inlined
  | .dropKeep t => .dropKeep t
  | .dice t => .dice t
  | .constInt text => .constInt text
  | .constBin text => .constBin text
  | .add a b => .add a.inlined b.inlined
  | .sub a b => .sub a.inlined b.inlined
  | .mul a b => .mul a.inlined b.inlined
  | .div a b => .div a.inlined b.inlined
  | .bin op a b => .bin op a.inlined b.inlined
  | .minmax k a b => .minmax k a.inlined b.inlined
  | .abs e => .abs e.inlined
  | .assign _ e => e.inlined
  | .getVar name => .getVar name

/-- The assignments in an expression, in order, each with what is assigned. -/
def Expr.assignments : Expr → Program
  | .paren e => e.assignments
  | .not e => e.assignments
  | .dropKeep _ => []
  | .dice _ => []
  | .constInt _ => []
  | .constBin _ => []
  | .add a b => a.assignments ++ b.assignments
  | .sub a b => a.assignments ++ b.assignments
  | .mul a b => a.assignments ++ b.assignments
  | .div a b => a.assignments ++ b.assignments
  | .bin _ a b => a.assignments ++ b.assignments
  | .minmax _ a b => a.assignments ++ b.assignments
  | .abs e => e.assignments
  | .assign x e => e.assignments ++ [(x, e.inlined)]
  | .getVar _ => []

/-- No variable is read before (to the left of) an assignment to it in the same expression, nor in what is assigned to it. -/
def Expr.Orderly : Expr → Prop
  | .paren e => e.Orderly
  | .not e => e.Orderly
  | .dropKeep _ => True
  | .dice _ => True
  | .constInt _ => True
  | .constBin _ => True
  | .add a b => a.Orderly ∧ b.Orderly ∧ ∀ n ∈ a.reads, n ∉ b.assigned
  | .sub a b => a.Orderly ∧ b.Orderly ∧ ∀ n ∈ a.reads, n ∉ b.assigned
  | .mul a b => a.Orderly ∧ b.Orderly ∧ ∀ n ∈ a.reads, n ∉ b.assigned
  | .div a b => a.Orderly ∧ b.Orderly ∧ ∀ n ∈ a.reads, n ∉ b.assigned
  | .bin _ a b => a.Orderly ∧ b.Orderly ∧ ∀ n ∈ a.reads, n ∉ b.assigned
  | .minmax _ a b => a.Orderly ∧ b.Orderly ∧ ∀ n ∈ a.reads, n ∉ b.assigned
  | .abs e => e.Orderly
  | .assign x e => e.Orderly ∧ x ∉ e.reads
  | .getVar _ => True

section
variable [R : PyRuntime]

/-- The lines `VAR x = e` of a program, evaluated in order by `get_probability_distribution`, lead from one state to another. -/
inductive DistSteps : Program → State → State → Prop where
  | nil (s : State) : DistSteps [] s s
  | cons {s s1 s2 : State} {x : Str} {e : Expr} {d : Dist} {p : Program} (hd : (Expr.assign x e).dist s = (.ok d, s1))
      (h : DistSteps p s1 s2) : DistSteps ((x, e) :: p) s s2

end

end PyDice
