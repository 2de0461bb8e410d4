import Verif.Expr
/-!
# Vocabulary about expressions and states (specification)
-/

namespace PyDice

/-- No assignment anywhere inside. -/
def Expr.NoAssign : Expr → Prop
  | .paren e => e.NoAssign
  | .not e => e.NoAssign
  | .dropKeep _ => True
  | .dice _ => True
  | .constInt _ => True
  | .constBin _ => True
  | .add a b => a.NoAssign ∧ b.NoAssign
  | .sub a b => a.NoAssign ∧ b.NoAssign
  | .mul a b => a.NoAssign ∧ b.NoAssign
  | .div a b => a.NoAssign ∧ b.NoAssign
  | .bin _ a b => a.NoAssign ∧ b.NoAssign
  | .minmax _ a b => a.NoAssign ∧ b.NoAssign
  | .abs e => e.NoAssign
  | .assign _ _ => False
  | .getVar _ => True

/-- No assignment, or a single one as the outermost node. -/
def Expr.TopAssign : Expr → Prop
  | .assign _ e => e.NoAssign
  | e => e.NoAssign

/-- Every variable name read anywhere in the tree. -/
def Expr.reads : Expr → List Str
  | .paren e => e.reads
  | .not e => e.reads
  | .dropKeep _ => []
  | .dice _ => []
  | .constInt _ => []
  | .constBin _ => []
  | .add a b => a.reads ++ b.reads
  | .sub a b => a.reads ++ b.reads
  | .mul a b => a.reads ++ b.reads
  | .div a b => a.reads ++ b.reads
  | .bin _ a b => a.reads ++ b.reads
  | .minmax _ a b => a.reads ++ b.reads
  | .abs e => e.reads
  | .assign _ e => e.reads
  | .getVar name => [name]

/-- Every variable name assigned anywhere in the tree. -/
def Expr.assigned : Expr → List Str
  | .paren e => e.assigned
  | .not e => e.assigned
  | .dropKeep _ => []
  | .dice _ => []
  | .constInt _ => []
  | .constBin _ => []
  | .add a b => a.assigned ++ b.assigned
  | .sub a b => a.assigned ++ b.assigned
  | .mul a b => a.assigned ++ b.assigned
  | .div a b => a.assigned ++ b.assigned
  | .bin _ a b => a.assigned ++ b.assigned
  | .minmax _ a b => a.assigned ++ b.assigned
  | .abs e => e.assigned
  | .assign name e => name :: e.assigned
  | .getVar _ => []

/-- Every dice node is what the constructor makes of some text. -/
def Expr.Built : Expr → Prop
  | .paren e => e.Built
  | .not e => e.Built
  | .dropKeep t => ∃ form, mkDropKeep form = .ok t
  | .dice t => ∃ form, mkDice form = .ok t
  | .constInt _ => True
  | .constBin _ => True
  | .add a b => a.Built ∧ b.Built
  | .sub a b => a.Built ∧ b.Built
  | .mul a b => a.Built ∧ b.Built
  | .div a b => a.Built ∧ b.Built
  | .bin _ a b => a.Built ∧ b.Built
  | .minmax _ a b => a.Built ∧ b.Built
  | .abs e => e.Built
  | .assign _ e => e.Built
  | .getVar _ => True

/-- The tree with all parentheses taken out. -/
def Expr.strip : Expr → Expr
  | .paren e => e.strip
  | .not e => .not e.strip
  | .dropKeep t => .dropKeep t
  | .dice t => .dice t
  | .constInt text => .constInt text
  | .constBin text => .constBin text
  | .add a b => .add a.strip b.strip
  | .sub a b => .sub a.strip b.strip
  | .mul a b => .mul a.strip b.strip
  | .div a b => .div a.strip b.strip
  | .bin op a b => .bin op a.strip b.strip
  | .minmax k a b => .minmax k a.strip b.strip
  | .abs e => .abs e.strip
  | .assign name e => .assign name e.strip
  | .getVar name => .getVar name

section
variable [R : PyRuntime]

/-- Two states agree on some names: same stored distribution and same stored constant for each. -/
def AgreeOn (names : List Str) (s t : State) : Prop :=
  ∀ n ∈ names, dictGet? s.var n = dictGet? t.var n ∧ dictGet? s.constants n = dictGet? t.constants n

end

end PyDice
