import Verif.Spec.RollWays
/-!
# Dice terms without dice (specification)
-/

namespace PyDice

/-- The expression with one die in place of every term with no dice (`0d6`, `0d6k1`); dropping from no dice gives 0. -/
def Expr.oneDie : Expr → Expr
  | .paren e => .paren e.oneDie
  | .not e => .not e.oneDie
  | .dropKeep t => if t.number = 0 then (if t.keep then .dice ⟨t.form, t.table, 1⟩ else .constInt ['0']) else .dropKeep t
  | .dice t => if t.number = 0 then .dice { t with number := 1 } else .dice t
  | .constInt text => .constInt text
  | .constBin text => .constBin text
  | .add a b => .add a.oneDie b.oneDie
  | .sub a b => .sub a.oneDie b.oneDie
  | .mul a b => .mul a.oneDie b.oneDie
  | .div a b => .div a.oneDie b.oneDie
  | .bin op a b => .bin op a.oneDie b.oneDie
  | .minmax k a b => .minmax k a.oneDie b.oneDie
  | .abs e => .abs e.oneDie
  | .assign x e => .assign x e.oneDie
  | .getVar n => .getVar n

/-- Every die has a face. -/
def Expr.Faced : Expr → Prop
  | .paren e => e.Faced
  | .not e => e.Faced
  | .dropKeep t => t.table ≠ []
  | .dice t => t.table ≠ []
  | .constInt _ => True
  | .constBin _ => True
  | .add a b => a.Faced ∧ b.Faced
  | .sub a b => a.Faced ∧ b.Faced
  | .mul a b => a.Faced ∧ b.Faced
  | .div a b => a.Faced ∧ b.Faced
  | .bin _ a b => a.Faced ∧ b.Faced
  | .minmax _ a b => a.Faced ∧ b.Faced
  | .abs e => e.Faced
  | .assign _ e => e.Faced
  | .getVar _ => True

/-- No assignment inside the expression, `stdout` is not read, terms are what the constructors make, and every die has a face. -/
structure Expr.Plain (e : Expr) : Prop where
  noAssign : e.NoAssign
  reads : stdoutName ∉ e.reads
  made : e.Made
  faced : e.Faced

/-- The program with one die in place of every term with no dice. -/
def Program.oneDie (p : Program) : Program := p.map fun l => (l.1, l.2.oneDie)

end PyDice
