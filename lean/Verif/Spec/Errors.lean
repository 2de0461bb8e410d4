import Verif.Spec.Expr
/-!
# Vocabulary about what can go wrong (specification)
-/

namespace PyDice

/-- The exception raised, if any. -/
def raised {α : Type} : Res α → Option Err
  | .ok _ => none
  | .error er => some er

/-- Somewhere in the tree there is a division. -/
def Expr.HasDiv : Expr → Prop
  | .paren e => e.HasDiv
  | .not e => e.HasDiv
  | .dropKeep _ => False
  | .dice _ => False
  | .constInt _ => False
  | .constBin _ => False
  | .add a b => a.HasDiv ∨ b.HasDiv
  | .sub a b => a.HasDiv ∨ b.HasDiv
  | .mul a b => a.HasDiv ∨ b.HasDiv
  | .div _ _ => True
  | .bin _ a b => a.HasDiv ∨ b.HasDiv
  | .minmax _ a b => a.HasDiv ∨ b.HasDiv
  | .abs e => e.HasDiv
  | .assign _ e => e.HasDiv
  | .getVar _ => False

/-- Somewhere in the tree there is a `!`. -/
def Expr.HasNot : Expr → Prop
  | .paren e => e.HasNot
  | .not _ => True
  | .dropKeep _ => False
  | .dice _ => False
  | .constInt _ => False
  | .constBin _ => False
  | .add a b => a.HasNot ∨ b.HasNot
  | .sub a b => a.HasNot ∨ b.HasNot
  | .mul a b => a.HasNot ∨ b.HasNot
  | .div a b => a.HasNot ∨ b.HasNot
  | .bin _ a b => a.HasNot ∨ b.HasNot
  | .minmax _ a b => a.HasNot ∨ b.HasNot
  | .abs e => e.HasNot
  | .assign _ e => e.HasNot
  | .getVar _ => False

/-- Somewhere in the tree there are dice, not all of which are dropped, with a table of this sort. -/
def Expr.AnyDie (P : List (Int × Nat) → Prop) : Expr → Prop
  | .paren e => e.AnyDie P
  | .not e => e.AnyDie P
  | .dropKeep t => t.simplified ≠ .zero ∧ P t.table
  | .dice t => P t.table
  | .constInt _ => False
  | .constBin _ => False
  | .add a b => a.AnyDie P ∨ b.AnyDie P
  | .sub a b => a.AnyDie P ∨ b.AnyDie P
  | .mul a b => a.AnyDie P ∨ b.AnyDie P
  | .div a b => a.AnyDie P ∨ b.AnyDie P
  | .bin _ a b => a.AnyDie P ∨ b.AnyDie P
  | .minmax _ a b => a.AnyDie P ∨ b.AnyDie P
  | .abs e => e.AnyDie P
  | .assign _ e => e.AnyDie P
  | .getVar _ => False

/-- A die without faces (`d0`, or a range that goes downwards). -/
def Faceless (table : List (Int × Nat)) : Prop := table = []

/-- A die that has faces, but all with weight zero (`d[1*0]`). -/
def Weightless (table : List (Int × Nat)) : Prop := table ≠ [] ∧ (table.map Prod.snd).sum = 0

/-- The texts of the constants can be read as numbers. -/
def Expr.Numeric : Expr → Prop
  | .paren e => e.Numeric
  | .not e => e.Numeric
  | .dropKeep _ => True
  | .dice _ => True
  | .constInt t => ∃ v, pyInt t = .ok v
  | .constBin _ => True
  | .add a b => a.Numeric ∧ b.Numeric
  | .sub a b => a.Numeric ∧ b.Numeric
  | .mul a b => a.Numeric ∧ b.Numeric
  | .div a b => a.Numeric ∧ b.Numeric
  | .bin _ a b => a.Numeric ∧ b.Numeric
  | .minmax _ a b => a.Numeric ∧ b.Numeric
  | .abs e => e.Numeric
  | .assign _ e => e.Numeric
  | .getVar _ => True

section
variable [R : PyRuntime]

/-- Why the distribution of an expression may be refused. -/
def DistFault (e : Expr) (s : State) : Err → Prop
  | .key => ∃ n ∈ e.reads, s.hasVar n = false
  | .zeroDivision => e.HasDiv
  | _ => False

/-- Why the cost of an expression may be refused. -/
def CostFault (e : Expr) (s : State) : Err → Prop
  | .key => ∃ n ∈ e.reads, s.hasConstant n = false
  | .overflow => e.HasNot
  | _ => False

/-- Why a roll of an expression may be refused. -/
def RollFault (e : Expr) (s : State) : Err → Prop
  | .key => ∃ n ∈ e.reads, s.hasConstant n = false
  | .zeroDivision => e.HasDiv
  | .value => e.AnyDie Weightless
  | .index => e.AnyDie Faceless
  | _ => False

/-- Why the `max` or `min` of an expression may be refused. -/
def ExtremeFault (e : Expr) (s : State) : Err → Prop
  | .key => ∃ n ∈ e.reads, s.hasVar n = false ∨ s.hasConstant n = false
  | .zeroDivision => e.HasDiv
  | .value => e.AnyDie Faceless ∨ e.reads ≠ []
  | _ => False

end

end PyDice
