import Verif.Spec.OneDie
/-!
# What `max` and `min` answer (specification)
-/

namespace PyDice

/-- The expression can have the value `x` after the program (one die standing for every term with no dice). -/
def Reaches (p : Program) (e : Expr) (x : Int) : Prop := ∃ env ∈ runs p.oneDie Env.empty, x ∈ vals e.oneDie env

/-- Nothing can go wrong in the expression, and `v` is the largest (smallest) value it can have. -/
def Extremal (isMax : Bool) (p : Program) (e : Expr) (v : Int) : Prop :=
  Defined p.oneDie e.oneDie ∧ Reaches p e v ∧ ∀ x, Reaches p e x → Within isMax x v

/-- The answer for an expression after a program, given answers for the variables: brackets, `MIN` and `MAX` are worked out from the
    answers for their operands, terms with no dice give 0, and everything else is the largest (smallest) value it can have. -/
def Claim (isMax : Bool) (p : Program) (known : Str → Int → Prop) : Expr → Int → Prop
  | .paren e, v => Claim isMax p known e v
  | .minmax k a b, v => ∃ x y, Claim isMax p known a x ∧ Claim isMax p known b y ∧ v = if k then max x y else min x y
  | .getVar n, v => known n v
  | .dice t, v => if t.number = 0 then v = 0 else Extremal isMax p (.dice t) v
  | .dropKeep t, v => if t.number = 0 then v = 0 else Extremal isMax p (.dropKeep t) v
  | .not e, v => Extremal isMax p (.not e) v
  | .constInt text, v => Extremal isMax p (.constInt text) v
  | .constBin text, v => Extremal isMax p (.constBin text) v
  | .add a b, v => Extremal isMax p (.add a b) v
  | .sub a b, v => Extremal isMax p (.sub a b) v
  | .mul a b, v => Extremal isMax p (.mul a b) v
  | .div a b, v => Extremal isMax p (.div a b) v
  | .bin op a b, v => Extremal isMax p (.bin op a b) v
  | .abs e, v => Extremal isMax p (.abs e) v
  | .assign x e, v => Extremal isMax p (.assign x e) v

/-- The answers for the variables after a program (given latest line first): that of the last line that assigns it. -/
def claims (isMax : Bool) : Program → Str → Int → Prop
  | [], _, _ => False
  | (x, e) :: p, n, v => if n = x then Claim isMax p.reverse (claims isMax p) e v else claims isMax p n v

/-- The answer for an expression after a program. -/
def ExtremeAnswer (isMax : Bool) (p : Program) (e : Expr) (v : Int) : Prop := Claim isMax p (claims isMax p.reverse) e v

/-- Every line has an answer. -/
def ExtremeAnswered (isMax : Bool) (p : Program) : Prop := ∀ before x e after, p = before ++ (x, e) :: after → ∃ v, ExtremeAnswer isMax before e v

end PyDice
