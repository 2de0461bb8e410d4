import Verif.Expr
import Verif.Spec.Dist
import Verif.Spec.Program
import Mathlib.Logic.Function.Basic
/-!
# Laws of arithmetic and logic as pairs of patterns
-/

namespace PyDice

/-- A pattern: operators over constants and numbered holes. -/
inductive Pat where
  | hole (i : Nat)
  | const (k : Int)
  | bin (op : BinOp) (a b : Pat)
  | not (a : Pat)
  | abs (a : Pat)

/-- The holes, from left to right. -/
def Pat.holes : Pat → List Nat
  | .hole i => [i]
  | .const _ => []
  | .bin _ a b => a.holes ++ b.holes
  | .not a => a.holes
  | .abs a => a.holes

/-- The value when the holes are integers; `none` for a division by zero.  Exactly the values above zero are true. -/
def Pat.value (x : Nat → Int) : Pat → Option Int
  | .hole i => some (x i)
  | .const k => some k
  | .bin op a b => (a.value x).bind fun u => (b.value x).bind fun v => opValue op u v
  | .not a => (a.value x).map fun u => if 0 < u then 0 else 1
  | .abs a => (a.value x).map fun u => |u|

/-- A pattern without division. -/
def Pat.NoDiv : Pat → Prop
  | .hole _ => True
  | .const _ => True
  | .bin op a b => op ≠ .floordiv ∧ a.NoDiv ∧ b.NoDiv
  | .not a => a.NoDiv
  | .abs a => a.NoDiv

/-- The expression with an operator at the top. -/
def opExpr : BinOp → Expr → Expr → Expr
  | .add, a, b => .add a b
  | .sub, a, b => .sub a b
  | .mul, a, b => .mul a b
  | .floordiv, a, b => .div a b
  | .eq, a, b => .bin .eq a b
  | .ne, a, b => .bin .ne a b
  | .lt, a, b => .bin .lt a b
  | .le, a, b => .bin .le a b
  | .gt, a, b => .bin .gt a b
  | .ge, a, b => .bin .ge a b
  | .and, a, b => .bin .and a b
  | .or, a, b => .bin .or a b
  | .max, a, b => .minmax true a b
  | .min, a, b => .minmax false a b

/-- The expression in which the holes are filled with expressions. -/
def Pat.fill (es : Nat → Expr) : Pat → Expr
  | .hole i => es i
  | .const k => .constInt (intStr k)
  | .bin op a b => opExpr op (a.fill es) (b.fill es)
  | .not a => .not (a.fill es)
  | .abs a => .abs (a.fill es)

/-- Two patterns use the same holes, each once, and are equal for all integers that the holes can have. -/
structure LawOn (dom : Nat → Int → Prop) (p q : Pat) : Prop where
  once : p.holes.Nodup
  same : p.holes.Perm q.holes
  equal : ∀ x, (∀ i ∈ p.holes, dom i (x i)) → p.value x = q.value x

/-- A law of the integers. -/
def Law (p q : Pat) : Prop := LawOn (fun _ _ => True) p q

section
variable [R : PyRuntime]

/-- Sum over all ways to choose one outcome for each of the listed holes, weighted with the counts. -/
def tupleSum (ds : Nat → Dist) : List Nat → (Nat → Outcome) → ((Nat → Outcome) → Nat) → Nat
  | [], ρ, g => g ρ
  | i :: l, ρ, g => wsum (ds i).resultMap fun o => tupleSum ds l (Function.update ρ i o) g

/-- The chosen outcomes of the listed holes can hold together. -/
def Compatible (l : List Nat) (ρ : Nat → Outcome) : Prop := ∃ ω, ∀ i ∈ l, Sat ω (ρ i).cs

end

end PyDice
