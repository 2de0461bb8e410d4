import Verif.Spec.Algebra
import Verif.Spec.Sources
/-!
# Specification vocabulary: formulas that rise with some of their parts and fall with the others
-/

namespace PyDice

/-- Within the listed values of the holes the pattern divides by no zero, and raising the holes marked by `up` and lowering the others
    never lowers its value. -/
def Pat.Monotone (up : Nat → Bool) (dom : Nat → Int → Prop) (p : Pat) : Prop :=
  ∀ x y : Nat → Int, (∀ i ∈ p.holes, dom i (x i) ∧ dom i (y i) ∧ if up i then x i ≤ y i else y i ≤ x i) →
    ∃ u v, p.value x = some u ∧ p.value y = some v ∧ u ≤ v

/-- By the operators alone: the pattern rises (`b`) or falls (`!b`) when the holes marked by `up` are raised and the others lowered.
    Of products and quotients one factor, or the divisor, has to be a constant. -/
def Pat.Directed (up : Nat → Bool) : Bool → Pat → Prop
  | b, .hole i => up i = b
  | _, .const _ => True
  | b, .bin .add p q => p.Directed up b ∧ q.Directed up b
  | b, .bin .max p q => p.Directed up b ∧ q.Directed up b
  | b, .bin .min p q => p.Directed up b ∧ q.Directed up b
  | b, .bin .and p q => p.Directed up b ∧ q.Directed up b
  | b, .bin .or p q => p.Directed up b ∧ q.Directed up b
  | b, .bin .sub p q => p.Directed up b ∧ q.Directed up !b
  | b, .bin .gt p q => p.Directed up b ∧ q.Directed up !b
  | b, .bin .ge p q => p.Directed up b ∧ q.Directed up !b
  | b, .bin .lt p q => p.Directed up (!b) ∧ q.Directed up b
  | b, .bin .le p q => p.Directed up (!b) ∧ q.Directed up b
  | b, .bin .mul p q => (∃ k, q = .const k ∧ (0 ≤ k ∧ p.Directed up b ∨ k ≤ 0 ∧ p.Directed up !b)) ∨
      ∃ k, p = .const k ∧ (0 ≤ k ∧ q.Directed up b ∨ k ≤ 0 ∧ q.Directed up !b)
  | b, .bin .floordiv p q => ∃ k, q = .const k ∧ (0 < k ∧ p.Directed up b ∨ k < 0 ∧ p.Directed up !b)
  | _, .bin .eq _ _ => False
  | _, .bin .ne _ _ => False
  | b, .not p => p.Directed up !b
  | _, .abs _ => False

/-- The dice that went into the expressions in the listed holes were thrown in different lines, as in `NoCommonDice`. -/
def AllApart [PyRuntime] (parse : Str → Res Expr) (t : State) (l : List Nat) (es : Nat → Expr) : Prop :=
  ∃ (s : State) (lines : List Str) (tr : List (Expr × Dist)), Reachable parse s ∧ DistRun parse s lines tr t ∧ (∀ p ∈ tr, p.1.IsLine) ∧
    (∀ i ∈ l, (es i).NoAssign) ∧ ∀ i ∈ l, ∀ j ∈ l, i ≠ j →
      Disjoint (Sources.of (Sources.after (fun _ => {0}) 1 (tr.map Prod.fst)) (es i))
        (Sources.of (Sources.after (fun _ => {0}) 1 (tr.map Prod.fst)) (es j))

end PyDice
