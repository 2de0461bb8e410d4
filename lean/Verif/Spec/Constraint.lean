import Verif.Constraint
/-!
# What constraints mean (specification, independent of the merging code)
-/

namespace PyDice

/-- An assignment satisfies a constraint: everything satisfies null, nothing satisfies impossible, `x ∈ values`
    is satisfied when the assigned value is listed. -/
def Constraint.Sat (ω : Str → Int) : Constraint → Prop
  | .null => True
  | .impossible => False
  | .varValue n vs => ω n ∈ vs

/-- No two different constraints could still be merged. -/
def NormalForm (l : List Constraint) : Prop :=
  ∀ a ∈ l, ∀ b ∈ l, a ≠ b → a.canMerge b = false

/-- A lone null constraint, a lone impossible constraint, or variable constraints with pairwise different names. -/
def LoneOrDistinct (l : List Constraint) : Prop :=
  l = [.null] ∨ l = [.impossible] ∨
    ∃ vs : List (Str × List Int), l = vs.map (fun p => .varValue p.1 p.2) ∧ (vs.map Prod.fst).Nodup

/-- Two listings of constraints denote the same set of constraints (value sets compared as sets). -/
def SameConstraints (l m : List Constraint) : Prop :=
  (Constraint.null ∈ l ↔ Constraint.null ∈ m) ∧ (Constraint.impossible ∈ l ↔ Constraint.impossible ∈ m) ∧
  (∀ n vs, Constraint.varValue n vs ∈ l → ∃ ws, Constraint.varValue n ws ∈ m ∧ ∀ a, a ∈ vs ↔ a ∈ ws) ∧
  (∀ n ws, Constraint.varValue n ws ∈ m → ∃ vs, Constraint.varValue n vs ∈ l ∧ ∀ a, a ∈ vs ↔ a ∈ ws)

/-- The value sets that a list of constraints demands of variable `n`. -/
def valuesOf (n : Str) (l : List Constraint) : List (List Int) :=
  l.filterMap fun
    | .varValue m vs => if m = n then some vs else none
    | _ => none

/-- The constraints contradict each other: one is impossible, or two or more of them leave no value for a variable.
    (A single `x ∈ {}` is kept as it is by the code.) -/
def Contradict (l : List Constraint) : Prop :=
  .impossible ∈ l ∨ ∃ n, 2 ≤ (valuesOf n l).length ∧ ∀ a, ∃ vs ∈ valuesOf n l, a ∉ vs

/-- `r` is what merging the constraints `l` should give, element by element. -/
structure ExpectedMerge (l r : List Constraint) : Prop where
  impossible : .impossible ∈ r ↔ Contradict l
  null : .null ∈ r ↔ l ≠ [] ∧ ∀ c ∈ l, c = .null
  var_sound : ∀ n vs, .varValue n vs ∈ r →
    ¬ Contradict l ∧ valuesOf n l ≠ [] ∧ ∀ a, a ∈ vs ↔ ∀ ws ∈ valuesOf n l, a ∈ ws
  var_complete : ¬ Contradict l → ∀ n, valuesOf n l ≠ [] → ∃ vs, .varValue n vs ∈ r

section
variable [R : PyRuntime]
/-- An assignment satisfies every element of a constraint set. -/
def Sat (ω : Str → Int) (s : CSet) : Prop := ∀ c ∈ PyRuntime.iter s, c.Sat ω
/-- No two different elements of the set could still be merged. -/
def Normal (s : CSet) : Prop := NormalForm (PyRuntime.iter s)
end

end PyDice
