import Verif.Lemmas.Summary
import Verif.Spec.Program
/-!
# Specification vocabulary for identities between dice expressions
-/

namespace PyDice

section
variable [R : PyRuntime]
open PyRuntime

/-- Two distributions give every event the same chance and list the same values. -/
def SameChances (d e : Dist) : Prop :=
  (∀ v, hasKey d.getResultMap v ↔ hasKey e.getResultMap v) ∧ ∀ P : Int → Bool, probOf d P = probOf e P

/-- The second distribution is at least as likely as the first one to reach any value, and its average is at least as high. -/
def Dominates (d e : Dist) : Prop :=
  (∀ v : Int, probOf d (fun x => decide (v ≤ x)) ≤ probOf e (fun x => decide (v ≤ x))) ∧
    ∃ x y, d.average = .ok x ∧ e.average = .ok y ∧ x ≤ y

/-- `n` dice with the given faces are what this term stands for. -/
def DiceTerm.Is (t : DiceTerm) (table : List (Int × Nat)) (n : Nat) : Prop := t.table = table ∧ t.number = n

/-- A keep (or drop) term built from its text: `n` dice with the given faces, and the `k` highest of them kept (or dropped). -/
def DropKeepTerm.Is (t : DropKeepTerm) (keep : Bool) (table : List (Int × Nat)) (n k : Nat) : Prop :=
  (∃ form, mkDropKeep form = .ok t) ∧ t.keep = keep ∧ t.table = table ∧ t.number = n ∧ t.count = k

end

/-- The faces lie symmetrically about half of `c`: for every entry, the mirrored face has the same total weight. -/
def Mirrored (table : List (Int × Nat)) (c : Int) : Prop := ∀ v, (facesOf table).count v = (facesOf table).count (c - v)

end PyDice
