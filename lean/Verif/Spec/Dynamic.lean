import Verif.Dynamic
/-!
# What should become of operands of any type
-/

namespace PyDice
open PyRuntime

section
variable [R : PyRuntime]

/-- An outcome or a distribution. -/
def PyObj.Ours : PyObj → Prop
  | .outcome _ => True
  | .dist _ _ => True
  | _ => False

/-- Two outcomes, or two distributions. -/
def PyObj.Alike : PyObj → PyObj → Prop
  | .outcome _, .outcome _ => True
  | .dist _ _, .dist _ _ => True
  | _, _ => False

/-- The outcome with its bool, if it has one, taken for the number. -/
def OutcomeP.plain (o : OutcomeP) : Outcome := ⟨o.value.toInt, o.cs⟩

/-- The distribution with its bools taken for numbers. -/
def DistP.plain (d : DistP) : Dist := ⟨d.resultMap.map fun p => (p.1.plain, p.2), d.outcomeCount⟩

/-- An outcome of the typed model as an object: its value is an int. -/
def Outcome.asP (o : Outcome) : OutcomeP := ⟨.int o.value, o.cs⟩

/-- A distribution of the typed model as an object: all values are ints. -/
def Dist.asP (d : Dist) : DistP := ⟨d.resultMap.map fun p => (p.1.asP, p.2), d.outcomeCount⟩

/-- The result of the typed model as the result of the code. -/
def typedOutcome (r : Res Outcome) : Except Exc OutcomeP := match r with
  | .ok o => .ok o.asP
  | .error e => .error (.other e)

/-- The result of the typed model as the result of the code. -/
def typedDist (r : Res Dist) : Except Exc DistP := match r with
  | .ok d => .ok d.asP
  | .error e => .error (.other e)

/-- Is the key one that a distribution can be made of? -/
def PyObj.IsKey : PyObj → Bool
  | .num _ => true
  | .outcome _ => true
  | _ => false

/-- The entries with such keys; a number stands for the outcome that is tied to nothing. -/
def keysOf (free : CSet) : List (PyObj × Nat) → List (Outcome × Nat)
  | [] => []
  | (.num n, k) :: rest => (⟨n.toInt, free⟩, k) :: keysOf free rest
  | (.outcome o, k) :: rest => (o.plain, k) :: keysOf free rest
  | _ :: rest => keysOf free rest

/-- Two constraints, two constraint sets, or two outcomes with the same contents, as printed. -/
def SameContent : PyObj → PyObj → Prop
  | .constraint c, .constraint d => c = d
  | .cset s, .cset t => csText s = csText t
  | .outcome a, .outcome b => a.value.toInt = b.value.toInt ∧ csText a.cs = csText b.cs
  | _, _ => False

/-- Objects whose class says when two of them are equal. -/
def PyObj.Comparable : PyObj → PyObj → Prop
  | .constraint _, .constraint _ => True
  | .cset _, .cset _ => True
  | .outcome _, .outcome _ => True
  | _, _ => False

end

end PyDice
