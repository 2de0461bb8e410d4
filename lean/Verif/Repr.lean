import Verif.Dist
import Verif.Text
/-!
# The printed forms, and `__eq__` and `__hash__` as the code computes them

`src/constraint/*.py` and `src/probability_distribution/*.py` compare constraints and constraint sets by their printed forms, and put
outcomes into dicts under hashes made of the hashes of printed forms.  The rest of the model compares what is printed instead
(`Constraint` by structure, `csEq`, `BEq Outcome`); C53 says when that is the same.
-/

namespace PyDice

/-! The fixed parts of the printed forms, named so that proofs do not unfold them. -/

/-- `NullConstraint` -/
@[irreducible] def txtNull : Str := "NullConstraint".toList
/-- `ImpossibleConstraint` -/
@[irreducible] def txtImpossible : Str := "ImpossibleConstraint".toList
/-- `VarValueConstraint: name=` -/
@[irreducible] def txtVar : Str := "VarValueConstraint: name=".toList
/-- `, values=` -/
@[irreducible] def txtValues : Str := ", values=".toList
/-- `ConstraintSet: ` -/
@[irreducible] def txtSet : Str := "ConstraintSet: ".toList
/-- `ProbabilityOutcome: value=` -/
@[irreducible] def txtOutcome : Str := "ProbabilityOutcome: value=".toList
/-- `, constraint_set=` -/
@[irreducible] def txtCs : Str := ", constraint_set=".toList
/-- `ProbabilityDistribution, result_map=` -/
@[irreducible] def txtDist : Str := "ProbabilityDistribution, result_map=".toList
/-- `set()` -/
@[irreducible] def txtEmpty : Str := "set()".toList
/-- `{` -/
@[irreducible] def txtOpen : Str := "{".toList
/-- `}` -/
@[irreducible] def txtClose : Str := "}".toList
/-- `, ` -/
@[irreducible] def txtComma : Str := ", ".toList
/-- `: ` -/
@[irreducible] def txtColon : Str := ": ".toList

/-- `", ".join(items)`, as `repr` of a set or dict separates the items. -/
def reprItems : List Str → Str
  | [] => []
  | [x] => x
  | x :: y :: rest => x ++ txtComma ++ reprItems (y :: rest)

/-- `str` of a `set` whose elements print as given, in iteration order; Python prints the empty set as `set()`. -/
def reprSet : List Str → Str
  | [] => txtEmpty
  | x :: rest => txtOpen ++ reprItems (x :: rest) ++ txtClose

/-- `str` of a `dict` whose entries print as given, in order. -/
def reprDict (entries : List Str) : Str := txtOpen ++ reprItems entries ++ txtClose

/-- `__str__` of the constraints: `null_constraint.py:29-30`, `impossible_constraint.py:29-30`, `var_value_constraint.py:58-59`. -/
def Constraint.text : Constraint → Str
  | .null => txtNull
  | .impossible => txtImpossible
  | .varValue n vs => txtVar ++ n ++ txtValues ++ reprSet (vs.map intStr)

/-- `__eq__` of the constraints: `null_constraint.py:23-24`, `impossible_constraint.py:23-24`, `var_value_constraint.py:52-53`. -/
def Constraint.codeEq (c d : Constraint) : Bool := decide (c.text = d.text)

/-- A hash value: 64 bits. -/
abbrev Hash := BitVec 64

/-- What `hash(x)` makes of the number that `x.__hash__()` returns when that number fits 64 bits: −1 is reserved and becomes −2. -/
def fixHash (h : Hash) : Hash := if h = -1#64 then -2#64 else h

/-- `__hash__` of the constraints (`null_constraint.py:20-21`, `impossible_constraint.py:20-21`, `var_value_constraint.py:49-50`).
    `hs` is Python's hash of strings, which depends on `PYTHONHASHSEED`. -/
def Constraint.codeHash (hs : Str → Hash) (c : Constraint) : Hash := fixHash (hs c.text)

section
variable [R : PyRuntime]
open PyRuntime

/-- `ConstraintSet.__str__` (`constraint_set.py:50-51`). -/
def csText (s : CSet) : Str := txtSet ++ reprSet ((iter s).map Constraint.text)

/-- `ConstraintSet.__eq__` (`constraint_set.py:44-45`). -/
def csCodeEq (s t : CSet) : Bool := decide (csText s = csText t)

/-- `ConstraintSet.__hash__` (`constraint_set.py:56-60`). -/
def csHash (hs : Str → Hash) (s : CSet) : Hash :=
  fixHash ((iter s).foldl (fun h c => h ^^^ c.codeHash hs) (hs "ConstraintSet".toList))

/-- `ProbabilityOutcome.__str__` (`probability_outcome.py:106-107`). -/
def Outcome.text (o : Outcome) : Str :=
  txtOutcome ++ intStr o.value ++ txtCs ++ csText o.cs

/-- `ProbabilityOutcome.__eq__` (`probability_outcome.py:117-120`) between two outcomes. -/
def Outcome.codeEq (a b : Outcome) : Bool := decide (a.value = b.value) && csCodeEq a.cs b.cs

/-- `ProbabilityOutcome.__hash__` (`probability_outcome.py:112-115`); `hi` is Python's hash of ints. -/
def Outcome.codeHash (hs : Str → Hash) (hi : Int → Hash) (o : Outcome) : Hash :=
  fixHash (hs "ProbabilityOutcome".toList ^^^ (hi o.value ^^^ csHash hs o.cs))

/-- An entry of `str(self._result_map)`. -/
def entryText (p : Outcome × Nat) : Str := p.1.text ++ txtColon ++ natStr p.2

/-- `ProbabilityDistribution.__str__` (`probability_distribution.py:376-377`). -/
def Dist.text (d : Dist) : Str := txtDist ++ reprDict (d.resultMap.map entryText)

end

end PyDice
