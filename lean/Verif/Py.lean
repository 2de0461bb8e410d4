/-!
# Python basics used by the model

Exceptions are values, text is a list of characters, a `dict` is an association list in insertion order.
-/

namespace PyDice

/-- Text (`str`).  Simplification: a list of Unicode scalar values. -/
abbrev Str := List Char

/-- The exception classes that the modelled code raises.  `diverges` is not a Python exception: it marks
    that a `while` loop of the model ran out of fuel; `merge_terminates` shows that it is never returned. -/
inductive Err where
  | zeroDivision | key | value | type | index | overflow | diverges
  deriving DecidableEq, Repr

/-- The result of a Python call: a value or a raised exception. -/
abbrev Res (α : Type) := Except Err α

instance {α : Type} [DecidableEq α] : DecidableEq (Res α) := fun a b =>
  match a, b with
  | .ok x, .ok y => if h : x = y then isTrue (by rw [h]) else isFalse (by intro h'; cases h'; exact h rfl)
  | .error x, .error y => if h : x = y then isTrue (by rw [h]) else isFalse (by intro h'; cases h'; exact h rfl)
  | .ok _, .error _ => isFalse (by intro h; cases h)
  | .error _, .ok _ => isFalse (by intro h; cases h)

section dict
variable {κ ν : Type} [BEq κ]

/-- `if key not in d: d[key] = 0` followed by `d[key] += n`.  Models the local helper functions `safe_add` of
    `probability_distribution.py:24-27, 224-227, 256-259, 343-346, 367-370`, `dice_expression_helper.py:24-27` and
    `safe_add_to_dict` of `drop_keep_expression.py:132-135, 182-185, 199-202`. -/
def safeAdd : List (κ × Nat) → κ → Nat → List (κ × Nat)
  | [], k, n => [(k, 0 + n)]
  | (k', m) :: t, k, n => if k' == k then (k', m + n) :: t else (k', m) :: safeAdd t k n

/-- `d[key] = v` on a Python `dict`: an existing key keeps its place (and its key object). -/
def dictSet : List (κ × ν) → κ → ν → List (κ × ν)
  | [], k, v => [(k, v)]
  | (k', v') :: t, k, v => if k' == k then (k', v) :: t else (k', v') :: dictSet t k v

/-- `d[key]` / `key in d` on a Python `dict` (`none` when the key is missing). -/
def dictGet? : List (κ × ν) → κ → Option ν
  | [], _ => none
  | (k', v') :: t, k => if k' == k then some v' else dictGet? t k

end dict

end PyDice
