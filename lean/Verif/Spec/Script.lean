import Verif.Py
import Verif.Unicode
import Mathlib.Data.List.Forall2
/-!
# Texts that differ in the script of their digits

`uniZeros` is data: the zeros of the scripts beyond ASCII.
-/

namespace PyDice

/-- The character is a decimal digit of some script, of value `k`: the `k`-th after the zero of that script. -/
def IsDigitOf (c : Char) (k : Nat) : Prop := k < 10 ∧ ∃ z ∈ 48 :: uniZeros, c.toNat = z + k

/-- The same character, or decimal digits (perhaps of different scripts) with the same value. -/
def SameChar (a b : Char) : Prop := a = b ∨ ∃ k, IsDigitOf a k ∧ IsDigitOf b k

/-- Texts that agree character by character. -/
def SameText (s t : Str) : Prop := List.Forall₂ SameChar s t

end PyDice
