import Verif.Text
/-!
# The dice notation of the README, as data and as text
-/

namespace PyDice

/-- A written integer: a sign and digits (leading zeros allowed). -/
structure Num where
  neg : Bool
  digits : Str

namespace Num
/-- Well formed: at least one digit and nothing else. -/
def WF (n : Num) : Prop := n.digits ≠ [] ∧ ∀ c ∈ n.digits, isDigit c = true
/-- As written. -/
def text (n : Num) : Str := if n.neg then '-' :: n.digits else n.digits
/-- The integer meant. -/
def val (n : Num) : Int := if n.neg then -(natOf n.digits : Int) else natOf n.digits
end Num

/-- An entry of a custom die: a value or a range, with an optional multiplier. -/
structure Entry where
  first : Num
  last : Option Num
  multiplier : Option Str

namespace Entry
/-- Well formed. -/
def WF (e : Entry) : Prop :=
  e.first.WF ∧ (∀ l ∈ e.last, l.WF) ∧ (∀ m ∈ e.multiplier, m ≠ [] ∧ ∀ c ∈ m, isDigit c = true)
/-- Without the multiplier. -/
def core (e : Entry) : Str := match e.last with
  | none => e.first.text
  | some l => e.first.text ++ '-' :: l.text
/-- As written. -/
def text (e : Entry) : Str := match e.multiplier with
  | none => e.core
  | some m => e.core ++ '*' :: m
/-- The integers covered: the value, or everything between both ends, whichever is larger. -/
def Covers (e : Entry) (v : Int) : Prop := match e.last with
  | none => v = e.first.val
  | some l => min e.first.val l.val ≤ v ∧ v ≤ max e.first.val l.val
instance (e : Entry) (v : Int) : Decidable (e.Covers v) := by unfold Covers; cases e.last <;> infer_instance
/-- The weight each covered integer gets. -/
def weight (e : Entry) : Nat := match e.multiplier with
  | none => 1
  | some m => natOf m
end Entry

/-- A custom die as written without whitespace: the entries between brackets, separated by commas. -/
def customText (es : List Entry) : Str := '[' :: joinWith ',' (es.map Entry.text) ++ [']']

/-- The same with a comma after the last entry. -/
def customTextTrailing (es : List Entry) : Str := '[' :: joinWith ',' (es.map Entry.text) ++ [',', ']']

/-- Whitespace taken out. -/
def noSpace (s : Str) : Str := s.filter fun c => !isSpace c

/-- The weight of `v`: the weights of all entries covering it, added up. -/
def totalWeight (es : List Entry) (v : Int) : Nat := (es.map fun e => if e.Covers v then e.weight else 0).sum

end PyDice
