import Verif.Py
import Verif.Regex
/-!
# Text helpers of Python used by the dice classes: `int`, `str`, `split`, `join`
-/

namespace PyDice

/-- The value of a decimal digit. -/
def digitValue (c : Char) : Nat :=
  if c.toNat < 128 then c.toNat - 48
  else c.toNat - (uniZeros.find? fun z => decide (z ≤ c.toNat) && decide (c.toNat ≤ z + 9)).getD c.toNat

/-- The number written by decimal digits. -/
def natOf (ds : Str) : Nat := ds.foldl (fun a c => a * 10 + digitValue c) 0

/-- A non-empty string of digits. -/
def isDigits (ds : Str) : Bool := !ds.isEmpty && ds.all isDigit

/-- `int(text)` for text made of digits with an optional minus sign; anything else is a `ValueError`.
    Simplification: `+`, underscores and surrounding blanks, which `int` also accepts, cannot occur in the callers. -/
def pyInt (s : Str) : Res Int :=
  match s with
  | '-' :: ds => if isDigits ds then .ok (-(natOf ds : Int)) else .error .value
  | ds => if isDigits ds then .ok (natOf ds : Int) else .error .value

/-- Decimal digit. -/
def digitChar (n : Nat) : Char := Char.ofNat (48 + n)

/-- Decimal digits of a number, with fuel. -/
def natStrAux : Nat → Nat → Str
  | 0, _ => []
  | f + 1, n => if n < 10 then [digitChar n] else natStrAux f (n / 10) ++ [digitChar (n % 10)]

/-- `str(n)` for `n >= 0`. -/
def natStr (n : Nat) : Str := natStrAux (n + 1) n

/-- `str(i)`. -/
def intStr : Int → Str
  | .ofNat n => natStr n
  | .negSucc n => '-' :: natStr (n + 1)

/-- `text.split(c)` / `re.split("[...]", text)` for single-character separators. -/
def splitOn (p : Char → Bool) : Str → List Str
  | [] => [[]]
  | c :: cs =>
    if p c then [] :: splitOn p cs
    else match splitOn p cs with
      | [] => [[c]]
      | h :: t => (c :: h) :: t

/-- `sep.join(parts)` for a one-character separator. -/
def joinWith (sep : Char) : List Str → Str
  | [] => []
  | [w] => w
  | w :: ws => w ++ sep :: joinWith sep ws

/-- `parts[i]`. -/
def pyIndex {α : Type} (l : List α) (i : Nat) : Res α :=
  match l[i]? with
  | some x => .ok x
  | none => .error .index

/-- `parts[-1]`. -/
def pyLast {α : Type} (l : List α) : Res α :=
  match l.getLast? with
  | some x => .ok x
  | none => .error .index

end PyDice
