import Verif.Text
import Verif.Dist
/-!
# `src/expression/dice_expression_helper.py`, and how `DiceExpression` / `DropKeepExpression` read their text
-/

namespace PyDice

/-- `-?\d+`. -/
def reInt : Re := .seq (.opt (Re.chr '-')) (Re.plus Re.digit)

/-- `\d+--?\d+` (`dice_expression_helper.py:10`). -/
def rePosStart : Re := .seq (Re.plus Re.digit) (.seq (Re.chr '-') (.seq (.opt (Re.chr '-')) (Re.plus Re.digit)))

/-- `-?\d+--\d+` (`dice_expression_helper.py:14`). -/
def reNegEnd : Re := .seq reInt (.seq (Re.chr '-') (.seq (Re.chr '-') (Re.plus Re.digit)))

/-- `-?\d+--?\d+` (`dice_expression_helper.py:41`). -/
def reRange : Re := .seq reInt (.seq (Re.chr '-') (.seq (.opt (Re.chr '-')) (Re.plus Re.digit)))

/-- `(-?\d+--?\d+|-?\d+)\*\d+` (`dice_expression_helper.py:39`). -/
def reMultiplied : Re := .seq (.alt reRange reInt) (.seq (Re.chr '*') (Re.plus Re.digit))

/-- `_find_range` (`dice_expression_helper.py:5-18`). -/
def findRange (value : Str) : Res (List Int) := do
  let parts := splitOn (· == '-') value
  let start ← if Re.isMatch rePosStart value then do pyInt (← pyIndex parts 0)
    else do let x ← pyInt (← pyIndex parts 1); pure (-x)
  let stop ← if Re.isMatch reNegEnd value then do let x ← pyInt (← pyLast parts); pure (-x)
    else do pyInt (← pyLast parts)
  return pyRange (if start ≤ stop then start else stop) ((if start ≤ stop then stop else start) + 1)

/-- The body of the loop over the entries of a custom die (`dice_expression_helper.py:38-46`): the faces that one entry adds
    and their common weight. -/
def entryFaces (value : Str) : Res (List Int × Nat) := do
  let (value, multiplier) ← if Re.isMatch reMultiplied value then
      match splitOn (· == '*') value with
      | [v, m] => pure (v, m)
      | _ => .error .value
    else pure (value, ['1'])
  let faces ← if Re.isMatch reRange value then findRange value else do let x ← pyInt value; pure [x]
  let m ← pyInt multiplier
  return (faces, m.toNat)

/-- The loop over the entries (`dice_expression_helper.py:37-46`). -/
def entriesLoop : List Str → List (Int × Nat) → Res (List (Int × Nat))
  | [], acc => .ok acc
  | value :: rest, acc => do
    let (faces, m) ← entryFaces value
    entriesLoop rest (faces.foldl (fun d k => safeAdd d k m) acc)

/-- `re.sub(r"(\[|\]|\s+)", "", text)` (`dice_expression_helper.py:37`). -/
def stripBrackets (s : Str) : Str := s.filter (fun c => !(c == '[' || c == ']' || isSpace c))

/-- A dict giving weight 1 to each listed value (`{value: 1 for value in ...}`, values distinct). -/
def ones (l : List Int) : List (Int × Nat) := l.map (fun v => (v, 1))

/-- `get_single_dice_outcome_map` (`dice_expression_helper.py:21-47`). -/
def singleDiceMap (s : Str) : Res (List (Int × Nat)) :=
  if Re.isMatch (Re.plus Re.digit) s then do
    let n ← pyInt s
    return ones (pyRange 1 (n + 1))
  else if s = ['%'] then .ok (ones (pyRange 1 (100 + 1)))
  else if s = ['F'] then .ok [(-1, 1), (0, 1), (1, 1)]
  else entriesLoop (splitOn (· == ',') (stripBrackets s)) []

/-- What `DiceExpression.__init__` computes (`dice_expression.py:27-35`): the text, the face table, the number of dice. -/
structure DiceTerm where
  form : Str
  table : List (Int × Nat)
  number : Nat
  deriving DecidableEq, Repr

/-- `1 if string_num == "" else int(string_num)` (`dice_expression.py:33-35`, `drop_keep_expression.py:55-57`).  The lexer only
    delivers digits here, so the number is not negative. -/
def diceNumber (s : Str) : Res Nat := if s = [] then .ok 1 else do let n ← pyInt s; return n.toNat

/-- `DiceExpression.__init__` (`dice_expression.py:27-35`). -/
def mkDice (form : Str) : Res DiceTerm := do
  let parts := splitOn (· == 'd') form
  let table ← singleDiceMap (← pyIndex parts 1)
  let n ← diceNumber (← pyIndex parts 0)
  return ⟨form, table, n⟩

/-- The simplified form of a keep/drop term: a plain dice term or the constant 0 (`drop_keep_expression.py:35-53`). -/
inductive Simplified where
  | none
  | dice (d : DiceTerm)
  | zero
  deriving DecidableEq, Repr

/-- What `DropKeepExpression.__init__` computes (`drop_keep_expression.py:30-53`). -/
structure DropKeepTerm where
  form : Str
  number : Nat
  table : List (Int × Nat)
  count : Nat
  keep : Bool
  simplified : Simplified
  deriving DecidableEq, Repr

/-- `DropKeepExpression.__init__` (`drop_keep_expression.py:30-66`). -/
def mkDropKeep (form : Str) : Res DropKeepTerm := do
  let parts := splitOn (fun c => c == 'd' || c == 'k') form
  let n ← diceNumber (← pyIndex parts 0)
  let sides ← pyIndex parts 1
  let table ← singleDiceMap sides
  let k ← pyInt (← pyIndex parts 2)
  let k := k.toNat
  let keep := form.contains 'k'
  let simplified ← if keep then
      if n ≤ k then do let d ← mkDice (natStr n ++ 'd' :: sides); pure (Simplified.dice d)
      else if k = 0 then pure Simplified.zero else pure Simplified.none
    else
      if n ≤ k then pure Simplified.zero
      else if k = 0 then do let d ← mkDice (natStr n ++ 'd' :: sides); pure (Simplified.dice d)
      else pure Simplified.none
  return ⟨form, n, table, k, keep, simplified⟩

end PyDice
