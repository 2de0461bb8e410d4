import Verif.Rand
import Verif.Float
/-!
# `random.choices` in floats

`Verif/Rand.lean` draws `floor(random() * total)` as a uniform integer.  Here `random()` is what CPython's generator delivers, a
uniform multiple of `2 ** -53`, and the product is rounded.  (That the generator is uniform and its values independent is still
assumed.)
-/

namespace PyDice

/-- `random()`: `(a * 67108864 + b) / 9007199254740992` for uniform 27 and 26 bits `a`, `b` (`_randommodule.c`), so the `j`-th multiple
    of `2 ** -53`. -/
def randomFloat (j : Nat) : ℚ := (j : ℚ) / ((2 ^ 53 : Nat) : ℚ)

/-- `random() * total`, where `total = cum_weights[-1] + 0.0`. -/
def scaledFloat (total j : Nat) : ℚ := toDouble (randomFloat j * toDouble (total : ℚ))

/-- `bisect.bisect_right(cum, x, 0, len(cum) - 1)` for a float; ints and floats are compared exactly. -/
def bisectIndexF (cum : List Nat) (x : ℚ) : Nat := (cum.dropLast.takeWhile (fun c : Nat => decide ((c : ℚ) ≤ x))).length

/-- One element chosen by `random.choices` for a float `random() * total`. -/
def chooseF (population : List Int) (cum : List Nat) (x : ℚ) : Res Int :=
  match population[bisectIndexF cum x]? with
  | some v => .ok v
  | none => .error .index

/-- `k` independent choices. -/
def chooseManyF (population : List Int) (cum : List Nat) (total : Nat) : Nat → Rand (Res (List Int))
  | 0 => .pure (.ok [])
  | k + 1 => .draw (2 ^ 53) fun j =>
      match chooseF population cum (scaledFloat total j) with
      | .error e => .pure (.error e)
      | .ok v => Rand.bind (chooseManyF population cum total k) fun
        | .ok vs => .pure (.ok (v :: vs))
        | .error e => .pure (.error e)

/-- `random.choices` as called in `dice_expression.py:38-43` and `drop_keep_expression.py:72-76` (CPython 3.9-3.12): the sum of the
    weights is converted to a float (`OverflowError`). -/
def choicesF (table : List (Int × Nat)) (k : Nat) : Rand (Res (List Int)) :=
  let cum := accumulate 0 (table.map Prod.snd)
  match cum.getLast? with
  | none => .pure (.error .index)
  | some total => match toFloat (total : ℚ) with
    | .error e => .pure (.error e)
    | .ok _ => if total = 0 then .pure (.error .value) else chooseManyF (table.map Prod.fst) cum total k

/-- A random computation with every uniform draw below `n` replaced by `floor(random() * n)` in floats. -/
def Rand.floats {α : Type} : Rand α → Rand α
  | .pure a => .pure a
  | .draw n k => .draw (2 ^ 53) fun j => (k ⌊scaledFloat n j⌋.toNat).floats

end PyDice
