import Verif.Py
import Mathlib.Algebra.Order.Field.Rat
import Mathlib.Algebra.BigOperators.Group.List.Basic
/-!
# Randomness: `random.choices`

A random computation is a tree of uniform draws.
-/

namespace PyDice

/-- A computation that draws uniform integers: `draw n k` draws `t` with `0 <= t < n` and continues with `k t`. -/
inductive Rand (α : Type) where
  | pure (a : α)
  | draw (n : Nat) (k : Nat → Rand α)

namespace Rand

/-- Sequencing. -/
def bind {α β : Type} : Rand α → (α → Rand β) → Rand β
  | .pure a, f => f a
  | .draw n k, f => .draw n (fun t => bind (k t) f)

instance : Monad Rand where
  pure := Rand.pure
  bind := Rand.bind

/-- Expected value of `f`, every draw below `n` being equally likely. -/
def expect {α : Type} (f : α → ℚ) : Rand α → ℚ
  | .pure a => f a
  | .draw n k => ((List.range n).map (fun t => expect f (k t))).sum / (n : ℚ)

/-- Probability of an event. -/
def prob {α : Type} (P : α → Bool) (r : Rand α) : ℚ := expect (fun a => if P a then 1 else 0) r

/-- The results that some sequence of draws leads to. -/
inductive Possible {α : Type} (a : α) : Rand α → Prop where
  | pure : Possible a (.pure a)
  | draw {n : Nat} {k : Nat → Rand α} (t : Nat) (ht : t < n) (h : Possible a (k t)) : Possible a (.draw n k)

end Rand

/-- `list(itertools.accumulate(weights))`. -/
def accumulate : Nat → List Nat → List Nat
  | _, [] => []
  | acc, w :: ws => (acc + w) :: accumulate (acc + w) ws

/-- `bisect.bisect_right(cum, x, 0, len(cum) - 1)` on a sorted list: how many of the entries but the last are at most `x`. -/
def bisectIndex (cum : List Nat) (x : Nat) : Nat := (cum.dropLast.takeWhile (fun c => decide (c ≤ x))).length

/-- One element chosen by `random.choices` for the draw `x = floor(random() * total)`; the weights are integers, so only that
    floor matters for `bisect`. -/
def choose (population : List Int) (cum : List Nat) (x : Nat) : Res Int :=
  match population[bisectIndex cum x]? with
  | some v => .ok v
  | none => .error .index

/-- `k` independent choices. -/
def chooseMany (population : List Int) (cum : List Nat) (total : Nat) : Nat → Rand (Res (List Int))
  | 0 => .pure (.ok [])
  | k + 1 => .draw total fun x =>
      match choose population cum x with
      | .error e => .pure (.error e)
      | .ok v => Rand.bind (chooseMany population cum total k) fun
        | .ok vs => .pure (.ok (v :: vs))
        | .error e => .pure (.error e)

/-- `random.choices(list(map.keys()), weights=list(map.values()), k=k)` (CPython 3.9-3.12: `cum_weights[-1]` is an
    `IndexError` for an empty population, a total of 0 a `ValueError`).  Simplification: `random()` is a uniform real in
    `[0,1)`. -/
def choices (table : List (Int × Nat)) (k : Nat) : Rand (Res (List Int)) :=
  let cum := accumulate 0 (table.map Prod.snd)
  match cum.getLast? with
  | none => .pure (.error .index)
  | some total => if total = 0 then .pure (.error .value) else chooseMany (table.map Prod.fst) cum total k

end PyDice
