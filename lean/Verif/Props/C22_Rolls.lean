import Verif.Lemmas.RollExact
/-!
# C22 Logical operators on rolled numbers, exactly

The rolls of logical operators do not follow the rule "above zero is true" in all cases (`C22_and_counterexample`,
`C22_or_counterexample`, `C22_not_counterexample`).  Here is the rule they do follow, and exactly where the two rules differ.
-/

namespace PyDice
open PyRuntime

section
variable [R : PyRuntime]

/-- C22, for rolls: a comparison or logical operator rolls `v` exactly when its operands roll numbers (left one first) for which the
    rule of rolls gives `v`. -/
theorem C22_roll_rule (s : State) (op : CmpOp) (a b : Expr) (v : Int) (s' : State) :
    Rand.Possible (.ok v, s') ((Expr.bin op a b).roll s) ↔
      ∃ x s1 y, Rand.Possible (.ok x, s1) (a.roll s) ∧ Rand.Possible (.ok y, s') (b.roll s1) ∧ rollOpValue op.toBinOp x y = some v := by
  constructor
  · intro h
    obtain ⟨x, s1, h1, h2⟩ := possible_bind_ok.mp h
    obtain ⟨y, s2, h3, h4⟩ := possible_bind_ok.mp h2
    cases Rand.possible_pure.mp h4
    exact ⟨x, s1, y, h1, h3, onInts_roll op x y⟩
  · rintro ⟨x, s1, y, h1, h3, h4⟩
    refine possible_bind_ok.mpr ⟨x, s1, h1, possible_bind_ok.mpr ⟨y, s', h3, ?_⟩⟩
    rw [onInts_roll] at h4
    rw [← Option.some.inj h4]
    exact Rand.possible_pure.mpr rfl

/-- C22, for rolls of `!`: 0 exactly for the numbers other than 0. -/
theorem C22_roll_not_rule (s : State) (e : Expr) (v : Int) (s' : State) :
    Rand.Possible (.ok v, s') ((Expr.not e).roll s) ↔
      ∃ x, Rand.Possible (.ok x, s') (e.roll s) ∧ (x ≠ 0 ∧ v = 0 ∨ x = 0 ∧ v = 1) := by
  constructor
  · intro h
    obtain ⟨x, s1, h1, h2⟩ := possible_bind_ok.mp h
    cases Rand.possible_pure.mp h2
    refine ⟨x, h1, ?_⟩
    by_cases h0 : x = 0 <;> simp [h0]
  · rintro ⟨x, h1, h2⟩
    refine possible_bind_ok.mpr ⟨x, s', h1, Rand.possible_pure.mpr ?_⟩
    rcases h2 with ⟨h0, rfl⟩ | ⟨h0, rfl⟩ <;> simp [h0]

end

/-- C22, exactly: the rule of rolls and "above zero is true" agree on `AND` when having a binary digit 1 in common is the same as both
    being above zero; on `OR` when a number is above zero or both are zero; on all other operators always. -/
theorem C22_agree (x y : Int) :
    (rollOpValue .and x y = opValue .and x y ↔ ((∃ k, x.testBit k = true ∧ y.testBit k = true) ↔ 0 < x ∧ 0 < y)) ∧
    (rollOpValue .or x y = opValue .or x y ↔ 0 < x ∨ 0 < y ∨ (x = 0 ∧ y = 0)) ∧
    ∀ op, op ≠ .and → op ≠ .or → rollOpValue op x y = opValue op x y := by
  refine ⟨?_, ?_, ?_⟩
  · rw [← land_digits]
    simp only [rollOpValue, opValue, Option.some.injEq]
    by_cases h1 : Int.land x y = 0 <;> by_cases h2 : 0 < x ∧ 0 < y <;> simp [h1, h2]
  · simp only [rollOpValue, opValue, Option.some.injEq]
    (repeat' split) <;> omega
  · intro op h1 h2
    cases op <;> first | rfl | exact absurd rfl h1 | exact absurd rfl h2

/-- `AND` of two odd positive numbers, and of two equal positive numbers, rolls 1; of a number and 0 it rolls 0; so these agree. -/
theorem C22_and_odd (x y : Int) (hx : 0 < x) (hy : 0 < y) (h : (x % 2 = 1 ∧ y % 2 = 1) ∨ x = y) :
    rollOpValue .and x y = opValue .and x y := by
  rw [(C22_agree x y).1]
  refine ⟨fun _ => ⟨hx, hy⟩, fun _ => ?_⟩
  rcases h with ⟨h1, h2⟩ | rfl
  · refine ⟨0, ?_⟩
    obtain ⟨a, rfl⟩ := Int.eq_ofNat_of_zero_le hx.le
    obtain ⟨b, rfl⟩ := Int.eq_ofNat_of_zero_le hy.le
    show Nat.testBit a 0 = true ∧ Nat.testBit b 0 = true
    simp only [Nat.testBit_zero, decide_eq_true_eq]
    omega
  · obtain ⟨a, rfl⟩ := Int.eq_ofNat_of_zero_le hx.le
    obtain ⟨k, hk⟩ := Nat.exists_testBit_of_ne_zero (x := a) (by omega)
    exact ⟨k, hk, hk⟩

/-- The rules agree on `2 AND 3`, `-3 OR 2`, and differ on `1 AND 2`, `4 AND 3`, `-1 AND -1` and `-1 OR 0`. -/
example : rollOpValue .and 2 3 = opValue .and 2 3 ∧ rollOpValue .or (-3) 2 = opValue .or (-3) 2 ∧
    rollOpValue .and 1 2 ≠ opValue .and 1 2 ∧ rollOpValue .and 4 3 ≠ opValue .and 4 3 ∧
    rollOpValue .and (-1) (-1) ≠ opValue .and (-1) (-1) ∧ rollOpValue .or (-1) 0 ≠ opValue .or (-1) 0 := by decide

end PyDice
