import Verif.Lemmas.Order
import Verif.Props.C50
import Mathlib.Tactic.FinCases
/-!
# C70: better parts make a better whole
-/

namespace PyDice
open PyRuntime

section
variable [R : PyRuntime]

/-- C70: fill the holes of a formula, each used once, with expressions whose dice were thrown apart.  Replace the expressions in the holes
    with which the formula rises by better ones and those in the holes with which it falls by worse ones.  Then the whole is better: at
    least as likely to reach any value, and at least as high on the average. -/
theorem C70_better (parse : Str → Res Expr) {t s1 s2 : State} (p : Pat) (hp : p.holes.Nodup) (es es' : Nat → Expr) (ds ds' : Nat → Dist)
    (ha : AllApart parse t p.holes es) (ha' : AllApart parse t p.holes es')
    (hd : ∀ i ∈ p.holes, (es i).dist t = (.ok (ds i), t)) (hd' : ∀ i ∈ p.holes, (es' i).dist t = (.ok (ds' i), t))
    (up : Nat → Bool) (hup : ∀ i ∈ p.holes, if up i then Dominates (ds i) (ds' i) else Dominates (ds' i) (ds i))
    (hm : p.Monotone up fun i v => hasKey (ds i).getResultMap v ∨ hasKey (ds' i).getResultMap v)
    {d d' : Dist} (h : (p.fill es).dist t = (.ok d, s1)) (h' : (p.fill es').dist t = (.ok d', s2)) : Dominates d d' := by
  classical
  have ht : Reachable parse t := by
    obtain ⟨s, ls, tr, h1, h2, _⟩ := ha
    exact reachable_run h1 h2
  have tidy : ∀ i ∈ p.holes, ∃ A, Tidy A (ds i) := fun i hi => fill_tidy ht (hd i hi)
  have tidy' : ∀ i ∈ p.holes, ∃ A, Tidy A (ds' i) := fun i hi => fill_tidy ht (hd' i hi)
  have above : ∀ i ∈ p.holes, if up i then Above (ds i) (ds' i) else Above (ds' i) (ds i) := by
    intro i hi
    have h1 := hup i hi
    split at h1
    · rename_i hu; rw [if_pos hu]; exact h1.above (tidy i hi).choose_spec.constructed (tidy' i hi).choose_spec.constructed
    · rename_i hu; rw [if_neg hu]; exact h1.above (tidy' i hi).choose_spec.constructed (tidy i hi).choose_spec.constructed
  have pos : ∀ i ∈ p.holes, 0 < (ds i).outcomeCount ∧ 0 < (ds' i).outcomeCount := by
    intro i hi
    have h1 := above i hi
    split at h1
    · exact ⟨h1.2.2.1, h1.2.2.2.1⟩
    · exact ⟨h1.2.2.2.1, h1.2.2.1⟩
  obtain ⟨c, n, m⟩ := fill_mean p hp ha hd (fun i hi => (pos i hi).1) h
  obtain ⟨c', n', m'⟩ := fill_mean p hp ha' hd' (fun i hi => (pos i hi).2) h'
  refine Above.dominates ⟨c, c', n, n', fun v => ?_⟩
  rw [m, m']
  refine tupleMean_above ds ds' (up := up) (dom := fun i v => hasKey (ds i).getResultMap v ∨ hasKey (ds' i).getResultMap v)
    (P := fun i => i ∈ p.holes) ?_ p.holes ?_ ?_ above _ ?_
  · intro x y hxy
    obtain ⟨u, w, h1, h2, h3⟩ := hm x y hxy
    rw [h1, h2]
    simp only [onSome]
    by_cases hv : v ≤ u
    · rw [if_pos hv, if_pos (le_trans hv h3)]
    · rw [if_neg hv]; split <;> norm_num
  · intro i _ q hq
    exact .inl ((hasKey_getResultMap _ _).mpr ⟨q, hq, rfl⟩)
  · intro i _ q hq
    exact .inr ((hasKey_getResultMap _ _).mpr ⟨q, hq, rfl⟩)
  · rintro i ⟨h1, h2⟩
    exact absurd h1 h2

omit R in
/-- C70: the operators tell the direction: sums, `MAX`, `MIN`, `AND` and `OR` rise with their operands, differences and `>`, `>=` rise with
    the left and fall with the right one, `<`, `<=` the other way round, `!` falls, and a constant factor or divisor keeps or turns the
    direction with its sign. -/
theorem C70_directions (up : Nat → Bool) (dom : Nat → Int → Prop) (p : Pat) (h : p.Directed up true) : p.Monotone up dom := by
  intro x y hxy
  obtain ⟨u, v, h1, h2, h3⟩ := directed_leads up p true h fun i hi => (hxy i hi).2.2
  exact ⟨u, v, h1, h2, h3⟩

/-- C70 for expressions without variables, which have no dice in common: if the formula follows the directions by its operators, better
    parts make a better whole. -/
theorem C70_no_variables (parse : Str → Res Expr) {t : State} (ht : Reachable parse t) (p : Pat) (hp : p.holes.Nodup) (up : Nat → Bool)
    (hup : p.Directed up true) (es es' : Nat → Expr) (ds ds' : Nat → Dist)
    (hn : ∀ i ∈ p.holes, (es i).NoAssign ∧ (es i).reads = [] ∧ (es' i).NoAssign ∧ (es' i).reads = [])
    (hd : ∀ i ∈ p.holes, (es i).dist t = (.ok (ds i), t) ∧ (es' i).dist t = (.ok (ds' i), t) ∧
      if up i then Dominates (ds i) (ds' i) else Dominates (ds' i) (ds i)) :
    ∃ d d', (p.fill es).dist t = (.ok d, t) ∧ (p.fill es').dist t = (.ok d', t) ∧ Dominates d d' := by
  have apart : ∀ es : Nat → Expr, (∀ i ∈ p.holes, (es i).NoAssign ∧ (es i).reads = []) → AllApart parse t p.holes es := by
    intro es h
    refine ⟨t, [], [], ht, .nil _, by simp, fun i hi => (h i hi).1, fun i hi j _ _ => ?_⟩
    rw [Set.disjoint_left]
    rintro k ⟨n, hn, _⟩
    simp [(h i hi).2] at hn
  have made : ∀ (es : Nat → Expr) (ds : Nat → Dist), (∀ i ∈ p.holes, (es i).dist t = (.ok (ds i), t)) →
      ∃ d, (p.fill es).dist t = (.ok d, t) := by
    intro es ds h
    obtain ⟨d, hd⟩ := directed_dist (ds := ds) up p true hup fun i hi => (fill_tidy ht (h i hi)).choose_spec.proper
    exact ⟨d, by rw [fill_dist p h, hd]⟩
  obtain ⟨d, h1⟩ := made es ds fun i hi => (hd i hi).1
  obtain ⟨d', h2⟩ := made es' ds' fun i hi => (hd i hi).2.1
  exact ⟨d, d', h1, h2, C70_better parse p hp es es' ds ds' (apart es fun i hi => ⟨(hn i hi).1, (hn i hi).2.1⟩)
    (apart es' fun i hi => (hn i hi).2.2) (fun i hi => (hd i hi).1) (fun i hi => (hd i hi).2.1) up (fun i hi => (hd i hi).2.2)
    (C70_directions up _ p hup) h1 h2⟩

end

/-! ### Examples -/

section
attribute [local instance] listRuntime

/-- `d2`, `d4`, `d6`. -/
def plainDie : Nat → Expr
  | 2 => .dice ⟨['d', '2'], ones [1, 2], 1⟩
  | 4 => .dice ⟨['d', '4'], ones [1, 2, 3, 4], 1⟩
  | _ => .dice ⟨['d', '6'], ones [1, 2, 3, 4, 5, 6], 1⟩

/-- `d4 - d6` and `d6 - d2`. -/
def weakHand (i : Nat) : Expr := if i = 0 then plainDie 4 else plainDie 6
/-- The better hand. -/
def strongHand (i : Nat) : Expr := if i = 0 then plainDie 6 else plainDie 2

/-- The conditions of `C70_no_variables` hold for `3 * (A - B) // 2 > 1` with `d4`, `d6` and with `d6`, `d2`. -/
example : (Pat.bin .gt (.bin .floordiv (.bin .mul (.const 3) (.bin .sub patA patB)) (.const 2)) (.const 1)).Directed (fun i => i == 0) true ∧
    (∀ i ∈ [0, 1], (weakHand i).NoAssign ∧ (weakHand i).reads = [] ∧ (strongHand i).NoAssign ∧ (strongHand i).reads = []) ∧
    ∀ i ∈ [0, 1], (weakHand i).dist State.new = (.ok (distOf (weakHand i) State.new), State.new) ∧
      (strongHand i).dist State.new = (.ok (distOf (strongHand i) State.new), State.new) ∧
      if (i == 0) then Dominates (distOf (weakHand i) State.new) (distOf (strongHand i) State.new)
        else Dominates (distOf (strongHand i) State.new) (distOf (weakHand i) State.new) := by
  refine ⟨⟨⟨2, rfl, .inl ⟨by decide, .inr ⟨3, rfl, .inl ⟨by decide, rfl, rfl⟩⟩⟩⟩, trivial⟩, ?_, ?_⟩
  · intro i hi
    fin_cases hi <;> exact ⟨trivial, rfl, trivial, rfl⟩
  · intro i hi
    fin_cases hi
    · exact ⟨rfl, rfl, dominates_of_keys (by decide +kernel) ⟨5 / 2, 7 / 2, by decide +kernel, by decide +kernel, by norm_num⟩⟩
    · exact ⟨rfl, rfl, dominates_of_keys (by decide +kernel) ⟨3 / 2, 7 / 2, by decide +kernel, by decide +kernel, by norm_num⟩⟩

/-- `VAR x = d2`. -/
def lineSmall : Expr := .assign ['x'] (plainDie 2)
/-- `x` and `3 - x`. -/
def sharedHand (i : Nat) : Expr := if i = 0 then .getVar ['x'] else .sub (.constInt ['3']) (.getVar ['x'])

/-- C70 fails for parts that share dice: after `VAR x = d2` the part `3 - x` is as good as `x`, and yet `x + x` is not as good as
    `x + (3 - x)`, which always reaches 3. -/
theorem C70_shared_counterexample : ∃ (t : State) (ds ds' : Nat → Dist) (d d' : Dist),
    t = lineState lineSmall State.new ∧
    (∀ i ∈ [0, 1], (sharedHand i).dist t = (.ok (ds i), t) ∧ (Expr.getVar ['x']).dist t = (.ok (ds' i), t) ∧ Dominates (ds i) (ds' i)) ∧
    (Pat.bin .add patA patB).Directed (fun _ => true) true ∧
    ((Pat.bin .add patA patB).fill sharedHand).dist t = (.ok d, t) ∧
    ((Pat.bin .add patA patB).fill fun _ => .getVar ['x']).dist t = (.ok d', t) ∧
    probOf d (fun x => decide (3 ≤ x)) = 1 ∧ probOf d' (fun x => decide (3 ≤ x)) = 1 / 2 := by
  refine ⟨_, fun i => distOf (sharedHand i) (lineState lineSmall State.new), fun _ => distOf (.getVar ['x']) (lineState lineSmall State.new),
    distOf ((Pat.bin .add patA patB).fill sharedHand) (lineState lineSmall State.new),
    distOf ((Pat.bin .add patA patB).fill fun _ => .getVar ['x']) (lineState lineSmall State.new), rfl, ?_, ⟨rfl, rfl⟩, ?_, ?_,
    by decide +kernel, by decide +kernel⟩
  · intro i hi
    fin_cases hi
    · exact ⟨rfl, rfl, dominates_of_keys (by decide +kernel) ⟨3 / 2, 3 / 2, by decide +kernel, by decide +kernel, le_refl _⟩⟩
    · exact ⟨rfl, rfl, dominates_of_keys (by decide +kernel) ⟨3 / 2, 3 / 2, by decide +kernel, by decide +kernel, le_refl _⟩⟩
  · rfl
  · rfl

end

end PyDice
