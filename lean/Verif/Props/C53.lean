import Verif.Lemmas.ReprNames
/-!
# C53: equality, hashes and printed forms

The code compares constraints and constraint sets by their printed forms (`Verif.Repr`), the rest of the model by what they consist of.
-/

namespace PyDice
open PyRuntime

/-- Two constraints print alike only when they are the same: `==` of constraints is the equality of the model, and equal constraints
    have equal hashes, whatever the hash of strings. -/
theorem C53_constraint (c d : Constraint) : (c.codeEq d = true ↔ c = d) ∧
    ∀ hs : Str → Hash, c.codeEq d = true → c.codeHash hs = d.codeHash hs := by
  have h : c.codeEq d = true ↔ c = d := by
    rw [Constraint.codeEq, decide_eq_true_iff]
    exact ⟨text_injective, fun h => by rw [h]⟩
  exact ⟨h, fun hs he => by rw [h.mp he]⟩

section
variable [R : PyRuntime]

/-- `==` of outcomes whose variables have no comma in their names is the equality of the model: the values agree, and the constraint
    sets list the same constraints in the same order. -/
theorem C53_outcome (a b : Outcome) (ha : a.NoComma) (hb : b.NoComma) : a.codeEq b = (a == b) := by
  have key : csCodeEq a.cs b.cs = csEq a.cs b.cs := by
    unfold csCodeEq csEq
    refine decide_eq_decide.mpr ⟨fun h => ?_, fun h => by unfold csText; rw [h]⟩
    exact (code_cs (u := []) (v := []) ha hb (by rw [h])).1
  show (decide (a.value = b.value) && csCodeEq a.cs b.cs) = (decide (a.value = b.value) && csEq a.cs b.cs)
  rw [key]

/-- Spelt out. -/
theorem C53_outcome_iff (a b : Outcome) (ha : a.NoComma) (hb : b.NoComma) :
    a.codeEq b = true ↔ a.value = b.value ∧ iter a.cs = iter b.cs := by
  rw [C53_outcome a b ha hb]
  show (decide (a.value = b.value) && decide (iter a.cs = iter b.cs)) = true ↔ _
  rw [Bool.and_eq_true, decide_eq_true_iff, decide_eq_true_iff]

/-- A dict takes two keys for the same when their hashes and they themselves are equal: for outcomes this is the equality by which the
    model's dicts work, whatever the hashes of strings and ints. -/
theorem C53_key (hs : Str → Hash) (hi : Int → Hash) (a b : Outcome) (ha : a.NoComma) (hb : b.NoComma) :
    (decide (a.codeHash hs hi = b.codeHash hs hi) && a.codeEq b) = (a == b) := by
  rw [← C53_outcome a b ha hb]
  cases h : a.codeEq b with
  | false => simp
  | true =>
    obtain ⟨h1, h2⟩ := (C53_outcome_iff a b ha hb).mp h
    have : a.codeHash hs hi = b.codeHash hs hi := by
      unfold Outcome.codeHash csHash
      rw [h1, h2]
    simp [this]

/-- The hash of a constraint set does not depend on the order in which it lists its elements, although `==` does. -/
theorem C53_hash_order (hs : Str → Hash) (s t : CSet) (h : ∀ c, c ∈ iter s ↔ c ∈ iter t) : csHash hs s = csHash hs t := by
  have hp : (iter s).Perm (iter t) := (List.perm_ext_iff_of_nodup (iter_nodup s) (iter_nodup t)).mpr h
  unfold csHash
  rw [hp.foldl_eq' (fun x _ y _ z => by rw [BitVec.xor_assoc, BitVec.xor_assoc, BitVec.xor_comm (Constraint.codeHash hs x)])]

/-- Two outcomes with the same constraint set have different hashes unless their values have the same hash (or the hash is the number that
    stands for −1 as well). -/
theorem C53_hash_values (hs : Str → Hash) (hi : Int → Hash) (a b : Outcome) (hcs : ∀ c, c ∈ iter a.cs ↔ c ∈ iter b.cs)
    (h : a.codeHash hs hi = b.codeHash hs hi) (hne : a.codeHash hs hi ≠ -2#64) : hi a.value = hi b.value := by
  have fix : ∀ x y : Hash, fixHash x = fixHash y → fixHash x ≠ -2#64 → x = y := by
    intro x y hxy hx
    unfold fixHash at hxy hx
    split at hxy
    · next e => rw [if_pos e] at hx; exact absurd rfl hx
    · next e =>
      rw [if_neg e] at hx
      split at hxy
      · exact absurd hxy hx
      · exact hxy
  have h1 := fix _ _ h hne
  rw [C53_hash_order hs a.cs b.cs hcs] at h1
  have h2 := congrArg (hs "ProbabilityOutcome".toList ^^^ ·) h1
  simp only [← BitVec.xor_assoc, BitVec.xor_self, BitVec.zero_xor] at h2
  have h3 := congrArg (· ^^^ csHash hs b.cs) h2
  simpa only [BitVec.xor_assoc, BitVec.xor_self, BitVec.xor_zero] using h3

/-- Two distributions without commas in names print alike exactly when they list the same entries in the same order. -/
theorem C53_print (d d' : Dist) (hd : ∀ p ∈ d.resultMap, p.1.NoComma) (hd' : ∀ p ∈ d'.resultMap, p.1.NoComma) :
    d.text = d'.text ↔ d.entries = d'.entries := by
  refine ⟨code_dist hd hd', fun h => ?_⟩
  rw [dist_text, dist_text, h]

/-- In a session of program texts no outcome ever has a comma in the name of a variable: not in the distribution of any expression
    whose assigned names have none (as all parsed expressions and their parts). -/
theorem C53_session (s s' : State) (hs : Typed parse s) (e : Expr) (he : ∀ x ∈ e.assigned, ',' ∉ x) (d : Dist)
    (hd : e.dist s = (.ok d, s')) : ∀ p ∈ d.resultMap, p.1.NoComma := typed_noComma hs he hd

omit R in
/-- Parsed expressions assign to names without commas. -/
theorem C53_parsed (text : Str) (e : Expr) (h : parse text = .ok e) : ∀ x ∈ e.assigned, ',' ∉ x := parsed_assigned h

/-- The stored distributions have none either. -/
theorem C53_stored (s : State) (hs : Typed parse s) (x : Str) (d : Dist) (hd : dictGet? s.var x = some d) :
    ∀ p ∈ d.resultMap, p.1.NoComma := tidyIn_noComma (typed_names hs) (typed_tidy hs x d hd)

/-- Neither do outcomes that are only looked up in a dict or dropped as impossible: what combining, tagging and changing the value
    make of outcomes without commas has none. -/
theorem C53_closed (a b r : Outcome) (ha : a.NoComma) (hb : b.NoComma) :
    (∀ op, Outcome.combine op a b = .ok r → r.NoComma) ∧
    (∀ x, ',' ∉ x → tagOutcome x a = .ok r → r.NoComma) ∧ a.notOp.NoComma ∧ a.absOp.NoComma :=
  ⟨fun op h => combine_noComma op ha hb h, fun _ hx h => tagOutcome_noComma hx ha h, ha, ha⟩

end

section
attribute [local instance] listRuntime

/-- The state after the call `get_probability_distributions(["VAR x = 1d2"])`. -/
def printState : State := (interpDists parse ["VAR x = 1d2".toList] State.new).2

/-- A typed session in which the outcomes do have constraints. -/
example : Typed parse printState ∧ (∀ x ∈ (Expr.getVar ['x']).assigned, ',' ∉ x) ∧
    ((Expr.getVar ['x']).dist printState).1.toOption.map Dist.entries =
      some [(1, [.varValue "x_1".toList [1]], 1), (2, [.varValue "x_1".toList [2]], 1)] :=
  ⟨typed_dists _, by simp [Expr.assigned], by decide +kernel⟩

/-- Two outcomes with the same constraint set, equal hashes and different values whose hashes are the same. -/
example : Outcome.codeHash (fun w => BitVec.ofNat 64 w.length) (BitVec.ofInt 64) ⟨1, insert empty .null⟩ =
      Outcome.codeHash (fun w => BitVec.ofNat 64 w.length) (BitVec.ofInt 64) ⟨1 + 2 ^ 64, insert empty .null⟩ ∧
    Outcome.codeHash (fun w => BitVec.ofNat 64 w.length) (BitVec.ofInt 64) ⟨1, insert empty .null⟩ ≠ -2#64 := by decide +kernel

/-- A printed distribution. -/
example : Dist.text ⟨[(⟨-1, insert empty (.varValue "x_1".toList [2])⟩, 3)], 3⟩ =
    "ProbabilityDistribution, result_map={ProbabilityOutcome: value=-1, constraint_set=".toList ++
    "ConstraintSet: {VarValueConstraint: name=x_1, values={2}}: 3}".toList := by decide +kernel

/-- Other printed forms. -/
example : (Constraint.varValue ['x'] []).text = "VarValueConstraint: name=x, values=set()".toList ∧
    (Constraint.varValue ['x'] [-1, 12]).text = "VarValueConstraint: name=x, values={-1, 12}".toList ∧
    csText empty = "ConstraintSet: set()".toList ∧
    csText (insert (insert empty .null) .impossible) = "ConstraintSet: {NullConstraint, ImpossibleConstraint}".toList ∧
    Dist.text ⟨[], 0⟩ = "ProbabilityDistribution, result_map={}".toList := by decide +kernel

/-- A name that looks like the end of one constraint and the beginning of another. -/
def trickName : Str := "x, values={1}, VarValueConstraint: name=y".toList

/-- With commas in names, as `set_var` allows, C53 fails: a set of one constraint prints like a set of two, so that the two are equal
    for the code, but their hashes differ for some hash of strings, contrary to what Python demands of `__hash__`. -/
theorem C53_comma_counterexample : ∃ s t : CSet, csCodeEq s t = true ∧ csEq s t = false ∧ (iter s).length = 1 ∧ (iter t).length = 2 ∧
    ∃ hs : Str → Hash, csHash hs s ≠ csHash hs t :=
  ⟨insert empty (.varValue trickName [2]), insert (insert empty (.varValue ['x'] [1])) (.varValue ['y'] [2]), by decide +kernel,
    by decide +kernel, by decide +kernel, by decide +kernel, fun w => BitVec.ofNat 64 w.length, by decide +kernel⟩

end

/-- The three lines `VAR x = 1d2`, `VAR y = 1` and `x + y`. -/
def orderLines : List Str := ["VAR x = 1d2".toList, "VAR y = 1".toList, "x + y".toList]

/-- The text of a distribution depends on the order in which the sets list their elements, so on `PYTHONHASHSEED`; what C51 says of
    counts, averages and histograms does not extend to it. -/
theorem C53_order_counterexample : ∃ (R₁ R₂ : PyRuntime) (lines : List Str) (d₁ : @Dist R₁) (d₂ : @Dist R₂),
    (@interpHistogramDist R₁ parse lines (@State.new R₁)).1 = .ok d₁ ∧ (@interpHistogramDist R₂ parse lines (@State.new R₂)).1 = .ok d₂ ∧
    @Dist.text R₁ d₁ ≠ @Dist.text R₂ d₂ := by
  have get : ∀ (R : PyRuntime) (r : Res (@Dist R)) (l : List ShownEntry), r.toOption.map Dist.entries = some l →
      ∃ d, r = .ok d ∧ d.entries = l := by
    intro R r l h
    cases r with
    | error e => cases h
    | ok d => exact ⟨d, rfl, Option.some.inj h⟩
  obtain ⟨d₁, h1, e1⟩ := get listRuntime (@interpHistogramDist listRuntime parse orderLines (@State.new listRuntime)).1
      [(2, [.varValue "x_1".toList [1], .varValue "y_1".toList [1]], 1),
        (3, [.varValue "x_1".toList [2], .varValue "y_1".toList [1]], 1)] (by decide +kernel)
  obtain ⟨d₂, h2, e2⟩ := get revRuntime (@interpHistogramDist revRuntime parse orderLines (@State.new revRuntime)).1
      [(2, [.varValue "y_1".toList [1], .varValue "x_1".toList [1]], 1),
        (3, [.varValue "y_1".toList [1], .varValue "x_1".toList [2]], 1)] (by decide +kernel)
  refine ⟨listRuntime, revRuntime, orderLines, d₁, d₂, h1, h2, fun h => ?_⟩
  rw [@dist_text listRuntime, @dist_text revRuntime, e1, e2, List.append_cancel_left_eq] at h
  have nc : ∀ a b c d : Str, ',' ∉ a → ',' ∉ b → ',' ∉ c → ',' ∉ d → ∀ i j : Int, ∀ vs ws us ts : List Int, ∀ x y : Nat,
      ∀ e ∈ [((i, [.varValue a vs, .varValue b ws], x) : ShownEntry), (j, [.varValue c us, .varValue d ts], y)],
      ∀ c ∈ e.2.1, c.NoComma := by
    intro a b c d ha hb hc hd i j vs ws us ts x y e he f hf
    simp only [List.mem_cons, List.not_mem_nil, or_false] at he
    rcases he with rfl | rfl <;> simp only [List.mem_cons, List.not_mem_nil, or_false] at hf <;> rcases hf with rfl | rfl <;> assumption
  have key := code_dict (f := shownText) code_entry shownText_head _ _ [] []
    (nc "x_1".toList "y_1".toList "x_1".toList "y_1".toList (by decide) (by decide) (by decide) (by decide) 2 3 [1] [1] [2] [1] 1 1)
    (nc "y_1".toList "x_1".toList "y_1".toList "x_1".toList (by decide) (by decide) (by decide) (by decide) 2 3 [1] [1] [1] [2] 1 1) trivial trivial
    (by rw [List.append_nil, List.append_nil]; exact h)
  exact absurd key.1 (by decide +kernel)

end PyDice
