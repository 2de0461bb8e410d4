import Verif.Lemmas.SourceDist
import Verif.Spec.SourceClass
/-!
# C74: the texts of outcomes and distributions compute what the model says

`ProbabilityOutcome`, `ProbabilityDistribution` and their factories.
-/
namespace PyDice
open PyRuntime Source

section
variable [R : PyRuntime] (fl : ℚ → Res ℚ) (rd : ℚ → ℚ) (fu : Nat)
set_option linter.unusedSimpArgs false
set_option maxHeartbeats 1000000
local notation "W" => world fl rd fu

/-- The constructor of `probability_distribution/probability_outcome.py:9-14`. -/
theorem C74_ProbabilityOutcome_init (v : Int) (s : CSet) :
    Builds W Text.ProbabilityOutcome.__init__ [.int v, .obj (.cset s)] (.outcome ⟨v, s⟩) ["_value", "_constraint_set"] := by
  simp [src, Builds, mapVals, Text.ProbabilityOutcome.__init__]

/-- `combination_function` and `binary_values` as the operators of `probability_distribution/probability_outcome.py:57-101` hand them to `_combine`. -/
def combiner : BinOp → V × Bool
  | .add => (.glob ["operator", "add"], false)
  | .sub => (.glob ["operator", "sub"], false)
  | .mul => (.glob ["operator", "mul"], false)
  | .floordiv => (.glob ["operator", "floordiv"], false)
  | .eq => (.glob ["operator", "eq"], false)
  | .ne => (.glob ["operator", "ne"], false)
  | .lt => (.glob ["operator", "lt"], false)
  | .le => (.glob ["operator", "le"], false)
  | .gt => (.glob ["operator", "gt"], false)
  | .ge => (.glob ["operator", "ge"], false)
  | .and => (.glob ["operator", "and_"], true)
  | .or => (.glob ["operator", "or_"], true)
  | .max => (.glob ["max"], false)
  | .min => (.glob ["min"], false)

/-- `probability_distribution/probability_outcome.py:24-44` on each of the functions the operators hand it. -/
theorem C74_combine (op : BinOp) (a b : Outcome) :
    Gives W Text.ProbabilityOutcome._combine [oV a, (combiner op).1, oV b, .bool (combiner op).2] (oV <$> liftR (Outcome.combine op a b)) := by
  cases op <;> simp [src, Gives, combiner, Text.ProbabilityOutcome._combine, Outcome.combine, BinOp.apply, liftR_bind, liftR_map]

/-- `probability_distribution/probability_outcome.py:24-44` on something that is not an outcome raises `TypeError`. -/
theorem C74_combine_foreign (a : Outcome) (f v : V) (b : Bool) (hf : isPos f = true) (hv : isPos v = true)
    (h : isInst W v "IProbabilityOutcome" = false) :
    Gives W Text.ProbabilityOutcome._combine [oV a, f, v, .bool b] (throwM .type) := by
  simp [src, Gives, Text.ProbabilityOutcome._combine, hf, hv, h]

/-- The operators of `probability_distribution/probability_outcome.py:57-91,97-101` on two outcomes. -/
theorem C74_ProbabilityOutcome_operators (a b : Outcome) :
    Gives W Text.ProbabilityOutcome.__add__ [oV a, oV b] (oV <$> liftR (Outcome.combine .add a b)) ∧
    Gives W Text.ProbabilityOutcome.__sub__ [oV a, oV b] (oV <$> liftR (Outcome.combine .sub a b)) ∧
    Gives W Text.ProbabilityOutcome.__mul__ [oV a, oV b] (oV <$> liftR (Outcome.combine .mul a b)) ∧
    Gives W Text.ProbabilityOutcome.__floordiv__ [oV a, oV b] (oV <$> liftR (Outcome.combine .floordiv a b)) ∧
    Gives W Text.ProbabilityOutcome.__equal__ [oV a, oV b] (oV <$> liftR (Outcome.combine .eq a b)) ∧
    Gives W Text.ProbabilityOutcome.__not_equal__ [oV a, oV b] (oV <$> liftR (Outcome.combine .ne a b)) ∧
    Gives W Text.ProbabilityOutcome.__lt__ [oV a, oV b] (oV <$> liftR (Outcome.combine .lt a b)) ∧
    Gives W Text.ProbabilityOutcome.__le__ [oV a, oV b] (oV <$> liftR (Outcome.combine .le a b)) ∧
    Gives W Text.ProbabilityOutcome.__gt__ [oV a, oV b] (oV <$> liftR (Outcome.combine .gt a b)) ∧
    Gives W Text.ProbabilityOutcome.__ge__ [oV a, oV b] (oV <$> liftR (Outcome.combine .ge a b)) ∧
    Gives W Text.ProbabilityOutcome.__and__ [oV a, oV b] (oV <$> liftR (Outcome.combine .and a b)) ∧
    Gives W Text.ProbabilityOutcome.__or__ [oV a, oV b] (oV <$> liftR (Outcome.combine .or a b)) ∧
    Gives W Text.ProbabilityOutcome.max_operator [oV a, oV b] (oV <$> liftR (Outcome.combine .max a b)) ∧
    Gives W Text.ProbabilityOutcome.min_operator [oV a, oV b] (oV <$> liftR (Outcome.combine .min a b)) := by
  refine ⟨?_, ?_, ?_, ?_, ?_, ?_, ?_, ?_, ?_, ?_, ?_, ?_, ?_, ?_⟩
  · simp [src, Gives, Text.ProbabilityOutcome.__add__]
  · simp [src, Gives, Text.ProbabilityOutcome.__sub__]
  · simp [src, Gives, Text.ProbabilityOutcome.__mul__]
  · simp [src, Gives, Text.ProbabilityOutcome.__floordiv__]
  · simp [src, Gives, Text.ProbabilityOutcome.__equal__]
  · simp [src, Gives, Text.ProbabilityOutcome.__not_equal__]
  · simp [src, Gives, Text.ProbabilityOutcome.__lt__]
  · simp [src, Gives, Text.ProbabilityOutcome.__le__]
  · simp [src, Gives, Text.ProbabilityOutcome.__gt__]
  · simp [src, Gives, Text.ProbabilityOutcome.__ge__]
  · simp [src, Gives, Text.ProbabilityOutcome.__and__]
  · simp [src, Gives, Text.ProbabilityOutcome.__or__]
  · simp [src, Gives, Text.ProbabilityOutcome.max_operator]
  · simp [src, Gives, Text.ProbabilityOutcome.min_operator]

/-- The other methods of `probability_distribution/probability_outcome.py:16-22,46-55,93-95,103-107,117-120`. -/
theorem C74_ProbabilityOutcome (a b : Outcome) (v : Int) (x : Bool) :
    Gives W Text.ProbabilityOutcome.value [oV a] (pure (.int a.value)) ∧
    Gives W Text.ProbabilityOutcome.constraint_set [oV a] (pure (.obj (.cset a.cs))) ∧
    Gives W Text.ProbabilityOutcome.is_possible [oV a] (pure (.bool a.isPossible)) ∧
    Gives W Text.ProbabilityOutcome._value_to_binary_value [.int v] (pure (.bool (valueToBinary v))) ∧
    Gives W Text.ProbabilityOutcome._binary_to_int [.bool x] (pure (.int (binaryToInt x))) ∧
    Gives W Text.ProbabilityOutcome.not_operator [oV a] (pure (oV a.notOp)) ∧
    Gives W Text.ProbabilityOutcome.__abs__ [oV a] (pure (oV a.absOp)) ∧
    Gives W Text.ProbabilityOutcome.__str__ [oV a] (pure (.str a.text)) ∧
    Gives W Text.ProbabilityOutcome.__eq__ [oV a, oV b] (pure (.bool (a.codeEq b))) := by
  refine ⟨?_, ?_, ?_, ?_, ?_, ?_, ?_, ?_, ?_⟩
  · simp [src, Gives, Text.ProbabilityOutcome.value]
  · simp [src, Gives, Text.ProbabilityOutcome.constraint_set]
  · simp [src, Gives, Text.ProbabilityOutcome.is_possible, Outcome.isPossible]
  · simp [src, Gives, Text.ProbabilityOutcome._value_to_binary_value, valueToBinary]
  · cases x <;> simp [src, Gives, Text.ProbabilityOutcome._binary_to_int, binaryToInt]
  · simp [src, Gives, Text.ProbabilityOutcome.not_operator, Outcome.notOp]
    split <;> rfl
  · simp [src, Gives, Text.ProbabilityOutcome.__abs__, Outcome.absOp]
  · simp [src, Gives, Text.ProbabilityOutcome.__str__, Outcome.text]
    unfold txtOutcome txtCs; rfl
  · simp [src, Gives, Text.ProbabilityOutcome.__eq__, Outcome.codeEq]
    split_ifs with h <;> simp [h]

/-- Each function that `probability_distribution/probability_distribution.py` hands to `_combine_distributions` is the operation of outcomes that the model names. -/
theorem C74_functions (op : BinOp) (f : V) (h : distOpOf f = some op) (a b : Outcome) :
    callV W f [oV a, oV b] = oV <$> liftR (Outcome.combine op a b) := by
  have hm : ∀ o f args, (world0 fl rd fu).method o f args = methodAll fl rd o f args := fun _ _ _ => rfl
  unfold distOpOf at h
  split at h <;> simp only [Option.some.injEq, reduceCtorEq] at h <;> subst h <;> simp [src, hm]

/-- `probability_distribution/probability_distribution.py:249-266`: two nested loops and a local function that changes its argument. -/
theorem C74_combine_distributions (op : BinOp) (f : V) (h : distOpOf f = some op) (d e : Dist) :
    Gives W Text.ProbabilityDistribution._combine_distributions [dV d, f, dV e]
      ((fun m => .dict (encO m)) <$> liftR (combineLoop op (pairsOf d.resultMap e.getConstraintResultMap) [])) := by
  have hp := isPos_functions op f h
  have hf : ∀ a b : Outcome, callV W f [.obj (.outcome a), .obj (.outcome b)] = oV <$> liftR (Outcome.combine op a b) := C74_functions fl rd fu op f h
  simp [src, Gives, Text.ProbabilityDistribution._combine_distributions, hp]
  refine (combineOuter_text fl rd fu op f hf d.resultMap e [] _ _ _ _ _ _ (fun acc => pure (.dict (encO acc))) _ ?_).trans ?_
  · intros
    simp [src]
  · simp

/-- `probability_distribution/probability_distribution.py:221-231`. -/
theorem C74_get_result_map (d : Dist) : Gives W Text.ProbabilityDistribution.get_result_map [dV d] (pure (.dict (encI d.getResultMap))) := by
  simp [src, Gives, Text.ProbabilityDistribution.get_result_map, Dist.getResultMap]
  refine (resultLoop_text fl rd fu d.resultMap [] _ _ _ (fun acc => pure (.dict (encI acc))) _ ?_).trans ?_
  · intro acc v1 v2
    simp [src]
  · simp

/-- `probability_distribution/probability_distribution.py:340-350`. -/
theorem C74_not_operator (d : Dist) : Gives W Text.ProbabilityDistribution.not_operator [dV d] (pure (dV d.notOp)) := by
  simp [src, Gives, Text.ProbabilityDistribution.not_operator, Dist.notOp]
  refine (mapLoop_text fl rd fu Outcome.notOp _ ?_ ?_ d.resultMap [] _ _ _ (fun acc => pure (.obj (.dist (mkDist acc)))) _ ?_).trans ?_
  · intro o env h1 h2 Φ h3
    simp [src, h1]
  · intros; rfl
  · intro acc v1 v2
    simp [src]
  · simp

/-- `probability_distribution/probability_distribution.py:364-374`. -/
theorem C74_abs (d : Dist) : Gives W Text.ProbabilityDistribution.__abs__ [dV d] (pure (dV d.absOp)) := by
  simp [src, Gives, Text.ProbabilityDistribution.__abs__, Dist.absOp]
  refine (mapLoop_text fl rd fu Outcome.absOp _ ?_ ?_ d.resultMap [] _ _ _ (fun acc => pure (.obj (.dist (mkDist acc)))) _ ?_).trans ?_
  · intro o env h1 h2 Φ h3
    simp [src, h1, h2, h3]
  · intros; rfl
  · intro acc v1 v2
    simp [src]
  · simp

/-- The constructor of `probability_distribution/probability_distribution.py:15-36` on a map of outcomes. -/
theorem C74_ProbabilityDistribution_init (d : List (Outcome × Nat)) :
    BuildsBy W Text.ProbabilityDistribution.__init__ [] [.obj (.svc "ProbabilityOutcomeFactory"), .dict (encO d)]
      (.ok (.dist (mkDist d))) ["_outcome_count", "_probability_outcome_factory", "_result_map"] := by
  simp [src, BuildsBy, Text.ProbabilityDistribution.__init__, mkDist, mapVals]
  refine (initLoop_text fl rd fu d [] _ _ _ _ _ _ _ (fun rm => pure (.none, [("self._outcome_count", .int ((rm.foldl (fun c p => c + p.2) 0 : Nat) : Int)),
    ("self._probability_outcome_factory", .obj (.svc "ProbabilityOutcomeFactory")), ("self._result_map", .dict (encO rm))])) _ ?_).trans ?_
  · intro rm v1 v2
    simp [src]
    refine (countLoop_text fl rd fu rm 0 _ _ _ _ _ _ _ _ _ (fun c => pure ((.none : V), [("self._outcome_count", .int ((c : Nat) : Int)),
      ("self._probability_outcome_factory", .obj (.svc "ProbabilityOutcomeFactory")), ("self._result_map", .dict (encO rm))])) _ ?_).trans ?_
    · intro c v
      simp [src]
    · rfl
  · rfl

/-- The constructor of `probability_distribution/probability_distribution.py:15-36` on a map of numbers. -/
theorem C74_ProbabilityDistribution_init_int (d : List (Int × Nat)) :
    BuildsBy W Text.ProbabilityDistribution.__init__ [] [.obj (.svc "ProbabilityOutcomeFactory"), .dict (encI d)]
      (.dist <$> mkDistInt d) ["_outcome_count", "_probability_outcome_factory", "_result_map"] := by
  simp [src, BuildsBy, Text.ProbabilityDistribution.__init__, mkDistInt, mkDist, mapVals, liftR_bind, liftR_map]
  refine (initLoop_int fl rd fu d [] _ _ _ _ _ _ _ (fun rm => pure (.none, [("self._outcome_count", .int ((rm.foldl (fun c p => c + p.2) 0 : Nat) : Int)),
    ("self._probability_outcome_factory", .obj (.svc "ProbabilityOutcomeFactory")), ("self._result_map", .dict (encO rm))])) _ ?_).trans ?_
  · intro rm v1 v2
    simp [src]
    refine (countLoop_text fl rd fu rm 0 _ _ _ _ _ _ _ _ _ (fun c => pure ((.none : V), [("self._outcome_count", .int ((c : Nat) : Int)),
      ("self._probability_outcome_factory", .obj (.svc "ProbabilityOutcomeFactory")), ("self._result_map", .dict (encO rm))])) _ ?_).trans ?_
    · intro c v
      simp [src]
    · rfl
  · simp [src]

/-- The constructor of `probability_distribution/probability_distribution.py:15-36` without a map. -/
theorem C74_ProbabilityDistribution_init_none :
    BuildsBy W Text.ProbabilityDistribution.__init__ [] [.obj (.svc "ProbabilityOutcomeFactory")]
      (.ok (.dist (mkDist []))) ["_outcome_count", "_probability_outcome_factory", "_result_map"] := by
  simp [src, BuildsBy, Text.ProbabilityDistribution.__init__, mkDist, mapVals, forLoop_nil]
  rfl

/-- The operators of `probability_distribution/probability_distribution.py:268-338,352-362` on two distributions. -/
theorem C74_ProbabilityDistribution_operators (a b : Dist) :
    Gives W Text.ProbabilityDistribution.__add__ [dV a, dV b] (dV <$> liftR (Dist.binop .add a b)) ∧
    Gives W Text.ProbabilityDistribution.__sub__ [dV a, dV b] (dV <$> liftR (Dist.binop .sub a b)) ∧
    Gives W Text.ProbabilityDistribution.__mul__ [dV a, dV b] (dV <$> liftR (Dist.binop .mul a b)) ∧
    Gives W Text.ProbabilityDistribution.__floordiv__ [dV a, dV b] (dV <$> liftR (Dist.binop .floordiv a b)) ∧
    Gives W Text.ProbabilityDistribution.__equal__ [dV a, dV b] (dV <$> liftR (Dist.binop .eq a b)) ∧
    Gives W Text.ProbabilityDistribution.__not_equal__ [dV a, dV b] (dV <$> liftR (Dist.binop .ne a b)) ∧
    Gives W Text.ProbabilityDistribution.__lt__ [dV a, dV b] (dV <$> liftR (Dist.binop .lt a b)) ∧
    Gives W Text.ProbabilityDistribution.__le__ [dV a, dV b] (dV <$> liftR (Dist.binop .le a b)) ∧
    Gives W Text.ProbabilityDistribution.__gt__ [dV a, dV b] (dV <$> liftR (Dist.binop .gt a b)) ∧
    Gives W Text.ProbabilityDistribution.__ge__ [dV a, dV b] (dV <$> liftR (Dist.binop .ge a b)) ∧
    Gives W Text.ProbabilityDistribution.__and__ [dV a, dV b] (dV <$> liftR (Dist.binop .and a b)) ∧
    Gives W Text.ProbabilityDistribution.__or__ [dV a, dV b] (dV <$> liftR (Dist.binop .or a b)) ∧
    Gives W Text.ProbabilityDistribution.max_operator [dV a, dV b] (dV <$> liftR (Dist.binop .max a b)) ∧
    Gives W Text.ProbabilityDistribution.min_operator [dV a, dV b] (dV <$> liftR (Dist.binop .min a b)) := by
  refine ⟨?_, ?_, ?_, ?_, ?_, ?_, ?_, ?_, ?_, ?_, ?_, ?_, ?_, ?_⟩
  · simp [src, Gives, Text.ProbabilityDistribution.__add__, Dist.binop, liftR_bind, liftR_map]
  · simp [src, Gives, Text.ProbabilityDistribution.__sub__, Dist.binop, liftR_bind, liftR_map]
  · simp [src, Gives, Text.ProbabilityDistribution.__mul__, Dist.binop, liftR_bind, liftR_map]
  · simp [src, Gives, Text.ProbabilityDistribution.__floordiv__, Dist.binop, liftR_bind, liftR_map]
  · simp [src, Gives, Text.ProbabilityDistribution.__equal__, Dist.binop, liftR_bind, liftR_map]
  · simp [src, Gives, Text.ProbabilityDistribution.__not_equal__, Dist.binop, liftR_bind, liftR_map]
  · simp [src, Gives, Text.ProbabilityDistribution.__lt__, Dist.binop, liftR_bind, liftR_map]
  · simp [src, Gives, Text.ProbabilityDistribution.__le__, Dist.binop, liftR_bind, liftR_map]
  · simp [src, Gives, Text.ProbabilityDistribution.__gt__, Dist.binop, liftR_bind, liftR_map]
  · simp [src, Gives, Text.ProbabilityDistribution.__ge__, Dist.binop, liftR_bind, liftR_map]
  · simp [src, Gives, Text.ProbabilityDistribution.__and__, Dist.binop, liftR_bind, liftR_map]
  · simp [src, Gives, Text.ProbabilityDistribution.__or__, Dist.binop, liftR_bind, liftR_map]
  · simp [src, Gives, Text.ProbabilityDistribution.max_operator, Dist.binop, liftR_bind, liftR_map]
  · simp [src, Gives, Text.ProbabilityDistribution.min_operator, Dist.binop, liftR_bind, liftR_map]

/-- The operators of `probability_distribution/probability_distribution.py:268-338,352-362` on something that is not a distribution raise `TypeError`. -/
theorem C74_ProbabilityDistribution_foreign (a : Dist) (v : V) (hv : isPos v = true) (h : isInst W v "IProbabilityDistribution" = false) :
    Gives W Text.ProbabilityDistribution.__add__ [dV a, v] (throwM .type) ∧
    Gives W Text.ProbabilityDistribution.__sub__ [dV a, v] (throwM .type) ∧
    Gives W Text.ProbabilityDistribution.__mul__ [dV a, v] (throwM .type) ∧
    Gives W Text.ProbabilityDistribution.__floordiv__ [dV a, v] (throwM .type) ∧
    Gives W Text.ProbabilityDistribution.__equal__ [dV a, v] (throwM .type) ∧
    Gives W Text.ProbabilityDistribution.__not_equal__ [dV a, v] (throwM .type) ∧
    Gives W Text.ProbabilityDistribution.__lt__ [dV a, v] (throwM .type) ∧
    Gives W Text.ProbabilityDistribution.__le__ [dV a, v] (throwM .type) ∧
    Gives W Text.ProbabilityDistribution.__gt__ [dV a, v] (throwM .type) ∧
    Gives W Text.ProbabilityDistribution.__ge__ [dV a, v] (throwM .type) ∧
    Gives W Text.ProbabilityDistribution.__and__ [dV a, v] (throwM .type) ∧
    Gives W Text.ProbabilityDistribution.__or__ [dV a, v] (throwM .type) ∧
    Gives W Text.ProbabilityDistribution.max_operator [dV a, v] (throwM .type) ∧
    Gives W Text.ProbabilityDistribution.min_operator [dV a, v] (throwM .type) := by
  refine ⟨?_, ?_, ?_, ?_, ?_, ?_, ?_, ?_, ?_, ?_, ?_, ?_, ?_, ?_⟩
  · simp [src, Gives, Text.ProbabilityDistribution.__add__, hv, h]
  · simp [src, Gives, Text.ProbabilityDistribution.__sub__, hv, h]
  · simp [src, Gives, Text.ProbabilityDistribution.__mul__, hv, h]
  · simp [src, Gives, Text.ProbabilityDistribution.__floordiv__, hv, h]
  · simp [src, Gives, Text.ProbabilityDistribution.__equal__, hv, h]
  · simp [src, Gives, Text.ProbabilityDistribution.__not_equal__, hv, h]
  · simp [src, Gives, Text.ProbabilityDistribution.__lt__, hv, h]
  · simp [src, Gives, Text.ProbabilityDistribution.__le__, hv, h]
  · simp [src, Gives, Text.ProbabilityDistribution.__gt__, hv, h]
  · simp [src, Gives, Text.ProbabilityDistribution.__ge__, hv, h]
  · simp [src, Gives, Text.ProbabilityDistribution.__and__, hv, h]
  · simp [src, Gives, Text.ProbabilityDistribution.__or__, hv, h]
  · simp [src, Gives, Text.ProbabilityDistribution.max_operator, hv, h]
  · simp [src, Gives, Text.ProbabilityDistribution.min_operator, hv, h]

/-- `max`, `min`, `contains_zero` and `get_constraint_result_map` of `probability_distribution/probability_distribution.py:183-191,233-234`. -/
theorem C74_ProbabilityDistribution (d : Dist) :
    Gives W Text.ProbabilityDistribution.max [dV d] (.int <$> liftR d.max) ∧
    Gives W Text.ProbabilityDistribution.min [dV d] (.int <$> liftR d.min) ∧
    Gives W Text.ProbabilityDistribution.contains_zero [dV d] (pure (.bool d.containsZero)) ∧
    Gives W Text.ProbabilityDistribution.get_constraint_result_map [dV d] (pure (.dict (encO d.getConstraintResultMap))) := by
  refine ⟨?_, ?_, ?_, ?_⟩
  · simp [src, Gives, Text.ProbabilityDistribution.max, Dist.max, liftR_bind, liftR_map]
  · simp [src, Gives, Text.ProbabilityDistribution.min, Dist.min, liftR_bind, liftR_map]
  · simp [src, Gives, Text.ProbabilityDistribution.contains_zero, Dist.containsZero, get_encI]
    have e : ((.dict (encI d.getResultMap) : V) == .int 0) = false := rfl
    rw [e]
    cases dictGet? d.getResultMap 0 <;> rfl
  · simp [src, Gives, Text.ProbabilityDistribution.get_constraint_result_map, Dist.getConstraintResultMap, liftR_bind, liftR_map]

/-- `probability_distribution/probability_outcome_factory.py:11-17` and the constructor of `probability_distribution/probability_distribution_factory.py:14-17`. -/
theorem C74_factories (v : Int) :
    Builds W Text.ProbabilityOutcomeFactory.__init__ [] (.svc "ProbabilityOutcomeFactory") ["_constraint_set_factory"] ∧
    Builds W Text.ProbabilityDistributionFactory.__init__ [] (.svc "ProbabilityDistributionFactory") ["_probability_outcome_factory"] ∧
    Gives W Text.ProbabilityOutcomeFactory.create_empty [.obj (.svc "ProbabilityOutcomeFactory"), .int v] (oV <$> liftR (createEmpty v)) := by
  refine ⟨?_, ?_, ?_⟩
  · simp [src, Builds, mapVals, Text.ProbabilityOutcomeFactory.__init__, constV]
  · simp [src, Builds, mapVals, Text.ProbabilityDistributionFactory.__init__, constV]
  · simp [src, Gives, Text.ProbabilityOutcomeFactory.create_empty, createEmpty, constV, liftR_bind, liftR_map]

/-- `probability_distribution/probability_distribution_factory.py:19-23`. -/
theorem C74_create (l : List (V × V)) :
    Gives W Text.ProbabilityDistributionFactory.create [.obj (.svc "ProbabilityDistributionFactory"), .dict l] (createDist l) ∧
    Gives W Text.ProbabilityDistributionFactory.create [.obj (.svc "ProbabilityDistributionFactory")] (pure (dV (mkDist []))) := by
  refine ⟨?_, ?_⟩
  · simp [src, Gives, Text.ProbabilityDistributionFactory.create, constV]
  · simp [src, Gives, Text.ProbabilityDistributionFactory.create, constV]

end

/-! ### Concrete cases: a map read off, a failing division, a foreign operand and a function of the table -/

section
attribute [local instance] listRuntime

example : distOpOf (.glob ["operator", "add"]) = some .add := by rfl

example : isPos (.int 3 : V) = true ∧ isInst (world .ok id 0) (.int 3) "IProbabilityDistribution" = false ∧
    isInst (world .ok id 0) (.int 3) "IProbabilityOutcome" = false := ⟨rfl, rfl, rfl⟩

example : (PyFun.run (world .ok id 0) Text.ProbabilityDistribution.get_result_map
      [dV ⟨[(⟨1, (empty : CSet)⟩, 1), (⟨2, (empty : CSet)⟩, 3), (⟨1, insert empty (.varValue ['x'] [4])⟩, 2)], 6⟩] State.new) =
    .pure (.ok (.dict (encI [(1, 3), (2, 3)])), State.new) := by
  rw [C74_get_result_map .ok id 0]
  rfl

example : (PyFun.run (world .ok id 0) Text.ProbabilityDistribution.__floordiv__
      [dV ⟨[(⟨1, (empty : CSet)⟩, 1)], 1⟩, dV ⟨[(⟨0, (empty : CSet)⟩, 1)], 1⟩] State.new) = .pure (.error .zeroDivision, State.new) := by
  rw [(C74_ProbabilityDistribution_operators .ok id 0 _ _).2.2.2.1]
  rfl

end
end PyDice
