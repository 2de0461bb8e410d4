import Verif.Lemmas.SourceConstraint
import Verif.Spec.SourceClass
/-!
# C75: the texts of the constraints and of the state do what the model says

The constraint classes, the merger, `ConstraintSet`, `ProbabilityDistributionState` and their factories.
-/
namespace PyDice
open PyRuntime Source

section
variable [R : PyRuntime] (fl : ℚ → Res ℚ) (rd : ℚ → ℚ) (fu : Nat)
set_option linter.unusedSimpArgs false
set_option maxHeartbeats 1000000
local notation "W" => world fl rd fu

/-- A constraint as a value. -/
abbrev conV (c : Constraint) : V := .obj (.con c)

/-- `constraint/null_constraint.py:8-18,23-33`. -/
theorem C75_NullConstraint (d : Constraint) (v : List (V × V)) :
    Gives W Text.NullConstraint.complies [conV .null, .dict v] (pure (.bool true)) ∧
    Gives W Text.NullConstraint.can_merge [conV .null, conV d] (pure (.bool (Constraint.canMerge .null d))) ∧
    Gives W Text.NullConstraint.is_possible [conV .null] (pure (.bool (Constraint.isPossible .null))) ∧
    Gives W Text.NullConstraint.merge [conV .null, conV d] (conV <$> liftR (Constraint.merge .null d)) ∧
    Gives W Text.NullConstraint.__eq__ [conV .null, conV d] (pure (.bool (Constraint.codeEq .null d))) ∧
    Gives W Text.NullConstraint.__ne__ [conV .null, conV d] (pure (.bool (!Constraint.codeEq .null d))) ∧
    Gives W Text.NullConstraint.__str__ [conV .null] (pure (.str (Constraint.text .null))) ∧
    Gives W Text.NullConstraint.__repr__ [conV .null] (pure (.str (Constraint.text .null))) := by
  refine ⟨?_, ?_, ?_, ?_, ?_, ?_, ?_, ?_⟩
  · simp [src, Gives, Text.NullConstraint.complies]
  · simp [src, Gives, Text.NullConstraint.can_merge, Constraint.canMerge]
  · simp [src, Gives, Text.NullConstraint.is_possible, Constraint.isPossible]
  · simp [src, Gives, Text.NullConstraint.merge, Constraint.merge]
  · simp [src, Gives, Text.NullConstraint.__eq__, Constraint.codeEq]
  · simp [src, Gives, Text.NullConstraint.__ne__, Constraint.codeEq]
  · simp [src, Gives, Text.NullConstraint.__str__, Constraint.text]
    unfold txtNull; rfl
  · simp [src, Gives, Text.NullConstraint.__repr__]

/-- `constraint/impossible_constraint.py:8-18,23-33`. -/
theorem C75_ImpossibleConstraint (d : Constraint) (v : List (V × V)) :
    Gives W Text.ImpossibleConstraint.complies [conV .impossible, .dict v] (pure (.bool true)) ∧
    Gives W Text.ImpossibleConstraint.can_merge [conV .impossible, conV d] (pure (.bool (Constraint.canMerge .impossible d))) ∧
    Gives W Text.ImpossibleConstraint.is_possible [conV .impossible] (pure (.bool (Constraint.isPossible .impossible))) ∧
    Gives W Text.ImpossibleConstraint.merge [conV .impossible, conV d] (conV <$> liftR (Constraint.merge .impossible d)) ∧
    Gives W Text.ImpossibleConstraint.__eq__ [conV .impossible, conV d] (pure (.bool (Constraint.codeEq .impossible d))) ∧
    Gives W Text.ImpossibleConstraint.__ne__ [conV .impossible, conV d] (pure (.bool (!Constraint.codeEq .impossible d))) ∧
    Gives W Text.ImpossibleConstraint.__str__ [conV .impossible] (pure (.str (Constraint.text .impossible))) ∧
    Gives W Text.ImpossibleConstraint.__repr__ [conV .impossible] (pure (.str (Constraint.text .impossible))) := by
  refine ⟨?_, ?_, ?_, ?_, ?_, ?_, ?_, ?_⟩
  · simp [src, Gives, Text.ImpossibleConstraint.complies]
  · simp [src, Gives, Text.ImpossibleConstraint.can_merge, Constraint.canMerge]
  · simp [src, Gives, Text.ImpossibleConstraint.is_possible, Constraint.isPossible]
  · simp [src, Gives, Text.ImpossibleConstraint.merge, Constraint.merge]
  · simp [src, Gives, Text.ImpossibleConstraint.__eq__, Constraint.codeEq]
  · simp [src, Gives, Text.ImpossibleConstraint.__ne__, Constraint.codeEq]
  · simp [src, Gives, Text.ImpossibleConstraint.__str__, Constraint.text]
    unfold txtImpossible; rfl
  · simp [src, Gives, Text.ImpossibleConstraint.__repr__]

/-- `constraint/var_value_constraint.py:9-47,52-62`. -/
theorem C75_VarValueConstraint (n : Str) (vs : List Int) (d : Constraint) (v : List (Str × Int)) :
    Builds W Text.VarValueConstraint.__init__ [.str n, .obj (.ints vs), .obj (.svc "ConstraintFactory")] (.con (.varValue n vs))
      ["_name", "_values", "_constraint_factory"] ∧
    Gives W Text.VarValueConstraint.name [conV (.varValue n vs)] (pure (.str n)) ∧
    Gives W Text.VarValueConstraint.values [conV (.varValue n vs)] (pure (.obj (.ints vs))) ∧
    Gives W Text.VarValueConstraint.complies [conV (.varValue n vs), .dict (encC v)]
      (pure (.bool (Constraint.complies (dictGet? v) (.varValue n vs)))) ∧
    Gives W Text.VarValueConstraint.can_merge [conV (.varValue n vs), conV d] (pure (.bool (Constraint.canMerge (.varValue n vs) d))) ∧
    Gives W Text.VarValueConstraint.is_possible [conV (.varValue n vs)] (pure (.bool (Constraint.isPossible (.varValue n vs)))) ∧
    Gives W Text.VarValueConstraint.merge [conV (.varValue n vs), conV d] (conV <$> liftR (Constraint.merge (.varValue n vs) d)) ∧
    Gives W Text.VarValueConstraint.__eq__ [conV (.varValue n vs), conV d] (pure (.bool (Constraint.codeEq (.varValue n vs) d))) ∧
    Gives W Text.VarValueConstraint.__ne__ [conV (.varValue n vs), conV d] (pure (.bool (!Constraint.codeEq (.varValue n vs) d))) ∧
    Gives W Text.VarValueConstraint.__str__ [conV (.varValue n vs)] (pure (.str (Constraint.text (.varValue n vs)))) ∧
    Gives W Text.VarValueConstraint.__repr__ [conV (.varValue n vs)] (pure (.str (Constraint.text (.varValue n vs)))) := by
  refine ⟨?_, ?_, ?_, ?_, ?_, ?_, ?_, ?_, ?_, ?_, ?_⟩
  · simp [src, Builds, mapVals, Text.VarValueConstraint.__init__]
  · simp [src, Gives, Text.VarValueConstraint.name]
  · simp [src, Gives, Text.VarValueConstraint.values]
  · simp [src, Gives, Text.VarValueConstraint.complies, Constraint.complies, get_encC]
    cases dictGet? v n with
    | none => simp [src]
    | some x =>
      simp [src]
      by_cases h : x ∈ vs <;> simp [h]
  · cases d <;> simp [src, Gives, Text.VarValueConstraint.can_merge, Constraint.canMerge]
    congr 2
    rw [Bool.eq_iff_iff]
    simp
  · simp [src, Gives, Text.VarValueConstraint.is_possible, Constraint.isPossible]
  · cases d with
    | varValue m ws =>
      simp [src, Gives, Text.VarValueConstraint.merge, Constraint.merge, Constraint.canMerge]
    | null => simp [src, Gives, Text.VarValueConstraint.merge, Constraint.merge, Constraint.canMerge]
    | impossible => simp [src, Gives, Text.VarValueConstraint.merge, Constraint.merge, Constraint.canMerge]
  · simp [src, Gives, Text.VarValueConstraint.__eq__, Constraint.codeEq]
  · simp [src, Gives, Text.VarValueConstraint.__ne__, Constraint.codeEq]
  · simp [src, Gives, Text.VarValueConstraint.__str__, Constraint.text]
    unfold txtVar txtValues; simp
  · simp [src, Gives, Text.VarValueConstraint.__repr__]

/-- `constraint/constraint_factory.py:12-25`. -/
theorem C75_ConstraintFactory (n : Str) (vs : List Int) :
    Builds W Text.ConstraintFactory.__init__ [] (.svc "ConstraintFactory") ["__null_constraint", "__impossible_constraint"] ∧
    Gives W Text.ConstraintFactory.impossible_constraint [.obj (.svc "ConstraintFactory")] (pure (conV .impossible)) ∧
    Gives W Text.ConstraintFactory.null_constraint [.obj (.svc "ConstraintFactory")] (pure (conV .null)) ∧
    Gives W Text.ConstraintFactory.var_value_constraint [.obj (.svc "ConstraintFactory"), .str n, .obj (.ints vs)]
      (pure (conV (.varValue n vs))) := by
  refine ⟨?_, ?_, ?_, ?_⟩
  · simp [src, Builds, mapVals, Text.ConstraintFactory.__init__]
  · simp [src, Gives, Text.ConstraintFactory.impossible_constraint]
  · simp [src, Gives, Text.ConstraintFactory.null_constraint]
  · simp [src, Gives, Text.ConstraintFactory.var_value_constraint]

/-- `constraint/constraint_merger.py:32-51`: a loop that returns from its middle. -/
theorem C75_merge_new_constraint (c : Constraint) (s : CSet) :
    Gives W Text.ConstraintMerger.__merge_new_constraint [.obj (.con c), .obj (.raw s)] (funcMerger "__merge_new_constraint" [.obj (.con c), .obj (.raw s)]) := by
  simp [src, Gives, Text.ConstraintMerger.__merge_new_constraint, mergeOne, liftR_bind]
  refine (scanLoop_text fl rd fu c s (iter s) _ _ _ _ (fun o => match o with
    | some (m, s') => pure (.tuple [.obj (.raw (insert PyRuntime.empty m)), .obj (.raw s')])
    | none => pure (.tuple [.obj .noset, .obj (.raw (insert s c))])) (fun _ _ _ => by simp [src, scanEnv]) (fun _ _ _ _ _ => by simp [src, scanEnv])).trans ?_
  refine congrArg _ (funext fun o => ?_)
  cases o <;> simp [src]

/-- `constraint/constraint_merger.py:14-30`: a `while` loop over a list that grows and shrinks.  The world runs such a loop at most `fu` times and calls
    it divergent then; twice the number of new constraints plus the number of old ones suffices, so that the loop ends in the source as well. -/
theorem C75_merge_new_constraints (a b : CSet) (hf : mergeFuel (iter (copy a)).reverse (copy b) ≤ fu) :
    Gives W Text.ConstraintMerger.__merge_new_constraints [.obj (.raw a), .obj (.raw b)]
      ((fun r => .obj (.raw r)) <$> liftR (mergeNewAll (iter (copy a)) b)) := by
  simp [src, Gives, Text.ConstraintMerger.__merge_new_constraints, mergeNewAll, ← mergeLoop_enough fu _ _ hf]
  have g := fun K B h => mergeLoop_text fl rd fu fu (iter (copy a)).reverse (copy b) (.obj (.raw a)) (.obj (.raw b)) .unbound .unbound .unbound (β := V) K B h
  simp only [mergeEnv, List.reverse_reverse] at g
  refine (g _ (fun r => pure (.obj (.raw r))) (fun _ _ _ _ => by simp [src])).trans ?_
  simp [src]

/-- `constraint/constraint_merger.py:8-12`. -/
theorem C75_ConstraintMerger (s : CSet) (c : Constraint) :
    Gives W Text.ConstraintMerger.merge_constraints [.obj (.svc "ConstraintMerger"), .obj (.raw s)]
      ((fun r => .obj (.raw r)) <$> liftR (mergeConstraints s)) ∧
    Gives W Text.ConstraintMerger.merge_new_constraints [.obj (.svc "ConstraintMerger"), .obj (.raw s), .obj (.con c)]
      ((fun r => .obj (.raw r)) <$> liftR (mergeNewConstraints s c)) := by
  refine ⟨?_, ?_⟩
  · simp [src, Gives, Text.ConstraintMerger.merge_constraints, mergeConstraints]
  · simp [src, Gives, Text.ConstraintMerger.merge_new_constraints, mergeNewConstraints, iter_copy_single]

/-- `constraint/constraint_set.py:19-21,28-54`. -/
theorem C75_ConstraintSet (s t : CSet) (v : List (Str × Int)) :
    Gives W Text.ConstraintSet.constraints [.obj (.cset s)] (pure (.obj (.raw (copy s)))) ∧
    Gives W Text.ConstraintSet.combine_sets [.obj (.cset s), .obj (.cset t)] ((fun r => .obj (.cset r)) <$> liftR (combineSets s t)) ∧
    Gives W Text.ConstraintSet.complies [.obj (.cset s), .dict (encC v)] (pure (.bool (csComplies s (dictGet? v)))) ∧
    Gives W Text.ConstraintSet.is_possible [.obj (.cset s)] (pure (.bool (csPossible s))) ∧
    Gives W Text.ConstraintSet.__eq__ [.obj (.cset s), .obj (.cset t)] (pure (.bool (csCodeEq s t))) ∧
    Gives W Text.ConstraintSet.__ne__ [.obj (.cset s), .obj (.cset t)] (pure (.bool (!csCodeEq s t))) ∧
    Gives W Text.ConstraintSet.__str__ [.obj (.cset s)] (pure (.str (csText s))) ∧
    Gives W Text.ConstraintSet.__repr__ [.obj (.cset s)] (pure (.str (csText s))) := by
  refine ⟨?_, ?_, ?_, ?_, ?_, ?_, ?_, ?_⟩
  · simp [src, Gives, Text.ConstraintSet.constraints]
  · simp [src, Gives, Text.ConstraintSet.combine_sets, combineSets]
  · simp [src, Gives, Text.ConstraintSet.complies, csComplies]
    exact compliesLoop_text fl rd fu v (iter s) _ _ _ (fun b => pure (Val.bool b)) (fun _ => by simp [src]) (fun _ => by simp [src])
  · simp [src, Gives, Text.ConstraintSet.is_possible, csPossible]
    exact possibleLoop_text fl rd fu (iter s) _ _ _ (fun b => pure (Val.bool b)) (fun _ => by simp [src]) (fun _ => by simp [src])
  · simp [src, Gives, Text.ConstraintSet.__eq__, csCodeEq]
  · simp [src, Gives, Text.ConstraintSet.__ne__, csCodeEq]
  · simp [src, Gives, Text.ConstraintSet.__str__, csText]
    unfold txtSet; rfl
  · simp [src, Gives, Text.ConstraintSet.__repr__]

/-- `constraint/constraint_set.py:10-17`: the loop calls a method that assigns to a field of the object under construction. -/
theorem C75_ConstraintSet_init (s : CSet) :
    BuildsBy W Text.ConstraintSet.__init__ [("add_constraint", Text.ConstraintSet.add_constraint)]
      [.obj (.raw s), .obj (.svc "ConstraintMerger")] (.cset <$> mkConstraintSet (iter s)) ["_constraints_set", "_constraint_merger"] := by
  simp [src, BuildsBy, Text.ConstraintSet.__init__, mkConstraintSet, mapVals, liftR_bind, liftR_map]
  cases e : iter s with
  | nil => simp [src]
  | cons c t =>
    simp [src]
    have g := fun K B h => addFirst_text fl rd fu t c .none (.obj (.raw s)) .unbound (β := V × Env Obj) K B h
    simp only [setEnv] at g
    refine (g _ (fun r => pure (.none, [("self._constraints_set", .obj (.raw r)), ("self._constraint_merger", .obj (.svc "ConstraintMerger"))]))
      (fun _ _ => by simp [src])).trans ?_
    simp [src]

/-- `constraint/constraint_set.py:23-26` assigns the merged set to the field and touches no other. -/
theorem C75_add_constraint (s : CSet) (c : Constraint) :
    Text.ConstraintSet.add_constraint.runIn W [] [.obj (.cset s), .obj (.con c)] [] =
      (do let r ← liftR (addConstraint s c); pure (.none, [("self._constraints_set", .obj (.raw r))])) := by
  simp [src, Text.ConstraintSet.add_constraint, addConstraint]

/-- `constraint/constraint_set_factory.py:13-29`. -/
theorem C75_ConstraintSetFactory :
    Builds W Text.ConstraintSetFactory.__init__ [] (.svc "ConstraintSetFactory") ["_constraint_merger", "_constraint_factory"] ∧
    Gives W Text.ConstraintSetFactory.create_constraint_set [.obj (.svc "ConstraintSetFactory")]
      ((fun r => .obj (.cset r)) <$> liftR createConstraintSet) := by
  refine ⟨?_, ?_⟩
  · simp [src, Builds, mapVals, Text.ConstraintSetFactory.__init__, constV]
  · simp [src, Gives, Text.ConstraintSetFactory.create_constraint_set, createConstraintSet, iter_insert_empty]

/-- `probability_distribution/probability_distribution_state.py:24-44`. -/
theorem C75_state_read (n : Str) :
    Gives W Text.ProbabilityDistributionState.get_var_dict [.obj .state] (pure (.obj .vars)) ∧
    Gives W Text.ProbabilityDistributionState.get_constant_dict [.obj .state] (pure (.obj .consts)) ∧
    Gives W Text.ProbabilityDistributionState.has_constant [.obj .state, .str n] (.bool <$> liftE (EvalM.read fun s => .ok (s.hasConstant n))) ∧
    Gives W Text.ProbabilityDistributionState.has_var [.obj .state, .str n] (.bool <$> liftE (EvalM.read fun s => .ok (s.hasVar n))) ∧
    Gives W Text.ProbabilityDistributionState.get_constant [.obj .state, .str n] (.int <$> liftE (EvalM.read fun s => s.getConstant n)) ∧
    Gives W Text.ProbabilityDistributionState.get_var [.obj .state, .str n] (dV <$> liftE (EvalM.read fun s => s.getVar n)) := by
  refine ⟨?_, ?_, ?_, ?_, ?_, ?_⟩
  · simp [src, Gives, Text.ProbabilityDistributionState.get_var_dict]
  · simp [src, Gives, Text.ProbabilityDistributionState.get_constant_dict]
  · simp [src, Gives, Text.ProbabilityDistributionState.has_constant]
    funext s
    simp [liftE_map_at, read_at, State.hasConstant, get_encC]
  · simp [src, Gives, Text.ProbabilityDistributionState.has_var]
    funext s
    simp [liftE_map_at, read_at, State.hasVar, get_encD]
  · simp [src, Gives, Text.ProbabilityDistributionState.get_constant]
    funext s
    cases h : dictGet? s.constants n <;> simp [liftE_bind_at, liftE_map_at, read_at, State.hasConstant, State.getConstant, get_encC, ite_apply, h, pure_at]
    rfl
  · simp [src, Gives, Text.ProbabilityDistributionState.get_var]
    funext s
    cases h : dictGet? s.var n <;> simp [liftE_bind_at, liftE_map_at, read_at, State.hasVar, State.getVar, get_encD, ite_apply, h, pure_at, dV]
    rfl

/-- `probability_distribution/probability_distribution_state.py:46-50`. -/
theorem C75_set_constant (n : Str) (v : Int) :
    Gives W Text.ProbabilityDistributionState.set_constant [.obj .state, .str n, .int v] ((fun _ => .none) <$> liftE (EvalM.setConstant n v)) := by
  simp [src, Gives, Text.ProbabilityDistributionState.set_constant]
  funext s
  cases hd : dictGet? s.timesSet n with
  | none => simp [liftE_bind_at, liftE_map_at, read_at, get_encS, putConst, putTimes, hd, EvalM.setConstant, State.setConstant, src, bump_set, get_put, put_put, pure_at, ite_apply]
  | some k => simp [liftE_bind_at, liftE_map_at, read_at, get_encS, putConst, putTimes, hd, EvalM.setConstant, State.setConstant, src, bump_set, get_put, put_put, pure_at, ite_apply]

/-- `probability_distribution/probability_distribution_state.py:52-70`: the loop copies outcomes and changes the copies. -/
theorem C75_set_var (n : Str) (d : Dist) :
    Gives W Text.ProbabilityDistributionState.set_var [.obj .state, .str n, dV d] ((fun _ => .none) <$> liftE (EvalM.setVar n d)) := by
  have g := fun m (K : Flow Obj × Env Obj → RollM V) B h => tagLoop_text fl rd fu n d m d.getConstraintResultMap [] .unbound .unbound .unbound .unbound K B h
  simp only [tagEnv, tagBody] at g
  have e : encO ([] : List (Outcome × Nat)) = [] := rfl
  rw [e] at g
  simp [src, Gives, Text.ProbabilityDistributionState.set_var]
  funext s
  cases hd : dictGet? s.timesSet n with
  | none =>
    simp [liftE_bind_at, liftE_map_at, read_at, get_encS, putConst, putTimes, hd, src, bump_set, get_put, put_put, pure_at, ite_apply]
    rw [g _ _ (fun acc => (fun _ => .none) <$> liftE (putVar n (mkDist acc))) (fun acc v1 v2 v3 v4 => by simp [src])]
    exact (setVar_end n d 0 s (by simp [hd])).trans (liftE_map_at _ _ _)
  | some k =>
    simp [liftE_bind_at, liftE_map_at, read_at, get_encS, putConst, putTimes, hd, src, bump_set, get_put, put_put, pure_at, ite_apply]
    rw [g _ _ (fun acc => (fun _ => .none) <$> liftE (putVar n (mkDist acc))) (fun acc v1 v2 v3 v4 => by simp [src])]
    exact (setVar_end n d k s (by simp [hd])).trans (liftE_map_at _ _ _)

/-- `probability_distribution/probability_distribution_state.py:15-22` makes the three dicts empty, as they are in the model's new state. -/
theorem C75_state_init :
    Text.ProbabilityDistributionState.__init__.runIn W [] [.none, .obj (.svc "ProbabilityDistributionFactory"), .obj (.svc "ConstraintFactory")] [] =
      pure (.none, [("self._var", .dict []), ("self._constants", .dict []), ("self._number_of_times_set", .dict []),
        ("self._probability_distribution_factory", .obj (.svc "ProbabilityDistributionFactory")), ("self._constraint_factory", .obj (.svc "ConstraintFactory"))]) ∧
    contentOf .vars State.new = .pure (.ok [], State.new) ∧ contentOf .consts State.new = .pure (.ok [], State.new) ∧
    contentOf .times State.new = .pure (.ok [], State.new) := by
  refine ⟨?_, rfl, rfl, rfl⟩
  simp [src, Text.ProbabilityDistributionState.__init__]

/-- `probability_distribution/probability_distribution_state_factory.py:19-36`. -/
theorem C75_state_factory :
    Builds W Text.ProbabilityDistributionStateFactory.__init__ [] (.svc "ProbabilityDistributionStateFactory") ["_probability_distribution_factory", "_constraint_factory"] ∧
    Gives W Text.ProbabilityDistributionStateFactory.create_new_empty_set [.obj (.svc "ProbabilityDistributionStateFactory")] (pure (.obj .state)) := by
  refine ⟨?_, ?_⟩
  · simp [src, Builds, mapVals, Text.ProbabilityDistributionStateFactory.__init__, constV]
  · simp [src, Gives, Text.ProbabilityDistributionStateFactory.create_new_empty_set, constV]

end

/-! ### Concrete cases -/

section
attribute [local instance] listRuntime

example : mergeFuel (iter (copy (PyRuntime.insert (empty : CSet) .null))).reverse (copy (empty : CSet)) ≤ 2 := by decide

example : PyFun.run (world .ok id 0) Text.VarValueConstraint.merge [conV (.varValue ['x'] [1, 2]), conV (.varValue ['x'] [2, 3])] State.new =
    .pure (.ok (conV (.varValue ['x'] [2])), State.new) := by
  rw [(C75_VarValueConstraint .ok id 0 ['x'] [1, 2] (.varValue ['x'] [2, 3]) []).2.2.2.2.2.2.1]
  rfl

example : PyFun.run (world .ok id 0) Text.VarValueConstraint.merge [conV (.varValue ['x'] [1, 2]), conV (.varValue ['y'] [2, 3])] State.new =
    .pure (.error .value, State.new) := by
  rw [(C75_VarValueConstraint .ok id 0 ['x'] [1, 2] (.varValue ['y'] [2, 3]) []).2.2.2.2.2.2.1]
  rfl

example : PyFun.run (world .ok id 0) Text.ProbabilityDistributionState.set_constant [.obj .state, .str ['x'], .int 3] State.new =
    .pure (.ok .none, ⟨[], [(['x'], 3)], [(['x'], 1)]⟩) := by
  rw [C75_set_constant .ok id 0]
  rfl

end
end PyDice
