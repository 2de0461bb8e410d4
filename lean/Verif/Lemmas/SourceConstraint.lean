import Verif.Lemmas.SourceDice
import Verif.Lemmas.Heap
/-!
# Loops of the texts of the constraint classes and of the state

Each lemma runs one loop for any elements and any continuation.
-/
namespace PyDice.Source
open PyRuntime
section
variable [R : PyRuntime] (fl : ℚ → Res ℚ) (rd : ℚ → ℚ) (fu : Nat)
set_option linter.unusedSimpArgs false
set_option maxHeartbeats 1000000
local notation "W" => world fl rd fu

/-- The passes of the merger's loop do not depend on the bound, once it suffices. -/
theorem mergeLoop_mono : ∀ (n m : Nat) (stack : List Constraint) (clean r : CSet), mergeLoop n stack clean = .ok r → n ≤ m →
    mergeLoop m stack clean = .ok r
  | _, m, [], clean, r, h, _ => by
    cases m <;> simpa [mergeLoop] using h
  | 0, _, _ :: _, _, _, h, _ => by simp [mergeLoop] at h
  | n + 1, 0, _ :: _, _, _, _, hm => by omega
  | n + 1, m + 1, c :: rest, clean, r, h, hm => by
    simp only [mergeLoop] at h ⊢
    cases e : mergeOne c clean with
    | error x => rw [e] at h; cases h
    | ok p =>
      rw [e] at h
      exact mergeLoop_mono n m _ _ _ h (by omega)

theorem mergeLoop_enough (m : Nat) (stack : List Constraint) (clean : CSet) (h : mergeFuel stack clean ≤ m) :
    mergeLoop m stack clean = mergeLoop (mergeFuel stack clean) stack clean := by
  obtain ⟨r, hr, _⟩ := mergeLoop_spec (mergeFuel stack clean) stack clean (Nat.le_refl _)
  rw [hr]
  exact mergeLoop_mono _ _ _ _ _ hr h

theorem iter_copy_single (c : Constraint) : iter (copy (insert (PyRuntime.empty) c)) = [c] := by
  have h1 : ∀ x, x ∈ iter (copy (insert PyRuntime.empty c)) ↔ x = c := by
    intro x
    rw [mem_copy, iter_insert_empty]
    simp
  have h2 := iter_nodup (copy (insert PyRuntime.empty c))
  match h : iter (copy (insert PyRuntime.empty c)) with
  | [] => exact absurd ((h1 c).2 rfl) (by rw [h]; simp)
  | [x] => rw [(h1 x).1 (by rw [h]; simp)]
  | x :: y :: t =>
    have hx := (h1 x).1 (by rw [h]; simp)
    have hy := (h1 y).1 (by rw [h]; simp)
    rw [h, hx, hy] at h2
    simp at h2

theorem get_encC (v : List (Str × Int)) (n : Str) : dictGet? (encC v) (.str n) = (dictGet? v n).map .int := by
  induction v with
  | nil => rfl
  | cons p t ih =>
    simp only [encC, List.map_cons, dictGet?] at ih ⊢
    by_cases h : p.1 = n
    · simp [h, src]
    · simpa [h, src, List.find?_cons] using ih

/-- `for constraint in …: if not constraint.is_possible(): return False`. -/
theorem possibleLoop_text (l : List Constraint) (a v : V) {β : Type} (K : Flow Obj × Env Obj → RollM β) (B : Bool → RollM β)
    (h1 : ∀ v, K (.next, [("self", a), ("constraint", v)]) = B true)
    (h2 : ∀ v, K (.ret (.bool false), [("self", a), ("constraint", v)]) = B false) :
    (forLoop W [] (.name "constraint")
      (.seq (.ifs (.not (.callAttr (.name "constraint") "is_possible" .nil)) (.seq (.ret .false) .done) .done) .done)
      (l.map fun c => .obj (.con c)) [("self", a), ("constraint", v)] >>= K) = B (l.all Constraint.isPossible) := by
  induction l generalizing v with
  | nil => simp [forLoop_nil, h1]
  | cons c t ih =>
    simp [src, forLoop_cons]
    cases hc : c.isPossible with
    | true => simpa [src] using ih _
    | false => simp [src, h2]

/-- `for constraint in …: if not constraint.complies(var_values=var_values): return False`. -/
theorem compliesLoop_text (d : List (Str × Int)) (l : List Constraint) (a v : V) {β : Type} (K : Flow Obj × Env Obj → RollM β) (B : Bool → RollM β)
    (h1 : ∀ v, K (.next, [("self", a), ("var_values", .dict (encC d)), ("constraint", v)]) = B true)
    (h2 : ∀ v, K (.ret (.bool false), [("self", a), ("var_values", .dict (encC d)), ("constraint", v)]) = B false) :
    (forLoop W [] (.name "constraint")
      (.seq (.ifs (.not (.callAttr (.name "constraint") "complies" (.cons (.kw "var_values" (.name "var_values")) .nil))) (.seq (.ret .false) .done) .done) .done)
      (l.map fun c => .obj (.con c)) [("self", a), ("var_values", .dict (encC d)), ("constraint", v)] >>= K) =
    B (l.all (Constraint.complies (dictGet? d))) := by
  have e : intsByName (encC d) = dictGet? d := by
    funext n
    rw [intsByName, get_encC]
    cases dictGet? d n <;> rfl
  induction l generalizing v with
  | nil => simp [forLoop_nil, h1]
  | cons c t ih =>
    simp [src, forLoop_cons]
    rw [e]
    cases hc : c.complies (dictGet? d) with
    | true => simpa [src] using ih _
    | false => simp [src, h2]

/-- The variables of `ConstraintSet.__init__`. -/
def setEnv (a1 a2 v : V) (o : Obj) : Env Obj :=
  [("self", a1), ("constraints_set", a2), ("constraint_merger", .obj (.svc "ConstraintMerger")), ("constraint", v),
    ("self._constraints_set", .obj o), ("self._constraint_merger", .obj (.svc "ConstraintMerger"))]

theorem add_text (a1 a2 v : V) (o : Obj) (s : CSet) (c : Constraint) (ho : asRaw o = some s) :
    Text.ConstraintSet.add_constraint.asMethod W [] [.obj (.con c)] (setEnv a1 a2 v o) =
      (do let r ← liftR (addConstraint s c); pure (.none, [.obj (.con c)], setEnv a1 a2 v (.raw r))) := by
  simp [src, setEnv, Text.ConstraintSet.add_constraint, asMethod_apply, defnFun_apply, addConstraint, ho]

/-- The loop of `ConstraintSet.__init__`. -/
theorem addLoop_text (l : List Constraint) (s : CSet) (a1 a2 v : V) {β : Type} (K : Flow Obj × Env Obj → RollM β) (B : CSet → RollM β)
    (h : ∀ s v, K (.next, setEnv a1 a2 v (.raw s)) = B s) :
    (forLoop W [("self.add_constraint", PyFun.asMethod W Text.ConstraintSet.add_constraint [])] (.name "constraint")
      (.seq (.expr (.callSelf "add_constraint" (.cons (.name "constraint") .nil))) .done)
      (l.map fun c => .obj (.con c)) (setEnv a1 a2 v (.raw s)) >>= K) = liftR (addAll s l) >>= B := by
  induction l generalizing v s with
  | nil => simp [forLoop_nil, addAll, h, src]
  | cons c t ih =>
    have e := fun v => add_text fl rd fu a1 a2 v (.raw s) s c rfl
    simp only [setEnv] at e ih ⊢
    simp [src, forLoop_cons, addAll, liftR_bind, e]
    refine congrArg _ (funext fun r => ?_)
    simpa [src] using ih r _

theorem addFirst_text (l : List Constraint) (c : Constraint) (a1 a2 v : V) {β : Type} (K : Flow Obj × Env Obj → RollM β) (B : CSet → RollM β)
    (h : ∀ s v, K (.next, setEnv a1 a2 v (.raw s)) = B s) :
    (forLoop W [("self.add_constraint", PyFun.asMethod W Text.ConstraintSet.add_constraint [])] (.name "constraint")
      (.seq (.expr (.callSelf "add_constraint" (.cons (.name "constraint") .nil))) .done)
      ((c :: l).map fun c => .obj (.con c)) (setEnv a1 a2 v .noset) >>= K) = liftR (addAll PyRuntime.empty (c :: l)) >>= B := by
  have e := fun v => add_text fl rd fu a1 a2 v .noset PyRuntime.empty c rfl
  have g := fun r v => addLoop_text fl rd fu l r a1 a2 v K B h
  simp only [setEnv] at e g ⊢
  simp [src, forLoop_cons, addAll, liftR_bind, e]
  refine congrArg _ (funext fun r => ?_)
  simpa [src] using g r _

/-- The body of the merger's `for` loop. -/
def scanBody : PyS := (.seq (.ifs (.callAttr (.name "constraint") "can_merge" (.cons (.name "new_constraint") .nil)) (.seq (.assign (.name "unchanged_constraint_set") (.callAttr (.name "constraint_set") "copy" .nil))
    (.seq (.expr (.callAttr (.name "unchanged_constraint_set") "remove" (.cons (.name "constraint") .nil)))
    (.seq (.assign (.name "changed_constraint_set") (.set (.cons (.callAttr (.name "constraint") "merge" (.cons (.name "new_constraint") .nil)) .nil)))
    (.seq (.ret (.tuple (.cons (.name "changed_constraint_set") (.cons (.name "unchanged_constraint_set") .nil))))
    .done)))) .done)
    (.seq (.ifs (.callAttr (.name "new_constraint") "can_merge" (.cons (.name "constraint") .nil)) (.seq (.assign (.name "unchanged_constraint_set") (.callAttr (.name "constraint_set") "copy" .nil))
    (.seq (.assign (.name "changed_constraint_set") (.set (.cons (.callAttr (.name "new_constraint") "merge" (.cons (.name "constraint") .nil)) .nil)))
    (.seq (.expr (.callAttr (.name "unchanged_constraint_set") "remove" (.cons (.name "constraint") .nil)))
    (.seq (.ret (.tuple (.cons (.name "changed_constraint_set") (.cons (.name "unchanged_constraint_set") .nil))))
    .done)))) .done)
    .done))

/-- The variables of `__merge_new_constraint`. -/
def scanEnv (c : Constraint) (s : CSet) (v1 v2 v3 : V) : Env Obj :=
  [("new_constraint", .obj (.con c)), ("constraint_set", .obj (.raw s)), ("constraint", v1), ("unchanged_constraint_set", v2), ("changed_constraint_set", v3)]

theorem scanLoop_text (c : Constraint) (s : CSet) (l : List Constraint) (v1 v2 v3 : V) {β : Type} (K : Flow Obj × Env Obj → RollM β)
    (B : Option (Constraint × CSet) → RollM β)
    (h1 : ∀ v1 v2 v3, K (.next, scanEnv c s v1 v2 v3) = B none)
    (h2 : ∀ m s' v1 v2 v3, K (.ret (.tuple [.obj (.raw (PyRuntime.insert PyRuntime.empty m)), .obj (.raw s')]), scanEnv c s v1 v2 v3) = B (some (m, s'))) :
    (forLoop W [] (.name "constraint") scanBody (l.map fun c => .obj (.con c)) (scanEnv c s v1 v2 v3) >>= K) =
      liftR (mergeScan c s l) >>= B := by
  induction l generalizing v1 v2 v3 with
  | nil => simp [forLoop_nil, h1, mergeScan, src]
  | cons d t ih =>
    by_cases e1 : d.canMerge c = true
    · simp [src, forLoop_cons, scanBody, scanEnv, mergeScan, e1, liftR_bind, liftR_map]
      refine congrArg _ (funext fun m => ?_)
      simpa [src, scanEnv] using h2 m (erase (copy s) d) _ _ _
    · by_cases e2 : c.canMerge d = true
      · simp [src, forLoop_cons, scanBody, scanEnv, mergeScan, e1, e2, liftR_bind, liftR_map]
        refine congrArg _ (funext fun m => ?_)
        simpa [src, scanEnv] using h2 m (erase (copy s) d) _ _ _
      · simp [src, forLoop_cons, scanBody, scanEnv, mergeScan, e1, e2, liftR_bind, liftR_map]
        simpa [src, scanEnv, scanBody] using ih _ _ _

/-- The body of the merger's `while` loop. -/
def mergeBody : PyS := (.seq (.assign (.name "current_value") (.callAttr (.name "values_to_merge") "pop" .nil))
    (.seq (.assign (.tuple (.cons (.name "new_unclean_values") (.cons (.name "new_clean_values") .nil))) (.callAttr (.name "ConstraintMerger") "__merge_new_constraint" (.cons (.name "current_value") (.cons (.name "clean_constraint_set") .nil))))
    (.seq (.expr (.callAttr (.name "values_to_merge") "extend" (.cons (.name "new_unclean_values") .nil)))
    (.seq (.assign (.name "clean_constraint_set") (.name "new_clean_values"))
    .done))))

/-- The variables of `__merge_new_constraints`. -/
def mergeEnv (a1 a2 : V) (stack : List Constraint) (clean : CSet) (v1 v2 v3 : V) : Env Obj :=
  [("new_constraints", a1), ("constraint_set", a2), ("values_to_merge", .list (stack.reverse.map fun c => .obj (.con c))),
   ("clean_constraint_set", .obj (.raw clean)), ("current_value", v1), ("new_unclean_values", v2), ("new_clean_values", v3)]

theorem mergeLoop_text (n : Nat) (stack : List Constraint) (clean : CSet) (a1 a2 v1 v2 v3 : V) {β : Type} (K : Flow Obj × Env Obj → RollM β)
    (B : CSet → RollM β) (h : ∀ clean v1 v2 v3, K (.next, mergeEnv a1 a2 [] clean v1 v2 v3) = B clean) :
    (whileLoop W [] (.name "values_to_merge") mergeBody n (mergeEnv a1 a2 stack clean v1 v2 v3) >>= K) = liftR (mergeLoop n stack clean) >>= B := by
  induction n generalizing stack clean v1 v2 v3 with
  | zero =>
    cases stack with
    | nil =>
      simp [whileLoop_zero, mergeEnv, mergeLoop, src]
      exact h _ _ _ _
    | cons c t =>
      simp [whileLoop_zero, mergeEnv, mergeLoop, src]
  | succ n ih =>
    cases stack with
    | nil =>
      simp [whileLoop_succ, mergeEnv, mergeLoop, src]
      exact h _ _ _ _
    | cons c t =>
      simp [whileLoop_succ, mergeEnv, mergeBody, mergeLoop, mergeOne, src, liftR_bind]
      refine congrArg _ (funext fun p => ?_)
      simp only [mergeEnv, mergeBody] at ih
      rcases p with _ | ⟨m, s⟩
      · simp [src, setNames]
        simpa using ih t _ _ _ _
      · simp [src, setNames, iter_insert_empty]
        simpa using ih (m :: t) _ _ _ _

theorem liftE_bind_at {α β : Type} (m : EvalM α) (f : α → RollM β) (s : State) : (liftE m >>= f) s =
    match m s with
    | (.ok a, s') => f a s'
    | (.error e, s') => .pure (.error e, s') := by
  show RollM.bind (RollM.ofEval m) f s = _
  unfold RollM.bind RollM.ofEval
  rfl
theorem liftE_map_at {α β : Type} (m : EvalM α) (f : α → β) (s : State) : (f <$> liftE m) s =
    match m s with
    | (.ok a, s') => .pure (.ok (f a), s')
    | (.error e, s') => .pure (.error e, s') := by
  rw [map_eq_pure_bind, liftE_bind_at]
  rfl

theorem read_at {α : Type} (f : State → Res α) (s : State) : EvalM.read f s = (f s, s) := rfl

theorem pure_at {α : Type} (a : α) (s : State) : (pure a : RollM α) s = .pure (.ok a, s) := rfl

omit R in
theorem get_put {ν : Type} (d : List (Str × ν)) (k : Str) (x : ν) : dictGet? (dictSet d k x) k = some x := by
  induction d with
  | nil => simp [dictSet, dictGet?]
  | cons p t ih =>
    by_cases h : p.1 = k
    · simp [dictSet, dictGet?, h]
    · simpa [dictSet, dictGet?, h, List.find?_cons] using ih

omit R in
theorem put_put {ν : Type} (d : List (Str × ν)) (k : Str) (x y : ν) : dictSet (dictSet d k x) k y = dictSet d k y := by
  induction d with
  | nil => simp [dictSet]
  | cons p t ih =>
    by_cases h : p.1 = k
    · simp [dictSet, h]
    · simp [dictSet, h, ih]

omit R in
theorem bump_set (d : List (Str × Nat)) (k : Str) : bump d k = dictSet d k ((dictGet? d k).getD 0 + 1) := by
  unfold bump
  induction d with
  | nil => simp [dictSet, safeAdd, dictGet?]
  | cons p t ih =>
    by_cases h : p.1 = k
    · simp [dictSet, safeAdd, dictGet?, h]
    · simp [dictSet, safeAdd, dictGet?, h, ih, List.find?_cons]

theorem get_encD (v : List (Str × Dist)) (n : Str) : dictGet? (encD v) (.str n) = (dictGet? v n).map dV := by
  induction v with
  | nil => rfl
  | cons p t ih =>
    simp only [encD, List.map_cons, dictGet?] at ih ⊢
    by_cases h : p.1 = n
    · simp [h, src]
    · simpa [h, src, List.find?_cons] using ih

/-- The body of the loop of `set_var`. -/
def tagBody : PyS := (.seq (.assign (.name "new_constraint") (.callAttr (.self "_constraint_factory") "var_value_constraint" (.cons (.kw "name" (.name "new_name")) (.cons (.kw "values" (.set (.cons (.attr (.name "old_probability_outcome") "value") .nil))) .nil))))
    (.seq (.assign (.name "new_probability_outcome") (.callAttr (.name "copy") "deepcopy" (.cons (.name "old_probability_outcome") .nil)))
    (.seq (.expr (.callAttr (.attr (.name "new_probability_outcome") "constraint_set") "add_constraint" (.cons (.name "new_constraint") .nil)))
    (.seq (.assign (.index (.name "new_probability_outcomes") (.name "new_probability_outcome")) (.name "count"))
    .done))))

/-- The variables of `set_var`. -/
def tagEnv (n : Str) (d : Dist) (m : Str) (acc : List (Outcome × Nat)) (v1 v2 v3 v4 : V) : Env Obj :=
  [("self", .obj .state), ("name", .str n), ("distribution", .obj (.dist d)), ("new_name", .str m),
    ("new_probability_outcomes", .dict (encO acc)), ("old_probability_outcome", v1), ("count", v2), ("new_constraint", v3),
    ("new_probability_outcome", v4)]

/-- The loop of `set_var`. -/
theorem tagLoop_text (n : Str) (d : Dist) (m : Str) (l : List (Outcome × Nat)) (acc : List (Outcome × Nat)) (v1 v2 v3 v4 : V) {β : Type}
    (K : Flow Obj × Env Obj → RollM β) (B : List (Outcome × Nat) → RollM β)
    (h : ∀ acc v1 v2 v3 v4, K (.next, tagEnv n d m acc v1 v2 v3 v4) = B acc) :
    (forLoop W [] (.tuple (.cons (.name "old_probability_outcome") (.cons (.name "count") .nil))) tagBody
      (l.map fun p => .tuple [.obj (.outcome p.1), .int (p.2 : Int)]) (tagEnv n d m acc v1 v2 v3 v4) >>= K) =
      liftR (tagLoop m l acc) >>= B := by
  induction l generalizing acc v1 v2 v3 v4 with
  | nil => simp [forLoop_nil, tagLoop, h, src]
  | cons p t ih =>
    simp only [tagEnv, tagBody] at ih ⊢
    simp [src, forLoop_cons, setNames, tagLoop, tagOutcome, liftR_bind, set_encO]
    refine congrArg _ (funext fun r => ?_)
    simpa [src] using ih _ _ _ _ _

theorem setVar_end (n : Str) (d : Dist) (k : Nat) (s : State) (h : (dictGet? s.timesSet n).getD 0 = k) :
    (liftR (tagLoop (n ++ '_' :: intStr ((k : Int) + 1)) d.getConstraintResultMap []) >>= fun acc => (fun _ => (.none : V)) <$> liftE (putVar n (mkDist acc)))
      { var := s.var, constants := s.constants, timesSet := dictSet s.timesSet n (k + 1) } =
    ((fun _ => (.none : V)) <$> liftE (EvalM.setVar n d)) s := by
  rw [liftE_map_at]
  have e : intStr ((k : Int) + 1) = natStr (k + 1) := rfl
  rw [e]
  simp only [EvalM.setVar, State.setVar, bump_set, get_put, h, Option.getD_some, versionName]
  cases tagLoop (n ++ '_' :: natStr (k + 1)) d.getConstraintResultMap [] <;> rfl
end
end PyDice.Source
