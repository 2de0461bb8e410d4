import Verif.Lemmas.Source
/-!
# Loops of the texts of the distributions

Each lemma runs one loop of `probability_distribution.py` for any entries and any continuation.
-/
namespace PyDice.Source
open PyRuntime
section
variable [R : PyRuntime] (fl : ℚ → Res ℚ) (rd : ℚ → ℚ) (fu : Nat)
set_option linter.unusedSimpArgs false
set_option maxHeartbeats 1000000
local notation "W" => world fl rd fu

omit R in
theorem env_get_set {Ω : Type} (env : Env Ω) (x : String) (v : Val Ω) : (env.set x v).get? x = some v := by
  induction env with
  | nil => simp [Env.set, Env.get?]
  | cons p t ih =>
    obtain ⟨y, w⟩ := p
    by_cases h : y = x <;> simp [Env.set, Env.get?, h, ih]
omit R in
theorem env_set_set {Ω : Type} (env : Env Ω) (x : String) (v w : Val Ω) : (env.set x v).set x w = env.set x w := by
  induction env with
  | nil => simp [Env.set]
  | cons p t ih =>
    obtain ⟨y, w⟩ := p
    by_cases h : y = x <;> simp [Env.set, h, ih]

/-- `safe_add` of `get_result_map`, `_combine_distributions`, `not_operator` and `__abs__` (`probability_distribution.py:224-227`). -/
abbrev distAdd : PyS := (.seq (.ifs (.cmp .notIn (.name "key") (.name "new_result_map")) (.seq (.assign (.index (.name "new_result_map") (.name "key")) (.int 0))
    .done) .done)
    (.seq (.aug .add (.index (.name "new_result_map") (.name "key")) (.name "value"))
    .done))

theorem distAdd_text (d : List (V × V)) (k : V) (n : Int) (env : Env Obj) (he : env.get? "new_result_map" = some (.dict d)) (hk : (k == k) = true)
   (hd : ∀ v, dictGet? d k = some v → ∃ m, v = .int m) :
    defnFun W [] ["key", "value"] distAdd [k, .int n] env =
      pure (.none, [k, .int n], env.set "new_result_map" (.dict (addV d k n))) := by
  simp [src, distAdd, addV, defnFun_apply, he]
  cases h : dictGet? d k with
  | none => 
    simp [src, h, he, get_set_self _ _ _ hk, set_set_self _ _ _ _ hk, env_get_set, env_set_set]
  | some m =>
    obtain ⟨i, rfl⟩ := hd m h
    simp [src, h, he]

@[src] theorem encO_snd (d : List (Outcome × Nat)) : (encO d).map Prod.snd = d.map fun p => .int (p.2 : Int) := by simp [encO]

theorem get_encI_int' (d : List (Int × Nat)) (k : Int) (v : V) (h : dictGet? (encI d) (.int k) = some v) : ∃ m, v = .int m := by
  rw [get_encI] at h
  cases h' : dictGet? d k with
  | none => rw [h'] at h; cases h
  | some m => rw [h'] at h; cases h; exact ⟨_, rfl⟩
theorem get_encO_int (d : List (Outcome × Nat)) (k : Outcome) (v : V) (h : dictGet? (encO d) (.obj (.outcome k)) = some v) : ∃ m, v = .int m := by
  rw [get_encO] at h
  cases h' : dictGet? d k with
  | none => rw [h'] at h; cases h
  | some m => rw [h'] at h; cases h; exact ⟨_, rfl⟩

theorem outcome_beq_self (o : Outcome) : ((.obj (.outcome o) : V) == .obj (.outcome o)) = true := by
  show (o == o) = true
  show (decide (o.value = o.value) && csEq o.cs o.cs) = true
  simp [csEq]

theorem distAdd_textI (d : List (Int × Nat)) (k : Int) (n : Nat) (env : Env Obj) (he : env.get? "new_result_map" = some (.dict (encI d))) :
    defnFun W [] ["key", "value"] distAdd [.int k, .int n] env =
      pure (.none, [.int k, .int n], env.set "new_result_map" (.dict (encI (safeAdd d k n)))) := by
  rw [distAdd_text fl rd fu _ _ _ _ he (by simp [src]) (get_encI_int' d k), addV_encI]
theorem distAdd_textO (d : List (Outcome × Nat)) (k : Outcome) (n : Nat) (env : Env Obj) (he : env.get? "new_result_map" = some (.dict (encO d))) :
    defnFun W [] ["key", "value"] distAdd [.obj (.outcome k), .int n] env =
      pure (.none, [.obj (.outcome k), .int n], env.set "new_result_map" (.dict (encO (safeAdd d k n)))) := by
  rw [distAdd_text fl rd fu _ _ _ _ he (outcome_beq_self k) (get_encO_int d k), addV_encO]
theorem distAdd_textM (d : List (Outcome × Nat)) (k : Outcome) (n m : Nat) (env : Env Obj) (he : env.get? "new_result_map" = some (.dict (encO d))) :
    defnFun W [] ["key", "value"] distAdd [.obj (.outcome k), .int ((n : Int) * (m : Int))] env =
      pure (.none, [.obj (.outcome k), .int ((n : Int) * (m : Int))], env.set "new_result_map" (.dict (encO (safeAdd d k (n * m))))) := by
  rw [distAdd_text fl rd fu _ _ _ _ he (outcome_beq_self k) (get_encO_int d k), ← Int.natCast_mul, addV_encO]

theorem resultLoop_text (d : List (Outcome × Nat)) (acc : List (Int × Nat)) (a v1 v2 : V) {β : Type} (K : List (Int × Nat) → RollM β)
    (k' : Flow Obj × Env Obj → RollM β)
    (hk : ∀ acc v1 v2, k' (.next, [("self", a), ("new_result_map", .dict (encI acc)), ("probability_outcome", v1), ("count", v2)]) = K acc) :
    (forLoop W [("safe_add", defnFun W [] ["key", "value"] distAdd)]
      (.tuple (.cons (.name "probability_outcome") (.cons (.name "count") .nil)))
      (.seq (.expr (.callName "safe_add" (.cons (.attr (.name "probability_outcome") "value") (.cons (.name "count") .nil)))) .done)
      (d.map fun p => .tuple [.obj (.outcome p.1), .int (p.2 : Int)])
      [("self", a), ("new_result_map", .dict (encI acc)), ("probability_outcome", v1), ("count", v2)] >>= k') =
    K (d.foldl (fun m p => safeAdd m p.1.value p.2) acc) := by
  induction d generalizing acc v1 v2 with
  | nil => simp [src, forLoop_nil, hk]
  | cons p t ih =>
    obtain ⟨key, n⟩ := p
    simp only [List.map_cons, forLoop_cons]
    simp [src]
    rw [distAdd_textI fl rd fu acc _ _ _ (by simp [src])]
    simp [src]
    exact ih _ _ _

theorem mapLoop_text (g : Outcome → Outcome) (e : PyE)
    (hg : ∀ (o : Outcome) (env : Env Obj), env.get? "result_key" = some (.obj (.outcome o)) → env.get? "abs" = none →
      ∀ Φ, Φ.get? "abs" = none → evalE W Φ e env = pure (.obj (.outcome (g o)), env))
    (hc : ∀ (es : PyE) (v : V) (vs : List V) (env : Env Obj), copyOut (.cons e es) (v :: vs) env = copyOut es vs env)
    (d : List (Outcome × Nat)) (acc : List (Outcome × Nat)) (a v1 v2 : V) {β : Type} (K : List (Outcome × Nat) → RollM β)
    (k' : Flow Obj × Env Obj → RollM β)
    (hk : ∀ acc v1 v2, k' (.next, [("self", a), ("new_result_map", .dict (encO acc)), ("result_key", v1), ("result_value", v2)]) = K acc) :
    (forLoop W [("safe_add", defnFun W [] ["key", "value"] distAdd)]
      (.tuple (.cons (.name "result_key") (.cons (.name "result_value") .nil)))
      (.seq (.expr (.callName "safe_add" (.cons e (.cons (.name "result_value") .nil)))) .done)
      (d.map fun p => .tuple [.obj (.outcome p.1), .int (p.2 : Int)])
      [("self", a), ("new_result_map", .dict (encO acc)), ("result_key", v1), ("result_value", v2)] >>= k') =
    K (d.foldl (fun m p => safeAdd m (g p.1) p.2) acc) := by
  induction d generalizing acc v1 v2 with
  | nil => simp [src, forLoop_nil, hk]
  | cons p t ih =>
    obtain ⟨key, n⟩ := p
    simp only [List.map_cons, forLoop_cons]
    simp [src]
    rw [hg key _ (by simp [src]) (by simp [src]) _ (by simp [src])]
    simp [src]
    rw [distAdd_textO fl rd fu acc _ _ _ (by simp [src])]
    simp [src, hc]
    exact ih _ _ _

abbrev combineInner : PyS := (.seq (.assign (.name "new_outcome") (.callName "combination_function" (.cons (.name "this_key") (.cons (.name "other_key") .nil))))
    (.seq (.ifs (.callAttr (.name "new_outcome") "is_possible" .nil) (.seq (.expr (.callName "safe_add" (.cons (.name "new_outcome") (.cons (.bin .mul (.name "this_value") (.name "other_value")) .nil))))
    .done) .done)
    .done))

theorem combineInner_text (op : BinOp) (f : V) (hf : ∀ a b : Outcome, callV W f [.obj (.outcome a), .obj (.outcome b)] = oV <$> liftR (Outcome.combine op a b))
    (d : List (Outcome × Nat)) (o : Outcome) (n : Nat) (acc : List (Outcome × Nat)) (a b v1 v2 v3 : V)
    {β : Type} (K : List (Outcome × Nat) → RollM β) (k' : Flow Obj × Env Obj → RollM β)
    (hk : ∀ acc v1 v2 v3, k' (.next, [("self", a), ("combination_function", f), ("other", b), ("new_result_map", .dict (encO acc)),
      ("this_key", .obj (.outcome o)), ("this_value", .int (n : Int)), ("other_key", v1), ("other_value", v2), ("new_outcome", v3)]) = K acc) :
    (forLoop W [("safe_add", defnFun W [] ["key", "value"] distAdd)] (.tuple (.cons (.name "other_key") (.cons (.name "other_value") .nil)))
      combineInner (d.map fun p => .tuple [.obj (.outcome p.1), .int (p.2 : Int)])
      [("self", a), ("combination_function", f), ("other", b), ("new_result_map", .dict (encO acc)),
      ("this_key", .obj (.outcome o)), ("this_value", .int (n : Int)), ("other_key", v1), ("other_value", v2), ("new_outcome", v3)] >>= k') =
    liftR (combineLoop op (d.map fun q => ((o, n), q)) acc) >>= K := by
  induction d generalizing acc v1 v2 v3 with
  | nil => simp [src, forLoop_nil, combineLoop, hk]
  | cons p t ih =>
    obtain ⟨key, m⟩ := p
    simp only [List.map_cons, forLoop_cons]
    simp [src, combineInner, combineLoop, liftR_bind, liftR_map, hf]
    refine bind_congr fun l => ?_
    cases hp : l.isPossible
    · simp [src]
      exact ih _ _ _ _
    · simp [src]
      rw [distAdd_textM fl rd fu acc _ _ _ _ (by simp [src])]
      simp [src]
      exact ih _ _ _ _

theorem combineLoop_append (op : BinOp) (a b : List ((Outcome × Nat) × (Outcome × Nat))) (acc : List (Outcome × Nat)) :
    combineLoop op (a ++ b) acc = combineLoop op a acc >>= combineLoop op b := by
  induction a generalizing acc with
  | nil => rfl
  | cons p t ih =>
    simp only [List.cons_append, combineLoop]
    cases Outcome.combine op p.1.1 p.2.1 with
    | error e => rfl
    | ok o =>
      show (if _ then _ else _) = (if _ then _ else _) >>= _
      split
      · exact ih _
      · exact ih _

theorem combineOuter_text (op : BinOp) (f : V) (hf : ∀ a b : Outcome, callV W f [.obj (.outcome a), .obj (.outcome b)] = oV <$> liftR (Outcome.combine op a b))
    (d : List (Outcome × Nat)) (e : Dist) (acc : List (Outcome × Nat)) (a u1 u2 v1 v2 v3 : V)
    {β : Type} (K : List (Outcome × Nat) → RollM β) (k' : Flow Obj × Env Obj → RollM β)
    (hk : ∀ acc u1 u2 v1 v2 v3, k' (.next, [("self", a), ("combination_function", f), ("other", .obj (.dist e)), ("new_result_map", .dict (encO acc)),
      ("this_key", u1), ("this_value", u2), ("other_key", v1), ("other_value", v2), ("new_outcome", v3)]) = K acc) :
    (forLoop W [("safe_add", defnFun W [] ["key", "value"] distAdd)] (.tuple (.cons (.name "this_key") (.cons (.name "this_value") .nil)))
      (.seq (.for_ (.tuple (.cons (.name "other_key") (.cons (.name "other_value") .nil))) (.callAttr (.callAttr (.name "other") "get_constraint_result_map" .nil) "items" .nil) combineInner) .done)
      (d.map fun p => .tuple [.obj (.outcome p.1), .int (p.2 : Int)])
      [("self", a), ("combination_function", f), ("other", .obj (.dist e)), ("new_result_map", .dict (encO acc)),
      ("this_key", u1), ("this_value", u2), ("other_key", v1), ("other_value", v2), ("new_outcome", v3)] >>= k') =
    liftR (combineLoop op (pairsOf d e.getConstraintResultMap) acc) >>= K := by
  induction d generalizing acc u1 u2 v1 v2 v3 with
  | nil => simp [src, forLoop_nil, combineLoop, pairsOf, hk]
  | cons p t ih =>
    obtain ⟨key, m⟩ := p
    simp only [List.map_cons, forLoop_cons]
    have e1 : pairsOf ((key, m) :: t) e.getConstraintResultMap = (e.getConstraintResultMap.map fun q => ((key, m), q)) ++ pairsOf t e.getConstraintResultMap := by
      simp [pairsOf]
    rw [e1, combineLoop_append]
    simp [src, liftR_bind]
    refine combineInner_text fl rd fu op f hf _ key m acc _ _ _ _ _ _ _ ?_
    intro acc v1 v2 v3
    simp [src]
    exact ih _ _ _ _ _ _

/-- The loop that counts (`probability_distribution.py:35-36`). -/
theorem countLoop_text (d : List (Outcome × Nat)) (c : Nat) (Φ : Funs Obj RollM) (a1 a2 a3 a4 v a5 a6 a7 : V)
    {β : Type} (K : Nat → RollM β) (k' : Flow Obj × Env Obj → RollM β)
    (hk : ∀ c v, k' (.next, [("self", a1), ("probability_outcome_factory", a2), ("result_map", a3), ("result_value", a4), ("count", a5), ("value", v),
       ("self._outcome_count", .int ((c : Nat) : Int)), ("self._probability_outcome_factory", a7), ("self._result_map", a6)]) = K c) :
    (forLoop W Φ (.name "value") (.seq (.aug .add (.self "_outcome_count") (.name "value")) .done) (d.map fun p => .int (p.2 : Int))
      [("self", a1), ("probability_outcome_factory", a2), ("result_map", a3), ("result_value", a4), ("count", a5), ("value", v),
       ("self._outcome_count", .int (c : Int)), ("self._probability_outcome_factory", a7), ("self._result_map", a6)] >>= k') =
    K (d.foldl (fun c p => c + p.2) c) := by
  induction d generalizing c v with
  | nil => simp [src, forLoop_nil, hk]
  | cons p t ih =>
    simp only [List.map_cons, forLoop_cons]
    simp [src]
    have := ih (c + p.2) (.int (p.2 : Int))
    simpa using this

/-- `safe_add` of the constructor (`probability_distribution.py:24-27`). -/
abbrev initAdd : PyS := (.seq (.ifs (.cmp .notIn (.name "key") (.self "_result_map")) (.seq (.assign (.index (.self "_result_map") (.name "key")) (.int 0))
    .done) .done)
    (.seq (.aug .add (.index (.self "_result_map") (.name "key")) (.name "value_to_add"))
    .done))

theorem initAdd_text (d : List (Outcome × Nat)) (k : Outcome) (n : Nat) (env : Env Obj) (he : env.get? "self._result_map" = some (.dict (encO d))) :
    defnFun W [] ["key", "value_to_add"] initAdd [.obj (.outcome k), .int (n : Int)] env =
      pure (.none, [.obj (.outcome k), .int (n : Int)], env.set "self._result_map" (.dict (encO (safeAdd d k n)))) := by
  rw [← addV_encO]
  simp [src, initAdd, addV, defnFun_apply, he]
  have hk := outcome_beq_self k
  cases h : dictGet? (encO d) (.obj (.outcome k)) with
  | none => simp [src, h, he, get_set_self _ _ _ hk, set_set_self _ _ _ _ hk, env_get_set, env_set_set]
  | some m =>
    obtain ⟨i, rfl⟩ := get_encO_int d k m h
    simp [src, h, he]

/-- The body of the constructor's loop (`probability_distribution.py:30-34`). -/
abbrev initBody : PyS := (.seq (.ifs (.callName "isinstance" (.cons (.name "result_value") (.cons (.name "int") .nil))) (.seq (.expr (.callName "safe_add" (.cons (.callAttr (.self "_probability_outcome_factory") "create_empty" (.cons (.kw "value" (.name "result_value")) .nil)) (.cons (.name "count") .nil))))
    .done) .done)
    (.seq (.ifs (.callName "isinstance" (.cons (.name "result_value") (.cons (.name "IProbabilityOutcome") .nil))) (.seq (.expr (.callName "safe_add" (.cons (.name "result_value") (.cons (.name "count") .nil))))
    .done) .done)
    .done))

theorem initLoop_text (d : List (Outcome × Nat)) (acc : List (Outcome × Nat)) (a1 a2 a3 a4 a5 v1 v2 : V) {β : Type} (K : List (Outcome × Nat) → RollM β)
    (k' : Flow Obj × Env Obj → RollM β)
    (hk : ∀ acc v1 v2, k' (.next, [("self", a1), ("probability_outcome_factory", a2), ("result_map", a3), ("result_value", v1), ("count", v2), ("value", a4),
       ("self._outcome_count", a5), ("self._probability_outcome_factory", .obj (.svc "ProbabilityOutcomeFactory")), ("self._result_map", .dict (encO acc))]) = K acc) :
    (forLoop W [("safe_add", defnFun W [] ["key", "value_to_add"] initAdd)]
      (.tuple (.cons (.name "result_value") (.cons (.name "count") .nil))) initBody
      (d.map fun p => .tuple [.obj (.outcome p.1), .int (p.2 : Int)])
      [("self", a1), ("probability_outcome_factory", a2), ("result_map", a3), ("result_value", v1), ("count", v2), ("value", a4),
       ("self._outcome_count", a5), ("self._probability_outcome_factory", .obj (.svc "ProbabilityOutcomeFactory")), ("self._result_map", .dict (encO acc))] >>= k') =
    K (d.foldl (fun d p => safeAdd d p.1 p.2) acc) := by
  induction d generalizing acc v1 v2 with
  | nil => simp [src, forLoop_nil, hk]
  | cons p t ih =>
    obtain ⟨key, n⟩ := p
    simp only [List.map_cons, forLoop_cons]
    simp [src, initBody]
    rw [initAdd_text fl rd fu acc _ _ _ (by simp [src])]
    simp [src]
    exact ih _ _ _

theorem initLoop_int (d : List (Int × Nat)) (acc : List (Outcome × Nat)) (a1 a2 a3 a4 a5 v1 v2 : V) {β : Type} (K : List (Outcome × Nat) → RollM β)
    (k' : Flow Obj × Env Obj → RollM β)
    (hk : ∀ acc v1 v2, k' (.next, [("self", a1), ("probability_outcome_factory", a2), ("result_map", a3), ("result_value", v1), ("count", v2), ("value", a4),
       ("self._outcome_count", a5), ("self._probability_outcome_factory", .obj (.svc "ProbabilityOutcomeFactory")), ("self._result_map", .dict (encO acc))]) = K acc) :
    (forLoop W [("safe_add", defnFun W [] ["key", "value_to_add"] initAdd)]
      (.tuple (.cons (.name "result_value") (.cons (.name "count") .nil))) initBody
      (d.map fun p => .tuple [.int p.1, .int (p.2 : Int)])
      [("self", a1), ("probability_outcome_factory", a2), ("result_map", a3), ("result_value", v1), ("count", v2), ("value", a4),
       ("self._outcome_count", a5), ("self._probability_outcome_factory", .obj (.svc "ProbabilityOutcomeFactory")), ("self._result_map", .dict (encO acc))] >>= k') =
    liftR (d.mapM (fun p => do return ((← createEmpty p.1), p.2))) >>= fun os => K (os.foldl (fun d p => safeAdd d p.1 p.2) acc) := by
  induction d generalizing acc v1 v2 with
  | nil => simp [src, forLoop_nil, hk]
  | cons p t ih =>
    obtain ⟨key, n⟩ := p
    simp only [List.map_cons, forLoop_cons, List.mapM_cons]
    simp [src, initBody, liftR_bind, liftR_map]
    refine bind_congr fun o => ?_
    rw [initAdd_text fl rd fu acc _ _ _ (by simp [src])]
    simp [src]
    simpa using ih _ _ _

theorem isPos_functions (op : BinOp) (f : V) (h : distOpOf f = some op) : isPos f = true := by
  unfold distOpOf at h
  split at h <;> simp only [Option.some.injEq, reduceCtorEq] at h <;> simp [src]
end
end PyDice.Source
