import Verif.Lemmas.Dynamic
/-!
# C64-C67: operands of any type

C64: wrong operands are refused.  C65: what distributions and outcomes can be made of.  C66: `==`.  C67: refusals of constraints.
-/

namespace PyDice
open PyRuntime

section
variable [R : PyRuntime]

/-! ### C64 -/

/-- Between two outcomes every operator gives what the typed model gives, its value an int even for bools. -/
theorem C64_outcomes (op : PyOp) (a b : OutcomeP) :
    pyOp op (.outcome a) (.outcome b) = (typedOutcome (Outcome.combine op.bin a.plain b.plain)).map Sum.inl := by
  show (a.combine op.bin (.outcome b)).map Sum.inl = _
  rw [combineP_eq]

/-- Between two distributions every operator gives what the typed model gives, all values ints. -/
theorem C64_dists (op : PyOp) (i j : Nat) (a b : DistP) :
    pyOp op (.dist i a) (.dist j b) = (typedDist (Dist.binop op.bin a.plain b.plain)).map Sum.inr := by
  show (a.binop op.bin (.dist j b)).map Sum.inr = _
  rw [binopP_eq]

/-- Of two operands that are not both outcomes or both distributions, but one of which is one or the other, no operator makes anything:
    the answer is a `TypeError`. -/
theorem C64_refused (op : PyOp) (x y : PyObj) (h : x.Ours ∨ y.Ours) (hn : ¬ x.Alike y) :
    ∃ e, pyOp op x y = .error e ∧ e.cls = .type := by
  cases x with
  | outcome a =>
    cases y with
    | outcome b => exact absurd trivial hn
    | _ => exact ⟨_, rfl, rfl⟩
  | dist i a =>
    cases y with
    | dist j b => exact absurd trivial hn
    | _ => exact ⟨_, rfl, rfl⟩
  | num n =>
    rcases h with h | h
    · exact h.elim
    · cases y with
      | outcome b => cases op <;> exact ⟨_, rfl, rfl⟩
      | dist j b => cases op <;> exact ⟨_, rfl, rfl⟩
      | _ => exact h.elim
  | constraint c =>
    rcases h with h | h
    · exact h.elim
    · cases y with
      | outcome b => cases op <;> exact ⟨_, rfl, rfl⟩
      | dist j b => cases op <;> exact ⟨_, rfl, rfl⟩
      | _ => exact h.elim
  | cset s =>
    rcases h with h | h
    · exact h.elim
    · cases y with
      | outcome b => cases op <;> exact ⟨_, rfl, rfl⟩
      | dist j b => cases op <;> exact ⟨_, rfl, rfl⟩
      | _ => exact h.elim
  | other c t =>
    rcases h with h | h
    · exact h.elim
    · cases y with
      | outcome b => cases op <;> exact ⟨_, rfl, rfl⟩
      | dist j b => cases op <;> exact ⟨_, rfl, rfl⟩
      | _ => exact h.elim

/-- So an operator succeeds only on two operands of a kind. -/
theorem C64_only_alike (op : PyOp) (x y : PyObj) (h : x.Ours ∨ y.Ours) (r : OutcomeP ⊕ DistP) (hr : pyOp op x y = .ok r) :
    x.Alike y := by
  by_contra hn
  obtain ⟨e, he, _⟩ := C64_refused op x y h hn
  rw [he] at hr
  cases hr

/-- All fourteen methods of an outcome, `__equal__`, `__not_equal__`, `max_operator` and `min_operator` among them. -/
theorem C64_outcome_method (op : BinOp) (a : OutcomeP) (x : PyObj) :
    (∀ b, x = .outcome b → a.combine op x = typedOutcome (Outcome.combine op a.plain b.plain)) ∧
    ((∀ b, x ≠ .outcome b) → a.combine op x = .error (.own .type
      (some ("No ".toList ++ op.funName ++ " between ProbabilityOutcome and ".toList ++ x.cls ++ ".".toList)))) := by
  refine ⟨fun b hb => by rw [hb, combineP_eq], fun hn => ?_⟩
  cases x with
  | outcome b => exact absurd rfl (hn b)
  | _ => rfl

/-- All fourteen methods of a distribution. -/
theorem C64_dist_method (op : BinOp) (a : DistP) (x : PyObj) :
    (∀ i b, x = .dist i b → a.binop op x = typedDist (Dist.binop op a.plain b.plain)) ∧
    ((∀ i b, x ≠ .dist i b) → a.binop op x = .error (.own .type
      (some ("No ".toList ++ op.methodName ++ " between ".toList ++ distClass ++ " and ".toList ++ x.cls)))) := by
  refine ⟨fun i b hb => by rw [hb, binopP_eq], fun hn => ?_⟩
  cases x with
  | dist i b => exact absurd rfl (hn i b)
  | _ => rfl

/-- `not_operator` and `abs` of outcomes and distributions. -/
theorem C64_unary (o : OutcomeP) (d : DistP) :
    o.notOp = o.plain.notOp.asP ∧ o.absOp = o.plain.absOp.asP ∧ d.notOp = .ok d.plain.notOp.asP ∧ d.absOp = .ok d.plain.absOp.asP :=
  ⟨rfl, rfl, notOpP_eq d, absOpP_eq d⟩

/-- The text of a refusal tells what was refused: the operator and the class of the operand can be read off it. -/
theorem C64_text_tells (op op' : BinOp) (a b : OutcomeP) (x y : PyObj) (t : Str) (h : a.combine op x = .error (.own .type (some t)))
    (h' : b.combine op' y = .error (.own .type (some t))) : op = op' ∧ x.cls = y.cls := by
  have key : ∀ (a : OutcomeP) (op : BinOp) (x : PyObj), a.combine op x = .error (.own .type (some t)) →
      t = "No ".toList ++ op.funName ++ " between ProbabilityOutcome and ".toList ++ x.cls ++ ".".toList := by
    intro a op x h
    by_cases hx : ∃ b, x = .outcome b
    · obtain ⟨b, rfl⟩ := hx
      rw [combineP_eq] at h
      cases h1 : Outcome.combine op a.plain b.plain with
      | ok o => rw [h1] at h; cases h
      | error e => rw [h1] at h; cases h
    · rw [(C64_outcome_method op a x).2 fun b hb => hx ⟨b, hb⟩] at h
      injection h with h
      injection h with _ h
      injection h with h
      exact h.symm
  have e := (key a op x h).symm.trans (key b op' y h')
  simp only [List.append_assoc] at e
  have e2 := List.append_cancel_left e
  have noSpace : ∀ (op : BinOp), ∀ c ∈ op.funName, c ≠ ' ' := by
    intro op
    cases op <;> decide
  obtain ⟨e3, e4⟩ := span_unique (fun c => c ≠ ' ') _ _ _ _ (noSpace op) (noSpace op')
    (fun c hc => by
      have : c = ' ' := (Option.some.inj hc).symm
      exact fun hne => hne this)
    (fun c hc => by
      have : c = ' ' := (Option.some.inj hc).symm
      exact fun hne => hne this) e2
  exact ⟨funName_injective e3, List.append_cancel_right (List.append_cancel_left e4)⟩

/-- The same for distributions. -/
theorem C64_dist_text_tells (op op' : BinOp) (a b : DistP) (x y : PyObj) (t : Str) (h : a.binop op x = .error (.own .type (some t)))
    (h' : b.binop op' y = .error (.own .type (some t))) : op = op' ∧ x.cls = y.cls := by
  have key : ∀ (a : DistP) (op : BinOp) (x : PyObj), a.binop op x = .error (.own .type (some t)) →
      t = "No ".toList ++ op.methodName ++ " between ".toList ++ distClass ++ " and ".toList ++ x.cls := by
    intro a op x h
    by_cases hx : ∃ i b, x = .dist i b
    · obtain ⟨i, b, rfl⟩ := hx
      rw [binopP_eq] at h
      cases h1 : Dist.binop op a.plain b.plain with
      | ok o => rw [h1] at h; cases h
      | error e => rw [h1] at h; cases h
    · rw [(C64_dist_method op a x).2 fun i b hb => hx ⟨i, b, hb⟩] at h
      injection h with h
      injection h with _ h
      injection h with h
      exact h.symm
  have e := (key a op x h).symm.trans (key b op' y h')
  simp only [List.append_assoc] at e
  have e2 := List.append_cancel_left e
  have noSpace : ∀ (op : BinOp), ∀ c ∈ op.methodName, c ≠ ' ' := by
    intro op
    cases op <;> decide
  obtain ⟨e3, e4⟩ := span_unique (fun c => c ≠ ' ') _ _ _ _ (noSpace op) (noSpace op')
    (fun c hc => by
      have : c = ' ' := (Option.some.inj hc).symm
      exact fun hne => hne this)
    (fun c hc => by
      have : c = ' ' := (Option.some.inj hc).symm
      exact fun hne => hne this) e2
  exact ⟨methodName_injective e3, List.append_cancel_left (List.append_cancel_left (List.append_cancel_left e4))⟩

/-- When the foreign operand stands on the left of a comparison, the refusal speaks of the mirrored comparison. -/
theorem C64_mirrored (op r : PyOp) (x : PyObj) (hx : ¬ x.Ours) (hr : op.mirrored = some r) (o : OutcomeP) (i : Nat) (d : DistP) :
    pyOp op x (.outcome o) = (o.combine r.bin x).map Sum.inl ∧ pyOp op x (.dist i d) = (d.binop r.bin x).map Sum.inr := by
  cases x with
  | outcome _ => exact absurd trivial hx
  | dist _ _ => exact absurd trivial hx
  | _ => cases op <;> cases hr <;> exact ⟨rfl, rfl⟩

/-- When the foreign operand stands on the left of any other operator, the library is not asked: the error is Python's own. -/
theorem C64_unreflected (op : PyOp) (x : PyObj) (hx : ¬ x.Ours) (h : op = .add ∨ op = .sub ∨ op = .mul ∨ op = .floordiv ∨ op = .and ∨ op = .or)
    (o : OutcomeP) (i : Nat) (d : DistP) : pyOp op x (.outcome o) = .error (.other .type) ∧ pyOp op x (.dist i d) = .error (.other .type) := by
  cases x with
  | outcome _ => exact absurd trivial hx
  | dist _ _ => exact absurd trivial hx
  | _ => rcases h with rfl | rfl | rfl | rfl | rfl | rfl <;> exact ⟨rfl, rfl⟩

/-! ### C65 -/

/-- **C65, what is true.**  The constructor of distributions never fails, and the distribution is that of the entries whose keys are
    numbers or outcomes. -/
theorem C65_made (m : List (PyObj × Nat)) : ∃ d free, mkDistP m = .ok d ∧ createConstraintSet = .ok free ∧
    d.plain = mkDist (keysOf free m) := by
  obtain ⟨d, h1, h2⟩ := mkDistP_eq m
  exact ⟨d, nullCS, h1, createConstraintSet_eq, h2⟩

/-- **C65 (partial).**  When all keys are numbers or outcomes, every count given is counted.  Missing: other keys, see
    `C65_ignored_counterexample`. -/
theorem C65_counted_partial (m : List (PyObj × Nat)) (h : ∀ p ∈ m, p.1.IsKey = true) :
    ∃ d, mkDistP m = .ok d ∧ d.outcomeCount = (m.map Prod.snd).sum := by
  obtain ⟨d, free, h1, _, h2⟩ := C65_made m
  refine ⟨d, h1, ?_⟩
  have : d.outcomeCount = d.plain.outcomeCount := rfl
  rw [this, h2]
  show (((keysOf free m).foldl (fun d p => safeAdd d p.1 p.2) []).foldl (fun c p => c + p.2) 0) = _
  rw [foldl_total, foldl_safeAdd_total, keysOf_total free m h]
  simp

/-- `get_result_map` counts `True` with `1` and `False` with `0`: it is the map of the distribution with its bools taken for numbers. -/
theorem C65_result_map (d : DistP) : (d.getResultMap.map fun p => (p.1.toInt, p.2)) = d.plain.getResultMap := by
  have add : ∀ (m : List (PyNum × Nat)) (x : PyNum) (n : Nat),
      ((@safeAdd PyNum ⟨fun a b => decide (a.toInt = b.toInt)⟩ m x n).map fun p => (p.1.toInt, p.2)) =
        safeAdd (m.map fun p => (p.1.toInt, p.2)) x.toInt n := by
    intro m x n
    induction m with
    | nil => rfl
    | cons p m ih =>
      by_cases h : p.1.toInt = x.toInt
      · simp [safeAdd, h]
      · simp [safeAdd, h, ih]
  have fold : ∀ (l : List (OutcomeP × Nat)) (m : List (PyNum × Nat)),
      ((l.foldl (fun m p => @safeAdd PyNum ⟨fun a b => decide (a.toInt = b.toInt)⟩ m p.1.value p.2) m).map fun p => (p.1.toInt, p.2)) =
        (l.map fun p => (p.1.plain, p.2)).foldl (fun m p => safeAdd m p.1.value p.2) (m.map fun p => (p.1.toInt, p.2)) := by
    intro l
    induction l with
    | nil => exact fun _ => rfl
    | cons p l ih =>
      intro m
      rw [List.map_cons, List.foldl_cons, List.foldl_cons, ih, add]
      rfl
  exact fold d.resultMap []

/-- A value that is neither an int nor a bool is refused; ints and bools are accepted. -/
theorem C65_value (x : PyObj) (cs : CSet) :
    (∃ o, mkOutcomeP x cs = .ok o) ↔ ∃ n, x = .num n := by
  cases x with
  | num n => exact ⟨fun _ => ⟨n, rfl⟩, fun _ => ⟨_, rfl⟩⟩
  | _ => exact ⟨fun ⟨_, h⟩ => (by cases h), fun ⟨_, h⟩ => (by cases h)⟩

/-- **C65 (partial).**  An int value is kept as it is.  Missing: bools, see `C65_bool_counterexample`. -/
theorem C65_int_partial (n : Int) (cs : CSet) : mkOutcomeP (.num (.int n)) cs = .ok (Outcome.asP ⟨n, cs⟩) := rfl

/-- C65 does not hold: the exception says that an outcome cannot have a bool for its value, but `True` is accepted and kept as a bool. -/
theorem C65_bool_counterexample (cs : CSet) :
    mkOutcomeP (.num (.bool true)) cs = .ok ⟨.bool true, cs⟩ ∧
    ∃ t, mkOutcomeP (.other "<class 'str'>".toList "a".toList) cs = .error (.own .type (some t)) ∧
      t = "can not have a bool value for a probability outcome".toList := ⟨rfl, _, rfl, rfl⟩

/-- C65 does not hold: an entry whose key is a string is silently left out; the two of three counts are lost. -/
theorem C65_ignored_counterexample : ∃ d, mkDistP [(.num (.int 1), 1), (.other "<class 'str'>".toList "2".toList, 2)] = .ok d ∧
    d.outcomeCount = 1 := by
  obtain ⟨d, h1, h2⟩ := C65_counted_partial [(.num (.int 1), 1)] (by simp [PyObj.IsKey])
  refine ⟨d, ?_, h2⟩
  rw [← h1]
  unfold mkDistP
  simp only [List.foldlM_cons, List.foldlM_nil, keyStep, createConstraintSet_eq]
  rfl

/-! ### C66 -/

/-- **C66 (partial).**  Two constraints, two constraint sets, two outcomes are equal when they have the same contents.  Missing: everything
    else, see the counterexamples. -/
theorem C66_same_class_partial (x y : PyObj) (h : x.Comparable y) : ∃ b, pyEq x y = .ok b ∧ pyEq y x = .ok b ∧ (b = true ↔ SameContent x y) := by
  cases x with
  | constraint c =>
    cases y with
    | constraint d =>
      refine ⟨decide (c.text = d.text), rfl, ?_, ?_⟩
      · show Except.ok (decide (d.text = c.text)) = _
        rw [decide_eq_decide.mpr ⟨Eq.symm, Eq.symm⟩]
      · rw [decide_eq_true_iff]
        exact ⟨text_injective, fun h : c = d => by rw [h]⟩
    | _ => exact h.elim
  | cset s =>
    cases y with
    | cset t =>
      refine ⟨decide (csText s = csText t), rfl, ?_, ?_⟩
      · show Except.ok (decide (csText t = csText s)) = _
        rw [decide_eq_decide.mpr ⟨Eq.symm, Eq.symm⟩]
      · rw [decide_eq_true_iff]
        exact Iff.rfl
    | _ => exact h.elim
  | outcome a =>
    cases y with
    | outcome b =>
      refine ⟨decide (a.value.toInt = b.value.toInt) && decide (csText a.cs = csText b.cs), rfl, ?_, ?_⟩
      · show Except.ok (decide (b.value.toInt = a.value.toInt) && decide (csText b.cs = csText a.cs)) = _
        rw [decide_eq_decide.mpr (⟨Eq.symm, Eq.symm⟩ : b.value.toInt = a.value.toInt ↔ a.value.toInt = b.value.toInt),
          decide_eq_decide.mpr (⟨Eq.symm, Eq.symm⟩ : csText b.cs = csText a.cs ↔ csText a.cs = csText b.cs)]
      · rw [Bool.and_eq_true, decide_eq_true_iff, decide_eq_true_iff]
        exact Iff.rfl
    | _ => exact h.elim
  | _ => exact h.elim

/-- When `==` raises: one operand is an outcome, the other is not, and no constraint or constraint set stands on the left. -/
theorem C66_raises (x y : PyObj) : (∃ e, pyEq x y = .error e) ↔
    (∃ a, x = .outcome a) ∧ (∀ b, y ≠ .outcome b) ∨
    (∃ b, y = .outcome b) ∧ (∀ a, x ≠ .outcome a) ∧ (∀ c, x ≠ .constraint c) ∧ ∀ s, x ≠ .cset s := by
  cases x <;> cases y <;> simp [pyEq, OutcomeP.eqPy]

/-- C66 does not hold: a constraint equals any text that reads as it is printed. -/
theorem C66_text_counterexample (c : Constraint) (cls : Str) :
    pyEq (.constraint c) (.other cls c.text) = .ok true ∧ pyEq (.other cls c.text) (.constraint c) = .ok true := by
  constructor
  · show Except.ok (decide (c.text = c.text)) = _
    rw [decide_eq_true rfl]
  · show Except.ok (decide (c.text = c.text)) = _
    rw [decide_eq_true rfl]

/-- C66 does not hold: two distributions with the same contents are different, unless they are the same object. -/
theorem C66_dist_counterexample (d : DistP) (i j : Nat) (h : i ≠ j) : pyEq (.dist i d) (.dist j d) = .ok false := by
  show Except.ok (decide (i = j)) = _
  rw [decide_eq_false h]

/-- C66 does not hold: whether `==` answers or raises can depend on the order of the operands. -/
theorem C66_order_counterexample (o : OutcomeP) : ∃ e, pyEq (.outcome o) (.constraint .null) = .error e ∧
    pyEq (.constraint .null) (.outcome o) = .ok false := by
  refine ⟨_, rfl, ?_⟩
  show Except.ok (decide (txtNull = o.text)) = _
  rw [decide_eq_false]
  unfold OutcomeP.text
  simp only [List.append_assoc]
  rw [head_null, head_outcome, List.cons_append]
  exact fun h => absurd (List.cons.inj h).1 (by decide)

/-- C66 does not hold: comparing an outcome with a number is an error, not `False`. -/
theorem C66_number_counterexample (o : OutcomeP) (n : PyNum) : ∃ e, pyEq (.outcome o) (.num n) = .error e ∧
    pyEq (.num n) (.outcome o) = .error e ∧ e.cls = .type := ⟨_, rfl, rfl, rfl⟩

/-! ### C67 -/

/-- `merge` fails exactly when `can_merge` says no, with a `ValueError` that quotes both. -/
theorem C67_merge (c : Constraint) (x : PyObj) :
    (c.canMergeP x = false → c.mergeP x = .error (.own .value (some ("can not merge ".toList ++ x.text ++ " with ".toList ++ c.text)))) ∧
    (c.canMergeP x = true → ∃ r, c.mergeP x = .ok r) := by
  cases c with
  | null => exact ⟨fun h => (by cases h), fun _ => ⟨_, rfl⟩⟩
  | impossible => exact ⟨fun h => (by cases h), fun _ => ⟨_, rfl⟩⟩
  | varValue n vs =>
    refine ⟨fun h => ?_, fun h => ?_⟩
    · simp only [Constraint.mergeP, h, Bool.not_false, if_true]
    · simp only [Constraint.mergeP, h, Bool.not_true, Bool.false_eq_true, if_false]
      cases x with
      | constraint d =>
        cases d with
        | varValue m ws =>
          by_cases hl : (inter vs ws).length = 0
          · exact ⟨_, if_pos hl⟩
          · exact ⟨_, if_neg hl⟩
        | _ => cases h
      | _ => cases h

/-- Hence the second `raise` of `VarValueConstraint.merge` (`var_value_constraint.py:47`) is never reached: there is one text only. -/
theorem C67_dead (c : Constraint) (x : PyObj) (e : Exc) (h : c.mergeP x = .error e) :
    e = .own .value (some ("can not merge ".toList ++ x.text ++ " with ".toList ++ c.text)) := by
  cases hc : c.canMergeP x with
  | true =>
    obtain ⟨r, hr⟩ := (C67_merge c x).2 hc
    rw [hr] at h
    cases h
  | false =>
    rw [(C67_merge c x).1 hc] at h
    injection h with h
    exact h.symm

/-- Among constraints the code does what the typed model says. -/
theorem C67_typed (c d : Constraint) : c.canMergeP (.constraint d) = c.canMerge d ∧
    (c.mergeP (.constraint d)).mapError Exc.cls = (c.merge d).map PyObj.constraint := by
  cases c with
  | null => exact ⟨rfl, rfl⟩
  | impossible => exact ⟨rfl, rfl⟩
  | varValue n vs =>
    cases d with
    | null => exact ⟨rfl, rfl⟩
    | impossible => exact ⟨rfl, rfl⟩
    | varValue m ws =>
      refine ⟨rfl, ?_⟩
      have hh : (Constraint.varValue n vs).canMergeP (.constraint (.varValue m ws)) =
        (Constraint.varValue n vs).canMerge (.varValue m ws) := rfl
      simp only [Constraint.mergeP, Constraint.merge, hh]
      cases (Constraint.varValue n vs).canMerge (.varValue m ws) with
      | false => rfl
      | true =>
        simp only [Bool.not_true, Bool.false_eq_true, if_false]
        split <;> rfl

/-- An empty constraint set is refused, with the code's text; any other is made as the typed model says. -/
theorem C67_empty_set (cs : List Constraint) :
    (cs = [] → mkConstraintSetP cs = .error (.own .value (some "can not build an empty constraint set. use a null constraint.".toList))) ∧
    (cs ≠ [] → ∃ s : CSet, mkConstraintSetP cs = .ok s ∧ mkConstraintSet cs = .ok s) := by
  refine ⟨fun h => by rw [h]; rfl, fun h => ?_⟩
  obtain ⟨r, hr, _⟩ := mkConstraintSet_spec cs h
  refine ⟨r, ?_, hr⟩
  have hl : cs.length ≠ 0 := fun hl => h (List.eq_nil_of_length_eq_zero hl)
  simp only [mkConstraintSet, hl, if_false] at hr
  simp only [mkConstraintSetP, hl, if_false, hr]
  rfl

/-- Programs never see these refusals: combining the constraint sets of two outcomes, neither of them empty, succeeds, and so does adding
    a constraint. -/
theorem C67_unseen (s t : CSet) (c : Constraint) (h : iter s ≠ [] ∨ iter t ≠ []) :
    (∃ r, combineSets s t = .ok r) ∧ ∃ r, addConstraint s c = .ok r := by
  obtain ⟨r, hr, _⟩ := combineSets_spec s t h
  obtain ⟨r', hr', _⟩ := addConstraint_spec s c
  exact ⟨⟨r, hr⟩, ⟨r', hr'⟩⟩

end

/-! ### Examples -/

section
attribute [local instance] listRuntime

/-- An outcome tied to nothing. -/
def freeOutcome (n : PyNum) : OutcomeP := ⟨n, ⟨[.null], by simp⟩⟩

/-- `d2` as an object. -/
def twoSided : DistP := ⟨[(freeOutcome (.int 1), 1), (freeOutcome (.int 2), 1)], 2⟩

-- the text of a result, or of an exception
private def shown (r : Except Exc (OutcomeP ⊕ DistP)) : Str := match r with
  | .ok (.inl o) => o.text
  | .ok (.inr d) => d.text
  | .error (.own _ (some t)) => t
  | .error _ => []

-- True + True is 2
example : shown (pyOp .add (.outcome (freeOutcome (.bool true))) (.outcome (freeOutcome (.bool true)))) =
    "ProbabilityOutcome: value=2, constraint_set=ConstraintSet: {NullConstraint}".toList := by decide +kernel
-- d2 < d2
example : ((twoSided.binop .lt (.dist 0 twoSided)).map fun d => d.getResultMap.map fun p => (p.1.toInt, p.2)).toOption =
    some [(0, 3), (1, 1)] := by decide +kernel
-- 5 < d2 is refused, and the text speaks of __gt__
example : shown (pyOp .lt (.num (.int 5)) (.dist 0 twoSided)) =
    "No __gt__ between <class 'python_dice.src.probability_distribution.probability_distribution.ProbabilityDistribution'> and <class 'int'>".toList := by
  decide +kernel
example : (PyObj.dist 0 twoSided).Ours ∧ ¬ (PyObj.num (.int 5)).Alike (.dist 0 twoSided) := ⟨trivial, fun h => h⟩
-- an outcome and a distribution
example : shown (pyOp .floordiv (.outcome (freeOutcome (.int 5))) (.dist 0 twoSided)) =
    "No floordiv between ProbabilityOutcome and <class 'python_dice.src.probability_distribution.probability_distribution.ProbabilityDistribution'>.".toList := by
  decide +kernel
-- both refusals of `C64_text_tells` occur
example : ∃ t, (freeOutcome (.int 1)).combine .add (.num (.int 2)) = .error (.own .type (some t)) ∧
    (freeOutcome (.int 7)).combine .add (.num (.int 9)) = .error (.own .type (some t)) := ⟨_, rfl, rfl⟩
example : ∃ t, twoSided.binop .add (.num (.int 2)) = .error (.own .type (some t)) ∧
    twoSided.binop .add (.num (.int 9)) = .error (.own .type (some t)) := ⟨_, rfl, rfl⟩
example : PyOp.lt.mirrored = some .gt ∧ ¬ (PyObj.num (.int 5)).Ours := ⟨rfl, fun h => h⟩
example : ¬ (PyObj.num (.int 5)).Ours ∧ (PyOp.sub = .add ∨ PyOp.sub = .sub) := ⟨fun h => h, .inr rfl⟩
example : ∀ p ∈ ([(.num (.int 3), 2), (.outcome (freeOutcome (.int 3)), 5)] : List (PyObj × Nat)), p.1.IsKey = true := by
  simp [PyObj.IsKey]
example : (PyObj.outcome (freeOutcome (.int 1))).Comparable (.outcome (freeOutcome (.bool true))) := trivial
-- merging refused, and allowed
example : (Constraint.varValue ['a'] [1]).canMergeP (.constraint .null) = false := rfl
example : ((Constraint.varValue ['a'] [1, 2]).mergeP (.constraint (.varValue ['a'] [2, 3]))).map PyObj.text =
    .ok "VarValueConstraint: name=a, values={2}".toList := by decide +kernel
example : ∃ e, (Constraint.varValue ['a'] [1]).mergeP (.constraint .null) = .error e := ⟨_, rfl⟩

end

end PyDice
