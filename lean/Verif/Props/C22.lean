import Verif.Lemmas.Runs
import Verif.Lemmas.Logic
import Verif.Props.C08_C11
/-!
# C11 (expressions) Integer division; C22 Logical operators
-/

namespace PyDice
open PyRuntime

section
variable [R : PyRuntime]

/-! ### C11 -/

/-- C11: the distribution of `a // b` raises `ZeroDivisionError` exactly when `a` has an outcome and 0 is an outcome of `b`; it
    raises nothing else, and every outcome is the floor of a quotient of outcomes. -/
theorem C11_expr_dist (parse : Str → Res Expr) (s : State) (h : Reachable parse s) (a b : Expr) (da db : Dist) (s1 s2 : State)
    (ha : a.dist s = (.ok da, s1)) (hb : b.dist s1 = (.ok db, s2)) :
    ((Expr.div a b).dist s = (.error .zeroDivision, s2) ↔ (∃ x, hasKey da.getResultMap x) ∧ hasKey db.getResultMap 0) ∧
    (¬ ((∃ x, hasKey da.getResultMap x) ∧ hasKey db.getResultMap 0) → ∃ d, (Expr.div a b).dist s = (.ok d, s2) ∧
      ∀ v, hasKey d.getResultMap v → ∃ x y, hasKey da.getResultMap x ∧ hasKey db.getResultMap y ∧ y ≠ 0 ∧
        v = ⌊(x : ℚ) / (y : ℚ)⌋) := by
  have hp : da.Proper := by
    obtain ⟨_, _, h3⟩ := keeps_dist a s (tidy_reachable parse h)
    rw [ha] at h3
    obtain ⟨A, hA, _⟩ := h3 da rfl
    exact hA.proper
  have he : (Expr.div a b).dist s = (Dist.binop .floordiv da db, s2) := by
    show (a.dist >>= _) s = _
    rw [evalBind_ok ha]
    show (b.dist >>= _) s1 = _
    rw [evalBind_ok hb]
    rfl
  rw [he]
  constructor
  · rw [← C11_floordiv_error da db hp]
    constructor
    · intro h; exact (Prod.mk.inj h).1
    · intro h; rw [h]
  · intro hn
    obtain ⟨d, h1, h2⟩ := C11_floordiv_floor da db hp (fun h1 h2 => hn ⟨h1, h2⟩)
    exact ⟨d, by rw [h1], h2⟩

/-- C11: `max()` and `min()` of `a // b` raise `ZeroDivisionError` exactly when the divisor's distribution contains zero; else they
    are the largest and smallest quotient reported. -/
theorem C11_expr_extreme (parse : Str → Res Expr) (s : State) (h : Reachable parse s) (a b : Expr)
    (da db : Dist) (ha : a.dist s = (.ok da, s)) (hb : b.dist s = (.ok db, s)) (isMax : Bool) :
    ((Expr.div a b).extreme isMax s = (.error .zeroDivision, s) ↔ hasKey db.getResultMap 0) ∧
    (¬ hasKey db.getResultMap 0 → ∃ d, (Expr.div a b).dist s = (.ok d, s) ∧
      (Expr.div a b).extreme isMax s = (if isMax then d.max else d.min, s)) := by
  classical
  have key : (Expr.div a b).extreme isMax s = if hasKey db.getResultMap 0 then (.error .zeroDivision, s)
      else viaDist isMax (Expr.dist (.div a b)) s := by
    show (b.dist >>= _) s = _
    rw [evalBind_ok hb]
    by_cases h0 : hasKey db.getResultMap 0
    · simp only [if_pos h0, (C09_contains_zero db).mpr h0, if_true]; rfl
    · have : db.containsZero = false := by
        rw [← Bool.not_eq_true, C09_contains_zero]; exact h0
      simp [if_neg h0, this]
  have hok : ¬ hasKey db.getResultMap 0 → ∃ d, (Expr.div a b).dist s = (.ok d, s) ∧
      (Expr.div a b).extreme isMax s = (if isMax then d.max else d.min, s) := by
    intro h0
    obtain ⟨d, hd, _⟩ := (C11_expr_dist parse s h a b da db s s ha hb).2 (fun hh => h0 hh.2)
    refine ⟨d, hd, ?_⟩
    rw [key, if_neg h0]
    unfold viaDist
    rw [evalBind_ok hd]
    rfl
  refine ⟨⟨fun he => ?_, fun h0 => by rw [key, if_pos h0]⟩, hok⟩
  by_contra h0
  obtain ⟨d, _, h2⟩ := hok h0
  rw [h2] at he
  have he := (Prod.mk.inj he).1
  have hd : ∀ er, (if isMax then d.max else d.min) = .error er → er = .value := by
    intro er her
    have h1 := C09_max_min_defined d
    by_cases hx : ∃ x, hasKey d.getResultMap x
    · obtain ⟨u, hu⟩ := h1.1.mpr hx
      obtain ⟨w, hw⟩ := h1.2.1.mpr hx
      cases isMax <;> simp [hu, hw] at her
    · have hnil : d.getResultMap = [] := by
        cases hm : d.getResultMap with
        | nil => rfl
        | cons p l => exact absurd ⟨p.1, by simp [hasKey, hm]⟩ hx
      obtain ⟨h3, h4⟩ := h1.2.2 hnil
      cases isMax <;> simp [h3, h4] at her <;> exact her.symm
  have := hd _ he
  cases this

/-- C11: a roll of `a // b` raises `ZeroDivisionError` for a rolled divisor 0, whatever the dividend; for a divisor other than 0 it
    is the floor of the quotient. -/
theorem C11_expr_roll (s : State) (a b : Expr) (y : Int) (s1 : State) (hb : Rand.Possible (.ok y, s1) (b.roll s)) :
    (y = 0 → Rand.Possible (.error .zeroDivision, s1) ((Expr.div a b).roll s)) ∧
    (y ≠ 0 → ∀ x s2, Rand.Possible (.ok x, s2) (a.roll s1) →
      Rand.Possible (.ok ⌊(x : ℚ) / (y : ℚ)⌋, s2) ((Expr.div a b).roll s)) := by
  constructor
  · rintro rfl
    refine possible_bind_error.mpr (Or.inr ⟨0, s1, hb, ?_⟩)
    exact Rand.possible_pure.mpr rfl
  · intro hy x s2 hx
    refine possible_bind_ok.mpr ⟨y, s1, hb, ?_⟩
    rw [if_neg hy]
    refine possible_bind_ok.mpr ⟨x, s2, hx, Rand.possible_pure.mpr ?_⟩
    have : ⌊(x : ℚ) / (y : ℚ)⌋ = x.fdiv y := by
      have := (apply_yields .floordiv x y (x.fdiv y)).mp (by simp [BinOp.apply, hy])
      exact this.2.symm
    rw [this]

/-- C11: conversely, every result of a roll of `a // b` is an exception of an operand, a division by a rolled 0 or a floored
    quotient. -/
theorem C11_expr_roll_cases (s : State) (a b : Expr) (r : Res Int) (s' : State)
    (hr : Rand.Possible (r, s') ((Expr.div a b).roll s)) :
    (∃ er, r = .error er ∧ Rand.Possible (.error er, s') (b.roll s)) ∨
    ∃ (y : Int) (s1 : State), Rand.Possible (.ok y, s1) (b.roll s) ∧
      ((y = 0 ∧ r = .error .zeroDivision ∧ s' = s1) ∨
       (y ≠ 0 ∧ ∃ er, r = .error er ∧ Rand.Possible (.error er, s') (a.roll s1)) ∨
       (y ≠ 0 ∧ ∃ x : Int, Rand.Possible (.ok x, s') (a.roll s1) ∧ r = .ok ⌊(x : ℚ) / (y : ℚ)⌋)) := by
  have hfl : ∀ x y : Int, y ≠ 0 → ⌊(x : ℚ) / (y : ℚ)⌋ = x.fdiv y := by
    intro x y hy
    have := (apply_yields .floordiv x y (x.fdiv y)).mp (by simp [BinOp.apply, hy])
    exact this.2.symm
  cases r with
  | error er =>
    rcases possible_bind_error.mp hr with h | ⟨y, s1, h1, h2⟩
    · exact Or.inl ⟨er, rfl, h⟩
    · refine Or.inr ⟨y, s1, h1, ?_⟩
      by_cases hy : y = 0
      · rw [if_pos hy] at h2
        have := Rand.possible_pure.mp h2
        cases this
        exact Or.inl ⟨hy, rfl, rfl⟩
      · rw [if_neg hy] at h2
        rcases possible_bind_error.mp h2 with h | ⟨x, s2, _, h4⟩
        · exact Or.inr (Or.inl ⟨hy, er, rfl, h⟩)
        · cases Rand.possible_pure.mp h4
  | ok v =>
    obtain ⟨y, s1, h1, h2⟩ := possible_bind_ok.mp hr
    refine Or.inr ⟨y, s1, h1, ?_⟩
    by_cases hy : y = 0
    · rw [if_pos hy] at h2
      cases Rand.possible_pure.mp h2
    · rw [if_neg hy] at h2
      obtain ⟨x, s2, h3, h4⟩ := possible_bind_ok.mp h2
      cases Rand.possible_pure.mp h4
      exact Or.inr (Or.inr ⟨hy, x, h3, by rw [hfl x y hy]⟩)

/-! ### C22 -/

/-- C22: every outcome of a comparison, `AND` or `OR` is 0 or 1 and comes from outcomes of the operands by the rule that exactly the
    values above zero are true. -/
theorem C22_dist_binary (parse : Str → Res Expr) (s : State) (h : Reachable parse s) (op : CmpOp) (a b : Expr) (d : Dist) (s' : State)
    (hd : (Expr.bin op a b).dist s = (.ok d, s')) :
    ∃ da s1 db, a.dist s = (.ok da, s1) ∧ b.dist s1 = (.ok db, s') ∧ ∀ v, hasKey d.getResultMap v → (v = 0 ∨ v = 1) ∧
      ∃ x y, hasKey da.getResultMap x ∧ hasKey db.getResultMap y ∧ OpYields op.toBinOp x y v := by
  obtain ⟨da, s1, ha, h2⟩ := evalBind_eq_ok.mp hd
  obtain ⟨db, s2, hb, h4⟩ := evalBind_eq_ok.mp h2
  obtain ⟨h5, rfl⟩ := Prod.mk.inj h4
  refine ⟨da, s1, db, ha, hb, fun v hv => ?_⟩
  have hp : da.Proper := by
    obtain ⟨_, _, h3⟩ := keeps_dist a s (tidy_reachable parse h)
    rw [ha] at h3
    obtain ⟨A, hA, _⟩ := h3 da rfl
    exact hA.proper
  rw [hasKey_getResultMap] at hv
  obtain ⟨e, he, rfl⟩ := hv
  obtain ⟨p, hp', q, hq', hop, _⟩ := binop_mem h5 hp he
  have hy := (apply_yields _ _ _ _).mp hop
  refine ⟨?_, _, _, (hasKey_getResultMap _ _).mpr ⟨p, hp', rfl⟩, (hasKey_getResultMap _ _).mpr ⟨q, hq', rfl⟩, hy⟩
  cases op <;> simp only [CmpOp.toBinOp, OpYields] at hy <;> rcases hy with ⟨_, h⟩ | ⟨_, h⟩ <;> simp [h]

/-- C22: for operands that are not tied to variables, the count of each truth value is the number of pairs for which the rule gives
    it (in particular both truth values appear exactly when some pair gives them). -/
theorem C22_dist_counts (s : State) (op : CmpOp) (a b : Expr) (hn : (Expr.bin op a b).NoAssign) (hr : (Expr.bin op a b).reads = [])
    (d da db : Dist) (hd : (Expr.bin op a b).dist s = (.ok d, s)) (ha : a.dist s = (.ok da, s)) (hb : b.dist s = (.ok db, s))
    (v : Int) : countOf d.getResultMap v = pairCount op.toBinOp da.getResultMap db.getResultMap v := by
  obtain ⟨ra, rb⟩ := List.append_eq_nil_iff.mp hr
  obtain ⟨ua, pa⟩ := untied_expr a hn.1 ra _ _ _ ha
  obtain ⟨ub, pb⟩ := untied_expr b hn.2 rb _ _ _ hb
  have h5 : Dist.binop op.toBinOp da db = .ok d := by
    obtain ⟨da', s1, ha', h2⟩ := evalBind_eq_ok.mp hd
    rw [ha] at ha'
    cases ha'
    obtain ⟨db', s2, hb', h4⟩ := evalBind_eq_ok.mp h2
    rw [hb] at hb'
    cases hb'
    exact (Prod.mk.inj h4).1
  rw [countOf_getResultMap, binop_E h5 pa ua ub, pairCount_wsum, wsum_getResultMap]
  simp only [wsum_getResultMap]

/-- C22: every outcome of `!` is 0 or 1: 0 for the outcomes above zero, 1 for the others; and the counts are kept. -/
theorem C22_dist_not (s : State) (e : Expr) (d : Dist) (s' : State) (hd : (Expr.not e).dist s = (.ok d, s')) :
    ∃ de, e.dist s = (.ok de, s') ∧ (∀ v, hasKey d.getResultMap v → v = 0 ∨ v = 1) ∧
      (∀ v, hasKey d.getResultMap v ↔ ∃ x, hasKey de.getResultMap x ∧ NotYields x v) ∧
      ∀ v, countOf d.getResultMap v = imageCount NotYields de.getResultMap v := by
  obtain ⟨de, s1, he, h2⟩ := evalBind_eq_ok.mp hd
  cases h2
  have hk : ∀ v, hasKey (de.mapValue notVal).getResultMap v ↔ ∃ x, hasKey de.getResultMap x ∧ NotYields x v := by
    intro v
    rw [hasKey_getResultMap, mapValue_exists notVal de (fun o => o.value = v) (resp_value (fun x => x = v))]
    constructor
    · rintro ⟨p, hp, h⟩
      exact ⟨_, (hasKey_getResultMap _ _).mpr ⟨p, hp, rfl⟩, (notVal_yields _ _).mp h⟩
    · rintro ⟨x, hx, h⟩
      obtain ⟨p, hp, rfl⟩ := (hasKey_getResultMap _ _).mp hx
      exact ⟨p, hp, (notVal_yields _ _).mpr h⟩
  refine ⟨de, he, ?_, hk, ?_⟩
  · intro v hv
    obtain ⟨x, _, hx⟩ := (hk v).mp hv
    rcases hx with ⟨_, h⟩ | ⟨_, h⟩ <;> simp [h]
  · intro v
    exact imageCount_mapValue NotYields notVal notVal_yields de v

/-- C22: every roll of a comparison or logical operator is 0 or 1. -/
theorem C22_roll_binary (s : State) (e : Expr) (he : (∃ op a b, e = .bin op a b) ∨ ∃ a, e = .not a) (v : Int) (s' : State)
    (h : Rand.Possible (.ok v, s') (e.roll s)) : v = 0 ∨ v = 1 := by
  rcases he with ⟨op, a, b, rfl⟩ | ⟨a, rfl⟩
  · obtain ⟨x, s1, _, h2⟩ := possible_bind_ok.mp h
    obtain ⟨y, s2, _, h4⟩ := possible_bind_ok.mp h2
    cases Rand.possible_pure.mp h4
    cases op.onInts x y <;> simp
  · obtain ⟨x, s1, _, h2⟩ := possible_bind_ok.mp h
    cases Rand.possible_pure.mp h2
    by_cases hx : x = 0 <;> simp [hx]

/-- C22, for rolls, where it holds: a roll of a comparison follows the comparison; a roll of `OR` of two values that are not
    negative, of `AND` of two truth values and of `!` of a value that is not negative follows the rule "above zero is true".
    Missing for the full statement: `AND` of larger numbers and `OR`, `!` of negative numbers, where the code disagrees
    (`C22_and_counterexample`, `C22_or_counterexample`, `C22_not_counterexample`). -/
theorem C22_roll_partial (s : State) :
    (∀ (op : CmpOp) (a b : Expr) (v : Int) (s' : State), Rand.Possible (.ok v, s') ((Expr.bin op a b).roll s) →
      ∃ x s1 y, Rand.Possible (.ok x, s1) (a.roll s) ∧ Rand.Possible (.ok y, s') (b.roll s1) ∧
        ((op ≠ .and ∧ op ≠ .or) ∨ (op = .or ∧ 0 ≤ x ∧ 0 ≤ y) ∨ (op = .and ∧ (x = 0 ∨ x = 1) ∧ (y = 0 ∨ y = 1)) →
          OpYields op.toBinOp x y v)) ∧
    (∀ (e : Expr) (v : Int) (s' : State), Rand.Possible (.ok v, s') ((Expr.not e).roll s) →
      ∃ x, Rand.Possible (.ok x, s') (e.roll s) ∧ (0 ≤ x → NotYields x v)) := by
  constructor
  · intro op a b v s' h
    obtain ⟨x, s1, h1, h2⟩ := possible_bind_ok.mp h
    obtain ⟨y, s2, h3, h4⟩ := possible_bind_ok.mp h2
    cases Rand.possible_pure.mp h4
    refine ⟨x, s1, y, h1, h3, fun hc => ?_⟩
    cases op with
    | and =>
      obtain ⟨hx, hy⟩ : (x = 0 ∨ x = 1) ∧ (y = 0 ∨ y = 1) := by simpa using hc
      have := bitAnd_small x y hx hy
      simp only [CmpOp.onInts, CmpOp.toBinOp, OpYields, decide_eq_true_eq]
      rw [← this]
      split <;> simp_all
    | or =>
      obtain ⟨hx, hy⟩ : 0 ≤ x ∧ 0 ≤ y := by simpa using hc
      have := bitOr_nonneg x y hx hy
      simp only [CmpOp.onInts, CmpOp.toBinOp, OpYields, decide_eq_true_eq]
      rw [← this]
      split <;> simp_all
    | _ =>
      simp only [CmpOp.onInts, CmpOp.toBinOp, OpYields, decide_eq_true_eq]
      split <;> simp_all
  · intro e v s' h
    obtain ⟨x, s1, h1, h2⟩ := possible_bind_ok.mp h
    cases Rand.possible_pure.mp h2
    refine ⟨x, h1, fun hx => ?_⟩
    unfold NotYields
    by_cases h0 : x = 0
    · simp [h0]
    · simp [h0]; omega

end

/-- C22 refuted for rolls of `AND`: `1 AND 2` rolls 0 although both values are above zero, and its distribution says 1. -/
theorem C22_and_counterexample (R : PyRuntime) (s : State) :
    (∀ x s', Rand.Possible (x, s') ((Expr.bin .and (.constInt ['1']) (.constInt ['2'])).roll s) ↔ (x, s') = (.ok 0, s)) ∧
    (∃ d, (Expr.bin .and (.constInt ['1']) (.constInt ['2'])).dist s = (.ok d, s) ∧
      ∀ v, hasKey d.getResultMap v ↔ v = 1) ∧ ¬ OpYields .and 1 2 0 := by
  refine ⟨fun x s' => ?_, ?_, by simp [OpYields]⟩
  · exact Rand.possible_pure
  · obtain ⟨d1, h1, p1, _, k1⟩ := mkDistInt_plain [(1, 1)]
    obtain ⟨d2, h2, p2, _, k2⟩ := mkDistInt_plain [(2, 1)]
    obtain ⟨d, hd⟩ := binop_ok_of_total (op := .and) (by simp) (b := d2) p1.proper
    refine ⟨d, ?_, fun v => ?_⟩
    · have e1 : (Expr.constInt ['1']).dist s = (.ok d1, s) := by rw [← h1]; rfl
      have e2 : (Expr.constInt ['2']).dist s = (.ok d2, s) := by rw [← h2]; rfl
      show ((Expr.constInt ['1']).dist >>= _) s = _
      rw [evalBind_ok e1]
      show ((Expr.constInt ['2']).dist >>= _) s = _
      rw [evalBind_ok e2]
      exact congrArg (·, s) hd
    · rw [binop_hasKey hd p1 p2]
      simp only [k1, k2]
      simp only [hasKey, List.map_cons, List.map_nil, List.mem_singleton]
      constructor
      · rintro ⟨_, _, rfl, rfl, h⟩; cases h; rfl
      · rintro rfl; exact ⟨1, 2, rfl, rfl, rfl⟩

/-- C22 refuted for rolls of `OR`: `-1 OR 0` rolls 1 although neither value is above zero. -/
theorem C22_or_counterexample (R : PyRuntime) (s : State) :
    (∀ x s', Rand.Possible (x, s') ((Expr.bin .or (.constInt ['-', '1']) (.constInt ['0'])).roll s) ↔ (x, s') = (.ok 1, s)) ∧
    ¬ OpYields .or (-1) 0 1 := by
  refine ⟨fun x s' => ?_, by simp [OpYields]⟩
  exact Rand.possible_pure

/-- C22 refuted for rolls of `!`: `!-1` rolls 0 although -1 is not above zero. -/
theorem C22_not_counterexample (R : PyRuntime) (s : State) :
    (∀ x s', Rand.Possible (x, s') ((Expr.not (.constInt ['-', '1'])).roll s) ↔ (x, s') = (.ok 0, s)) ∧
    ¬ NotYields (-1) 0 := by
  refine ⟨fun x s' => ?_, by simp [NotYields]⟩
  exact Rand.possible_pure

/-! ### Examples -/

/-- `d6 > 3` in a new state: outcomes 0 and 1, three ways each. -/
example : let _ := listRuntime
    ((Expr.bin .gt (.dice ⟨['d', '6'], ones [1, 2, 3, 4, 5, 6], 1⟩) (.constInt ['3'])).dist State.new).1.map Dist.getResultMap =
      .ok [(0, 3), (1, 3)] ∧
    ((Expr.not (.sub (.dice ⟨['d', '3'], ones [1, 2, 3], 1⟩) (.constInt ['2']))).dist State.new).1.map Dist.getResultMap =
      .ok [(1, 2), (0, 1)] := by decide +kernel

/-- `7 // d[0,2]` in a new state: the roll can fail and can be 3; `max()` fails. -/
example : let _ := listRuntime
    ((Expr.div (.constInt ['7']) (.dice ⟨"d[0,2]".toList, [(0, 1), (2, 1)], 1⟩)).extreme true State.new).1 =
      .error .zeroDivision ∧
    ((Expr.div (.constInt ['7']) (.dice ⟨"d[-2,2]".toList, [(-2, 1), (2, 1)], 1⟩)).extreme false State.new).1 = .ok (-4) := by
  decide +kernel

end PyDice
