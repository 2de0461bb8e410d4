import Verif.Lemmas.Claimed
import Verif.Props.C23_C24
/-!
# C23, C24: what `max()` and `min()` answer, exactly
-/

namespace PyDice
open PyRuntime

section
variable [R : PyRuntime]

/-- The law of `max()` and `min()` after any straight-line program in max (min) mode, terms with no dice included: the answer is
    worked out from those of the operands of `MIN` and `MAX` and those of the variables, and is the largest (smallest) possible value
    for everything else; there is none exactly when `max()` (`min()`) fails. -/
theorem C24_law (isMax : Bool) (p : Program) (e : Expr) (hp : ∀ l ∈ p, l.1 ≠ stdoutName ∧ l.2.Plain) (he : e.Plain) (s : State)
    (hs : ExtremeSession isMax p s) (v : Int) : (∃ s', e.extreme isMax s = (.ok v, s')) ↔ ExtremeAnswer isMax p e v :=
  answer_iff hs hp e he v

/-- The answer is right (an outcome, and the extreme one) exactly when it is the largest (smallest) value the expression can have in
    the runs of the program. -/
theorem C24_exact (isMax : Bool) (p : Program) (e : Expr) (hp : ∀ l ∈ p, l.1 ≠ stdoutName ∧ l.2.Plain) (he : e.Plain) (s : State)
    (hs : ExtremeSession isMax p s) (v : Int) (s1 : State) (hv : e.extreme isMax s = (.ok v, s1)) :
    ∃ d, e.dist s = (.ok d, s) ∧ ((hasKey d.getResultMap v ∧ ∀ x, hasKey d.getResultMap x → if isMax then x ≤ v else v ≤ x) ↔
      Extremal isMax p e v) := by
  have hS := extremeSession_oneDie hs hp
  have hdef := claim_defined (fun n c h => by simpa using claims_names h) e he v ((C24_law isMax p e hp he s hs v).mp ⟨s1, hv⟩)
  obtain ⟨d, hd⟩ := (plain_defined hp he hS).mpr hdef
  refine ⟨d, hd, ?_⟩
  rw [extremal_iff hp he hS]
  constructor
  · rintro ⟨h1, h2⟩
    exact ⟨d, hd, (distExtreme_iff isMax d v).mpr ⟨h1, h2⟩⟩
  · rintro ⟨d', h1, h2⟩
    rw [hd] at h1
    cases h1
    exact (distExtreme_iff isMax d v).mp h2

omit R in
/-- Where it goes wrong: if the answers for the operands of a `MIN` in max mode (a `MAX` in min mode) are right, the answer for it is
    right exactly when some run of the program brings both operands to it at once. -/
theorem C24_node_exact (isMax k : Bool) (hk : k ≠ isMax) (p : Program) (a b : Expr) (x y v : Int) (ha : Extremal isMax p a x)
    (hb : Extremal isMax p b y) (hv : v = if k then max x y else min x y) :
    Extremal isMax p (.minmax k a b) v ↔ ∃ env ∈ runs p.oneDie Env.empty, (∃ x' ∈ vals a.oneDie env, Within isMax v x') ∧
      ∃ y' ∈ vals b.oneDie env, Within isMax v y' := by
  obtain ⟨ha1, ha2, ha3⟩ := ha
  obtain ⟨hb1, hb2, hb3⟩ := hb
  have hmem : ∀ env w, w ∈ vals (Expr.minmax k a b).oneDie env ↔ ∃ x' ∈ vals a.oneDie env, ∃ y' ∈ vals b.oneDie env,
      w = if k then max x' y' else min x' y' := by
    intro env w
    show w ∈ List.flatMap _ _ ↔ _
    simp only [List.mem_flatMap, List.mem_filterMap]
    constructor
    · rintro ⟨x', h1, y', h2, h3⟩
      refine ⟨x', h1, y', h2, ?_⟩
      cases k <;> simp only [opValue, if_true, if_false, Bool.false_eq_true, Option.some.injEq] at h3 ⊢ <;> omega
    · rintro ⟨x', h1, y', h2, h3⟩
      refine ⟨x', h1, y', h2, ?_⟩
      cases k <;> simp only [opValue, if_true, if_false, Bool.false_eq_true, Option.some.injEq] at h3 ⊢ <;> omega
  constructor
  · rintro ⟨_, ⟨env, h1, h2⟩, _⟩
    obtain ⟨x', h3, y', h4, h5⟩ := (hmem env v).mp h2
    refine ⟨env, h1, ⟨x', h3, ?_⟩, y', h4, ?_⟩ <;>
      (cases k <;> cases isMax <;> simp_all [Within] <;> omega)
  · rintro ⟨env, h1, ⟨x', h2, h3⟩, y', h4, h5⟩
    have bx := ha3 x' ⟨env, h1, h2⟩
    have by' := hb3 y' ⟨env, h1, h4⟩
    refine ⟨⟨ha1, hb1⟩, ⟨env, h1, (hmem env v).mpr ⟨x', h2, y', h4, ?_⟩⟩, ?_⟩
    · cases k <;> cases isMax <;> simp_all [Within] <;> omega
    · rintro w ⟨env', h6, h7⟩
      obtain ⟨x2, h8, y2, h9, h10⟩ := (hmem env' w).mp h7
      have b1 := ha3 x2 ⟨env', h6, h8⟩
      have b2 := hb3 y2 ⟨env', h6, h9⟩
      cases k <;> cases isMax <;> simp_all [Within] <;> omega

/-- The law for the interpreter: `max` (`min`) of a straight-line program by a new interpreter succeeds exactly when every line has an
    answer, and reports the answer for the last line. -/
theorem C24_interp_law (parse : Str → Res Expr) (isMax : Bool) (lines : List Str) (last : Str) (p : Program) (e : Expr)
    (hp : ∀ l ∈ p, l.1 ≠ stdoutName ∧ l.2.Plain) (he : e.Plain)
    (hlines : lines.map parse = p.map (fun l => .ok (.assign l.1 l.2))) (hlast : parse last = .ok e) (v : Int) :
    (∃ vs s, interpExtreme parse isMax (lines ++ [last]) State.new = (.ok vs, s) ∧ dictGet? vs stdoutName = some v) ↔
      ExtremeAnswered isMax p ∧ ExtremeAnswer isMax p e v := by
  constructor
  · rintro ⟨vs, s, h, hv⟩
    obtain ⟨v', t1, t2, h1, h2, h3⟩ := interpExtreme_last parse hlast h
    rw [hv] at h3
    cases h3
    obtain ⟨tr, h4⟩ := (extremeLines_ok parse isMax lines State.new t1).mp h1
    have hs : ExtremeSession isMax p t1 := by simpa using session_extremes parse h4 ExtremeSession.new hlines
    exact ⟨(extremeLines_answered parse p lines hp hlines).mp ⟨t1, h1⟩, (C24_law isMax p e hp he t1 hs v).mp ⟨t2, h2⟩⟩
  · rintro ⟨h1, h2⟩
    obtain ⟨t1, h1⟩ := (extremeLines_answered parse p lines hp hlines).mpr h1
    obtain ⟨tr, h4⟩ := (extremeLines_ok parse isMax lines State.new t1).mp h1
    have hs : ExtremeSession isMax p t1 := by simpa using session_extremes parse h4 ExtremeSession.new hlines
    obtain ⟨t2, h2⟩ := (C24_law isMax p e hp he t1 hs v).mpr h2
    have h5 : extremeLine parse isMax last t1 = (.ok (), { t2 with constants := dictSet t2.constants stdoutName v }) := by
      show (EvalM.ofRes (parse last) >>= _) t1 = _
      rw [hlast]
      exact (evalBind_ok h2 : (e.extreme isMax >>= fun v => (fun s : State =>
        ((.ok (), { s with constants := dictSet s.constants stdoutName v }) : Res Unit × State) : EvalM Unit)) t1 = _)
    have h6 : extremeLines parse isMax (lines ++ [last]) State.new =
        (.ok (), { t2 with constants := dictSet t2.constants stdoutName v }) := by
      rw [extremeLines_append]
      show (extremeLines parse isMax lines >>= _) _ = _
      rw [evalBind_ok h1]
      show (extremeLine parse isMax last >>= _) t1 = _
      rw [evalBind_ok h5]
      rfl
    refine ⟨_, _, (interpExtreme_ok parse).mpr ⟨h6, rfl⟩, ?_⟩
    unfold constantsReturned
    simp [get_set]

end

/-! ### Examples -/

theorem plain_progX : ∀ l ∈ progX, l.1 ≠ stdoutName ∧ l.2.Plain := by
  intro l hl
  simp only [progX, List.mem_singleton] at hl
  subst hl
  exact ⟨by decide, trivial, by decide, trivial, (by decide : ones [1, 2] ≠ [])⟩

theorem plain_maxX : maxX.Plain := ⟨⟨trivial, trivial, trivial⟩, by decide, ⟨trivial, trivial, trivial⟩, trivial, trivial, trivial⟩

/-- The law gives the wrong minimum 1 of `MAX(x, 3 - x)` after `VAR x = d2` (`C24_counterexample`) ... -/
example : ExtremeAnswer false progX maxX 1 := by
  refine ⟨1, 1, ?_, ?_, by decide⟩
  · show Extremal false [] (.dice ⟨"d2".toList, ones [1, 2], 1⟩) 1
    refine ⟨trivial, ⟨_, List.mem_singleton.mpr rfl, by decide⟩, ?_⟩
    rintro x ⟨env, h1, h2⟩
    cases List.mem_singleton.mp h1
    have : ∀ x ∈ vals (Expr.dice ⟨"d2".toList, ones [1, 2], 1⟩).oneDie Env.empty, (1 : Int) ≤ x := by decide
    exact this x h2
  · refine ⟨⟨⟨3, by decide⟩, List.mem_singleton.mpr rfl⟩, ?_, ?_⟩
    · have : ∃ env ∈ runs progX.oneDie Env.empty, (1 : Int) ∈ vals (Expr.sub (.constInt ['3']) (.getVar ['x'])).oneDie env := by
        decide +kernel
      exact this
    · rintro x ⟨env, h1, h2⟩
      have : ∀ env ∈ runs progX.oneDie Env.empty, ∀ x ∈ vals (Expr.sub (.constInt ['3']) (.getVar ['x'])).oneDie env, 1 ≤ x := by
        decide +kernel
      exact this env h1 x h2

/-- ... and by `C24_node_exact` it is wrong because no run brings both operands to 1. -/
example : ¬ ∃ env ∈ runs progX.oneDie Env.empty, (∃ x' ∈ vals (Expr.getVar ['x']).oneDie env, x' ≤ (1 : Int)) ∧
    ∃ y' ∈ vals (Expr.sub (.constInt ['3']) (.getVar ['x'])).oneDie env, y' ≤ (1 : Int) := by
  have : ∀ env ∈ runs progX.oneDie Env.empty, ¬ ((∃ x' ∈ vals (Expr.getVar ['x']).oneDie env, x' ≤ (1 : Int)) ∧
    ∃ y' ∈ vals (Expr.sub (.constInt ['3']) (.getVar ['x'])).oneDie env, y' ≤ (1 : Int)) := by decide +kernel
  rintro ⟨env, h1, h2⟩
  exact this env h1 h2

/-- `max` of `0d6` is 0. -/
example : ExtremeAnswer true [] (.dice ⟨"0d6".toList, ones [1, 2, 3, 4, 5, 6], 0⟩) 0 := rfl

end PyDice
