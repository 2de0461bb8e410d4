import Verif.Lemmas.Rolls
import Verif.Lemmas.Nested
import Verif.Props.Texts
/-!
# C46: rolling any program; assignments inside expressions
-/

namespace PyDice
open PyRuntime

/-- A dict of values as values of variables. -/
def Env.ofDict (dict : List (Str × Int)) : Env := fun n => dictGet? dict n

section
variable [R : PyRuntime]

/-- C46: the law of a roll of any expression, in any state: the value and the variables afterwards are those of a uniformly chosen way
    its dice can fall; an event that needs success has the probability it has among these ways. -/
theorem C46_expression (e : Expr) (hl : e.Loaded) (s : State) (hs : SoundAt e (envAt s)) (P : Int → Env → Bool) :
    (e.roll s).prob (fun r => match r.1 with | .ok v => P v (envAt r.2) | .error _ => false) =
      ((outs e (envAt s)).countP (fun o => match o.1 with | some v => P v o.2 | none => false) : ℚ) / ((outs e (envAt s)).length : ℚ) := by
  unfold Rand.prob
  rw [outs_law e s hl hs _ (fun v env => if P v env then 1 else 0) 0 (by intro err s'; rfl) (by intro v env' _ s' h; subst h; rfl)]
  unfold avg
  congr 1
  induction outs e (envAt s) with
  | nil => rfl
  | cons o l ih =>
    obtain ⟨v, env⟩ := o
    rw [List.map_cons, List.sum_cons, ih, List.countP_cons]
    cases v with
    | none => simp [onOut]
    | some v => simp only [onOut]; split <;> (push_cast; ring)

/-- C46: the law of `roll` of any program: lines may assign anywhere, give a variable a new value and read `stdout`.  The dict that is
    returned holds the variables after a uniformly chosen way all the dice can fall; a value once assigned is the value read. -/
theorem C46_program (parse : Str → Res Expr) (lines : List Str) (es : List Expr) (hp : lines.map parse = es.map .ok)
    (hl : ∀ e ∈ es, e.Loaded) (hs : SoundLines es Env.empty) (P : Env → Bool) :
    (interpRoll parse lines State.new).prob (fun r => match r.1 with | .ok dict => P (Env.ofDict dict) | .error _ => false) =
      ((lineOuts es Env.empty).countP (fun o => match o with | some env => P env | none => false) : ℚ) /
        ((lineOuts es Env.empty).length : ℚ) := by
  by_cases hlines : lines = []
  · subst hlines
    have : es = [] := by simpa using hp.symm
    subst this
    show (if P (Env.ofDict (constantsReturned [] (State.new : State))) then (1 : ℚ) else 0) = _
    rw [show Env.ofDict (constantsReturned [] (State.new : State)) = Env.empty from rfl]
    simp only [lineOuts, List.countP_cons, List.countP_nil, List.length_singleton]
    split <;> simp
  have hnew : envAt State.new = Env.empty := rfl
  unfold Rand.prob interpRoll
  refine (expect_rollBind _ _ _ _).trans ?_
  rw [← hnew, lines_law parse lines es State.new hp hl hs _ (fun env => if P env then 1 else 0) 0 (by intro err s'; rfl)]
  · unfold avg
    congr 1
    induction lineOuts es (envAt State.new) with
    | nil => rfl
    | cons o l ih =>
      rw [List.map_cons, List.sum_cons, ih, List.countP_cons]
      cases o with
      | none => simp [onEnd]
      | some env => simp only [onEnd]; split <;> (push_cast; ring)
  · intro s'
    show (if P (Env.ofDict (constantsReturned lines s')) then (1 : ℚ) else 0) = _
    rw [constantsReturned, if_neg hlines]
    rfl

/-- C46: how likely `roll` of a program is to raise. -/
theorem C46_raises (parse : Str → Res Expr) (lines : List Str) (es : List Expr) (hp : lines.map parse = es.map .ok)
    (hl : ∀ e ∈ es, e.Loaded) (hs : SoundLines es Env.empty) :
    (interpRoll parse lines State.new).prob (fun r => match r.1 with | .ok _ => false | .error _ => true) =
      ((lineOuts es Env.empty).countP (fun o => o.isNone) : ℚ) / ((lineOuts es Env.empty).length : ℚ) := by
  have hnew : envAt State.new = Env.empty := rfl
  unfold Rand.prob interpRoll
  refine (expect_rollBind _ _ _ _).trans ?_
  rw [← hnew, lines_law parse lines es State.new hp hl hs _ (fun _ => 0) 1 (by intro err s'; rfl) (by intro s'; rfl)]
  unfold avg
  congr 1
  induction lineOuts es (envAt State.new) with
  | nil => rfl
  | cons o l ih =>
    rw [List.map_cons, List.sum_cons, ih, List.countP_cons]
    cases o with
    | none => simp [onEnd, add_comm]
    | some env => simp [onEnd]

/-- C46: an assignment inside an expression has the value that is read afterwards: `(VAR x = e) - x` rolls 0. -/
theorem C46_shared (x : Str) (e : Expr) (s : State) (r : Res Int × State)
    (h : Rand.Possible r ((Expr.sub (.paren (.assign x e)) (.getVar x)).roll s)) : r.1 = .ok 0 ∨ ∃ er, r.1 = .error er := by
  rcases possible_steps h with ⟨a, s1, h1, h2⟩ | h
  · rcases possible_steps (m := e.roll) h1 with ⟨v, s2, _, h3⟩ | ⟨er, h3⟩
    · rcases possible_steps (m := RollM.ofEval (EvalM.setConstant x v)) h3 with ⟨_, s3, h4, h5⟩ | ⟨er, h4⟩
      · cases Rand.possible_pure.mp h4
        cases Rand.possible_pure.mp h5
        rcases possible_steps h2 with ⟨b, s4, h6, h7⟩ | h
        · have h6 := Rand.possible_pure.mp h6
          have h8 : (s2.setConstant x a).getConstant x = .ok a := by
            unfold State.getConstant State.setConstant
            simp only [get_set, if_true]
          have h9 : (Except.ok b, s4) = ((s2.setConstant x a).getConstant x, s2.setConstant x a) := h6
          rw [h8] at h9
          cases h9
          rw [Rand.possible_pure.mp h7]
          exact .inl (by simp)
        · exact .inr h
      · cases h4
    · cases h3
  · exact .inr h

/-! ### The distributions of expressions with assignments inside -/

/-- C25 with assignments inside expressions: the distribution is that of the expression with what is assigned in place of each
    assignment, after a line for each assignment, in order.  (What is computed, that is: the value of the assignment itself and the
    variable read afterwards are rolled independently; see `C25_nested_counterexample`.) -/
theorem C25_nested_partial (p : Program) (e : Expr) (hp : Straight p) (ho : e.Orderly) (hf : e.Faces) (hr : stdoutName ∉ e.reads)
    (ha : stdoutName ∉ e.assigned) (s s' : State) (hs : Session p s) (d : Dist) (hd : e.dist s = (.ok d, s')) :
    Session (p ++ e.assignments) s' ∧
      ∀ v, hasKey d.getResultMap v ↔ ∃ env ∈ runs (p ++ e.assignments) Env.empty, v ∈ vals e.inlined env := by
  obtain ⟨h1, h2⟩ := (dist_hoist e ho s s' d).mp hd
  have hs' := session_steps h1 hs
  refine ⟨hs', C25_partial (p ++ e.assignments) e.inlined ?_ ⟨inlined_noAssign e, by rw [inlined_reads]; exact hr, inlined_faces e hf⟩
    s' s' hs' d h2⟩
  intro l hl
  rcases List.mem_append.mp hl with hl | hl
  · exact hp l hl
  · exact assignments_straight e hf hr ha l hl

/-- The same for the counts (C26). -/
theorem C26_nested_law (p : Program) (e : Expr) (hp : Straight p) (ho : e.Orderly) (hf : e.Faces) (hr : stdoutName ∉ e.reads)
    (ha : stdoutName ∉ e.assigned) (s s' : State) (hs : Session p s) (d : Dist) (hd : e.dist s = (.ok d, s')) (v : Int) :
    unusedWays (p ++ e.assignments) e.inlined * countOf d.getResultMap v =
      ((powRuns (p ++ e.assignments) ((uses (p ++ e.assignments) e.inlined).map fun u => if u = 0 then 1 else u) Env.empty).map fun r =>
        r.2 * (ways e.inlined r.1).count (some v)).sum := by
  obtain ⟨h1, h2⟩ := (dist_hoist e ho s s' d).mp hd
  refine C26_law (p ++ e.assignments) e.inlined ?_ ⟨inlined_noAssign e, by rw [inlined_reads]; exact hr, inlined_faces e hf⟩
    s' s' (session_steps h1 hs) d h2 v
  intro l hl
  rcases List.mem_append.mp hl with hl | hl
  · exact hp l hl
  · exact assignments_straight e hf hr ha l hl

/-- The same for programs given to the interpreter: every line may have assignments inside. -/
theorem C25_nested_interp_partial (parse : Str → Res Expr) (lines : List Str) (last : Str) (es : List Expr) (e : Expr)
    (hlines : lines.map parse = es.map .ok) (hlast : parse last = .ok e)
    (hes : ∀ e' ∈ e :: es, e'.Orderly ∧ e'.Faces ∧ stdoutName ∉ e'.reads ∧ stdoutName ∉ e'.assigned)
    (dict : List (Str × Dist)) (s' : State) (h : interpDists parse (lines ++ [last]) State.new = (.ok dict, s')) :
    ∃ d, dictGet? dict stdoutName = some d ∧ ∀ v, hasKey d.getResultMap v ↔
      ∃ env ∈ runs (es.flatMap Expr.assignments ++ e.assignments) Env.empty, v ∈ vals e.inlined env := by
  obtain ⟨d, s1, s2, h1, h2, h3, _⟩ := interpDists_last parse hlast h
  obtain ⟨tr, h4⟩ := (distLines_ok parse lines State.new s1).mp h1
  have hs := session_nested h4 Session.new hlines (fun e' he' => (hes e' (by simp [he'])).1)
  rw [List.nil_append] at hs
  obtain ⟨k1, k2, k3, k4⟩ := hes e (by simp)
  refine ⟨d, h3, (C25_nested_partial _ e ?_ k1 k2 k3 k4 s1 s2 hs d h2).2⟩
  intro l hl
  obtain ⟨e', he', hl'⟩ := List.mem_flatMap.mp hl
  obtain ⟨_, m2, m3, m4⟩ := hes e' (by simp [he'])
  exact assignments_straight e' m2 m3 m4 l hl'

end

/-! ### Refutations and examples -/

/-- Rolling divides from right to left, distributions from left to right: after `VAR x = 2`, `(VAR x = 4) // x` rolls 2 and is
    reported to be 1; without a value for `x` before, rolling raises `KeyError` and the report is 1. -/
theorem C46_order_counterexample : ∃ R : PyRuntime,
    rolled ["VAR x = 2".toList, "(VAR x = 4) // x".toList] 2 = 1 ∧ reported ["VAR x = 2".toList, "(VAR x = 4) // x".toList] 1 = some 1 ∧
    (@interpRoll R parse ["(VAR x = 4) // x".toList] State.new).prob (fun r => decide (raised r.1 = some .key)) = 1 ∧
    reported ["(VAR x = 4) // x".toList] 1 = some 1 := ⟨listRuntime, by decide +kernel⟩

/-- A program with an assignment inside an expression, a reassignment and a use of `stdout`: `x` is 3 at the end in 2 of 8 ways. -/
example : let lines := ["VAR x = d2".toList, "(VAR x = d4) + x".toList, "stdout - x".toList]
    ∃ es : List Expr, lines.map parse = es.map .ok ∧ (∀ e ∈ es, e.Loaded) ∧ SoundLines es Env.empty ∧ (lineOuts es Env.empty).length = 8 ∧
      (lineOuts es Env.empty).countP (fun o => match o with
        | some env => env ['x'] == some 3 && env stdoutName == some 3 | none => false) = 2 := by
  refine ⟨[.assign ['x'] (.dice ⟨['d', '2'], ones [1, 2], 1⟩),
    .add (.paren (.assign ['x'] (.dice ⟨['d', '4'], ones [1, 2, 3, 4], 1⟩))) (.getVar ['x']),
    .sub (.getVar stdoutName) (.getVar ['x'])], by decide +kernel, ?_, ?_, by decide +kernel, by decide +kernel⟩
  · intro e he
    simp only [List.mem_cons, List.not_mem_nil, or_false] at he
    rcases he with rfl | rfl | rfl
    · exact ⟨by decide, by decide⟩
    · exact ⟨⟨by decide, by decide⟩, trivial⟩
    · exact ⟨trivial, trivial⟩
  · simp [SoundLines, SoundAt]

/-- An orderly expression with assignments inside, and what it is computed as. -/
example : ∃ e, parse "(VAR x = d6) - x + (VAR y = x * 2)".toList = .ok e ∧ e.Orderly ∧ e.Faces ∧
    e.assignments = [(['x'], .dice ⟨['d', '6'], ones [1, 2, 3, 4, 5, 6], 1⟩), (['y'], .mul (.getVar ['x']) (.constInt ['2']))] ∧
    parse "(d6) - x + (x * 2)".toList = .ok e.inlined := by
  refine ⟨_, rfl, ⟨⟨⟨trivial, ?_⟩, trivial, ?_⟩, ⟨⟨trivial, trivial, ?_⟩, ?_⟩, ?_⟩, ⟨⟨⟨?_, ?_⟩, trivial⟩, trivial, trivial⟩, ?_, ?_⟩ <;> decide +kernel

end PyDice
