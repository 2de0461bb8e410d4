import Verif.Lemmas.MessagesLines
import Verif.Props.C40
import Verif.Props.C43
/-!
# C61: what the texts of exceptions say is so; C40 for all parts
-/

namespace PyDice
open PyRuntime LexSpec ParseSpec

/-! ### Printing -/

/-- C40 for parts: every part of a parsed expression is printed as a text that is read as that part. -/
theorem C40_every_part (text : Str) (e : Expr) (h : parse text = .ok e) (d : Expr) (hd : d ∈ e.parts) : parse d.str = .ok d := by
  obtain ⟨ts, hl, hv, hg⟩ := (C38_text text e).mp h
  obtain ⟨h1, h2⟩ := parts_spelt e (derives_spelt hv (lexed_wellSpelt hl)) hg d hd
  obtain ⟨us, hus, hl'⟩ := reads_expr h1 [] [] (by simp [WordNext]) (.inl rfl) [] (.done (by simp [Blank]))
  rw [List.append_nil, List.append_nil] at hl'
  exact (C38_text _ d).mpr ⟨us, hl', hus, h2⟩

/-- The text of a `KeyError` says what is missing: different places have different texts. -/
theorem C61_text_names (p q : Slot) (h : p.complaint = q.complaint) : p = q := by
  have strip : ∀ (a b x y : Str), a ++ x ++ b = a ++ y ++ b → x = y := by
    intro a b x y h
    rw [List.append_assoc, List.append_assoc] at h
    exact List.append_cancel_right (List.append_cancel_left h)
  have head : p.complaint.head? = q.complaint.head? := by rw [h]
  cases p with
  | var x =>
    cases q with
    | var y => rw [strip "Var named ".toList " not in state.".toList x y h]
    | const y => exact absurd (Option.some.inj head) (by decide : 'V' ≠ 'C')
  | const x =>
    cases q with
    | var y => exact absurd (Option.some.inj head) (by decide : 'C' ≠ 'V')
    | const y => rw [strip "Constant named ".toList " not in state.".toList x y h]

section
variable [R : PyRuntime]

/-! ### The model with texts is the model -/

/-- Without the texts it is the model of `Verif/Expr.lean`: the same values, classes and states. -/
theorem C61_same (e : Expr) (isMax : Bool) (s : State) :
    e.dist s = ((e.distX s).1.mapError Exc.cls, (e.distX s).2) ∧
    e.extreme isMax s = ((e.extremeX isMax s).1.mapError Exc.cls, (e.extremeX isMax s).2) ∧
    e.cost s = ((e.costX s).1.mapError Exc.cls, (e.costX s).2) ∧
    e.roll s = Rand.bind (e.rollX s) fun x => .pure (x.1.mapError Exc.cls, x.2) :=
  ⟨distX_erases e s, extremeX_erases isMax e s, costX_erases e s, rollX_erases e s⟩

/-- The same for the interpreter with the default parser. -/
theorem C61_same_interp (lines : List Str) (isMax : Bool) (s : State) :
    interpDists parse lines s = ((interpDistsX lines s).1.mapError Exc.cls, (interpDistsX lines s).2) ∧
    interpHistogramDist parse lines s = ((interpHistogramDistX lines s).1.mapError Exc.cls, (interpHistogramDistX lines s).2) ∧
    interpExtreme parse isMax lines s = ((interpExtremeX isMax lines s).1.mapError Exc.cls, (interpExtremeX isMax lines s).2) ∧
    interpCost parse lines s = ((interpCostX lines s).1.mapError Exc.cls, (interpCostX lines s).2) ∧
    interpRoll parse lines s = Rand.bind (interpRollX lines s) fun x => .pure (x.1.mapError Exc.cls, x.2) :=
  ⟨interpDistsX_erases lines s, lastDistX_erases lines _ s, interpExtremeX_erases isMax lines s, costLinesX_erases lines _ s,
    interpRollX_erases lines s⟩

/-! ### `KeyError`: single expressions -/

/-- C61 for `get_probability_distribution`: a `KeyError` names the first variable that is looked at while it has no distribution. -/
theorem C61_dist (e : Expr) (s s' : State) (x : Exc) (h : e.distX s = (.error x, s')) (hx : x.cls = .key) :
    ∃ p, firstMissing s.has e.distSteps = some p ∧ x = .own .key (some p.complaint) := by
  obtain ⟨_, h1, h2⟩ := distX_tracks e s _ s' h
  cases x with
  | own c t => cases hx; obtain ⟨p, h3, rfl⟩ := h1 t rfl; exact ⟨p, h3, rfl⟩
  | other c => cases hx; exact (h2 rfl).elim

/-- C61 for `max` and `min`. -/
theorem C61_extreme (e : Expr) (isMax : Bool) (s s' : State) (x : Exc) (h : e.extremeX isMax s = (.error x, s')) (hx : x.cls = .key) :
    ∃ p, firstMissing s.has e.extremeSteps = some p ∧ x = .own .key (some p.complaint) := by
  obtain ⟨_, h1, h2⟩ := extremeX_tracks isMax e s _ s' h
  cases x with
  | own c t => cases hx; obtain ⟨p, h3, rfl⟩ := h1 t rfl; exact ⟨p, h3, rfl⟩
  | other c => cases hx; exact (h2 rfl).elim

/-- C61 for `estimated_cost`. -/
theorem C61_cost (e : Expr) (s s' : State) (x : Exc) (h : e.costX s = (.error x, s')) (hx : x.cls = .key) :
    ∃ p, firstMissing s.has e.costSteps = some p ∧ x = .own .key (some p.complaint) := by
  obtain ⟨_, h1, h2⟩ := costX_tracks e s _ s' h
  cases x with
  | own c t => cases hx; obtain ⟨p, h3, rfl⟩ := h1 t rfl; exact ⟨p, h3, rfl⟩
  | other c => cases hx; exact (h2 rfl).elim

/-- C61 for `roll`, whatever is drawn. -/
theorem C61_roll (e : Expr) (s s' : State) (x : Exc) (h : Rand.Possible (.error x, s') (e.rollX s)) (hx : x.cls = .key) :
    ∃ p, firstMissing s.has e.rollSteps = some p ∧ x = .own .key (some p.complaint) := by
  obtain ⟨_, h1, h2⟩ := rollX_tracks e s _ s' h
  cases x with
  | own c t => cases hx; obtain ⟨p, h3, rfl⟩ := h1 t rfl; exact ⟨p, h3, rfl⟩
  | other c => cases hx; exact (h2 rfl).elim

/-- Conversely nothing is computed when something is missing, and after success everything assigned is there. -/
theorem C61_nothing_missing (e : Expr) (isMax : Bool) (s s' : State) :
    (∀ d, e.dist s = (.ok d, s') → firstMissing s.has e.distSteps = none ∧ s'.has = filled s.has e.distSteps) ∧
    (∀ v, e.extreme isMax s = (.ok v, s') → firstMissing s.has e.extremeSteps = none ∧ s'.has = filled s.has e.extremeSteps) ∧
    (∀ v, e.cost s = (.ok v, s') → firstMissing s.has e.costSteps = none ∧ s'.has = filled s.has e.costSteps) ∧
    (∀ v, Rand.Possible (.ok v, s') (e.roll s) → firstMissing s.has e.rollSteps = none ∧ s'.has = filled s.has e.rollSteps) := by
  have back : ∀ {α : Type} {m : EvalX α} {m' : EvalM α} {a : α}, Erases m m' → m' s = (.ok a, s') → m s = (.ok a, s') := by
    intro α m m' a he h
    have := he s
    rw [h] at this
    rcases hx : m s with ⟨r, s1⟩
    rw [hx] at this
    cases r with
    | error x => cases this
    | ok b => cases this; rfl
  refine ⟨fun d h => ?_, fun d h => ?_, fun d h => ?_, fun d h => ?_⟩
  · exact (distX_tracks e s _ s' (back (distX_erases e) h)).1 _ rfl
  · exact (extremeX_tracks isMax e s _ s' (back (extremeX_erases isMax e) h)).1 _ rfl
  · exact (costX_tracks e s _ s' (back (costX_erases e) h)).1 _ rfl
  · rw [rollX_erases e s] at h
    obtain ⟨⟨r, s1⟩, h1, h2⟩ := Rand.possible_bind.mp h
    have h2 := Rand.possible_pure.mp h2
    cases r with
    | error x => cases h2
    | ok v =>
      have h3 : s' = s1 := (Prod.ext_iff.mp h2).2
      subst h3
      exact (rollX_tracks e s _ s' h1).1 _ rfl

/-- Without a division the distribution is refused exactly when something is missing, and the text names it. -/
theorem C61_dist_exact (parser : Str → Res Expr) (s : State) (hs : Reachable parser s) (e : Expr) (hn : e.Numeric) (hb : e.Built)
    (hd : ¬ e.HasDiv) (p : Slot) :
    firstMissing s.has e.distSteps = some p ↔ ∃ s', e.distX s = (.error (.own .key (some p.complaint)), s') := by
  constructor
  · intro hp
    rcases h : e.distX s with ⟨r, s'⟩
    cases r with
    | ok d => rw [((distX_tracks e s _ s' h).1 d rfl).1] at hp; cases hp
    | error x =>
      have h1 := distX_erases e s
      rw [h] at h1
      have h2 := C43_dist parser s s' hs e hn hb x.cls h1
      have hx : x.cls = .key := by
        cases hc : x.cls <;> rw [hc] at h2 <;> first | rfl | exact (hd h2).elim | exact h2.elim
      obtain ⟨q, h3, rfl⟩ := C61_dist e s s' x h hx
      rw [hp] at h3
      cases h3
      exact ⟨s', rfl⟩
  · rintro ⟨s', h⟩
    obtain ⟨q, h1, h2⟩ := C61_dist e s s' _ h rfl
    rw [h1, C61_text_names p q (Option.some.inj (Exc.own.inj h2).2)]

/-! ### `KeyError`: programs -/

/-- C61 for `get_probability_distributions`: the lines before some line were read and run, and the name in the `KeyError` is the first
    that is looked at without a distribution on the way through those lines and that line; every finished line has set `stdout`. -/
theorem C61_dists (lines : List Str) (s s' : State) (x : Exc) (h : interpDistsX lines s = (.error x, s')) (hx : x.cls = .key) :
    ∃ pre l post es e p, lines = pre ++ l :: post ∧ pre.map parse = es.map .ok ∧ parse l = .ok e ∧
      firstMissing s.has (linesSteps Expr.distSteps [.fill (.var stdoutName)] es ++ e.distSteps) = some p ∧
      x = .own .key (some p.complaint) := by
  have h : EvalX.bind (distLinesX lines) _ s = _ := h
  unfold EvalX.bind at h
  rcases hm : distLinesX lines s with ⟨r, s1⟩
  rw [hm] at h
  cases r with
  | ok u => cases h
  | error y =>
    cases h
    obtain ⟨_, h1, h2⟩ := distLinesX_tracks lines s _ s' hm
    cases x with
    | own c t => cases hx; obtain ⟨es, e, p, ⟨pre, l, post, h3, h4, h5⟩, h6, rfl⟩ := h1 t rfl; exact ⟨pre, l, post, es, e, p, h3, h4, h5, h6, rfl⟩
    | other c => cases hx; exact (h2 rfl).elim

/-- A readable program without divisions is refused exactly when something is missing on the way, and the text names the first such thing. -/
theorem C61_dists_exact (lines : List Str) (es : List Expr) (hread : lines.map parse = es.map .ok) (hd : ∀ e ∈ es, ¬ e.HasDiv) (s : State)
    (hs : Reachable parse s) (p : Slot) :
    firstMissing s.has (linesSteps Expr.distSteps [.fill (.var stdoutName)] es) = some p ↔
      ∃ s', interpDistsX lines s = (.error (.own .key (some p.complaint)), s') := by
  have whole : ∀ (x : Exc) (s' : State), interpDistsX lines s = (.error x, s') → x.cls = .key → ∃ q,
      firstMissing s.has (linesSteps Expr.distSteps [.fill (.var stdoutName)] es) = some q ∧ x = .own .key (some q.complaint) := by
    intro x s' h hx
    obtain ⟨pre, l, post, fs, e, q, rfl, h1, h2, h3, h4⟩ := C61_dists lines s s' x h hx
    refine ⟨q, ?_, h4⟩
    rw [List.map_append, List.map_cons, h1, h2] at hread
    obtain ⟨as, bs, rfl, h5, h6⟩ := List.map_eq_append_iff.mp hread.symm
    obtain ⟨b, cs, rfl, h7, h8⟩ := List.map_eq_cons_iff.mp h6
    cases h7
    have hinj : as = fs := List.map_injective_iff.mpr (fun _ _ h => Except.ok.inj h) h5
    subst hinj
    have : linesSteps Expr.distSteps [.fill (.var stdoutName)] (as ++ e :: cs) =
        (linesSteps Expr.distSteps [.fill (.var stdoutName)] as ++ e.distSteps) ++
          ([.fill (.var stdoutName)] ++ linesSteps Expr.distSteps [.fill (.var stdoutName)] cs) := by
      simp [linesSteps]
    rw [this, firstMissing_append, h3]
    rfl
  constructor
  · intro hp
    rcases h : interpDistsX lines s with ⟨r, s'⟩
    cases r with
    | ok d =>
      have h : EvalX.bind (distLinesX lines) _ s = _ := h
      unfold EvalX.bind at h
      rcases hm : distLinesX lines s with ⟨r, s1⟩
      rw [hm] at h
      cases r with
      | error x => cases h
      | ok u =>
        obtain ⟨fs, h1, h2, _⟩ := (distLinesX_tracks lines s _ s1 hm).1 u rfl
        have hinj : fs = es := List.map_injective_iff.mpr (fun _ _ h => Except.ok.inj h) (h1.symm.trans hread)
        rw [hinj, hp] at h2
        cases h2
    | error x =>
      have h1 := interpDistsX_erases lines s
      rw [h] at h1
      obtain ⟨pre, l, post, s1, dict, h2, _, h3⟩ := C43_dists lines s s' hs x.cls h1
      have hl : ∃ e ∈ es, parse l = .ok e := by
        have : parse l ∈ es.map .ok := by rw [← hread, h2]; simp
        obtain ⟨e, he, h4⟩ := List.mem_map.mp this
        exact ⟨e, he, h4.symm⟩
      obtain ⟨e, he, h4⟩ := hl
      have hx : x.cls = .key := by
        rcases h3 with ⟨h5, _⟩ | ⟨e', h5, h6⟩
        · rw [h4] at h5; cases h5
        · rw [h4] at h5
          cases h5
          cases hc : x.cls <;> rw [hc] at h6 <;> first | rfl | exact (hd e he h6).elim | exact h6.elim
      obtain ⟨q, h5, rfl⟩ := whole x s' h hx
      rw [hp] at h5
      cases h5
      exact ⟨s', rfl⟩
  · rintro ⟨s', h⟩
    obtain ⟨q, h1, h2⟩ := whole _ s' h rfl
    rw [h1, C61_text_names p q (Option.some.inj (Exc.own.inj h2).2)]

/-- C61 for the histogram methods (which do not set `stdout`). -/
theorem C61_histogram (lines : List Str) (s s' : State) (x : Exc) (h : interpHistogramDistX lines s = (.error x, s')) (hx : x.cls = .key) :
    ∃ pre l post es e p, lines = pre ++ l :: post ∧ pre.map parse = es.map .ok ∧ parse l = .ok e ∧
      firstMissing s.has (linesSteps Expr.distSteps [] es ++ e.distSteps) = some p ∧ x = .own .key (some p.complaint) := by
  obtain ⟨_, h1, h2⟩ := lastDistX_tracks lines s _ s' h
  cases x with
  | own c t => cases hx; obtain ⟨es, e, p, ⟨pre, l, post, h3, h4, h5⟩, h6, rfl⟩ := h1 t rfl; exact ⟨pre, l, post, es, e, p, h3, h4, h5, h6, rfl⟩
  | other c => cases hx; exact (h2 rfl).elim

/-- C61 for `max` and `min`. -/
theorem C61_extremes (isMax : Bool) (lines : List Str) (s s' : State) (x : Exc) (h : interpExtremeX isMax lines s = (.error x, s'))
    (hx : x.cls = .key) :
    ∃ pre l post es e p, lines = pre ++ l :: post ∧ pre.map parse = es.map .ok ∧ parse l = .ok e ∧
      firstMissing s.has (linesSteps Expr.extremeSteps [.fill (.const stdoutName)] es ++ e.extremeSteps) = some p ∧
      x = .own .key (some p.complaint) := by
  have h : EvalX.bind (extremeLinesX isMax lines) _ s = _ := h
  unfold EvalX.bind at h
  rcases hm : extremeLinesX isMax lines s with ⟨r, s1⟩
  rw [hm] at h
  cases r with
  | ok u => cases h
  | error y =>
    cases h
    obtain ⟨_, h1, h2⟩ := extremeLinesX_tracks isMax lines s _ s' hm
    cases x with
    | own c t => cases hx; obtain ⟨es, e, p, ⟨pre, l, post, h3, h4, h5⟩, h6, rfl⟩ := h1 t rfl; exact ⟨pre, l, post, es, e, p, h3, h4, h5, h6, rfl⟩
    | other c => cases hx; exact (h2 rfl).elim

/-- C61 for `get_estimated_cost` (which does not set `stdout`). -/
theorem C61_costs (lines : List Str) (s s' : State) (x : Exc) (h : interpCostX lines s = (.error x, s')) (hx : x.cls = .key) :
    ∃ pre l post es e p, lines = pre ++ l :: post ∧ pre.map parse = es.map .ok ∧ parse l = .ok e ∧
      firstMissing s.has (linesSteps Expr.costSteps [] es ++ e.costSteps) = some p ∧ x = .own .key (some p.complaint) := by
  obtain ⟨_, h1, h2⟩ := costLinesX_tracks lines s _ s' h
  cases x with
  | own c t => cases hx; obtain ⟨es, e, p, ⟨pre, l, post, h3, h4, h5⟩, h6, rfl⟩ := h1 t rfl; exact ⟨pre, l, post, es, e, p, h3, h4, h5, h6, rfl⟩
  | other c => cases hx; exact (h2 rfl).elim

/-- C61 for `roll`, whatever is drawn. -/
theorem C61_rolls (lines : List Str) (s s' : State) (x : Exc) (h : Rand.Possible (.error x, s') (interpRollX lines s)) (hx : x.cls = .key) :
    ∃ pre l post es e p, lines = pre ++ l :: post ∧ pre.map parse = es.map .ok ∧ parse l = .ok e ∧
      firstMissing s.has (linesSteps Expr.rollSteps [.fill (.const stdoutName)] es ++ e.rollSteps) = some p ∧
      x = .own .key (some p.complaint) := by
  obtain ⟨⟨r, s1⟩, hm, h⟩ := Rand.possible_bind.mp h
  cases r with
  | ok u => cases Rand.possible_pure.mp h
  | error y =>
    cases Rand.possible_pure.mp h
    obtain ⟨_, h1, h2⟩ := rollLinesX_tracks lines s _ s' hm
    cases x with
    | own c t => cases hx; obtain ⟨es, e, p, ⟨pre, l, post, h3, h4, h5⟩, h6, rfl⟩ := h1 t rfl; exact ⟨pre, l, post, es, e, p, h3, h4, h5, h6, rfl⟩
    | other c => cases hx; exact (h2 rfl).elim

/-! ### `ZeroDivisionError` -/

/-- C61 for divisions: the only other text of `max` and `min` of a readable program names a division of the program, in a form that is
    read as that division, and its divisor could be zero just then. -/
theorem C61_divisor (isMax : Bool) (lines : List Str) (s s' : State) (c : Err) (t : Option Str)
    (h : interpExtremeX isMax lines s = (.error (.own c t), s')) :
    c = .key ∨ (c = .value ∧ ∃ l ∈ lines, ∃ m, parseText l = .error (.message m) ∧ t = some m) ∨
      (c = .zeroDivision ∧ ∃ l ∈ lines, ∃ e a b, parse l = .ok e ∧ (a, b) ∈ e.outerDivs ∧ .div a b ∈ e.parts ∧
        t = some ((Expr.div a b).str ++ ", divisor could be zero".toList) ∧ parse (Expr.div a b).str = .ok (.div a b) ∧
        ∃ s1 d, b.dist s1 = (.ok d, s') ∧ ∃ p ∈ d.resultMap, p.1.value = 0) := by
  have h : EvalX.bind (extremeLinesX isMax lines) _ s = _ := h
  unfold EvalX.bind at h
  rcases hm : extremeLinesX isMax lines s with ⟨r, s1⟩
  rw [hm] at h
  cases r with
  | ok u => cases h
  | error y =>
    cases h
    rcases extremeLinesX_owns isMax lines s s' c t hm with h1 | h1 | ⟨l, h2, e, h3, h4, ⟨a, b⟩, h5, h6, h7⟩
    · exact .inl h1
    · exact .inr (.inl h1)
    · have h8 := outerDivs_parts e (a, b) h5
      exact .inr (.inr ⟨h4, l, h2, e, a, b, h3, h5, h8, h6, C40_every_part l e h3 _ h8, h7⟩)

/-- The distribution methods raise no other exceptions with a text of their own than `KeyError` and the parser's. -/
theorem C61_dists_own (lines : List Str) (s s' : State) (c : Err) (t : Option Str)
    (h : interpDistsX lines s = (.error (.own c t), s')) :
    c = .key ∨ (c = .value ∧ ∃ l ∈ lines, ∃ m, parseText l = .error (.message m) ∧ t = some m) := by
  have h : EvalX.bind (distLinesX lines) _ s = _ := h
  unfold EvalX.bind at h
  rcases hm : distLinesX lines s with ⟨r, s1⟩
  rw [hm] at h
  cases r with
  | ok u => cases h
  | error y =>
    cases h
    rcases distLinesX_owns lines s s' c t hm with h1 | h1 | ⟨l, h2, e, h3, h4, q, h5, h6⟩
    · exact .inl h1
    · exact .inr h1
    · cases h5

/-- For a division itself the complaint comes exactly when the divisor has a distribution in which zero occurs. -/
theorem C61_divisor_exact (isMax : Bool) (a b : Expr) (s s' : State) :
    (∃ t, (Expr.div a b).extremeX isMax s = (.error (.own .zeroDivision t), s')) ↔
      ∃ d, b.dist s = (.ok d, s') ∧ ∃ p ∈ d.resultMap, p.1.value = 0 := by
  have hdef : (Expr.div a b).extremeX isMax s = EvalX.bind b.distX (fun divisor =>
      if divisor.containsZero then EvalX.raise (.own .zeroDivision (some (couldBeZeroText a b)))
      else viaDistX isMax (Expr.distX (.div a b))) s := rfl
  rw [hdef]
  unfold EvalX.bind
  constructor
  · rintro ⟨t, h⟩
    rcases hb : b.distX s with ⟨r, s1⟩
    rw [hb] at h
    cases r with
    | error x =>
      cases h
      rcases distX_owns b (fun _ _ _ => False) s s' _ t hb with h | h
      · cases h
      · exact h.elim
    | ok d =>
      dsimp only at h
      cases hz : d.containsZero with
      | true =>
        rw [hz] at h
        cases h
        exact ⟨d, dist_of_distX hb, (containsZero_iff d).mp hz⟩
      | false =>
        rw [hz] at h
        rcases (distX_owns (.div a b) (fun _ _ _ => False)).viaDist isMax s1 s' .zeroDivision t h with h | h
        · cases h
        · exact h.elim
  · rintro ⟨d, h1, h2⟩
    rw [distX_of_dist h1]
    dsimp only
    rw [(containsZero_iff d).mpr h2]
    exact ⟨_, rfl⟩

end

/-! ### Examples -/

/-- In `VAR a = a + b` the variable `a` is looked at first; in `(VAR a = 1) + a // b` only `b` is missing. -/
example : firstMissing (fun _ => false) (Expr.assign ['a'] (.add (.getVar ['a']) (.getVar ['b']))).distSteps = some (.var ['a']) ∧
    firstMissing (fun _ => false) (Expr.add (.paren (.assign ['a'] (.constInt ['1']))) (.div (.getVar ['a']) (.getVar ['b']))).distSteps =
      some (.var ['b']) := by decide

/-- `C61_dists_exact` for two lines: the second needs `b`. -/
example : ["VAR a = 1".toList, "a + b + stdout".toList].map parse =
      [Expr.assign ['a'] (.constInt ['1']), .add (.add (.getVar ['a']) (.getVar ['b'])) (.getVar stdoutName)].map .ok ∧
    (∀ e ∈ [Expr.assign ['a'] (.constInt ['1']), .add (.add (.getVar ['a']) (.getVar ['b'])) (.getVar stdoutName)], ¬ e.HasDiv) ∧
    firstMissing (State.has (R := listRuntime) (State.new (R := listRuntime))) (linesSteps Expr.distSteps [.fill (.var stdoutName)]
      [Expr.assign ['a'] (.constInt ['1']), .add (.add (.getVar ['a']) (.getVar ['b'])) (.getVar stdoutName)]) = some (.var ['b']) := by
  refine ⟨by decide +kernel, ?_, by decide +kernel⟩
  intro e he
  simp only [List.mem_cons, List.not_mem_nil, or_false] at he
  rcases he with rfl | rfl <;> simp [Expr.HasDiv]

/-- A roll looks at the divisor first. -/
example : firstMissing (fun _ => false) (Expr.div (.getVar ['a']) (.getVar ['b'])).rollSteps = some (.const ['b']) ∧
    firstMissing (fun _ => false) (Expr.div (.getVar ['a']) (.getVar ['b'])).distSteps = some (.var ['a']) := by decide

/-- `stdout` is there from the second line on. -/
example : firstMissing (fun _ => false) (linesSteps Expr.distSteps [.fill (.var stdoutName)] [.constInt ['1']] ++
    (Expr.add (.getVar stdoutName) (.getVar ['x'])).distSteps) = some (.var ['x']) := by decide

/-- `max` of `x` in a new interpreter. -/
example : ((Expr.getVar ['x']).extremeX (R := listRuntime) true (State.new (R := listRuntime))).1 =
    .error (.own .key (some "Constant named x not in state.".toList)) := by decide +kernel

/-- `max` of `ABS(x)` goes through the distribution. -/
example : ((Expr.abs (.getVar ['x'])).extremeX (R := listRuntime) true (State.new (R := listRuntime))).1 =
    .error (.own .key (some "Var named x not in state.".toList)) := by decide +kernel

/-- `min` of `(1 // d[0,1])` names the division; below another operator it is CPython that complains, without naming anything. -/
example : ((Expr.paren (.div (.constInt ['1']) (.dice ⟨"d[0,1]".toList, ones [0, 1], 1⟩))).extremeX (R := listRuntime) false
      (State.new (R := listRuntime))).1 = .error (.own .zeroDivision (some "1 // d[0,1], divisor could be zero".toList)) ∧
    ((Expr.abs (.div (.constInt ['1']) (.dice ⟨"d[0,1]".toList, ones [0, 1], 1⟩))).extremeX (R := listRuntime) false
      (State.new (R := listRuntime))).1 = .error (.other .zeroDivision) := by decide +kernel

end PyDice
