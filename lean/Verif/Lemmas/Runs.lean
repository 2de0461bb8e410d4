import Verif.Spec.Interp
import Verif.Lemmas.Frame
/-!
# Runs of programs
-/

namespace PyDice
open PyRuntime

section
variable [R : PyRuntime]

/-! ### From the interpreter's loops to traces -/

theorem rollBind_assoc {α β γ : Type} (m : RollM α) (f : α → RollM β) (g : β → RollM γ) :
    (m >>= f) >>= g = m >>= fun a => f a >>= g := by
  funext s
  rw [rollBind, rollBind, rollBind, Rand.bind_assoc]
  congr 1
  funext x
  rcases x with ⟨r, s'⟩
  cases r with
  | ok a => rfl
  | error e => rfl

theorem evalBind_assoc {α β γ : Type} (m : EvalM α) (f : α → EvalM β) (g : β → EvalM γ) :
    (m >>= f) >>= g = m >>= fun a => f a >>= g := by
  funext s
  simp only [evalBind]
  rcases m s with ⟨r, s'⟩
  cases r with
  | ok a => rfl
  | error e => rfl

theorem rollPure_bind {α β : Type} (a : α) (f : α → RollM β) : (pure a >>= f : RollM β) = f a := rfl
theorem evalPure_bind {α β : Type} (a : α) (f : α → EvalM β) : (pure a >>= f : EvalM β) = f a := rfl

theorem possible_bind_ok {α β : Type} {m : RollM α} {f : α → RollM β} {s s' : State} {b : β} :
    Rand.Possible (.ok b, s') ((m >>= f) s) ↔ ∃ a s1, Rand.Possible (.ok a, s1) (m s) ∧ Rand.Possible (.ok b, s') (f a s1) := by
  rw [rollBind, Rand.possible_bind]
  constructor
  · rintro ⟨⟨r, s1⟩, h1, h2⟩
    cases r with
    | ok a => exact ⟨a, s1, h1, h2⟩
    | error e => have := Rand.possible_pure.mp h2; cases (Prod.mk.inj this).1
  · rintro ⟨a, s1, h1, h2⟩
    exact ⟨_, h1, h2⟩

theorem possible_bind_error {α β : Type} {m : RollM α} {f : α → RollM β} {s s' : State} {er : Err} :
    Rand.Possible (.error er, s') ((m >>= f) s) ↔ Rand.Possible (.error er, s') (m s) ∨
      ∃ a s1, Rand.Possible (.ok a, s1) (m s) ∧ Rand.Possible (.error er, s') (f a s1) := by
  rw [rollBind, Rand.possible_bind]
  constructor
  · rintro ⟨⟨r, s1⟩, h1, h2⟩
    cases r with
    | ok a => exact Or.inr ⟨a, s1, h1, h2⟩
    | error e =>
      have := Prod.mk.inj (Rand.possible_pure.mp h2)
      obtain ⟨h3, rfl⟩ := this
      cases h3
      exact Or.inl h1
  · rintro (h | ⟨a, s1, h1, h2⟩)
    · exact ⟨_, h, .pure⟩
    · exact ⟨_, h1, h2⟩

theorem evalBind_eq_error {α β : Type} {m : EvalM α} {f : α → EvalM β} {s s' : State} {er : Err} :
    (m >>= f) s = (.error er, s') ↔ m s = (.error er, s') ∨ ∃ a s1, m s = (.ok a, s1) ∧ f a s1 = (.error er, s') := by
  rw [evalBind]
  rcases hm : m s with ⟨r, s1⟩
  cases r with
  | ok a => simp
  | error e => simp

variable (parse : Str → Res Expr)

theorem rollLine_ok {l : Str} {s s' : State} : Rand.Possible (.ok (), s') (rollLine parse l s) ↔
    ∃ e v s1, parse l = .ok e ∧ Rand.Possible (.ok v, s1) (e.roll s) ∧ s' = s1.setStdout v := by
  unfold rollLine
  rw [possible_bind_ok]
  constructor
  · rintro ⟨e, s0, h1, h2⟩
    obtain ⟨h3, rfl⟩ := Prod.mk.inj (Rand.possible_pure.mp h1)
    obtain ⟨v, s1, h4, h5⟩ := possible_bind_ok.mp h2
    obtain ⟨_, rfl⟩ := Prod.mk.inj (Rand.possible_pure.mp h5)
    exact ⟨e, v, s1, h3.symm, h4, rfl⟩
  · rintro ⟨e, v, s1, h1, h2, rfl⟩
    refine ⟨e, s, ?_, possible_bind_ok.mpr ⟨v, s1, h2, .pure⟩⟩
    unfold RollM.ofEval EvalM.ofRes
    rw [h1]; exact .pure

theorem rollLines_ok : ∀ (lines : List Str) (s s' : State), Rand.Possible (.ok (), s') (rollLines parse lines s) ↔
    ∃ tr, LinesRun parse rollStep s lines tr s' := by
  intro lines
  induction lines with
  | nil =>
    intro s s'
    constructor
    · intro h
      obtain ⟨_, rfl⟩ := Prod.mk.inj (Rand.possible_pure.mp h)
      exact ⟨[], .nil _⟩
    · rintro ⟨tr, h⟩; cases h; exact .pure
  | cons l ls ih =>
    intro s s'
    unfold rollLines
    rw [possible_bind_ok]
    constructor
    · rintro ⟨_, s1, h1, h2⟩
      obtain ⟨e, v, s0, h3, h4, rfl⟩ := (rollLine_ok parse).mp h1
      obtain ⟨tr, h5⟩ := (ih _ _).mp h2
      exact ⟨_, .cons h3 h4 h5⟩
    · rintro ⟨tr, h⟩
      cases h with
      | cons hp hs h => exact ⟨(), _, (rollLine_ok parse).mpr ⟨_, _, _, hp, hs, rfl⟩, (ih _ _).mpr ⟨_, h⟩⟩

theorem interpRoll_ok {lines : List Str} {s s' : State} {dict : List (Str × Int)} :
    Rand.Possible (.ok dict, s') (interpRoll parse lines s) ↔
      Rand.Possible (.ok (), s') (rollLines parse lines s) ∧ dict = constantsReturned lines s' := by
  constructor
  · intro h
    obtain ⟨_, s1, h1, h2⟩ := possible_bind_ok.mp h
    obtain ⟨h3, rfl⟩ := Prod.mk.inj (Rand.possible_pure.mp h2)
    cases h3
    exact ⟨h1, rfl⟩
  · rintro ⟨h, rfl⟩
    exact possible_bind_ok.mpr ⟨(), s', h, .pure⟩

theorem extremeLine_ok {isMax : Bool} {l : Str} {s s' : State} : extremeLine parse isMax l s = (.ok (), s') ↔
    ∃ e v s1, parse l = .ok e ∧ e.extreme isMax s = (.ok v, s1) ∧ s' = s1.setStdout v := by
  unfold extremeLine
  rw [evalBind_eq_ok]
  constructor
  · rintro ⟨e, s0, h1, h2⟩
    obtain ⟨h3, rfl⟩ := Prod.mk.inj h1
    obtain ⟨v, s1, h4, h5⟩ := evalBind_eq_ok.mp h2
    obtain ⟨_, rfl⟩ := Prod.mk.inj h5
    exact ⟨e, v, s1, h3, h4, rfl⟩
  · rintro ⟨e, v, s1, h1, h2, rfl⟩
    refine ⟨e, s, ?_, evalBind_eq_ok.mpr ⟨v, s1, h2, rfl⟩⟩
    unfold EvalM.ofRes
    rw [h1]

theorem extremeLines_ok (isMax : Bool) : ∀ (lines : List Str) (s s' : State), extremeLines parse isMax lines s = (.ok (), s') ↔
    ∃ tr, LinesRun parse (extremeStep isMax) s lines tr s' := by
  intro lines
  induction lines with
  | nil =>
    intro s s'
    constructor
    · intro h
      obtain ⟨_, rfl⟩ := Prod.mk.inj h
      exact ⟨[], .nil _⟩
    · rintro ⟨tr, h⟩; cases h; rfl
  | cons l ls ih =>
    intro s s'
    unfold extremeLines
    rw [evalBind_eq_ok]
    constructor
    · rintro ⟨_, s1, h1, h2⟩
      obtain ⟨e, v, s0, h3, h4, rfl⟩ := (extremeLine_ok parse).mp h1
      obtain ⟨tr, h5⟩ := (ih _ _).mp h2
      exact ⟨_, .cons h3 h4 h5⟩
    · rintro ⟨tr, h⟩
      cases h with
      | cons hp hs h => exact ⟨(), _, (extremeLine_ok parse).mpr ⟨_, _, _, hp, hs, rfl⟩, (ih _ _).mpr ⟨_, h⟩⟩

theorem interpExtreme_ok {isMax : Bool} {lines : List Str} {s s' : State} {dict : List (Str × Int)} :
    interpExtreme parse isMax lines s = (.ok dict, s') ↔
      extremeLines parse isMax lines s = (.ok (), s') ∧ dict = constantsReturned lines s' := by
  constructor
  · intro h
    obtain ⟨_, s1, h1, h2⟩ := evalBind_eq_ok.mp h
    obtain ⟨h3, rfl⟩ := Prod.mk.inj h2
    cases h3
    exact ⟨h1, rfl⟩
  · rintro ⟨h, rfl⟩
    exact evalBind_eq_ok.mpr ⟨(), s', h, rfl⟩

theorem distLine_ok {l : Str} {s s' : State} : distLine parse l s = (.ok (), s') ↔
    ∃ e d s1, parse l = .ok e ∧ e.dist s = (.ok d, s1) ∧ s' = { s1 with var := dictSet s1.var stdoutName d } := by
  unfold distLine
  rw [evalBind_eq_ok]
  constructor
  · rintro ⟨e, s0, h1, h2⟩
    obtain ⟨h3, rfl⟩ := Prod.mk.inj h1
    obtain ⟨v, s1, h4, h5⟩ := evalBind_eq_ok.mp h2
    obtain ⟨_, rfl⟩ := Prod.mk.inj h5
    exact ⟨e, v, s1, h3, h4, rfl⟩
  · rintro ⟨e, v, s1, h1, h2, rfl⟩
    refine ⟨e, s, ?_, evalBind_eq_ok.mpr ⟨v, s1, h2, rfl⟩⟩
    unfold EvalM.ofRes
    rw [h1]

theorem distLines_ok : ∀ (lines : List Str) (s s' : State), distLines parse lines s = (.ok (), s') ↔
    ∃ tr, DistRun parse s lines tr s' := by
  intro lines
  induction lines with
  | nil =>
    intro s s'
    constructor
    · intro h
      obtain ⟨_, rfl⟩ := Prod.mk.inj h
      exact ⟨[], .nil _⟩
    · rintro ⟨tr, h⟩; cases h; rfl
  | cons l ls ih =>
    intro s s'
    unfold distLines
    rw [evalBind_eq_ok]
    constructor
    · rintro ⟨_, s1, h1, h2⟩
      obtain ⟨e, v, s0, h3, h4, rfl⟩ := (distLine_ok parse).mp h1
      obtain ⟨tr, h5⟩ := (ih _ _).mp h2
      exact ⟨_, .cons h3 h4 h5⟩
    · rintro ⟨tr, h⟩
      cases h with
      | cons hp hs h => exact ⟨(), _, (distLine_ok parse).mpr ⟨_, _, _, hp, hs, rfl⟩, (ih _ _).mpr ⟨_, h⟩⟩

/-! ### What a run reports -/

/-- The laws of a mode that the report needs. -/
structure StepLaws (step : StepRel) : Prop where
  frame : ∀ {e s v s' x}, step e s v s' → x ∉ e.assigned → dictGet? s'.constants x = dictGet? s.constants x
  assign : ∀ {x e s v s'}, step (.assign x e) s v s' → dictGet? s'.constants x = some v

theorem rollLaws : StepLaws rollStep := by
  refine ⟨fun h hx => (same_roll hx _ _ h).1, ?_⟩
  intro x e s v s' h
  unfold rollStep at h
  simp only [Expr.roll] at h
  obtain ⟨w, s1, _, h2⟩ := possible_bind_ok.mp h
  obtain ⟨h3, rfl⟩ := Prod.mk.inj (Rand.possible_pure.mp h2)
  cases h3
  simp [State.setConstant, get_set]

theorem extremeLaws (isMax : Bool) : StepLaws (extremeStep isMax) := by
  constructor
  · intro e s v s' x h hx
    have := (same_extreme hx isMax s).1
    rw [show e.extreme isMax s = (.ok v, s') from h] at this
    exact this
  · intro x e s v s' h
    unfold extremeStep at h
    simp only [Expr.extreme] at h
    obtain ⟨w, s1, _, h⟩ := evalBind_eq_ok.mp h
    obtain ⟨_, s2, h2, h⟩ := evalBind_eq_ok.mp h
    obtain ⟨d, s3, h3, h⟩ := evalBind_eq_ok.mp h
    obtain ⟨_, s4, h4, h⟩ := evalBind_eq_ok.mp h
    obtain ⟨h5, rfl⟩ := Prod.mk.inj h
    cases h5
    obtain ⟨_, rfl⟩ := Prod.mk.inj h2
    have hc := sameConstants_dist e (s1.setConstant x v)
    rw [h3] at hc
    unfold EvalM.setVar at h4
    rw [setVar_eq] at h4
    obtain ⟨_, rfl⟩ := Prod.mk.inj h4
    have hc' : s3.constants = (s1.setConstant x v).constants := hc
    change dictGet? s3.constants x = some v
    rw [hc']
    simp [State.setConstant, get_set]

omit parse in
theorem stdout_other {x : Str} (hx : x ≠ stdoutName) {s : State} {v : Int} :
    dictGet? (s.setStdout v).constants x = dictGet? s.constants x := (same_stdout hx s v).1

theorem linesRun_reports {step : StepRel} (hl : StepLaws step) {s s' : State} {lines : List Str} {tr : List (Expr × Int)}
    (h : LinesRun parse step s lines tr s') :
    (tr ≠ [] → ∃ e v, tr.getLast? = some (e, v) ∧ dictGet? s'.constants stdoutName = some v) ∧
    (∀ x, x ≠ stdoutName → ∀ pre e v post, tr = pre ++ (.assign x e, v) :: post → (∀ p ∈ post, x ∉ p.1.assigned) →
      dictGet? s'.constants x = some v) ∧
    (∀ x, x ≠ stdoutName → (∀ p ∈ tr, x ∉ p.1.assigned) → dictGet? s'.constants x = dictGet? s.constants x) := by
  induction h with
  | nil s => simp
  | @cons s s1 s2 l ls e v tr hp hs h ih =>
    obtain ⟨ih1, ih2, ih3⟩ := ih
    refine ⟨fun _ => ?_, ?_, ?_⟩
    · by_cases htr : tr = []
      · subst htr
        cases h
        exact ⟨e, v, rfl, by simp [State.setStdout, get_set]⟩
      · obtain ⟨e', v', h1, h2⟩ := ih1 htr
        exact ⟨e', v', by rw [List.getLast?_cons, h1]; rfl, h2⟩
    · intro x hx pre e' v' post heq hpost
      cases pre with
      | cons p pre =>
        obtain ⟨_, heq⟩ := List.cons.inj heq
        exact ih2 x hx pre e' v' post heq hpost
      | nil =>
        obtain ⟨h1, h2⟩ := List.cons.inj heq
        obtain ⟨rfl, rfl⟩ := Prod.mk.inj h1
        subst h2
        rw [ih3 x hx hpost, stdout_other hx]
        exact hl.assign hs
    · intro x hx hno
      rw [ih3 x hx (fun p hp => hno p (by simp [hp])), stdout_other hx]
      exact hl.frame hs (hno (e, v) (by simp))

theorem linesRun_lines {step : StepRel} {s s' : State} {lines : List Str} {tr : List (Expr × Int)}
    (h : LinesRun parse step s lines tr s') : lines.map parse = tr.map (fun p => .ok p.1) := by
  induction h with
  | nil s => rfl
  | cons hp hs h ih => simp [hp, ih]

/-! ### Splitting -/

theorem rollLines_append (p q : List Str) : rollLines parse (p ++ q) = (do rollLines parse p; rollLines parse q) := by
  induction p with
  | nil => rfl
  | cons l p ih =>
    simp only [List.cons_append, rollLines, ih]
    rw [rollBind_assoc]

theorem extremeLines_append (isMax : Bool) (p q : List Str) :
    extremeLines parse isMax (p ++ q) = (do extremeLines parse isMax p; extremeLines parse isMax q) := by
  induction p with
  | nil => rfl
  | cons l p ih =>
    simp only [List.cons_append, extremeLines, ih]
    rw [evalBind_assoc]

theorem distLines_append (p q : List Str) : distLines parse (p ++ q) = (do distLines parse p; distLines parse q) := by
  induction p with
  | nil => rfl
  | cons l p ih =>
    simp only [List.cons_append, distLines, ih]
    rw [evalBind_assoc]

theorem lastDist_append (p q : List Str) (d : Dist) :
    lastDist parse (p ++ q) d = (do let d ← lastDist parse p d; lastDist parse q d) := by
  induction p generalizing d with
  | nil => rfl
  | cons l p ih =>
    simp only [List.cons_append, lastDist]
    rw [evalBind_assoc]
    congr 1
    funext e
    rw [evalBind_assoc]
    congr 1
    funext d'
    exact ih d'

theorem lastDist_irrelevant {q : List Str} (hq : q ≠ []) (d d' : Dist) : lastDist parse q d = lastDist parse q d' := by
  cases q with
  | nil => exact absurd rfl hq
  | cons l q => rfl

theorem costLines_append (p q : List Str) (c : Int) :
    costLines parse (p ++ q) c = (do let c ← costLines parse p c; costLines parse q c) := by
  induction p generalizing c with
  | nil => rfl
  | cons l p ih =>
    simp only [List.cons_append, costLines]
    rw [evalBind_assoc]
    congr 1
    funext e
    rw [evalBind_assoc]
    congr 1
    funext d'
    exact ih _

theorem costLines_offset (q : List Str) (c : Int) : costLines parse q c = (do let x ← costLines parse q 0; return c + x) := by
  induction q generalizing c with
  | nil => funext s; simp [costLines, evalBind, evalPure]
  | cons l q ih =>
    simp only [costLines]
    rw [evalBind_assoc]
    congr 1
    funext e
    rw [evalBind_assoc]
    congr 1
    funext x
    rw [ih (c + x), ih (0 + x), evalBind_assoc]
    congr 1
    funext y s
    simp [evalBind, evalPure, add_assoc]

/-- How the calls end. -/
def rollEnd (lines : List Str) : RollM (List (Str × Int)) := fun s => .pure (.ok (constantsReturned lines s), s)
/-- How the calls end. -/
def extremeEnd (lines : List Str) : EvalM (List (Str × Int)) := fun s => (.ok (constantsReturned lines s), s)
/-- How the calls end. -/
def distEnd (lines : List Str) : EvalM (List (Str × Dist)) := fun s => (.ok (if lines = [] then [] else s.var), s)

theorem interpRoll_eq (lines : List Str) : interpRoll parse lines = (do rollLines parse lines; rollEnd lines) := rfl
theorem interpExtreme_eq (isMax : Bool) (lines : List Str) :
    interpExtreme parse isMax lines = (do extremeLines parse isMax lines; extremeEnd lines) := rfl
theorem interpDists_eq (lines : List Str) : interpDists parse lines = (do distLines parse lines; distEnd lines) := rfl

theorem rollEnd_bind {β : Type} (l : List Str) (g : RollM β) : (rollEnd l >>= fun _ => g) = g := rfl
theorem extremeEnd_bind {β : Type} (l : List Str) (g : EvalM β) : (extremeEnd l >>= fun _ => g) = g := rfl
theorem distEnd_bind {β : Type} (l : List Str) (g : EvalM β) : (distEnd l >>= fun _ => g) = g := rfl

theorem rollEnd_append (p : List Str) {q : List Str} (hq : q ≠ []) : rollEnd (p ++ q) = rollEnd q := by
  funext s; simp [rollEnd, constantsReturned, hq]
theorem extremeEnd_append (p : List Str) {q : List Str} (hq : q ≠ []) : extremeEnd (p ++ q) = extremeEnd q := by
  funext s; simp [extremeEnd, constantsReturned, hq]
theorem distEnd_append (p : List Str) {q : List Str} (hq : q ≠ []) : distEnd (p ++ q) = distEnd q := by
  funext s; simp [distEnd, hq]

/-! ### Failure -/

theorem rollLines_error : ∀ (lines : List Str) (s s' : State) (er : Err), Rand.Possible (.error er, s') (rollLines parse lines s) →
    ∃ pre l post s1, lines = pre ++ l :: post ∧ Rand.Possible (.ok (), s1) (rollLines parse pre s) ∧
      Rand.Possible (.error er, s') (rollLine parse l s1) := by
  intro lines
  induction lines with
  | nil => intro s s' er h; cases (Prod.mk.inj (Rand.possible_pure.mp h)).1
  | cons l ls ih =>
    intro s s' er h
    unfold rollLines at h
    rcases possible_bind_error.mp h with h | ⟨_, s1, h1, h2⟩
    · exact ⟨[], l, ls, s, rfl, .pure, h⟩
    · obtain ⟨pre, l', post, s2, rfl, h3, h4⟩ := ih _ _ _ h2
      exact ⟨l :: pre, l', post, s2, rfl, possible_bind_ok.mpr ⟨(), s1, h1, h3⟩, h4⟩

theorem rollLine_error {l : Str} {s s' : State} {er : Err} (h : Rand.Possible (.error er, s') (rollLine parse l s)) :
    (parse l = .error er ∧ s' = s) ∨ ∃ e, parse l = .ok e ∧ Rand.Possible (.error er, s') (e.roll s) := by
  unfold rollLine at h
  rcases possible_bind_error.mp h with h | ⟨e, s1, h1, h2⟩
  · obtain ⟨h1, rfl⟩ := Prod.mk.inj (Rand.possible_pure.mp h)
    exact Or.inl ⟨h1.symm, rfl⟩
  · obtain ⟨h3, rfl⟩ := Prod.mk.inj (Rand.possible_pure.mp h1)
    rcases possible_bind_error.mp h2 with h | ⟨v, s2, _, h4⟩
    · exact Or.inr ⟨e, h3.symm, h⟩
    · cases (Prod.mk.inj (Rand.possible_pure.mp h4)).1

theorem extremeLines_error (isMax : Bool) : ∀ (lines : List Str) (s s' : State) (er : Err),
    extremeLines parse isMax lines s = (.error er, s') →
    ∃ pre l post s1, lines = pre ++ l :: post ∧ extremeLines parse isMax pre s = (.ok (), s1) ∧
      extremeLine parse isMax l s1 = (.error er, s') := by
  intro lines
  induction lines with
  | nil => intro s s' er h; cases (Prod.mk.inj h).1
  | cons l ls ih =>
    intro s s' er h
    unfold extremeLines at h
    rcases evalBind_eq_error.mp h with h | ⟨_, s1, h1, h2⟩
    · exact ⟨[], l, ls, s, rfl, rfl, h⟩
    · obtain ⟨pre, l', post, s2, rfl, h3, h4⟩ := ih _ _ _ h2
      exact ⟨l :: pre, l', post, s2, rfl, evalBind_eq_ok.mpr ⟨(), s1, h1, h3⟩, h4⟩

theorem extremeLine_error {isMax : Bool} {l : Str} {s s' : State} {er : Err} (h : extremeLine parse isMax l s = (.error er, s')) :
    (parse l = .error er ∧ s' = s) ∨ ∃ e, parse l = .ok e ∧ e.extreme isMax s = (.error er, s') := by
  unfold extremeLine at h
  rcases evalBind_eq_error.mp h with h | ⟨e, s1, h1, h2⟩
  · obtain ⟨h1, rfl⟩ := Prod.mk.inj h
    exact Or.inl ⟨h1, rfl⟩
  · obtain ⟨h3, rfl⟩ := Prod.mk.inj h1
    rcases evalBind_eq_error.mp h2 with h | ⟨v, s2, _, h4⟩
    · exact Or.inr ⟨e, h3, h⟩
    · cases (Prod.mk.inj h4).1

theorem distLines_error : ∀ (lines : List Str) (s s' : State) (er : Err), distLines parse lines s = (.error er, s') →
    ∃ pre l post s1, lines = pre ++ l :: post ∧ distLines parse pre s = (.ok (), s1) ∧ distLine parse l s1 = (.error er, s') := by
  intro lines
  induction lines with
  | nil => intro s s' er h; cases (Prod.mk.inj h).1
  | cons l ls ih =>
    intro s s' er h
    unfold distLines at h
    rcases evalBind_eq_error.mp h with h | ⟨_, s1, h1, h2⟩
    · exact ⟨[], l, ls, s, rfl, rfl, h⟩
    · obtain ⟨pre, l', post, s2, rfl, h3, h4⟩ := ih _ _ _ h2
      exact ⟨l :: pre, l', post, s2, rfl, evalBind_eq_ok.mpr ⟨(), s1, h1, h3⟩, h4⟩

theorem distLine_error {l : Str} {s s' : State} {er : Err} (h : distLine parse l s = (.error er, s')) :
    (parse l = .error er ∧ s' = s) ∨ ∃ e, parse l = .ok e ∧ e.dist s = (.error er, s') := by
  unfold distLine at h
  rcases evalBind_eq_error.mp h with h | ⟨e, s1, h1, h2⟩
  · obtain ⟨h1, rfl⟩ := Prod.mk.inj h
    exact Or.inl ⟨h1, rfl⟩
  · obtain ⟨h3, rfl⟩ := Prod.mk.inj h1
    rcases evalBind_eq_error.mp h2 with h | ⟨v, s2, _, h4⟩
    · exact Or.inr ⟨e, h3, h⟩
    · cases (Prod.mk.inj h4).1

theorem lastDist_error : ∀ (lines : List Str) (d : Dist) (s s' : State) (er : Err), lastDist parse lines d s = (.error er, s') →
    ∃ pre l post s1 d1, lines = pre ++ l :: post ∧ lastDist parse pre d s = (.ok d1, s1) ∧
      ((parse l = .error er ∧ s' = s1) ∨ ∃ e, parse l = .ok e ∧ e.dist s1 = (.error er, s')) := by
  intro lines
  induction lines with
  | nil => intro d s s' er h; cases (Prod.mk.inj h).1
  | cons l ls ih =>
    intro d s s' er h
    unfold lastDist at h
    rcases evalBind_eq_error.mp h with h | ⟨e, s1, h1, h2⟩
    · obtain ⟨h1, rfl⟩ := Prod.mk.inj h
      exact ⟨[], l, ls, s, d, rfl, rfl, Or.inl ⟨h1, rfl⟩⟩
    · obtain ⟨h3, rfl⟩ := Prod.mk.inj h1
      rcases evalBind_eq_error.mp h2 with h | ⟨d', s2, h4, h5⟩
      · exact ⟨[], l, ls, s, d, rfl, rfl, Or.inr ⟨e, h3, h⟩⟩
      · obtain ⟨pre, l', post, s3, d1, rfl, h6, h7⟩ := ih _ _ _ _ h5
        refine ⟨l :: pre, l', post, s3, d1, rfl, ?_, h7⟩
        unfold lastDist
        exact evalBind_eq_ok.mpr ⟨e, s, h1, evalBind_eq_ok.mpr ⟨d', s2, h4, h6⟩⟩

theorem costLines_error : ∀ (lines : List Str) (c : Int) (s s' : State) (er : Err), costLines parse lines c s = (.error er, s') →
    ∃ pre l post s1 c1, lines = pre ++ l :: post ∧ costLines parse pre c s = (.ok c1, s1) ∧
      ((parse l = .error er ∧ s' = s1) ∨ ∃ e, parse l = .ok e ∧ e.cost s1 = (.error er, s')) := by
  intro lines
  induction lines with
  | nil => intro d s s' er h; cases (Prod.mk.inj h).1
  | cons l ls ih =>
    intro d s s' er h
    unfold costLines at h
    rcases evalBind_eq_error.mp h with h | ⟨e, s1, h1, h2⟩
    · obtain ⟨h1, rfl⟩ := Prod.mk.inj h
      exact ⟨[], l, ls, s, d, rfl, rfl, Or.inl ⟨h1, rfl⟩⟩
    · obtain ⟨h3, rfl⟩ := Prod.mk.inj h1
      rcases evalBind_eq_error.mp h2 with h | ⟨d', s2, h4, h5⟩
      · exact ⟨[], l, ls, s, d, rfl, rfl, Or.inr ⟨e, h3, h⟩⟩
      · obtain ⟨pre, l', post, s3, d1, rfl, h6, h7⟩ := ih _ _ _ _ h5
        refine ⟨l :: pre, l', post, s3, d1, rfl, ?_, h7⟩
        unfold costLines
        exact evalBind_eq_ok.mpr ⟨e, s, h1, evalBind_eq_ok.mpr ⟨d', s2, h4, h6⟩⟩

theorem paired_extremeLines (isMax : Bool) : ∀ (lines : List Str) (s s' : State),
    (∀ l ∈ lines, ∀ e, parse l = .ok e → e.TopAssign) → Paired s → extremeLines parse isMax lines s = (.ok (), s') → Paired s' := by
  intro lines
  induction lines with
  | nil => intro s s' _ hs h; obtain ⟨_, rfl⟩ := Prod.mk.inj h; exact hs
  | cons l ls ih =>
    intro s s' ht hs h
    unfold extremeLines at h
    obtain ⟨_, s1, h1, h2⟩ := evalBind_eq_ok.mp h
    refine ih s1 s' (fun l' hl' => ht l' (by simp [hl'])) ?_ h2
    obtain ⟨e, v, s0, h3, h4, rfl⟩ := (extremeLine_ok parse).mp h1
    have h5 : Paired s0 := by
      rcases topAssign_cases (ht l (by simp) e h3) with hn | ⟨x, e', rfl, hn⟩
      · have := noAssign_extreme hn isMax s
        rw [h4] at this
        obtain rfl : s0 = s := this
        exact hs
      · simp only [Expr.extreme] at h4
        obtain ⟨w, t1, k1, h⟩ := evalBind_eq_ok.mp h4
        obtain ⟨_, t2, k2, h⟩ := evalBind_eq_ok.mp h
        obtain ⟨d, t3, k3, h⟩ := evalBind_eq_ok.mp h
        obtain ⟨_, t4, k4, h⟩ := evalBind_eq_ok.mp h
        obtain ⟨_, rfl⟩ := Prod.mk.inj h
        obtain ⟨_, rfl⟩ := Prod.mk.inj k2
        have k1' := noAssign_extreme hn isMax s
        rw [k1] at k1'
        obtain rfl : t1 = s := k1'
        have k3' := noAssign_dist hn (t1.setConstant x w)
        rw [k3] at k3'
        obtain rfl : t3 = t1.setConstant x w := k3'
        have : t4 = ((t1.setConstant x w).setVar x d).2 := by
          unfold EvalM.setVar at k4; rw [k4]
        rw [this]
        exact paired_setBoth hs x w d
    intro n hn ⟨w, hw⟩
    exact h5 n hn ⟨w, by rw [← stdout_other hn (v := v)]; exact hw⟩

end

end PyDice
