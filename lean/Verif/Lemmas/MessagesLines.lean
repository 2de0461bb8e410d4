import Verif.Lemmas.MessagesRoll
import Verif.Props.C60
/-!
# Texts of exceptions: programs
-/

namespace PyDice
open PyRuntime LexSpec ParseSpec

theorem parseX_ok {text : Str} {e : Expr} : parseX text = .ok e ↔ parse text = .ok e := by
  rw [C60_same_text]
  unfold parseX
  rcases parseText text with (m | err) | e'
  · simp [Except.mapError]
  · simp [Except.mapError]
  · simp [Except.mapError]

theorem parseX_cls (text : Str) : parse text = (parseX text).mapError Exc.cls := by
  rw [C60_same_text]
  unfold parseX
  rcases parseText text with (m | err) | e' <;> rfl

theorem parseX_error {text : Str} {x : Exc} (h : parseX text = .error x) : x.cls = .value := by
  have h1 := parseX_cls text
  rw [h] at h1
  rcases C38_text_rejects text with ⟨e, he⟩ | he
  · rw [he] at h1; cases h1
  · rw [he] at h1; exact (Except.error.inj h1).symm

section
variable [R : PyRuntime]

theorem EvalX.assoc {α β γ : Type} (m : EvalX α) (f : α → EvalX β) (g : β → EvalX γ) :
    (m >>= f) >>= g = m >>= fun a => f a >>= g := by
  funext s
  show EvalX.bind (EvalX.bind m f) g s = EvalX.bind m (fun a => EvalX.bind (f a) g) s
  unfold EvalX.bind
  rcases m s with ⟨r, s'⟩
  cases r <;> rfl

theorem RollX.assoc {α β γ : Type} (m : RollX α) (f : α → RollX β) (g : β → RollX γ) :
    (m >>= f) >>= g = m >>= fun a => f a >>= g := by
  funext s
  show Rand.bind (Rand.bind (m s) _) _ = Rand.bind (m s) _
  rw [Rand.bind_assoc]
  congr 1
  funext x
  obtain ⟨r, s'⟩ := x
  cases r <;> rfl

/-- Where a program stops: after some lines, in a line that is read as `e`. -/
def StopsAt (lines : List Str) (es : List Expr) (e : Expr) : Prop :=
  ∃ pre l post, lines = pre ++ l :: post ∧ pre.map parse = es.map .ok ∧ parse l = .ok e

/-- The lines as read. -/
def ReadAs (lines : List Str) (es : List Expr) : Prop := lines.map parse = es.map .ok

/-- What a loop over lines does. -/
def LinesTrack {α : Type} (steps : Expr → List Step) (out : List Step) (lines : List Str) (s : State) (r : Except Exc α) (s' : State) :
    Prop :=
  (∀ a, r = .ok a → ∃ es, ReadAs lines es ∧ firstMissing s.has (linesSteps steps out es) = none ∧
    s'.has = filled s.has (linesSteps steps out es)) ∧
  (∀ t, r = .error (.own .key t) → ∃ es e p, StopsAt lines es e ∧
    firstMissing s.has (linesSteps steps out es ++ steps e) = some p ∧ t = some p.complaint) ∧
  r ≠ .error (.other .key)

theorem linesTrack_cons {α : Type} {steps : Expr → List Step} {out : List Step} {l : Str} {ls : List Str} {e : Expr} {s s1 s' : State}
    {r : Except Exc α} (hl : parse l = .ok e) (hm : firstMissing s.has (steps e ++ out) = none) (hf : s1.has = filled s.has (steps e ++ out))
    (h : LinesTrack steps out ls s1 r s') : LinesTrack steps out (l :: ls) s r s' := by
  obtain ⟨h1, h2, h3⟩ := h
  refine ⟨?_, ?_, h3⟩
  · intro a ha
    obtain ⟨es, h4, h5, h6⟩ := h1 a ha
    refine ⟨e :: es, ?_, ?_, ?_⟩
    · unfold ReadAs at h4 ⊢; rw [List.map_cons, List.map_cons, hl, h4]
    · unfold linesSteps at h5 ⊢; rw [List.flatMap_cons, firstMissing_append, hm, ← hf, h5]; rfl
    · unfold linesSteps at h6 ⊢; rw [List.flatMap_cons, filled_append, ← hf, h6]
  · intro t ht
    obtain ⟨es, e', p, ⟨pre, l', post, rfl, h4, h5⟩, h6, h7⟩ := h2 t ht
    refine ⟨e :: es, e', p, ⟨l :: pre, l', post, rfl, ?_, h5⟩, ?_, h7⟩
    · rw [List.map_cons, List.map_cons, hl, h4]
    · unfold linesSteps at h6 ⊢
      rw [List.flatMap_cons, List.append_assoc, firstMissing_append, hm, ← hf, h6]; rfl

theorem linesTrack_stop {α : Type} {steps : Expr → List Step} {out : List Step} {l : Str} {ls : List Str} {e : Expr} {s s' : State} {x : Exc}
    (hl : parse l = .ok e) (ho : ∀ has, firstMissing has out = none)
    (h1 : ∀ t, (Except.error x : Except Exc α) = .error (.own .key t) → ∃ p, firstMissing s.has (steps e ++ out) = some p ∧ t = some p.complaint)
    (h2 : (Except.error x : Except Exc α) ≠ .error (.other .key)) : LinesTrack steps out (l :: ls) s (.error x : Except Exc α) s' := by
  refine ⟨nofun, ?_, h2⟩
  intro t ht
  obtain ⟨p, h3, h4⟩ := h1 t ht
  rw [firstMissing_append, ho, Option.or_none] at h3
  exact ⟨[], e, p, ⟨[], l, ls, rfl, rfl, hl⟩, h3, h4⟩

theorem linesTrack_parse {α : Type} {steps : Expr → List Step} {out : List Step} {lines : List Str} {s s' : State} {x : Exc}
    (hx : x.cls = .value) : LinesTrack steps out lines s (.error x : Except Exc α) s' := by
  refine ⟨nofun, ?_, ?_⟩
  · intro t ht; cases ht; cases hx
  · intro ht; cases ht; cases hx

theorem linesTrack_of {α β γ : Type} {steps : Expr → List Step} {out : List Step} {F : List Str → β → EvalX γ} {step : Expr → EvalX α}
    {next : β → α → β} (hnil : ∀ b, Tracks (F [] b) [])
    (hcons : ∀ l ls b, F (l :: ls) b = EvalX.ofParse (parseX l) >>= fun e => step e >>= fun a => F ls (next b a))
    (hs : ∀ e, Tracks (step e) (steps e ++ out)) (ho : ∀ has, firstMissing has out = none) :
    ∀ lines b s r s', F lines b s = (r, s') → LinesTrack steps out lines s r s' := by
  intro lines
  induction lines with
  | nil =>
    intro b s r s' h
    obtain ⟨h1, h2, h3⟩ := hnil b s r s' h
    refine ⟨fun a ha => ⟨[], rfl, (h1 a ha).1, (h1 a ha).2⟩, ?_, h3⟩
    intro t ht
    obtain ⟨p, h4, _⟩ := h2 t ht
    cases h4
  | cons l ls ih =>
    intro b s r s' h
    rw [hcons] at h
    have h : EvalX.bind (EvalX.ofParse (parseX l)) _ s = (r, s') := h
    unfold EvalX.bind EvalX.ofParse at h
    cases hp : parseX l with
    | error x =>
      rw [hp] at h
      cases h
      exact linesTrack_parse (parseX_error hp)
    | ok e =>
      rw [hp] at h
      have h : EvalX.bind (step e) _ s = (r, s') := h
      unfold EvalX.bind at h
      rcases hm : step e s with ⟨r1, s1⟩
      obtain ⟨h1, h2, h3⟩ := hs e s r1 s1 hm
      rw [hm] at h
      cases r1 with
      | error x =>
        cases h
        exact linesTrack_stop (parseX_ok.mp hp) ho (fun t ht => by cases ht; exact h2 t rfl) (fun ht => by cases ht; exact h3 rfl)
      | ok a => exact linesTrack_cons (parseX_ok.mp hp) (h1 a rfl).1 (h1 a rfl).2 (ih _ s1 r s' h)

/-- Storing under `stdout`. -/
def storeVar (d : Dist) : EvalX Unit := fun s => (.ok (), { s with var := dictSet s.var stdoutName d })

/-- Storing under `stdout`. -/
def storeConst (v : Int) : EvalX Unit := fun s => (.ok (), { s with constants := dictSet s.constants stdoutName v })

theorem storeVar_tracks (d : Dist) : Tracks (storeVar d) [.fill (.var stdoutName)] := by
  intro s r s' h
  cases h
  refine ⟨fun _ _ => ⟨rfl, ?_⟩, nofun, nofun⟩
  funext q
  cases q with
  | var n => simp [filled, State.has, isSome_dictSet]
  | const n => simp [filled, State.has]

theorem storeConst_tracks (v : Int) : Tracks (storeConst v) [.fill (.const stdoutName)] := by
  intro s r s' h
  cases h
  refine ⟨fun _ _ => ⟨rfl, ?_⟩, nofun, nofun⟩
  funext q
  cases q with
  | const n => simp [filled, State.has, isSome_dictSet]
  | var n => simp [filled, State.has]

theorem distLinesX_tracks (lines : List Str) (s : State) (r : Except Exc Unit) (s' : State) (h : distLinesX lines s = (r, s')) :
    LinesTrack Expr.distSteps [.fill (.var stdoutName)] lines s r s' := by
  refine linesTrack_of (F := fun ls (_ : Unit) => distLinesX ls) (step := fun e => e.distX >>= storeVar) (next := fun _ _ => ())
    (fun _ => .pure _) ?_ (fun e => (distX_tracks e).bind storeVar_tracks) (fun _ => rfl) lines () s r s' h
  intro l ls _
  simp only [EvalX.assoc]
  rfl

theorem extremeLinesX_tracks (isMax : Bool) (lines : List Str) (s : State) (r : Except Exc Unit) (s' : State)
    (h : extremeLinesX isMax lines s = (r, s')) : LinesTrack Expr.extremeSteps [.fill (.const stdoutName)] lines s r s' := by
  refine linesTrack_of (F := fun ls (_ : Unit) => extremeLinesX isMax ls) (step := fun e => e.extremeX isMax >>= storeConst)
    (next := fun _ _ => ()) (fun _ => .pure _) ?_ (fun e => (extremeX_tracks isMax e).bind storeConst_tracks) (fun _ => rfl) lines () s r s' h
  intro l ls _
  simp only [EvalX.assoc]
  rfl

theorem costLinesX_tracks (lines : List Str) (s : State) (r : Except Exc Int) (s' : State) (h : interpCostX lines s = (r, s')) :
    LinesTrack Expr.costSteps [] lines s r s' := by
  refine linesTrack_of (F := costLinesX) (step := fun e => e.costX) (next := fun b a => b + a)
    (fun _ => .pure _) ?_ (fun e => by rw [List.append_nil]; exact costX_tracks e) (fun _ => rfl) lines 0 s r s' h
  intro l ls _
  rfl

theorem lastDistX_tracks (lines : List Str) (s : State) (r : Except Exc Dist) (s' : State) (h : interpHistogramDistX lines s = (r, s')) :
    LinesTrack Expr.distSteps [] lines s r s' := by
  refine linesTrack_of (F := lastDistX) (step := fun e => e.distX) (next := fun _ d => d)
    (fun _ => .pure _) ?_ (fun e => by rw [List.append_nil]; exact distX_tracks e) (fun _ => rfl) lines (mkDist []) s r s' h
  intro l ls _
  rfl

theorem rollLinesX_tracks : ∀ (lines : List Str) (s : State) (r : Except Exc Unit) (s' : State), Rand.Possible (r, s') (rollLinesX lines s) →
    LinesTrack Expr.rollSteps [.fill (.const stdoutName)] lines s r s' := by
  intro lines
  induction lines with
  | nil =>
    intro s r s' h
    cases Rand.possible_pure.mp h
    exact ⟨fun a ha => ⟨[], rfl, rfl, rfl⟩, nofun, nofun⟩
  | cons l ls ih =>
    intro s r s' h
    have hstep : ∀ e : Expr, RollTracks (e.rollX >>= fun v => RollX.ofEval (storeConst v)) (e.rollSteps ++ [.fill (.const stdoutName)]) :=
      fun e => (rollX_tracks e).bind fun v => .ofEval (storeConst_tracks v)
    have heq : rollLinesX (l :: ls) = RollX.ofEval (EvalX.ofParse (parseX l)) >>= fun e =>
        (e.rollX >>= fun v => RollX.ofEval (storeConst v)) >>= fun _ => rollLinesX ls := by
      simp only [RollX.assoc]
      rfl
    rw [heq] at h
    obtain ⟨⟨r0, s0⟩, h0, h⟩ := Rand.possible_bind.mp h
    have h0 : (r0, s0) = (parseX l, s) := Rand.possible_pure.mp h0
    obtain ⟨rfl, rfl⟩ := Prod.mk.inj h0
    cases hp : parseX l with
    | error x =>
      rw [hp] at h
      cases Rand.possible_pure.mp h
      exact linesTrack_parse (parseX_error hp)
    | ok e =>
      rw [hp] at h
      have h : Rand.Possible (r, s') (RollX.bind (e.rollX >>= fun v => RollX.ofEval (storeConst v)) (fun _ => rollLinesX ls) s0) := h
      unfold RollX.bind at h
      obtain ⟨⟨r1, s1⟩, hm, h⟩ := Rand.possible_bind.mp h
      obtain ⟨h1, h2, h3⟩ := hstep e s0 r1 s1 hm
      cases r1 with
      | error x =>
        cases Rand.possible_pure.mp h
        exact linesTrack_stop (parseX_ok.mp hp) (fun _ => rfl) (fun t ht => by cases ht; exact h2 t rfl) (fun ht => by cases ht; exact h3 rfl)
      | ok a => exact linesTrack_cons (parseX_ok.mp hp) (h1 a rfl).1 (h1 a rfl).2 (ih s1 r s' h)

/-! ### Forgetting the texts -/

theorem Erases.ofParse (l : Str) : Erases (EvalX.ofParse (parseX l)) (EvalM.ofRes (parse l)) := by
  intro s
  show (parse l, s) = ((parseX l).mapError Exc.cls, s)
  rw [parseX_cls]

theorem Erases.of {α : Type} {m : EvalX α} {m' : EvalM α} (f : State → α × State) (h : ∀ s, m s = (.ok (f s).1, (f s).2))
    (h' : ∀ s, m' s = (.ok (f s).1, (f s).2)) : Erases m m' := by
  intro s
  rw [h, h']
  rfl

theorem distLinesX_erases (lines : List Str) : Erases (distLinesX lines) (distLines parse lines) := by
  induction lines with
  | nil => exact .pure _
  | cons l ls ih =>
    intro s
    have h1 : Erases (EvalX.ofParse (parseX l) >>= fun e => e.distX >>= storeVar) (distLine parse l) :=
      (Erases.ofParse l).bind fun e => (distX_erases e).bind fun d =>
        Erases.of (fun s => ((), { s with var := dictSet s.var stdoutName d })) (fun _ => rfl) (fun _ => rfl)
    have heq : distLinesX (l :: ls) = (EvalX.ofParse (parseX l) >>= fun e => e.distX >>= storeVar) >>= fun _ => distLinesX ls := by
      simp only [EvalX.assoc]
      rfl
    rw [heq]
    exact (h1.bind fun _ => ih) s

theorem interpDistsX_erases (lines : List Str) : Erases (interpDistsX lines) (interpDists parse lines) :=
  (distLinesX_erases lines).bind fun _ => .of (fun s => (if lines = [] then [] else s.var, s)) (fun _ => rfl) (fun _ => rfl)

theorem extremeLinesX_erases (isMax : Bool) (lines : List Str) : Erases (extremeLinesX isMax lines) (extremeLines parse isMax lines) := by
  induction lines with
  | nil => exact .pure _
  | cons l ls ih =>
    intro s
    have h1 : Erases (EvalX.ofParse (parseX l) >>= fun e => e.extremeX isMax >>= storeConst) (extremeLine parse isMax l) :=
      (Erases.ofParse l).bind fun e => (extremeX_erases isMax e).bind fun v =>
        Erases.of (fun s => ((), { s with constants := dictSet s.constants stdoutName v })) (fun _ => rfl) (fun _ => rfl)
    have heq : extremeLinesX isMax (l :: ls) =
        (EvalX.ofParse (parseX l) >>= fun e => e.extremeX isMax >>= storeConst) >>= fun _ => extremeLinesX isMax ls := by
      simp only [EvalX.assoc]
      rfl
    rw [heq]
    exact (h1.bind fun _ => ih) s

theorem interpExtremeX_erases (isMax : Bool) (lines : List Str) : Erases (interpExtremeX isMax lines) (interpExtreme parse isMax lines) :=
  (extremeLinesX_erases isMax lines).bind fun _ => .of (fun s => (constantsReturned lines s, s)) (fun _ => rfl) (fun _ => rfl)

theorem costLinesX_erases (lines : List Str) : ∀ total, Erases (costLinesX lines total) (costLines parse lines total) := by
  induction lines with
  | nil => intro total; exact .pure _
  | cons l ls ih => intro total; exact (Erases.ofParse l).bind fun e => (costX_erases e).bind fun c => ih (total + c)

theorem lastDistX_erases (lines : List Str) : ∀ d, Erases (lastDistX lines d) (lastDist parse lines d) := by
  induction lines with
  | nil => intro d; exact .pure _
  | cons l ls ih => intro _; exact (Erases.ofParse l).bind fun e => (distX_erases e).bind fun d => ih d

theorem RollErases.of {α : Type} {m : RollX α} {m' : RollM α} (f : State → α × State) (h : ∀ s, m s = .pure (.ok (f s).1, (f s).2))
    (h' : ∀ s, m' s = .pure (.ok (f s).1, (f s).2)) : RollErases m m' := by
  intro s
  rw [h, h']
  rfl

theorem rollLinesX_erases (lines : List Str) : RollErases (rollLinesX lines) (rollLines parse lines) := by
  induction lines with
  | nil => exact .pure _
  | cons l ls ih =>
    intro s
    have h1 : RollErases (RollX.ofEval (EvalX.ofParse (parseX l)) >>= fun e => e.rollX >>= fun v => RollX.ofEval (storeConst v))
        (rollLine parse l) :=
      (RollErases.ofEval (.ofParse l)).bind fun e => (rollX_erases e).bind fun v =>
        RollErases.of (fun s => ((), { s with constants := dictSet s.constants stdoutName v })) (fun _ => rfl) (fun _ => rfl)
    have heq : rollLinesX (l :: ls) = (RollX.ofEval (EvalX.ofParse (parseX l)) >>= fun e =>
        e.rollX >>= fun v => RollX.ofEval (storeConst v)) >>= fun _ => rollLinesX ls := by
      simp only [RollX.assoc]
      rfl
    rw [heq]
    exact (h1.bind fun _ => ih) s

theorem interpRollX_erases (lines : List Str) : RollErases (interpRollX lines) (interpRoll parse lines) :=
  (rollLinesX_erases lines).bind fun _ => .of (fun s => (constantsReturned lines s, s)) (fun _ => rfl) (fun _ => rfl)

/-! ### Own exceptions of programs -/

/-- What own exceptions but `KeyError` say: the message about a line that cannot be read, or the complaint about a divisor. -/
def LineComplaint (lines : List Str) (divs : Expr → List (Expr × Expr)) (c : Err) (t : Option Str) (s' : State) : Prop :=
  (c = .value ∧ ∃ l ∈ lines, ∃ m, parseText l = .error (.message m) ∧ t = some m) ∨
  (∃ l ∈ lines, ∃ e, parse l = .ok e ∧ DivComplaint (divs e) c t s')

theorem LineComplaint.cons {l : Str} {ls : List Str} {divs : Expr → List (Expr × Expr)} {c : Err} {t : Option Str} {s' : State}
    (h : LineComplaint ls divs c t s') : LineComplaint (l :: ls) divs c t s' := by
  rcases h with ⟨h1, l', h2, h3⟩ | ⟨l', h2, h3⟩
  · exact .inl ⟨h1, l', List.mem_cons_of_mem _ h2, h3⟩
  · exact .inr ⟨l', List.mem_cons_of_mem _ h2, h3⟩

theorem Owns.parse {β : Type} {P : Err → Option Str → State → Prop} {l : Str} {f : Expr → EvalX β}
    (hp : ∀ m s, parseText l = .error (.message m) → P .value (some m) s) (hf : ∀ e, PyDice.parse l = .ok e → Owns (f e) P) :
    Owns (EvalX.ofParse (parseX l) >>= f) P := by
  intro s s' c t h
  have h : EvalX.bind (EvalX.ofParse (parseX l)) f s = _ := h
  unfold EvalX.bind EvalX.ofParse at h
  cases hx : parseX l with
  | error x =>
    rw [hx] at h
    cases h
    unfold parseX at hx
    split at hx
    · cases hx
    · rename_i m hm
      cases hx
      exact .inr (hp m _ hm)
    · cases hx
  | ok e =>
    rw [hx] at h
    exact hf e (parseX_ok.mp hx) s s' c t h

theorem distLinesX_owns (lines : List Str) : Owns (distLinesX lines) (LineComplaint lines fun _ => []) := by
  induction lines with
  | nil => exact .pure _
  | cons l ls ih =>
    refine Owns.parse (fun m s hm => .inl ⟨rfl, l, List.mem_cons_self, m, hm, rfl⟩) fun e he => (distX_owns e _).bind fun d => ?_
    refine Owns.bind (m := storeVar d) ?_ fun _ => ih.mono fun c t s h => h.cons
    intro s s' c t h; cases h

theorem extremeLinesX_owns (isMax : Bool) (lines : List Str) :
    Owns (extremeLinesX isMax lines) (LineComplaint lines Expr.outerDivs) := by
  induction lines with
  | nil => exact .pure _
  | cons l ls ih =>
    refine Owns.parse (fun m s hm => .inl ⟨rfl, l, List.mem_cons_self, m, hm, rfl⟩) fun e he =>
      ((extremeX_owns isMax e).mono fun c t s h => .inr ⟨l, List.mem_cons_self, e, he, h⟩).bind fun d => ?_
    refine Owns.bind (m := storeConst d) ?_ fun _ => ih.mono fun c t s h => h.cons
    intro s s' c t h; cases h

end

end PyDice
