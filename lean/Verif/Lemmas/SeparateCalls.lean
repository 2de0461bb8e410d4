import Verif.Lemmas.Separate
import Verif.Lemmas.Figures
import Verif.Lemmas.Draws
import Verif.Lemmas.Naming
/-!
# Calls that do not look at some names
-/

namespace PyDice
open PyRuntime

theorem expect_const {α : Type} {W D : Nat} {r : Rand α} (h : r.Draws W D) (c : ℚ) : r.expect (fun _ => c) = c := by
  induction h with
  | pure D a => rfl
  | draw D n k hn _ _ ih =>
    simp only [Rand.expect]
    rw [List.map_congr_left (g := fun _ => c) fun t ht => ih t (List.mem_range.mp ht)]
    have : (n : ℚ) ≠ 0 := by exact_mod_cast hn.ne'
    simp [this]

theorem draws_possible {α : Type} {W D : Nat} {r : Rand α} (h : r.Draws W D) : ∃ a, Rand.Possible a r := by
  induction h with
  | pure D a => exact ⟨a, .pure⟩
  | draw D n k hn _ _ ih => obtain ⟨a, ha⟩ := ih 0 hn; exact ⟨a, .draw 0 hn ha⟩

theorem weights_mono {W W' : Nat} (hW : W ≤ W') : ∀ e : Expr, e.WeightsWithin W → e.WeightsWithin W' := by
  intro e
  induction e with
  | paren e ih => exact ih
  | not e ih => exact ih
  | abs e ih => exact ih
  | assign x e ih => exact ih
  | dropKeep t =>
    unfold Expr.WeightsWithin
    cases t.simplified with
    | dice d => exact fun h => h.trans hW
    | zero => exact id
    | none => exact fun h => h.trans hW
  | dice t => exact fun h => Nat.le_trans h hW
  | constInt t => exact id
  | constBin t => exact id
  | getVar n => exact id
  | add a b iha ihb => exact fun h => ⟨iha h.1, ihb h.2⟩
  | sub a b iha ihb => exact fun h => ⟨iha h.1, ihb h.2⟩
  | mul a b iha ihb => exact fun h => ⟨iha h.1, ihb h.2⟩
  | div a b iha ihb => exact fun h => ⟨iha h.1, ihb h.2⟩
  | bin op a b iha ihb => exact fun h => ⟨iha h.1, ihb h.2⟩
  | minmax k a b iha ihb => exact fun h => ⟨iha h.1, ihb h.2⟩

theorem weights_exist : ∀ e : Expr, ∃ W, e.WeightsWithin W := by
  have two : ∀ a b : Expr, (∃ W, a.WeightsWithin W) → (∃ W, b.WeightsWithin W) → ∃ W, a.WeightsWithin W ∧ b.WeightsWithin W := by
    rintro a b ⟨V, ha⟩ ⟨W, hb⟩
    exact ⟨max V W, weights_mono (le_max_left _ _) a ha, weights_mono (le_max_right _ _) b hb⟩
  intro e
  induction e with
  | paren e ih => exact ih
  | not e ih => exact ih
  | abs e ih => exact ih
  | assign x e ih => exact ih
  | dropKeep t =>
    unfold Expr.WeightsWithin
    cases t.simplified with
    | dice d => exact ⟨_, le_rfl⟩
    | zero => exact ⟨0, trivial⟩
    | none => exact ⟨_, le_rfl⟩
  | dice t => exact ⟨_, Nat.le_refl _⟩
  | constInt t => exact ⟨0, trivial⟩
  | constBin t => exact ⟨0, trivial⟩
  | getVar n => exact ⟨0, trivial⟩
  | add a b iha ihb => exact two a b iha ihb
  | sub a b iha ihb => exact two a b iha ihb
  | mul a b iha ihb => exact two a b iha ihb
  | div a b iha ihb => exact two a b iha ihb
  | bin op a b iha ihb => exact two a b iha ihb
  | minmax k a b iha ihb => exact two a b iha ihb

/-! ### Dicts of figures -/

theorem mapValues_lookup {α β : Type} {f : α → Res β} : ∀ {d : List (Str × α)}, (∀ p ∈ d, ∃ y, f p.2 = .ok y) →
    ∃ m, mapValues f d = .ok m ∧ ∀ n, dictGet? m n = (dictGet? d n).bind fun x => (f x).toOption
  | [], _ => ⟨[], rfl, fun _ => rfl⟩
  | p :: d, h => by
    obtain ⟨y, hy⟩ := h p (List.mem_cons_self ..)
    obtain ⟨m, hm, hg⟩ := mapValues_lookup (f := f) (d := d) fun q hq => h q (List.mem_cons_of_mem _ hq)
    refine ⟨(p.1, y) :: m, ?_, fun n => ?_⟩
    · unfold mapValues at hm ⊢
      rw [List.mapM_cons, hy, hm]
      rfl
    · simp only [dictGet?]
      split
      · simp [hy, Except.toOption]
      · exact hg n

theorem mem_of_lookup {α : Type} : ∀ {d : List (Str × α)} {n : Str} {x : α}, dictGet? d n = some x → (n, x) ∈ d
  | [], n, x, h => by cases h
  | p :: d, n, x, h => by
    simp only [dictGet?, beq_iff_eq] at h
    split at h
    · next hp => cases h; cases hp; exact List.mem_cons_self ..
    · exact List.mem_cons_of_mem _ (mem_of_lookup h)

theorem mapValues_ok_of {α β : Type} {f : α → Res β} {Y : Set Str} {d d' : List (Str × α)} {m : List (Str × β)}
    (hd' : (d'.map Prod.fst).Nodup) (h : SameOutside Y d d')
    (hf' : ∀ n ∈ Y, ∀ x, dictGet? d' n = some x → ∃ y, f x = .ok y) (hm : mapValues f d = .ok m) :
    ∀ p ∈ d', ∃ y, f p.2 = .ok y := by
  intro p hp
  have hg := get_of_mem hd' hp
  by_cases hn : p.1 ∈ Y
  · exact hf' _ hn _ hg
  · rw [← h _ hn] at hg
    exact mapValues_ok_mem hm _ (mem_of_lookup hg)

theorem mapValues_outside {α β : Type} {f : α → Res β} {Y : Set Str} {d d' : List (Str × α)} (hd : (d.map Prod.fst).Nodup)
    (hd' : (d'.map Prod.fst).Nodup) (h : SameOutside Y d d') (hf : ∀ n ∈ Y, ∀ x, dictGet? d n = some x → ∃ y, f x = .ok y)
    (hf' : ∀ n ∈ Y, ∀ x, dictGet? d' n = some x → ∃ y, f x = .ok y) :
    (∃ m m', mapValues f d = .ok m ∧ mapValues f d' = .ok m' ∧ SameOutside Y m m') ∨
      ∃ e e', mapValues f d = .error e ∧ mapValues f d' = .error e' := by
  cases hm : mapValues f d with
  | ok m =>
    obtain ⟨m1, h1, g1⟩ := mapValues_lookup fun p hp => mapValues_ok_mem hm p hp
    obtain ⟨m2, h2, g2⟩ := mapValues_lookup (mapValues_ok_of hd' h hf' hm)
    rw [hm] at h1
    cases h1
    refine Or.inl ⟨m, m2, rfl, h2, fun n hn => ?_⟩
    rw [g1, g2, h n hn]
  | error e =>
    cases hm' : mapValues f d' with
    | error e' => exact Or.inr ⟨e, e', rfl, rfl⟩
    | ok m' =>
      obtain ⟨m1, h1, _⟩ := mapValues_lookup (mapValues_ok_of hd h.symm hf hm')
      rw [hm] at h1
      cases h1

theorem sameOutside_map {α β : Type} {Y : Set Str} {d d' : List (Str × α)} (h : SameOutside Y d d') (f : α → β) :
    SameOutside Y (d.map fun p => (p.1, f p.2)) (d'.map fun p => (p.1, f p.2)) := by
  have hg : ∀ (d : List (Str × α)) (n : Str), dictGet? (d.map fun p => (p.1, f p.2)) n = (dictGet? d n).map f := by
    intro d n
    induction d with
    | nil => rfl
    | cons p d ih =>
      simp only [List.map_cons, dictGet?]
      split
      · rfl
      · exact ih
  intro n hn
  rw [hg, hg, h n hn]

section
variable [R : PyRuntime] (parse : Str → Res Expr)

/-! ### Calls as lines followed by a report -/

/-- What a call does with one line. -/
def Call.step : Call → Str → RollM Unit
  | .roll _, l => rollLine parse l
  | .extreme k _, l => RollM.ofEval (extremeLine parse k l)
  | .dists _, l => RollM.ofEval (distLine parse l)
  | .dictForms _, l => RollM.ofEval (distLine parse l)
  | .averages _, l => RollM.ofEval (distLine parse l)
  | .histogram _, l => RollM.ofEval (do let e ← EvalM.ofRes (parse l); let _ ← e.dist; pure ())
  | .cost _, l => RollM.ofEval (do let e ← EvalM.ofRes (parse l); let _ ← e.cost; pure ())

/-- What it does with all lines. -/
def Call.steps (c : Call) : List Str → RollM Unit
  | [] => pure ()
  | l :: ls => do c.step parse l; Call.steps c ls

/-- What it answers when a line raises. -/
def Call.raise (e : Err) : Call → Answer
  | .roll _ => .ints (.error e)
  | .extreme _ _ => .ints (.error e)
  | .dists _ => .dists (.error e)
  | .dictForms _ => .dictForms (.error e)
  | .averages _ => .averages (.error e)
  | .histogram _ => .drawn (.error e)
  | .cost _ => .cost (.error e)

variable {parse}

/-- What happens after some lines. -/
def afterLines {α : Type} (c : Call) (k : State → Rand (Answer × α)) (w : State → α) (x : Res Unit × State) : Rand (Answer × α) :=
  match x.1 with
  | .error e => .pure (c.raise e, w x.2)
  | .ok _ => k x.2

theorem interpRoll_cons (l : Str) {post : List Str} (hp : post ≠ []) :
    interpRoll parse (l :: post) = (do rollLine parse l; interpRoll parse post) := by
  have h : (fun (_ : Unit) (s : State) => (Rand.pure (.ok (constantsReturned (l :: post) s), s) : Rand (Res (List (Str × Int)) × State))) =
      fun _ s => Rand.pure (.ok (constantsReturned post s), s) := by
    funext _ s
    simp [constantsReturned, hp]
  show ((rollLine parse l >>= fun _ => rollLines parse post) >>= (fun (_ : Unit) (s : State) => (Rand.pure (.ok (constantsReturned (l :: post) s), s) : Rand (Res (List (Str × Int)) × State))) : RollM _) = _
  rw [h]
  exact rollBind_assoc _ _ _

theorem interpExtreme_cons (k : Bool) (l : Str) {post : List Str} (hp : post ≠ []) :
    interpExtreme parse k (l :: post) = (do extremeLine parse k l; interpExtreme parse k post) := by
  have h : (fun (_ : Unit) (s : State) => ((.ok (constantsReturned (l :: post) s), s) : Res (List (Str × Int)) × State)) =
      fun _ s => (.ok (constantsReturned post s), s) := by
    funext _ s
    simp [constantsReturned, hp]
  show ((extremeLine parse k l >>= fun _ => extremeLines parse k post) >>= (fun (_ : Unit) (s : State) => ((.ok (constantsReturned (l :: post) s), s) : Res (List (Str × Int)) × State)) : EvalM _) = _
  rw [h]
  exact evalBind_assoc _ _ _

theorem interpDists_cons (l : Str) {post : List Str} (hp : post ≠ []) :
    interpDists parse (l :: post) = (do distLine parse l; interpDists parse post) := by
  have h : (fun (_ : Unit) (s : State) => ((.ok (if l :: post = [] then [] else s.var), s) : Res (List (Str × Dist)) × State)) =
      fun _ s => (.ok (if post = [] then [] else s.var), s) := by
    funext _ s
    simp [hp]
  show ((distLine parse l >>= fun _ => distLines parse post) >>= (fun (_ : Unit) (s : State) => ((.ok (if l :: post = [] then [] else s.var), s) : Res (List (Str × Dist)) × State)) : EvalM _) = _
  rw [h]
  exact evalBind_assoc _ _ _

theorem runCall_cons {c : Call} (hc : ¬ c.IsCost) (l : Str) {post : List Str} (hp : post ≠ []) (s : State) :
    runCall parse (c.withLines (l :: post)) s =
      Rand.bind (c.step parse l s) (afterLines c (fun t => runCall parse (c.withLines post) t) id) := by
  cases c with
  | roll ls =>
    simp only [Call.withLines, runCall, Call.step, interpRoll_cons l hp]
    refine (Rand.bind_assoc _ _ _).trans ?_
    congr 1
    funext x
    rcases x with ⟨x | x, t⟩ <;> rfl
  | extreme k ls =>
    simp only [Call.withLines, runCall, Call.step, interpExtreme_cons k l hp]
    show _ = afterLines _ _ _ (extremeLine parse k l s)
    rw [evalBind]
    rcases extremeLine parse k l s with ⟨x | x, t⟩ <;> rfl
  | dists ls =>
    simp only [Call.withLines, runCall, Call.step, interpDists_cons l hp]
    show _ = afterLines _ _ _ (distLine parse l s)
    rw [evalBind]
    rcases distLine parse l s with ⟨x | x, t⟩ <;> rfl
  | dictForms ls =>
    simp only [Call.withLines, runCall, Call.step, interpDictFormsF, interpDists_cons l hp]
    rw [evalBind_assoc]
    show _ = afterLines _ _ _ (distLine parse l s)
    rw [evalBind]
    rcases distLine parse l s with ⟨x | x, t⟩ <;> rfl
  | averages ls =>
    simp only [Call.withLines, runCall, Call.step, interpAveragesF, interpDists_cons l hp]
    rw [evalBind_assoc]
    show _ = afterLines _ _ _ (distLine parse l s)
    rw [evalBind]
    rcases distLine parse l s with ⟨x | x, t⟩ <;> rfl
  | histogram ls =>
    simp only [Call.withLines, runCall, Call.step, interpHistogramDist, lastDist]
    rw [evalBind]
    show _ = afterLines _ _ _ (((EvalM.ofRes (parse l) >>= fun e => e.dist >>= fun _ => pure ()) : EvalM Unit) s)
    rw [evalBind (EvalM.ofRes (parse l))]
    show _ = afterLines _ _ _ _
    unfold EvalM.ofRes
    rcases parse l with x | e
    · rfl
    · simp only
      rw [evalBind, evalBind]
      rcases e.dist s with ⟨x | d, t⟩
      · rfl
      · simp only [afterLines]
        rw [lastDist_irrelevant parse hp d (mkDist [])]
        rfl
  | cost ls => exact absurd trivial hc

theorem runCall_append {c : Call} (hc : ¬ c.IsCost) (pre : List Str) {post : List Str} (hp : post ≠ []) (s : State) :
    runCall parse (c.withLines (pre ++ post)) s =
      Rand.bind (c.steps parse pre s) (afterLines c (fun t => runCall parse (c.withLines post) t) id) := by
  induction pre generalizing s with
  | nil => rfl
  | cons l pre ih =>
    rw [List.cons_append, runCall_cons hc l (by simp [hp])]
    simp only [Call.steps, rollBind, Rand.bind_assoc]
    congr 1
    funext x
    rcases x with ⟨x | x, t⟩
    · rfl
    · simp only [afterLines]
      exact ih t

/-! ### What a line does not touch -/

theorem agreeOff_pre (X : Set Str) : Pre (fun s t => AgreeOff X s t) := ⟨agreeOff_refl X, fun h h' => h.trans h'⟩

theorem rel_off_setVar {X : Set Str} {x : Str} (hx : x ∈ X) (d : Dist) : Rel (fun s t => AgreeOff X s t) (EvalM.setVar x d) := by
  intro s
  unfold EvalM.setVar
  rw [setVar_eq]
  refine ⟨(sameOutside_set _ hx _).symm, sameOutside_refl _ _, ?_⟩
  intro n hn
  unfold bump
  rw [get_safeAdd, if_neg (fun e : x = n => hn (e ▸ hx))]

theorem rel_off_setConstant {X : Set Str} {x : Str} (hx : x ∈ X) (v : Int) : Rel (fun s t => AgreeOff X s t) (EvalM.setConstant x v) := by
  intro s
  refine ⟨sameOutside_refl _ _, (sameOutside_set _ hx _).symm, ?_⟩
  intro n hn
  show _ = dictGet? (bump s.timesSet x) n
  unfold bump
  rw [get_safeAdd, if_neg (fun e : x = n => hn (e ▸ hx))]

theorem off_putVar {X : Set Str} {x : Str} (hx : x ∈ X) (s : State) (d : Dist) : AgreeOff X s { s with var := dictSet s.var x d } :=
  ⟨(sameOutside_set _ hx _).symm, sameOutside_refl _ _, sameOutside_refl _ _⟩
theorem off_putConstant {X : Set Str} {x : Str} (hx : x ∈ X) (s : State) (v : Int) :
    AgreeOff X s { s with constants := dictSet s.constants x v } :=
  ⟨sameOutside_refl _ _, (sameOutside_set _ hx _).symm, sameOutside_refl _ _⟩

theorem parsed {α : Type} {P : State → State → Prop} (hP : Pre P) {l : Str} {f : Expr → EvalM α}
    (h : ∀ e, parse l = .ok e → Rel P (f e)) : Rel P (do let e ← EvalM.ofRes (parse l); f e) := by
  cases hl : parse l with
  | ok e => exact h e hl
  | error e => exact fun s => hP.refl s

theorem off_step (c : Call) (l : Str) {X : Set Str} (hX : touches parse l ⊆ X) :
    RRel (fun s t => AgreeOff X s t) (c.step parse l) := by
  have hP := agreeOff_pre X
  have hv : ∀ e, parse l = .ok e → ∀ x ∈ e.assigned, ∀ d, Rel (fun s t => AgreeOff X s t) (EvalM.setVar x d) :=
    fun e he x hx d => rel_off_setVar (hX (Or.inr ⟨e, he, hx⟩)) d
  have hk : ∀ e, parse l = .ok e → ∀ x ∈ e.assigned, ∀ v, Rel (fun s t => AgreeOff X s t) (EvalM.setConstant x v) :=
    fun e he x hx d => rel_off_setConstant (hX (Or.inr ⟨e, he, hx⟩)) d
  have hd : Rel (fun s t => AgreeOff X s t) (distLine parse l) := parsed hP fun e he =>
    rel_bind hP (rel_dist hP e (hv e he)) fun d s => off_putVar (hX (Or.inl rfl)) s d
  cases c with
  | roll ls =>
    show RRel _ (rollLine parse l)
    have hr : ∀ e, parse l = .ok e → RRel (fun s t => AgreeOff X s t)
        (e.roll >>= fun v => (fun s => .pure (.ok (), { s with constants := dictSet s.constants stdoutName v }) : RollM Unit)) :=
      fun e he => rrel_bind hP (rrel_roll hP e (hk e he)) fun v s x hx => by
        obtain rfl := Rand.possible_pure.mp hx
        exact off_putConstant (hX (Or.inl rfl)) s v
    unfold rollLine
    cases hl : parse l with
    | ok e => exact hr e hl
    | error e =>
      intro s x hx
      obtain rfl := Rand.possible_pure.mp hx
      exact hP.refl s
  | extreme k ls =>
    exact rrel_eval (parsed hP fun e he => rel_bind hP (rel_extreme hP k e (hv e he) (hk e he)) fun v s => off_putConstant (hX (Or.inl rfl)) s v)
  | dists ls => exact rrel_eval hd
  | dictForms ls => exact rrel_eval hd
  | averages ls => exact rrel_eval hd
  | histogram ls => exact rrel_eval (parsed hP fun e he => rel_bind hP (rel_dist hP e (hv e he)) fun _ => rel_pure hP _)
  | cost ls => exact rrel_eval (parsed hP fun e he => rel_bind hP (rel_cost hP e (hk e he)) fun _ => rel_pure hP _)

/-! ### Lines that do not look -/

/-- Like `ROblivious`, and when nothing is raised the states differ in less. -/
def RBetter {α : Type} (P P' : State → State → Prop) (m : RollM α) : Prop :=
  ∀ s t, P s t → Rand.Same (fun x y => x.1 = y.1 ∧ P x.2 y.2 ∧ ∀ a, x.1 = .ok a → P' x.2 y.2) (m s) (m t)

theorem rbetter_bind {α β : Type} {P P' : State → State → Prop} {m : RollM α} {f : α → RollM β} (hm : ROblivious P m)
    (hf : ∀ a, RBetter P P' (f a)) : RBetter P P' (m >>= f) := by
  intro s t h
  rw [rollBind, rollBind]
  refine (hm s t h).bind ?_
  rintro ⟨r, s1⟩ ⟨r', t1⟩ ⟨h1, h2⟩
  obtain rfl : r = r' := h1
  cases r with
  | ok a => exact hf a s1 t1 h2
  | error e => exact .pure ⟨rfl, h2, fun a ha => by cases ha⟩

theorem rbetter_then {α β : Type} {P P' : State → State → Prop} (hP : ∀ s t, P' s t → P s t) {m : RollM α} {f : α → RollM β}
    (hm : RBetter P P' m) (hf : ∀ a, ROblivious P' (f a)) : RBetter P P' (m >>= f) := by
  intro s t h
  rw [rollBind, rollBind]
  refine (hm s t h).bind ?_
  rintro ⟨r, s1⟩ ⟨r', t1⟩ ⟨h1, h2, h3⟩
  obtain rfl : r = r' := h1
  cases r with
  | ok a => exact (hf a s1 t1 (h3 a rfl)).mono fun x y hxy => ⟨hxy.1, hP _ _ hxy.2, fun _ _ => hxy.2⟩
  | error e => exact .pure ⟨rfl, h2, fun a ha => by cases ha⟩

theorem rbetter_parsed {α : Type} {P P' : State → State → Prop} {l : Str} {f : Expr → RollM α}
    (h : ∀ e, parse l = .ok e → RBetter P P' (f e)) : RBetter P P' (RollM.ofEval (EvalM.ofRes (parse l)) >>= f) := by
  cases hl : parse l with
  | ok e => exact h e hl
  | error e => exact fun s t hst => .pure ⟨rfl, hst, fun a ha => by cases ha⟩

theorem rbetter_obliv {α : Type} {P : State → State → Prop} {m : RollM α} (h : ROblivious P m) : RBetter P P m :=
  fun s t hst => (h s t hst).mono fun _ _ hxy => ⟨hxy.1, hxy.2, fun _ _ => hxy.2⟩

theorem ofEval_bind {α β : Type} (m : EvalM α) (f : α → EvalM β) :
    RollM.ofEval (m >>= f) = (RollM.ofEval m >>= fun a => RollM.ofEval (f a)) := by
  funext s
  rw [rollBind]
  show Rand.pure _ = (match m s with | (.ok a, s') => RollM.ofEval (f a) s' | (.error e, s') => .pure (.error e, s') : Rand _)
  rw [evalBind]
  rcases m s with ⟨x | x, t⟩ <;> rfl

theorem rbetter_evalBind {α β : Type} {P P' : State → State → Prop} {m : EvalM α} {f : α → EvalM β} (hm : Oblivious P m)
    (hf : ∀ a, RBetter P P' (RollM.ofEval (f a))) : RBetter P P' (RollM.ofEval (m >>= f)) := by
  rw [ofEval_bind]
  exact rbetter_bind (robliv_eval hm) hf

variable {V C T : Set Str}

/-- How states differ after a line, when nothing is raised. -/
def Call.Cleared (V C T : Set Str) : Call → State → State → Prop
  | .roll _ => Differ V (C \ {stdoutName}) T
  | .extreme _ _ => Differ V (C \ {stdoutName}) T
  | .dists _ => Differ (V \ {stdoutName}) C T
  | .dictForms _ => Differ (V \ {stdoutName}) C T
  | .averages _ => Differ (V \ {stdoutName}) C T
  | .histogram _ => Differ V C T
  | .cost _ => Differ V C T

theorem cleared_differ (c : Call) {s t : State} (h : c.Cleared V C T s t) : Differ V C T s t := by
  cases c <;> exact h.mono (by first | exact Set.sdiff_subset | exact subset_rfl) (by first | exact Set.sdiff_subset | exact subset_rfl) subset_rfl

theorem better_putVar (d : Dist) : RBetter (Differ V C T) (Differ (V \ {stdoutName}) C T)
    (RollM.ofEval fun s => (.ok (), { s with var := dictSet s.var stdoutName d })) := fun _ _ h =>
  .pure ⟨rfl, ⟨(h.var.set _ _).mono Set.sdiff_subset, h.constants, h.timesSet⟩, fun _ _ => ⟨h.var.set _ _, h.constants, h.timesSet⟩⟩

theorem better_putConstant (v : Int) : RBetter (Differ V C T) (Differ V (C \ {stdoutName}) T)
    (RollM.ofEval fun s => (.ok (), { s with constants := dictSet s.constants stdoutName v })) := fun _ _ h =>
  .pure ⟨rfl, ⟨h.var, (h.constants.set _ _).mono Set.sdiff_subset, h.timesSet⟩, fun _ _ => ⟨h.var, h.constants.set _ _, h.timesSet⟩⟩

theorem better_step (c : Call) {l : Str}
    (hl : ∀ e, parse l = .ok e → (∀ n ∈ e.reads, n ∉ V ∧ n ∉ C) ∧ ∀ n ∈ e.assigned, n ∉ T) :
    RBetter (Differ V C T) (c.Cleared V C T) (c.step parse l) := by
  have hd : RBetter (Differ V C T) (Differ (V \ {stdoutName}) C T) (RollM.ofEval (distLine parse l)) := by
    unfold distLine
    rw [ofEval_bind]
    exact rbetter_parsed fun e he => rbetter_evalBind (obliv_dist e (fun n hn => ((hl e he).1 n hn).1) (hl e he).2) better_putVar
  cases c with
  | roll ls =>
    show RBetter _ _ (rollLine parse l)
    unfold rollLine
    exact rbetter_parsed fun e he => rbetter_bind (robliv_roll e (fun n hn => ((hl e he).1 n hn).2) (hl e he).2) better_putConstant
  | extreme k ls =>
    show RBetter _ _ (RollM.ofEval (extremeLine parse k l))
    unfold extremeLine
    rw [ofEval_bind]
    exact rbetter_parsed fun e he => rbetter_evalBind (obliv_extreme k e (hl e he).1 (hl e he).2) better_putConstant
  | dists ls => exact hd
  | dictForms ls => exact hd
  | averages ls => exact hd
  | histogram ls =>
    show RBetter _ _ (RollM.ofEval _)
    rw [ofEval_bind]
    refine rbetter_parsed fun e he => rbetter_obliv (robliv_eval ?_)
    exact obliv_bind (obliv_dist e (fun n hn => ((hl e he).1 n hn).1) (hl e he).2) fun _ => obliv_pure _
  | cost ls =>
    show RBetter _ _ (RollM.ofEval _)
    rw [ofEval_bind]
    refine rbetter_parsed fun e he => rbetter_obliv (robliv_eval ?_)
    exact obliv_bind (obliv_cost e (fun n hn => ((hl e he).1 n hn).2) (hl e he).2) fun _ => obliv_pure _

theorem better_weaken {α : Type} {P P' : State → State → Prop} {m : RollM α} (h : RBetter P P' m) : ROblivious P m :=
  fun s t hst => (h s t hst).mono fun _ _ hxy => ⟨hxy.1, hxy.2.1⟩

theorem obliv_steps (c : Call) : ∀ {lines : List Str},
    (∀ l ∈ lines, ∀ e, parse l = .ok e → (∀ n ∈ e.reads, n ∉ V ∧ n ∉ C) ∧ ∀ n ∈ e.assigned, n ∉ T) →
    ROblivious (Differ V C T) (c.steps parse lines)
  | [], _ => robliv_pure _
  | l :: _, h => robliv_bind (better_weaken (better_step c (h l (List.mem_cons_self ..)))) fun _ =>
      obliv_steps c fun l' hl' => h l' (List.mem_cons_of_mem _ hl')

theorem better_steps (c : Call) {X : Set Str} {l : Str} {ls : List Str} (h : Unaware parse X (l :: ls)) :
    RBetter (Differ X X X) (c.Cleared X X X) (c.steps parse (l :: ls)) := by
  have h' : ∀ {V C T : Set Str}, V ⊆ X → C ⊆ X → T ⊆ X → ∀ l' ∈ l :: ls, ∀ e, parse l' = .ok e →
      (∀ n ∈ e.reads, n ∉ V ∧ n ∉ C) ∧ ∀ n ∈ e.assigned, n ∉ T := by
    intro V C T hV hC hT l' hl' e he
    have hn := h l' hl' e he
    exact ⟨fun n hr => ⟨fun hx => hn n (by simp [Expr.names, hr]) (hV hx), fun hx => hn n (by simp [Expr.names, hr]) (hC hx)⟩,
      fun n hr hx => hn n (by simp [Expr.names, hr]) (hT hx)⟩
  refine rbetter_then (fun _ _ => cleared_differ c) (better_step c (h' subset_rfl subset_rfl subset_rfl l (List.mem_cons_self ..))) fun _ => ?_
  have tail : ∀ {V C T : Set Str}, V ⊆ X → C ⊆ X → T ⊆ X → ROblivious (Differ V C T) (c.steps parse ls) := fun hV hC hT =>
    obliv_steps c fun l' hl' => h' hV hC hT l' (List.mem_cons_of_mem _ hl')
  cases c <;> exact tail (by first | exact Set.sdiff_subset | exact subset_rfl) (by first | exact Set.sdiff_subset | exact subset_rfl) subset_rfl

/-! ### Calls that do not look -/

theorem steps_roll (ls : List Str) : ∀ l : List Str, (Call.roll ls).steps parse l = rollLines parse l
  | [] => rfl
  | x :: l => by
    show ((rollLine parse x >>= fun _ => (Call.roll ls).steps parse l) : RollM Unit) = (rollLine parse x >>= fun _ => rollLines parse l)
    rw [steps_roll ls l]

theorem steps_extreme (k : Bool) (ls : List Str) : ∀ l : List Str,
    (Call.extreme k ls).steps parse l = RollM.ofEval (extremeLines parse k l)
  | [] => rfl
  | x :: l => by
    show ((RollM.ofEval (extremeLine parse k x) >>= fun _ => (Call.extreme k ls).steps parse l) : RollM Unit) = _
    rw [steps_extreme k ls l]
    exact (ofEval_bind _ _).symm

theorem steps_dists {c : Call} (hc : c.step parse = fun l => RollM.ofEval (distLine parse l)) : ∀ l : List Str,
    c.steps parse l = RollM.ofEval (distLines parse l)
  | [] => rfl
  | x :: l => by
    show ((c.step parse x >>= fun _ => c.steps parse l) : RollM Unit) = _
    rw [steps_dists hc l, hc]
    exact (ofEval_bind _ _).symm

/-- What holds of a state from which a session may go on. -/
def FitState (b : Prop) (X : Set Str) (s : State) : Prop := CleanKeys s ∧ (b → HasFigures X s)

/-- The variables named in `X` are the same, but for `stdout`. -/
def SameVars (X : Set Str) (s t : State) : Prop := ∀ n ∈ X, n ≠ stdoutName → dictGet? t.var n = dictGet? s.var n

theorem pre_sameVars (X : Set Str) : Pre (SameVars X) := ⟨fun _ _ _ _ => rfl, fun h h' n hn hs => (h' n hn hs).trans (h n hn hs)⟩

theorem off_sameVars {X Y : Set Str} {s t : State} (h : AgreeOff Y s t) (hXY : ∀ n ∈ X, n ≠ stdoutName → n ∉ Y) : SameVars X s t :=
  fun n hn hs => (h.var n (hXY n hn hs)).symm

theorem HasFigures.sameVars {X : Set Str} {s t : State} (h : HasFigures X s) (hst : SameVars X s t) : HasFigures X t := by
  intro n hn hs d hd
  rw [hst n hn hs] at hd
  exact h n hn hs d hd

theorem sameVars_step (c : Call) {X : Set Str} {l : Str} (h : Unaware parse X [l]) : RRel (SameVars X) (c.step parse l) := by
  intro s x hx
  refine off_sameVars (Y := {n | n ∉ X ∨ n = stdoutName}) (off_step c l ?_ s x hx) ?_
  · rintro n (rfl | ⟨e, he, hn⟩)
    · exact Or.inr rfl
    · exact Or.inl (h l (by simp) e he n (by simp [Expr.names, hn]))
  · rintro n hn hs (h1 | h1)
    · exact h1 hn
    · exact hs h1

theorem sameVars_steps (c : Call) {X : Set Str} : ∀ {lines : List Str}, Unaware parse X lines → RRel (SameVars X) (c.steps parse lines)
  | [], _ => rrel_pure (pre_sameVars X) _
  | l :: ls, h => rrel_bind (pre_sameVars X) (sameVars_step c fun l' hl' => h l' (by simp at hl'; subst hl'; simp)) fun _ =>
      sameVars_steps c fun l' hl' => h l' (List.mem_cons_of_mem _ hl')

theorem clean_step (c : Call) (l : Str) : RRel (fun s t => CleanKeys s → CleanKeys t) (c.step parse l) := by
  have h := updates_clean
  have hd : Rel (fun s t => CleanKeys s → CleanKeys t) (distLine parse l) :=
    rel_bind h.pre (rel_ofRes h.pre _) fun e => rel_bind h.pre (h.dist e) fun d s => h.putVar s _ d
  cases c with
  | roll ls =>
    exact rrel_bind h.pre (rrel_eval (rel_ofRes h.pre _)) fun e => rrel_bind h.pre (h.roll e) fun v s x hx => by
      obtain rfl := Rand.possible_pure.mp hx
      exact h.putConstant s _ v
  | extreme k ls =>
    exact rrel_eval (rel_bind h.pre (rel_ofRes h.pre _) fun e => rel_bind h.pre (h.extreme k e) fun v s => h.putConstant s _ v)
  | dists ls => exact rrel_eval hd
  | dictForms ls => exact rrel_eval hd
  | averages ls => exact rrel_eval hd
  | histogram ls => exact rrel_eval (rel_bind h.pre (rel_ofRes h.pre _) fun e => rel_bind h.pre (h.dist e) fun _ => rel_pure h.pre _)
  | cost ls => exact rrel_eval (rel_bind h.pre (rel_ofRes h.pre _) fun e => rel_bind h.pre (h.cost e) fun _ => rel_pure h.pre _)

theorem clean_steps (c : Call) : ∀ lines : List Str, RRel (fun s t => CleanKeys s → CleanKeys t) (c.steps parse lines)
  | [] => rrel_pure updates_clean.pre _
  | l :: ls => rrel_bind updates_clean.pre (clean_step c l) fun _ => clean_steps c ls

/-- The report of a call after its lines. -/
def Call.report (c : Call) (x : Res Unit × State) : Answer :=
  match c with
  | .roll l => .ints (x.1.map fun _ => constantsReturned l x.2)
  | .extreme _ l => .ints (x.1.map fun _ => constantsReturned l x.2)
  | .dists l => .dists (x.1.map fun _ => (if l = [] then [] else x.2.var).map fun p => (p.1, p.2.seen))
  | .dictForms l => .dictForms (x.1.bind fun _ => mapValues Dist.getDictFormF (if l = [] then [] else x.2.var))
  | .averages l => .averages (x.1.bind fun _ => mapValues Dist.averageF (if l = [] then [] else x.2.var))
  | .histogram _ => .drawn (.error .zeroDivision)
  | .cost _ => .drawn (.error .zeroDivision)

/-- The call's answer is the last line's result or the sum of the lines' costs. -/
def Call.Direct : Call → Prop
  | .histogram _ => True
  | .cost _ => True
  | _ => False

theorem runCall_report {c : Call} (hc : ¬ c.Direct) (s : State) :
    runCall parse c s = Rand.bind (c.steps parse c.lines s) fun x => .pure (c.report x, x.2) := by
  cases c with
  | roll l =>
    simp only [runCall, Call.lines, steps_roll]
    refine (Rand.bind_assoc _ _ _).trans ?_
    congr 1
    funext x
    rcases x with ⟨x | x, t⟩ <;> rfl
  | extreme k l =>
    simp only [runCall, Call.lines, steps_extreme]
    have : interpExtreme parse k l s = ((extremeLines parse k l s).1.map fun _ => constantsReturned l (extremeLines parse k l s).2, (extremeLines parse k l s).2) :=
      (evalBind _ _ s).trans (by rcases extremeLines parse k l s with ⟨x | x, t⟩ <;> rfl)
    rw [this]
    rfl
  | dists l =>
    simp only [runCall, Call.lines, steps_dists (c := .dists l) rfl]
    have : interpDists parse l s = ((distLines parse l s).1.map fun _ => (if l = [] then [] else (distLines parse l s).2.var), (distLines parse l s).2) :=
      (evalBind _ _ s).trans (by rcases distLines parse l s with ⟨x | x, t⟩ <;> rfl)
    rw [this]
    show _ = Rand.pure (Call.report _ (distLines parse l s), _)
    unfold Call.report
    rcases distLines parse l s with ⟨x | x, t⟩ <;> rfl
  | dictForms l =>
    simp only [runCall, Call.lines, steps_dists (c := .dictForms l) rfl]
    have : interpDists parse l s = ((distLines parse l s).1.map fun _ => (if l = [] then [] else (distLines parse l s).2.var), (distLines parse l s).2) :=
      (evalBind _ _ s).trans (by rcases distLines parse l s with ⟨x | x, t⟩ <;> rfl)
    unfold interpDictFormsF
    rw [evalBind, this]
    show _ = Rand.pure (Call.report _ (distLines parse l s), _)
    unfold Call.report
    rcases distLines parse l s with ⟨x | x, t⟩ <;> rfl
  | averages l =>
    simp only [runCall, Call.lines, steps_dists (c := .averages l) rfl]
    have : interpDists parse l s = ((distLines parse l s).1.map fun _ => (if l = [] then [] else (distLines parse l s).2.var), (distLines parse l s).2) :=
      (evalBind _ _ s).trans (by rcases distLines parse l s with ⟨x | x, t⟩ <;> rfl)
    unfold interpAveragesF
    rw [evalBind, this]
    show _ = Rand.pure (Call.report _ (distLines parse l s), _)
    unfold Call.report
    rcases distLines parse l s with ⟨x | x, t⟩ <;> rfl
  | histogram l => exact absurd trivial hc
  | cost l => exact absurd trivial hc

theorem report_alike {c : Call} (hc : ¬ c.Direct) {X : Set Str} {r : Res Unit} {s t : State} {b : Prop} (hb : c.AsksFigures → b) (hs : FitState b X s)
    (ht : FitState b X t) (h : c.lines ≠ [] → ∀ a, r = .ok a → c.Cleared X X X s t) :
    Answer.Alike (X \ {stdoutName}) (c.report (r, s)) (c.report (r, t)) := by
  cases r with
  | error e => cases c <;> exact .same _
  | ok a =>
    have fig : ∀ {β : Type} {f : Dist → Res β} {s t : State}, b → FitState b X s → FitState b X t → SameOutside (X \ {stdoutName}) s.var t.var →
        (∀ u, HasFigures X u → ∀ n ∈ X \ {stdoutName}, ∀ d, dictGet? u.var n = some d → ∃ y, f d = .ok y) → 
        (∃ m m', mapValues f s.var = .ok m ∧ mapValues f t.var = .ok m' ∧ SameOutside (X \ {stdoutName}) m m') ∨
          ∃ e e', mapValues f s.var = .error e ∧ mapValues f t.var = .error e' := 
      fun hb hs ht h hf => mapValues_outside hs.1.1 ht.1.1 h (hf _ (hs.2 hb)) (hf _ (ht.2 hb))
    cases c with
    | roll l =>
      by_cases hl : l = []
      · subst hl; exact .same _
      · simp only [Call.report, constantsReturned, hl, if_false, Except.map]
        exact .ints (h hl a rfl).constants
    | extreme k l =>
      by_cases hl : l = []
      · subst hl; exact .same _
      · simp only [Call.report, constantsReturned, hl, if_false, Except.map]
        exact .ints (h hl a rfl).constants
    | dists l =>
      by_cases hl : l = []
      · subst hl; exact .same _
      · simp only [Call.report, hl, if_false, Except.map]
        exact .dists (sameOutside_map (h hl a rfl).var _)
    | dictForms l =>
      by_cases hl : l = []
      · subst hl; exact .same _
      · simp only [Call.report, hl, if_false, Except.bind]
        rcases fig (hb trivial) hs ht (h hl a rfl).var (f := Dist.getDictFormF) (fun u hu n hn d hd => (hu n hn.1 hn.2 d hd).1) with ⟨m, m', h1, h2, h3⟩ | ⟨e, e', h1, h2⟩
        · rw [h1, h2]; exact .dictForms h3
        · rw [h1, h2]; exact .noDictForms _ _
    | averages l =>
      by_cases hl : l = []
      · subst hl; exact .same _
      · simp only [Call.report, hl, if_false, Except.bind]
        rcases fig (hb trivial) hs ht (h hl a rfl).var (f := Dist.averageF) (fun u hu n hn d hd => (hu n hn.1 hn.2 d hd).2) with ⟨m, m', h1, h2, h3⟩ | ⟨e, e', h1, h2⟩
        · rw [h1, h2]; exact .averages h3
        · rw [h1, h2]; exact .noAverages _ _
    | histogram l => exact absurd trivial hc
    | cost l => exact absurd trivial hc

theorem runCall_direct {c : Call} (hc : c.Direct) {X : Set Str} (hX : Unaware parse X c.lines) {s t : State} (h : AgreeOff X s t) :
    Rand.Same (fun x y => x.1 = y.1 ∧ AgreeOff X x.2 y.2) (runCall parse c s) (runCall parse c t) := by
  have h' : ∀ {l : List Str}, Unaware parse X l → ∀ l' ∈ l, ∀ e, parse l' = .ok e → (∀ n ∈ e.reads, n ∉ X) ∧ ∀ n ∈ e.assigned, n ∉ X := by
    intro l hl l' hl' e he
    exact ⟨fun n hn => hl l' hl' e he n (by simp [Expr.names, hn]), fun n hn => hl l' hl' e he n (by simp [Expr.names, hn])⟩
  have bp : ∀ {α : Type} {l : Str} {f : Expr → EvalM α}, (∀ e, parse l = .ok e → Oblivious (Differ X X X) (f e)) →
      Oblivious (Differ X X X) (EvalM.ofRes (parse l) >>= f) := by
    intro α l f hf
    cases hl : parse l with
    | ok e => exact hf e hl
    | error e => exact fun s t hst => ⟨rfl, hst⟩
  cases c with
  | histogram l =>
    have b : ∀ {l : List Str}, (∀ l' ∈ l, ∀ e, parse l' = .ok e → (∀ n ∈ e.reads, n ∉ X) ∧ ∀ n ∈ e.assigned, n ∉ X) → ∀ d,
        Oblivious (Differ X X X) (lastDist parse l d) := by
      intro l
      induction l with
      | nil => exact fun _ d => obliv_pure _
      | cons l' l ih =>
        exact fun hl d => bp fun e he => obliv_bind (obliv_dist e (hl l' (List.mem_cons_self ..) e he).1 (hl l' (List.mem_cons_self ..) e he).2)
          fun d => ih (fun x hx => hl x (List.mem_cons_of_mem _ hx)) d
    have hb := b (h' hX) (mkDist []) s t h.differ
    exact .pure ⟨congrArg (fun r => Answer.drawn (r.map Dist.seen)) hb.1, hb.2.agreeOff⟩
  | cost l =>
    have b : ∀ {l : List Str}, (∀ l' ∈ l, ∀ e, parse l' = .ok e → (∀ n ∈ e.reads, n ∉ X) ∧ ∀ n ∈ e.assigned, n ∉ X) → ∀ d,
        Oblivious (Differ X X X) (costLines parse l d) := by
      intro l
      induction l with
      | nil => exact fun _ d => obliv_pure _
      | cons l' l ih =>
        exact fun hl d => bp fun e he => obliv_bind (obliv_cost e (hl l' (List.mem_cons_self ..) e he).1 (hl l' (List.mem_cons_self ..) e he).2)
          fun d => ih (fun x hx => hl x (List.mem_cons_of_mem _ hx)) _
    have hb := b (h' hX) 0 s t h.differ
    exact .pure ⟨congrArg Answer.cost hb.1, hb.2.agreeOff⟩
  | _ => exact absurd hc (by simp [Call.Direct])

theorem state_forget {α : Type} (m : EvalM α) (s : State) : ∃ r, ((m >>= fun _ => pure ()) : EvalM Unit) s = (r, (m s).2) := by
  rw [evalBind]
  rcases m s with ⟨x | x, t⟩ <;> exact ⟨_, rfl⟩

theorem steps_histogram (ls : List Str) : ∀ (l : List Str) (d : Dist),
    (Call.histogram ls).steps parse l = RollM.ofEval (do let _ ← lastDist parse l d; pure ())
  | [], _ => rfl
  | x :: l, d => by
    show ((RollM.ofEval _ >>= fun _ => (Call.histogram ls).steps parse l) : RollM Unit) = _
    rw [steps_histogram ls l d, ← ofEval_bind, evalBind_assoc]
    congr 1
    refine Eq.trans ?_ (evalBind_assoc _ _ _).symm
    congr 1
    funext e
    rw [evalBind_assoc, evalBind_assoc]
    congr 1
    funext d'
    show (lastDist parse l d >>= fun _ => pure () : EvalM Unit) = _
    by_cases hl : l = []
    · subst hl; rfl
    · rw [lastDist_irrelevant parse hl d d']

theorem steps_cost (ls : List Str) : ∀ (l : List Str) (d : Int),
    (Call.cost ls).steps parse l = RollM.ofEval (do let _ ← costLines parse l d; pure ())
  | [], _ => rfl
  | x :: l, d => by
    have h : ∀ d', (Call.cost ls).steps parse l = RollM.ofEval (do let _ ← costLines parse l d'; pure ()) := steps_cost ls l
    show ((RollM.ofEval (EvalM.ofRes (parse x) >>= fun e => e.cost >>= fun _ => pure ()) >>= fun _ => (Call.cost ls).steps parse l) : RollM Unit) =
      RollM.ofEval ((EvalM.ofRes (parse x) >>= fun e => e.cost >>= fun c => costLines parse l (d + c)) >>= fun _ => pure ())
    rw [ofEval_bind, rollBind_assoc, evalBind_assoc, ofEval_bind]
    congr 1
    funext e
    rw [ofEval_bind, rollBind_assoc, evalBind_assoc, ofEval_bind]
    congr 1
    funext c
    exact h (d + c)

/-- The state after a call is the state after its lines. -/
theorem runCall_state (c : Call) (s : State) (x : Answer × State) (hx : Rand.Possible x (runCall parse c s)) :
    ∃ r, Rand.Possible (r, x.2) (c.steps parse c.lines s) := by
  by_cases hc : c.Direct
  · cases c with
    | histogram l =>
      obtain rfl := Rand.possible_pure.mp hx
      obtain ⟨r, hr⟩ := state_forget (lastDist parse l (mkDist [])) s
      refine ⟨r, ?_⟩
      show Rand.Possible (r, (lastDist parse l (mkDist []) s).2) ((Call.histogram l).steps parse l s)
      rw [steps_histogram l l (mkDist []), ← hr]
      exact .pure
    | cost l =>
      obtain rfl := Rand.possible_pure.mp hx
      obtain ⟨r, hr⟩ := state_forget (costLines parse l 0) s
      refine ⟨r, ?_⟩
      show Rand.Possible (r, (costLines parse l 0 s).2) ((Call.cost l).steps parse l s)
      rw [steps_cost l l 0, ← hr]
      exact .pure
    | _ => exact absurd hc (by simp [Call.Direct])
  · rw [runCall_report hc, Rand.possible_bind] at hx
    obtain ⟨y, h1, h2⟩ := hx
    obtain rfl := Rand.possible_pure.mp h2
    exact ⟨y.1, h1⟩

theorem fit_steps (c : Call) {X : Set Str} {lines : List Str} (h : Unaware parse X lines) {s : State} {b : Prop} (hs : FitState b X s)
    {x : Res Unit × State} (hx : Rand.Possible x (c.steps parse lines s)) : FitState b X x.2 :=
  ⟨clean_steps c lines s x hx hs.1, fun hb => (hs.2 hb).sameVars (sameVars_steps c h s x hx)⟩

theorem fit_runCall {c : Call} {X : Set Str} (h : Unaware parse X c.lines) {s : State} {b : Prop} (hs : FitState b X s)
    {x : Answer × State} (hx : Rand.Possible x (runCall parse c s)) : FitState b X x.2 := by
  obtain ⟨r, hr⟩ := runCall_state c s x hx
  exact fit_steps c h hs hr

theorem runCall_alike {c : Call} {X : Set Str} (hX : Unaware parse X c.lines) {s t : State} (h : AgreeOff X s t) {b : Prop}
    (hcb : c.AsksFigures → b) (hs : FitState b X s) (ht : FitState b X t) :
    Rand.Same (fun x y => Answer.Alike (X \ {stdoutName}) x.1 y.1 ∧ AgreeOff X x.2 y.2) (runCall parse c s) (runCall parse c t) := by
  by_cases hc : c.Direct
  · refine (runCall_direct hc hX h).mono ?_
    rintro ⟨a, x⟩ ⟨b, y⟩ ⟨h1, h2⟩
    obtain rfl : a = b := h1
    exact ⟨.same _, h2⟩
  · rw [runCall_report hc, runCall_report hc]
    have hb : Rand.Same (fun x y => x.1 = y.1 ∧ Differ X X X x.2 y.2 ∧ (c.lines ≠ [] → ∀ a, x.1 = .ok a → c.Cleared X X X x.2 y.2))
        (c.steps parse c.lines s) (c.steps parse c.lines t) := by
      revert hX
      cases hl : c.lines with
      | nil => exact fun _ => .pure ⟨rfl, h.differ, fun hn => absurd rfl hn⟩
      | cons l ls => exact fun hX => (better_steps c hX s t h.differ).mono fun x y hxy => ⟨hxy.1, hxy.2.1, fun _ => hxy.2.2⟩
    refine hb.possible.bind ?_
    rintro ⟨r, x⟩ ⟨r', y⟩ ⟨⟨h1, h2, h3⟩, p1, p2⟩
    obtain rfl : r = r' := h1
    exact .pure ⟨report_alike hc hcb (fit_steps c hX hs p1) (fit_steps c hX ht p2) h3, h2.agreeOff⟩

theorem session_alike {X : Set Str} {b : Prop} : ∀ {cs : List Call}, (∀ c ∈ cs, c.AsksFigures → b) → (∀ c ∈ cs, Unaware parse X c.lines) →
    ∀ {s t : State}, AgreeOff X s t → FitState b X s → FitState b X t →
    Rand.Same (List.Forall₂ (Answer.Alike (X \ {stdoutName}))) (sessionFrom parse cs s) (sessionFrom parse cs t) := by
  intro cs
  induction cs with
  | nil => exact fun _ _ _ _ _ _ _ => .pure .nil
  | cons c cs ih =>
    intro hb hX s t h hs ht
    refine (runCall_alike (hX c (List.mem_cons_self ..)) h (hb c (List.mem_cons_self ..)) hs ht).possible.bind ?_
    rintro ⟨a, x⟩ ⟨b, y⟩ ⟨⟨h1, h2⟩, p1, p2⟩
    refine (ih (fun c' hc' => hb c' (List.mem_cons_of_mem _ hc')) (fun c' hc' => hX c' (List.mem_cons_of_mem _ hc')) h2 (fit_runCall (hX c (List.mem_cons_self ..)) hs p1)
      (fit_runCall (hX c (List.mem_cons_self ..)) ht p2)).bind ?_
    exact fun as bs h3 => .pure (.cons h1 h3)

/-! ### A line among others -/

theorem steps_withLines (c : Call) (l' : List Str) : ∀ l : List Str, (c.withLines l').steps parse l = c.steps parse l
  | [] => rfl
  | x :: l => by
    have h : (c.withLines l').step parse x = c.step parse x := by cases c <;> rfl
    show ((c.withLines l').step parse x >>= fun _ => (c.withLines l').steps parse l : RollM Unit) = (c.step parse x >>= fun _ => c.steps parse l)
    rw [steps_withLines c l' l, h]

omit R in
theorem lines_withLines (c : Call) (l : List Str) : (c.withLines l).lines = l := by cases c <;> rfl
omit R in
theorem asks_withLines (c : Call) (l : List Str) : (c.withLines l).AsksFigures ↔ c.AsksFigures := by cases c <;> rfl
omit R in
theorem cost_withLines (c : Call) (l : List Str) : (c.withLines l).IsCost ↔ c.IsCost := by cases c <;> rfl

/-- Every way the lines can run is a way the call can run; when they raise, the answer is an exception. -/
theorem runCall_of_steps (c : Call) (s : State) (x : Res Unit × State) (hx : Rand.Possible x (c.steps parse c.lines s)) :
    ∃ a, Rand.Possible (a, x.2) (runCall parse c s) ∧ (a.Fine → x.1 = .ok ()) := by
  by_cases hc : c.Direct
  · cases c with
    | histogram l =>
      have hx' : Rand.Possible x (.pure ((lastDist parse l (mkDist []) >>= fun _ => pure () : EvalM Unit) s)) := by
        rw [show (Call.histogram l).lines = l from rfl, steps_histogram l l (mkDist [])] at hx
        exact hx
      obtain rfl := Rand.possible_pure.mp hx'
      refine ⟨.drawn ((lastDist parse l (mkDist []) s).1.map Dist.seen), ?_, ?_⟩
      · rw [evalBind]
        show Rand.Possible _ (.pure (Answer.drawn ((lastDist parse l (mkDist []) s).1.map Dist.seen), (lastDist parse l (mkDist []) s).2))
        rcases lastDist parse l (mkDist []) s with ⟨y | y, t⟩ <;> exact .pure
      · rw [evalBind]
        rcases lastDist parse l (mkDist []) s with ⟨y | y, t⟩
        · rintro ⟨a, ha⟩; cases ha
        · exact fun _ => rfl
    | cost l =>
      have hx' : Rand.Possible x (.pure ((costLines parse l 0 >>= fun _ => pure () : EvalM Unit) s)) := by
        rw [show (Call.cost l).lines = l from rfl, steps_cost l l 0] at hx
        exact hx
      obtain rfl := Rand.possible_pure.mp hx'
      refine ⟨.cost (costLines parse l 0 s).1, ?_, ?_⟩
      · rw [evalBind]
        show Rand.Possible _ (.pure (Answer.cost (costLines parse l 0 s).1, (costLines parse l 0 s).2))
        rcases costLines parse l 0 s with ⟨y | y, t⟩ <;> exact .pure
      · rw [evalBind]
        rcases costLines parse l 0 s with ⟨y | y, t⟩
        · rintro ⟨a, ha⟩; cases ha
        · exact fun _ => rfl
    | _ => exact absurd hc (by simp [Call.Direct])
  · refine ⟨c.report x, ?_, ?_⟩
    · rw [runCall_report hc, Rand.possible_bind]
      exact ⟨x, hx, .pure⟩
    · rcases x with ⟨e | u, t⟩
      · intro h
        cases c <;> first | exact absurd trivial hc | (obtain ⟨a, ha⟩ := h; cases ha)
      · exact fun _ => rfl

theorem steps_append (c : Call) (p q : List Str) : c.steps parse (p ++ q) = (do c.steps parse p; c.steps parse q) := by
  induction p with
  | nil => rfl
  | cons l p ih =>
    show (c.step parse l >>= fun _ => c.steps parse (p ++ q) : RollM Unit) = ((c.step parse l >>= fun _ => c.steps parse p) >>= fun _ => c.steps parse q)
    rw [ih, rollBind_assoc]

theorem steps_possible_append {c : Call} {p q : List Str} {s : State} {x y : Res Unit × State} (hx : Rand.Possible x (c.steps parse p s))
    (hx1 : x.1 = .ok ()) (hy : Rand.Possible y (c.steps parse q x.2)) : Rand.Possible y (c.steps parse (p ++ q) s) := by
  rw [steps_append, rollBind, Rand.possible_bind]
  refine ⟨x, hx, ?_⟩
  obtain ⟨r, t⟩ := x
  obtain rfl : r = .ok () := hx1
  exact hy

theorem steps_possible_error {c : Call} {p q : List Str} {s : State} {e : Err} {t : State}
    (hx : Rand.Possible (.error e, t) (c.steps parse p s)) : Rand.Possible (.error e, t) (c.steps parse (p ++ q) s) := by
  rw [steps_append, rollBind, Rand.possible_bind]
  exact ⟨_, hx, .pure⟩

theorem steps_single (c : Call) (l : Str) : c.steps parse [l] = c.step parse l := by
  funext s
  show (c.step parse l >>= fun _ => pure () : RollM Unit) s = _
  rw [rollBind]
  generalize c.step parse l s = r
  induction r with
  | pure a => rcases a with ⟨x | x, t⟩ <;> rfl
  | draw n k ih =>
    show Rand.draw n _ = _
    congr 1
    funext t
    exact ih t

/-- If the call with some lines never raises, then every way the lines run ends well. -/
theorem steps_fine {c : Call} {l : List Str} {s : State} {P : State → Prop}
    (h : ∀ x, Rand.Possible x (runCall parse (c.withLines l) s) → x.1.Fine ∧ P x.2) (x : Res Unit × State)
    (hx : Rand.Possible x (c.steps parse l s)) : x.1 = .ok () ∧ P x.2 := by
  have hx' : Rand.Possible x ((c.withLines l).steps parse (c.withLines l).lines s) := by rw [lines_withLines, steps_withLines]; exact hx
  obtain ⟨a, h1, h2⟩ := runCall_of_steps (c.withLines l) s x hx'
  exact ⟨h2 (h _ h1).1, (h _ h1).2⟩

theorem draws_step (c : Call) (l : Str) : ∃ W D, ∀ s, (c.step parse l s).Draws W D := by
  cases c with
  | roll ls =>
    cases hl : parse l with
    | error e =>
      refine ⟨0, 0, fun s => ?_⟩
      show (rollLine parse l s).Draws 0 0
      unfold rollLine
      rw [hl]
      exact .pure _ _
    | ok e =>
      obtain ⟨W, hW⟩ := weights_exist e
      refine ⟨W, e.diceRolled + 0, fun s => ?_⟩
      show (rollLine parse l s).Draws _ _
      unfold rollLine
      rw [hl]
      have h1 : RollDraws W (e.diceRolled + 0) (e.roll >>= fun v => (fun s => .pure (.ok (), { s with constants := dictSet s.constants stdoutName v }) : RollM Unit)) :=
        RollDraws.bind (draws_expr e hW) fun v s => .pure _ _
      exact h1 s
  | _ => exact ⟨0, 0, fun s => .pure _ _⟩

/-- The answers of a session. -/
def later (parse : Str → Res Expr) (cs : List Call) (x : Answer × State) : Rand (List Answer) :=
  Rand.bind (sessionFrom parse cs x.2) fun as => .pure (x.1 :: as)

theorem session_append {c : Call} (hc : ¬ c.IsCost) (pre : List Str) {post : List Str} (hp : post ≠ []) (cs : List Call) (s : State) :
    sessionFrom parse (c.withLines (pre ++ post) :: cs) s = Rand.bind (c.steps parse pre s) fun x =>
      match x.1 with
      | .error e => later parse cs (c.raise e, x.2)
      | .ok _ => sessionFrom parse (c.withLines post :: cs) x.2 := by
  show Rand.bind (runCall parse (c.withLines (pre ++ post)) s) _ = _
  rw [runCall_append hc pre hp, Rand.bind_assoc]
  congr 1
  funext x
  rcases x with ⟨x | x, t⟩ <;> rfl

theorem session_dead {c : Call} (hc : ¬ c.IsCost) {pre post : List Str} {l : Str} {cs : List Call} (hp : post ≠ []) {X : Set Str}
    (hl : touches parse l ⊆ X) (hpost : Unaware parse X post) (hcs : ∀ c ∈ cs, Unaware parse X c.lines) {s : State}
    (hs : CleanKeys s) {b : Prop} (hb : ∀ c' ∈ c :: cs, c'.AsksFigures → b)
    (h1 : b → ∀ x, Rand.Possible x (runCall parse (c.withLines pre) s) → HasFigures X x.2)
    (h2 : ∀ x, Rand.Possible x (runCall parse (c.withLines (pre ++ [l])) s) → x.1.Fine ∧ (b → HasFigures X x.2))
    {f : List Answer → ℚ} (hf : ∀ as bs, List.Forall₂ (Answer.Alike (X \ {stdoutName})) as bs → f as = f bs) :
    (sessionFrom parse (c.withLines (pre ++ l :: post) :: cs) s).expect f = (sessionFrom parse (c.withLines (pre ++ post) :: cs) s).expect f := by
  rw [session_append hc pre (List.cons_ne_nil l post), session_append hc pre hp]
  rw [Rand.expect_bind, Rand.expect_bind]
  refine Rand.expect_congr fun x hx => ?_
  rcases x with ⟨e | u, t⟩
  · exact absurd (steps_fine (P := fun u => b → HasFigures X u) h2 _ (steps_possible_error (q := [l]) hx)).1 (by simp)
  · simp only
    rw [show l :: post = [l] ++ post from rfl, session_append hc [l] hp, Rand.expect_bind, steps_single]
    obtain ⟨W, D, hD⟩ := draws_step (parse := parse) c l
    rw [← expect_const (hD t) ((sessionFrom parse (c.withLines post :: cs) t).expect f)]
    refine Rand.expect_congr fun y hy => ?_
    have hy' := steps_possible_append (q := [l]) hx rfl (by rw [steps_single]; exact hy)
    obtain ⟨g1, g2⟩ := steps_fine (P := fun u => b → HasFigures X u) h2 _ hy'
    have c1 : CleanKeys t := clean_steps c pre s _ hx hs
    have c2 : CleanKeys y.2 := clean_steps c (pre ++ [l]) s _ hy' hs
    have f1 : b → HasFigures X t := by
      intro hb'
      have hx' : Rand.Possible (.ok u, t) ((c.withLines pre).steps parse (c.withLines pre).lines s) := by
        rw [lines_withLines, steps_withLines]; exact hx
      obtain ⟨a, h3, _⟩ := runCall_of_steps _ _ _ hx'
      exact h1 hb' _ h3
    have hoff : AgreeOff X t y.2 := off_step c l hl t y hy
    obtain ⟨r, t'⟩ := y
    obtain rfl : r = .ok () := g1
    refine ((session_alike (b := b) ?_ ?_ hoff ⟨c1, f1⟩ ⟨c2, g2⟩).symm.mono fun a b h => h).expect fun as bs h => (hf bs as h).symm
    · intro c' hc'
      rcases List.mem_cons.mp hc' with rfl | hc'
      · exact fun ha => hb c (List.mem_cons_self ..) ((asks_withLines c post).mp ha)
      · exact hb c' (List.mem_cons_of_mem _ hc')
    · intro c' hc'
      rcases List.mem_cons.mp hc' with rfl | hc'
      · rw [lines_withLines]; exact hpost
      · exact hcs c' hc'

theorem obliv_step (c : Call) {X : Set Str} {l : Str} (h : Unaware parse X [l]) : ROblivious (fun s t => AgreeOff X s t) (c.step parse l) := by
  intro s t hst
  refine (better_step (V := X) (C := X) (T := X) c ?_ s t hst.differ).mono fun x y hxy => ⟨hxy.1, hxy.2.1.agreeOff⟩
  intro e he
  have hn := h l (by simp) e he
  exact ⟨fun n hr => ⟨hn n (by simp [Expr.names, hr]), hn n (by simp [Expr.names, hr])⟩, fun n hr => hn n (by simp [Expr.names, hr])⟩

/-- Running one line and then another, in the two orders, when neither line mentions what the other assigns. -/
theorem two_lines {c : Call} {l₁ l₂ : Str} {X₁ X₂ Y : Set Str} (h1 : touches parse l₁ ⊆ X₁)
    (h2 : touches parse l₂ ⊆ X₂) (u1 : Unaware parse X₂ [l₁]) (u2 : Unaware parse X₁ [l₂]) (hY : X₁ ∩ X₂ ⊆ Y) {s : State}
    (hs : CleanKeys s) (ok : ∀ x, Rand.Possible x (c.steps parse [l₁, l₂] s) → x.1 = .ok ()) {F : State → ℚ} {G : Err → State → ℚ}
    (hF : ∀ s t, AgreeOff Y s t → CleanKeys s → CleanKeys t → F s = F t) :
    (c.steps parse [l₁, l₂] s).expect (fun x => match x.1 with | .ok _ => F x.2 | .error e => G e x.2) =
      (c.steps parse [l₂, l₁] s).expect (fun x => match x.1 with | .ok _ => F x.2 | .error e => G e x.2) := by
  classical
  have off1 : ∀ {u x}, Rand.Possible x (c.step parse l₁ u) → AgreeOff X₁ u x.2 := fun {u x} hx => off_step c l₁ h1 u x hx
  have off2 : ∀ {u x}, Rand.Possible x (c.step parse l₂ u) → AgreeOff X₂ u x.2 := fun {u x} hx => off_step c l₂ h2 u x hx
  let Q : (Res Unit × State) → (Res Unit × State) → State → Prop := fun x y u => AgreeOff X₂ x.2 u ∧ AgreeOff X₁ y.2 u ∧ CleanKeys u
  let K : (Res Unit × State) → (Res Unit × State) → ℚ := fun x y => if h : ∃ u, Q x y u then F h.choose else 0
  have hK : ∀ x y u, Q x y u → K x y = F u := by
    intro x y u hu
    have hex : ∃ u, Q x y u := ⟨u, hu⟩
    show (if h : ∃ u, Q x y u then F h.choose else 0) = _
    rw [dif_pos hex]
    obtain ⟨q1, q2, q3⟩ := hex.choose_spec
    refine hF _ _ ?_ q3 hu.2.2
    have a1 : AgreeOff X₂ hex.choose u := q1.symm.trans hu.1
    have a2 : AgreeOff X₁ hex.choose u := q2.symm.trans hu.2.1
    have off : ∀ n, n ∉ Y → n ∉ X₁ ∨ n ∉ X₂ := fun n hn => by
      by_contra hcon
      rw [not_or, not_not, not_not] at hcon
      exact hn (hY hcon)
    exact ⟨fun n hn => (off n hn).elim (a2.var n) (a1.var n), fun n hn => (off n hn).elim (a2.constants n) (a1.constants n),
      fun n hn => (off n hn).elim (a2.timesSet n) (a1.timesSet n)⟩
  have unfold2 : ∀ (a b : Str) (g : Res Unit × State → ℚ), (c.steps parse [a, b] s).expect g =
      (c.step parse a s).expect fun x => match x.1 with | .ok _ => (c.step parse b x.2).expect g | .error e => g (.error e, x.2) := by
    intro a b g
    show (((c.step parse a >>= fun _ => c.steps parse [b]) : RollM Unit) s).expect g = _
    rw [rollBind, Rand.expect_bind, steps_single]
    refine Rand.expect_congr fun x _ => ?_
    rcases x with ⟨e | v, t⟩ <;> rfl
  have first : ∀ x, Rand.Possible x (c.step parse l₁ s) → x.1 = .ok () := by
    intro x hx
    rcases x with ⟨e | v, t⟩
    · have := ok (.error e, t) (steps_possible_error (p := [l₁]) (q := [l₂]) (by rw [steps_single]; exact hx))
      cases this
    · rfl
  have second : ∀ x, Rand.Possible x (c.step parse l₁ s) → ∀ y, Rand.Possible y (c.step parse l₂ x.2) → y.1 = .ok () := by
    intro x hx y hy
    exact ok y (steps_possible_append (p := [l₁]) (q := [l₂]) (by rw [steps_single]; exact hx) (first x hx) (by rw [steps_single]; exact hy))
  have cl1 : ∀ {u x}, Rand.Possible x (c.step parse l₁ u) → CleanKeys u → CleanKeys x.2 := fun {u x} hx hu => clean_step c l₁ u x hx hu
  have cl2 : ∀ {u x}, Rand.Possible x (c.step parse l₂ u) → CleanKeys u → CleanKeys x.2 := fun {u x} hx hu => clean_step c l₂ u x hx hu
  -- the first order
  have e1 : (c.steps parse [l₁, l₂] s).expect (fun x => match x.1 with | .ok _ => F x.2 | .error e => G e x.2) =
      (c.step parse l₁ s).expect fun x => (c.step parse l₂ s).expect fun y => K x y := by
    rw [unfold2]
    refine Rand.expect_congr fun x hx => ?_
    have hx1 := first x hx
    have hso := second x hx
    have same := (obliv_step c u2 s x.2 (off1 hx)).possible
    obtain ⟨r, t⟩ := x
    obtain rfl : r = .ok () := hx1
    refine (same.symm.expect fun y z hyz => ?_)
    obtain ⟨⟨_, q2⟩, q3, q4⟩ := hyz
    have hok := hso y q4
    obtain ⟨r, t'⟩ := y
    obtain rfl : r = .ok () := hok
    exact (hK _ _ _ ⟨off2 q4, q2, cl2 q4 (cl1 hx hs)⟩).symm
  -- in the other order the second line never raises either
  have third : (∃ x, Rand.Possible x (c.step parse l₁ s)) → ∀ y, Rand.Possible y (c.step parse l₂ s) → y.1 = .ok () := by
    rintro ⟨x, hx⟩ y hy
    obtain ⟨z, hz, hyz⟩ := (obliv_step c u2 s x.2 (off1 hx)).symm.find hy
    rw [hyz.1]
    exact second x hx z hz
  have e2 : (c.steps parse [l₂, l₁] s).expect (fun x => match x.1 with | .ok _ => F x.2 | .error e => G e x.2) =
      (c.step parse l₂ s).expect fun y => (c.step parse l₁ s).expect fun x => K x y := by
    rw [unfold2]
    refine Rand.expect_congr fun y hy => ?_
    obtain ⟨W, D, hD⟩ := draws_step (parse := parse) c l₁
    have hex := draws_possible (hD s)
    have hy1 := third hex y hy
    have same := (obliv_step c u1 s y.2 (off2 hy)).possible
    obtain ⟨r, t⟩ := y
    obtain rfl : r = .ok () := hy1
    refine (same.symm.expect fun x z hxz => ?_)
    obtain ⟨⟨q1, q2⟩, q3, q4⟩ := hxz
    have hok : x.1 = .ok () := by rw [← q1]; exact first z q3
    obtain ⟨r, t'⟩ := x
    obtain rfl : r = .ok () := hok
    exact (hK _ _ _ ⟨q2, off1 q4, cl1 q4 (cl2 hy hs)⟩).symm
  rw [e1, e2]
  exact Rand.expect_swap _ _ _

theorem session_swap {c : Call} (hc : ¬ c.IsCost) {pre post : List Str} {l₁ l₂ : Str} {cs : List Call} (hp : post ≠ []) {X₁ X₂ Y : Set Str}
    (h1 : touches parse l₁ ⊆ X₁) (h2 : touches parse l₂ ⊆ X₂) (u1 : Unaware parse X₂ [l₁])
    (u2 : Unaware parse X₁ [l₂]) (hY : X₁ ∩ X₂ ⊆ Y) (hY' : Y ⊆ {stdoutName}) (hpost : Unaware parse Y post)
    (hcs : ∀ c ∈ cs, Unaware parse Y c.lines) {s : State} (hs : CleanKeys s)
    (ok : ∀ x, Rand.Possible x (runCall parse (c.withLines (pre ++ [l₁, l₂])) s) → x.1.Fine)
    {f : List Answer → ℚ} (hf : ∀ as bs, List.Forall₂ (Answer.Alike ∅) as bs → f as = f bs) :
    (sessionFrom parse (c.withLines (pre ++ l₁ :: l₂ :: post) :: cs) s).expect f =
      (sessionFrom parse (c.withLines (pre ++ l₂ :: l₁ :: post) :: cs) s).expect f := by
  have fin := fun x hx => (steps_fine (P := fun _ => True) (c := c) (l := pre ++ [l₁, l₂]) (fun x hx => ⟨ok x hx, trivial⟩) x hx).1
  rw [session_append hc pre (List.cons_ne_nil _ _), session_append hc pre (List.cons_ne_nil _ _)]
  rw [Rand.expect_bind, Rand.expect_bind]
  refine Rand.expect_congr fun x hx => ?_
  rcases x with ⟨e | u, t⟩
  · exact absurd (fin _ (steps_possible_error hx)) (by simp)
  · simp only
    have two : ∀ a b : Str, (sessionFrom parse (c.withLines (a :: b :: post) :: cs) t).expect f =
        (c.steps parse [a, b] t).expect (fun x => match x.1 with
          | .ok _ => (sessionFrom parse (c.withLines post :: cs) x.2).expect f
          | .error e => (later parse cs (c.raise e, x.2)).expect f) := by
      intro a b
      rw [show a :: b :: post = [a, b] ++ post from rfl, session_append hc [a, b] hp, Rand.expect_bind]
      refine Rand.expect_congr fun x _ => ?_
      rcases x with ⟨e | v, t⟩ <;> rfl
    rw [two, two]
    refine two_lines (F := fun t => (sessionFrom parse (c.withLines post :: cs) t).expect f)
      (G := fun e t => (later parse cs (c.raise e, t)).expect f) h1 h2 u1 u2 hY (clean_steps c pre s _ hx hs)
      (fun y hy => fin y (steps_possible_append hx rfl hy)) ?_
    intro v w hvw hv hw
    have fig : ∀ v, HasFigures Y v := fun v n hn hs => absurd (hY' hn) hs
    refine (session_alike (b := True) (fun _ _ _ => trivial) ?_ hvw ⟨hv, fun _ => fig v⟩ ⟨hw, fun _ => fig w⟩).expect fun as bs h => hf as bs ?_
    · intro c' hc'
      rcases List.mem_cons.mp hc' with rfl | hc'
      · rw [lines_withLines]; exact hpost
      · exact hcs c' hc'
    · have : Y \ {stdoutName} = ∅ := by
        ext n
        simp only [Set.mem_sdiff, Set.mem_singleton_iff, Set.mem_empty_iff_false, iff_false, not_and, not_not]
        exact fun hn => hY' hn
      rw [this] at h
      exact h

/-! ### Two programs on one interpreter -/

omit R in
theorem Rand.Draws.widen {α : Type} {W W' D : Nat} {r : Rand α} (h : r.Draws W D) (hW : W ≤ W') : r.Draws W' D := by
  induction h with
  | pure D a => exact .pure _ _
  | draw D n k hn hw _ ih => exact .draw _ _ _ hn (hw.trans hW) ih

theorem draws_steps (c : Call) : ∀ lines : List Str, ∃ W D, RollDraws W D (c.steps parse lines)
  | [] => ⟨0, 0, fun _ => .pure _ _⟩
  | l :: ls => by
    obtain ⟨W, D, h⟩ := draws_step (parse := parse) c l
    obtain ⟨W', D', h'⟩ := draws_steps c ls
    exact ⟨max W W', D + D', RollDraws.bind (fun s => (h s).widen (le_max_left _ _)) fun _ s => (h' s).widen (le_max_right _ _)⟩

theorem draws_runCall (c : Call) (s : State) : ∃ W D, (runCall parse c s).Draws W D := by
  by_cases hc : c.Direct
  · cases c with
    | histogram l => exact ⟨0, 0, .pure _ _⟩
    | cost l => exact ⟨0, 0, .pure _ _⟩
    | _ => exact absurd hc (by simp [Call.Direct])
  · obtain ⟨W, D, h⟩ := draws_steps (parse := parse) c c.lines
    exact ⟨W, D + 0, by rw [runCall_report hc]; exact (h s).bind fun _ => .pure _ _⟩

theorem off_steps (c : Call) {X : Set Str} : ∀ {lines : List Str}, (∀ l ∈ lines, touches parse l ⊆ X) →
    RRel (fun s t => AgreeOff X s t) (c.steps parse lines)
  | [], _ => rrel_pure (agreeOff_pre X) _
  | l :: _, h => rrel_bind (agreeOff_pre X) (off_step c l (h l (List.mem_cons_self ..))) fun _ =>
      off_steps c fun l' hl' => h l' (List.mem_cons_of_mem _ hl')

theorem clean_runCall {c : Call} {s : State} (hs : CleanKeys s) {x : Answer × State} (hx : Rand.Possible x (runCall parse c s)) :
    CleanKeys x.2 := by
  obtain ⟨r, hr⟩ := runCall_state c s x hx
  exact clean_steps c c.lines s _ hr hs

theorem session_isolated {X : Set Str} : ∀ {calls : List (Bool × Call)},
    (∀ p ∈ calls, p.1 = true → ¬ p.2.AsksFigures ∧ Unaware parse X p.2.lines) →
    (∀ p ∈ calls, p.1 = false → ∀ l ∈ p.2.lines, touches parse l ⊆ X) →
    ∀ {s t : State}, CleanKeys s → CleanKeys t → AgreeOff X s t → ∀ {f g : List Answer → ℚ},
    (∀ as bs, List.Forall₂ (Answer.Alike (X \ {stdoutName})) as bs → f as = g bs) →
    (sessionFrom parse (calls.map Prod.snd) s).expect (fun as => f (marked (calls.map Prod.fst) as)) =
      (sessionFrom parse ((calls.filter Prod.fst).map Prod.snd) t).expect g := by
  intro calls
  induction calls with
  | nil => exact fun _ _ _ _ _ _ _ f g hf => hf _ _ .nil
  | cons p calls ih =>
    intro h1 h2 s t hs ht hst f g hf
    have ih' := @ih (fun q hq => h1 q (List.mem_cons_of_mem _ hq)) (fun q hq => h2 q (List.mem_cons_of_mem _ hq))
    obtain ⟨m, c⟩ := p
    cases m with
    | true =>
      obtain ⟨hfig, hX⟩ := h1 (true, c) (List.mem_cons_self ..) rfl
      have hal := runCall_alike (b := False) hX hst hfig ⟨hs, False.elim⟩ ⟨ht, False.elim⟩
      simp only [List.map_cons, List.filter_cons_of_pos]
      unfold sessionFrom
      rw [Rand.expect_bind, Rand.expect_bind]
      refine hal.possible.expect ?_
      rintro ⟨a, x⟩ ⟨b, y⟩ ⟨⟨q1, q2⟩, q3, q4⟩
      rw [Rand.expect_bind, Rand.expect_bind]
      exact ih' (clean_runCall hs q3) (clean_runCall ht q4) q2 (f := fun as => f (a :: as)) (g := fun bs => g (b :: bs))
        fun as bs h => hf _ _ (.cons q1 h)
    | false =>
      have hX := h2 (false, c) (List.mem_cons_self ..) rfl
      simp only [List.map_cons, List.filter_cons_of_neg, Bool.false_eq_true, not_false_eq_true]
      obtain ⟨W, D, hD⟩ := draws_runCall (parse := parse) c s
      rw [← expect_const hD ((sessionFrom parse ((calls.filter Prod.fst).map Prod.snd) t).expect g)]
      rw [sessionFrom, Rand.expect_bind]
      refine Rand.expect_congr fun x hx => ?_
      rw [Rand.expect_bind]
      obtain ⟨r, hr⟩ := runCall_state c s x hx
      exact ih' (clean_runCall hs hx) ht ((off_steps c hX s _ hr).symm.trans hst) hf

end

end PyDice
