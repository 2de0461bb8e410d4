import Verif.Spec.Nested
import Verif.Lemmas.Law
import Verif.Props.C34_C39
/-!
# Assignments inside expressions
-/

namespace PyDice
open PyRuntime

theorem inlined_noAssign (e : Expr) : e.inlined.NoAssign := by
  induction e with
  | paren e ih => exact ih
  | not e ih => exact ih
  | abs e ih => exact ih
  | assign x e ih => exact ih
  | dropKeep t => trivial
  | dice t => trivial
  | constInt text => trivial
  | constBin text => trivial
  | getVar n => trivial
  | add a b iha ihb => exact ⟨iha, ihb⟩
  | sub a b iha ihb => exact ⟨iha, ihb⟩
  | mul a b iha ihb => exact ⟨iha, ihb⟩
  | div a b iha ihb => exact ⟨iha, ihb⟩
  | bin op a b iha ihb => exact ⟨iha, ihb⟩
  | minmax k a b iha ihb => exact ⟨iha, ihb⟩

theorem inlined_reads (e : Expr) : e.inlined.reads = e.reads := by
  induction e with
  | paren e ih => exact ih
  | not e ih => exact ih
  | abs e ih => exact ih
  | assign x e ih => exact ih
  | dropKeep t => rfl
  | dice t => rfl
  | constInt text => rfl
  | constBin text => rfl
  | getVar n => rfl
  | add a b iha ihb => simp only [Expr.inlined, Expr.reads, iha, ihb]
  | sub a b iha ihb => simp only [Expr.inlined, Expr.reads, iha, ihb]
  | mul a b iha ihb => simp only [Expr.inlined, Expr.reads, iha, ihb]
  | div a b iha ihb => simp only [Expr.inlined, Expr.reads, iha, ihb]
  | bin op a b iha ihb => simp only [Expr.inlined, Expr.reads, iha, ihb]
  | minmax k a b iha ihb => simp only [Expr.inlined, Expr.reads, iha, ihb]

theorem inlined_faces (e : Expr) (h : e.Faces) : e.inlined.Faces := by
  induction e with
  | paren e ih => exact ih h
  | not e ih => exact ih h
  | abs e ih => exact ih h
  | assign x e ih => exact ih h
  | dropKeep t => exact h
  | dice t => exact h
  | constInt text => trivial
  | constBin text => trivial
  | getVar n => trivial
  | add a b iha ihb => exact ⟨iha h.1, ihb h.2⟩
  | sub a b iha ihb => exact ⟨iha h.1, ihb h.2⟩
  | mul a b iha ihb => exact ⟨iha h.1, ihb h.2⟩
  | div a b iha ihb => exact ⟨iha h.1, ihb h.2⟩
  | bin op a b iha ihb => exact ⟨iha h.1, ihb h.2⟩
  | minmax k a b iha ihb => exact ⟨iha h.1, ihb h.2⟩

theorem assignments_names (e : Expr) : ∀ n, n ∈ e.assignments.map Prod.fst ↔ n ∈ e.assigned := by
  induction e with
  | paren e ih => exact ih
  | not e ih => exact ih
  | abs e ih => exact ih
  | assign x e ih => intro n; simp only [Expr.assignments, Expr.assigned, List.map_append, List.mem_append, ih, List.mem_cons]; simp [or_comm]
  | dropKeep t => intro n; exact Iff.rfl
  | dice t => intro n; exact Iff.rfl
  | constInt text => intro n; exact Iff.rfl
  | constBin text => intro n; exact Iff.rfl
  | getVar n => intro n; exact Iff.rfl
  | add a b iha ihb => intro n; simp only [Expr.assignments, Expr.assigned, List.map_append, List.mem_append, iha, ihb]
  | sub a b iha ihb => intro n; simp only [Expr.assignments, Expr.assigned, List.map_append, List.mem_append, iha, ihb]
  | mul a b iha ihb => intro n; simp only [Expr.assignments, Expr.assigned, List.map_append, List.mem_append, iha, ihb]
  | div a b iha ihb => intro n; simp only [Expr.assignments, Expr.assigned, List.map_append, List.mem_append, iha, ihb]
  | bin op a b iha ihb => intro n; simp only [Expr.assignments, Expr.assigned, List.map_append, List.mem_append, iha, ihb]
  | minmax k a b iha ihb => intro n; simp only [Expr.assignments, Expr.assigned, List.map_append, List.mem_append, iha, ihb]

/-- What is assigned is straight when the whole expression is. -/
theorem assignments_straight (e : Expr) (hf : e.Faces) (hr : stdoutName ∉ e.reads) (ha : stdoutName ∉ e.assigned) : Straight e.assignments := by
  have two : ∀ {a b : Expr}, (stdoutName ∉ a.reads → stdoutName ∉ a.assigned → Straight a.assignments) →
      (stdoutName ∉ b.reads → stdoutName ∉ b.assigned → Straight b.assignments) → stdoutName ∉ a.reads ++ b.reads →
      stdoutName ∉ a.assigned ++ b.assigned → Straight (a.assignments ++ b.assignments) := by
    intro a b iha ihb hr ha l hl
    simp only [List.mem_append, not_or] at hr ha
    rcases List.mem_append.mp hl with hl | hl
    · exact iha hr.1 ha.1 l hl
    · exact ihb hr.2 ha.2 l hl
  have none : Straight [] := by intro l hl; cases hl
  induction e with
  | paren e ih => exact ih hf hr ha
  | not e ih => exact ih hf hr ha
  | abs e ih => exact ih hf hr ha
  | assign x e ih =>
    intro l hl
    simp only [Expr.assigned, List.mem_cons, not_or] at ha
    rcases List.mem_append.mp hl with hl | hl
    · exact ih hf hr ha.2 l hl
    · simp only [List.mem_singleton] at hl
      subst hl
      exact ⟨fun h => ha.1 h.symm, inlined_noAssign e, by rw [inlined_reads]; exact hr, inlined_faces e hf⟩
  | dropKeep t => exact none
  | dice t => exact none
  | constInt text => exact none
  | constBin text => exact none
  | getVar n => exact none
  | add a b iha ihb => exact two (iha hf.1) (ihb hf.2) hr ha
  | sub a b iha ihb => exact two (iha hf.1) (ihb hf.2) hr ha
  | mul a b iha ihb => exact two (iha hf.1) (ihb hf.2) hr ha
  | div a b iha ihb => exact two (iha hf.1) (ihb hf.2) hr ha
  | bin op a b iha ihb => exact two (iha hf.1) (ihb hf.2) hr ha
  | minmax k a b iha ihb => exact two (iha hf.1) (ihb hf.2) hr ha

section
variable [R : PyRuntime]

theorem distSteps_append {p q : Program} {s s2 : State} : DistSteps (p ++ q) s s2 ↔ ∃ s1, DistSteps p s s1 ∧ DistSteps q s1 s2 := by
  induction p generalizing s with
  | nil =>
    constructor
    · intro h; exact ⟨s, .nil s, h⟩
    · rintro ⟨s1, h1, h2⟩; cases h1; exact h2
  | cons l p ih =>
    constructor
    · intro h
      cases h with
      | cons hd h =>
        obtain ⟨s3, h3, h4⟩ := ih.mp h
        exact ⟨s3, .cons hd h3, h4⟩
    · rintro ⟨s1, h1, h2⟩
      cases h1 with
      | cons hd h => exact .cons hd (ih.mpr ⟨_, h, h2⟩)

theorem distSteps_one {x : Str} {e : Expr} {s s2 : State} : DistSteps [(x, e)] s s2 ↔ ∃ d, (Expr.assign x e).dist s = (.ok d, s2) := by
  constructor
  · intro h
    cases h with
    | cons hd h => cases h; exact ⟨_, hd⟩
  · rintro ⟨d, hd⟩; exact .cons hd (.nil _)

/-- The value of an assignment. -/
theorem assign_dist {x : Str} {e : Expr} {s s' : State} {d : Dist} : (Expr.assign x e).dist s = (.ok d, s') ↔
    ∃ s1, e.dist s = (.ok d, s1) ∧ s1.setVar x d = (.ok (), s') := by
  show ((e.dist >>= _) s) = _ ↔ _
  constructor
  · intro h
    obtain ⟨d1, s1, h1, h2⟩ := evalBind_eq_ok.mp h
    obtain ⟨_, s2, h3, h4⟩ := evalBind_eq_ok.mp h2
    cases h4
    exact ⟨s1, h1, h3⟩
  · rintro ⟨s1, h1, h2⟩
    exact evalBind_eq_ok.mpr ⟨d, s1, h1, evalBind_eq_ok.mpr ⟨(), s', h2, rfl⟩⟩

theorem setVar_other {s s' : State} {x : Str} {d : Dist} (h : s.setVar x d = (.ok (), s')) {n : Str} (hn : n ≠ x) :
    dictGet? s'.var n = dictGet? s.var n := by
  rw [setVar_eq] at h
  cases h
  show dictGet? (dictSet _ _ _) n = _
  rw [get_set, if_neg (fun h => hn h.symm)]

theorem distSteps_other {p : Program} (hp : ∀ l ∈ p, l.2.NoAssign) {s s' : State} (h : DistSteps p s s') {n : Str}
    (hn : n ∉ p.map Prod.fst) : dictGet? s'.var n = dictGet? s.var n := by
  induction h with
  | nil s => rfl
  | @cons s s1 s2 x e d p hd h ih =>
    simp only [List.map_cons, List.mem_cons, not_or] at hn
    rw [ih (fun l hl => hp l (by simp [hl])) hn.2]
    obtain ⟨s3, h1, h2⟩ := assign_dist.mp hd
    have : s3 = s := by
      have := noAssign_dist (hp (x, e) (by simp)) s
      rw [h1] at this
      exact this
    subst this
    exact setVar_other h2 hn.1

omit R in
theorem assignments_noAssign (e : Expr) : ∀ l ∈ e.assignments, l.2.NoAssign := by
  have two : ∀ {p q : Program}, (∀ l ∈ p, l.2.NoAssign) → (∀ l ∈ q, l.2.NoAssign) → ∀ l ∈ p ++ q, l.2.NoAssign := by
    intro p q hp hq l hl
    rcases List.mem_append.mp hl with hl | hl
    · exact hp l hl
    · exact hq l hl
  induction e with
  | paren e ih => exact ih
  | not e ih => exact ih
  | abs e ih => exact ih
  | assign x e ih => exact two ih (by intro l hl; simp only [List.mem_singleton] at hl; subst hl; exact inlined_noAssign e)
  | dropKeep t => intro l hl; cases hl
  | dice t => intro l hl; cases hl
  | constInt text => intro l hl; cases hl
  | constBin text => intro l hl; cases hl
  | getVar n => intro l hl; cases hl
  | add a b iha ihb => exact two iha ihb
  | sub a b iha ihb => exact two iha ihb
  | mul a b iha ihb => exact two iha ihb
  | div a b iha ihb => exact two iha ihb
  | bin op a b iha ihb => exact two iha ihb
  | minmax k a b iha ihb => exact two iha ihb

/-- The value of an assignment-free expression where the variables it reads are the same. -/
theorem dist_same {e : Expr} (he : e.NoAssign) {s t : State} (h : ∀ n ∈ e.reads, dictGet? s.var n = dictGet? t.var n) {d : Dist} :
    e.dist s = (.ok d, s) ↔ e.dist t = (.ok d, t) := by
  obtain ⟨r, hr⟩ := dist_varSteady s e he
  rw [hr s (fun _ _ => rfl), hr t (by rw [C35_contained e he]; exact h)]
  constructor <;> (intro h; cases h; rfl)

theorem dist_state {e : Expr} (he : e.NoAssign) {s s' : State} {r : Res Dist} (h : e.dist s = (r, s')) : s' = s := by
  have := noAssign_dist he s
  rw [h] at this
  exact this

/-- The distribution of an expression with assignments: make them first, in order; then the expression without them. -/
theorem dist_hoist : ∀ (e : Expr), e.Orderly → ∀ (s s' : State) (d : Dist), e.dist s = (.ok d, s') ↔
    DistSteps e.assignments s s' ∧ e.inlined.dist s' = (.ok d, s') := by
  have two : ∀ (op : BinOp) (a b e : Expr), e.inlined.dist = (do let x ← a.inlined.dist; let y ← b.inlined.dist; EvalM.ofRes (Dist.binop op x y)) →
      e.dist = (do let x ← a.dist; let y ← b.dist; EvalM.ofRes (Dist.binop op x y)) →
      (∀ n ∈ a.reads, n ∉ b.assigned) →
      (∀ (s s' : State) (d : Dist), a.dist s = (.ok d, s') ↔ DistSteps a.assignments s s' ∧ a.inlined.dist s' = (.ok d, s')) →
      (∀ (s s' : State) (d : Dist), b.dist s = (.ok d, s') ↔ DistSteps b.assignments s s' ∧ b.inlined.dist s' = (.ok d, s')) →
      ∀ (s s' : State) (d : Dist), e.dist s = (.ok d, s') ↔
        DistSteps (a.assignments ++ b.assignments) s s' ∧ e.inlined.dist s' = (.ok d, s') := by
    intro op a b e hi he hab iha ihb s s' d
    have same : ∀ {s1 s2 : State}, DistSteps b.assignments s1 s2 → ∀ {da}, (a.inlined.dist s1 = (.ok da, s1) ↔ a.inlined.dist s2 = (.ok da, s2)) := by
      intro s1 s2 h da
      apply dist_same (inlined_noAssign a)
      intro n hn
      rw [inlined_reads] at hn
      exact (distSteps_other (assignments_noAssign b) h (by rw [assignments_names]; exact hab n hn)).symm
    rw [he, hi]
    constructor
    · intro h
      obtain ⟨da, s1, h1, h2⟩ := evalBind_eq_ok.mp h
      obtain ⟨db, s2, h3, h4⟩ := evalBind_eq_ok.mp h2
      have e2 : s2 = s' := (Prod.mk.inj h4).2
      subst e2
      obtain ⟨k1, k2⟩ := (iha _ _ _).mp h1
      obtain ⟨k3, k4⟩ := (ihb _ _ _).mp h3
      exact ⟨distSteps_append.mpr ⟨s1, k1, k3⟩, evalBind_eq_ok.mpr ⟨da, s2, (same k3).mp k2, evalBind_eq_ok.mpr ⟨db, s2, k4, h4⟩⟩⟩
    · rintro ⟨h, h'⟩
      obtain ⟨s1, k1, k3⟩ := distSteps_append.mp h
      obtain ⟨da, s2, h1, h2⟩ := evalBind_eq_ok.mp h'
      have e1 := dist_state (inlined_noAssign a) h1
      subst e1
      obtain ⟨db, s3, h3, h4⟩ := evalBind_eq_ok.mp h2
      have e3 : s3 = s2 := (Prod.mk.inj h4).2
      subst e3
      exact evalBind_eq_ok.mpr ⟨da, s1, (iha _ _ _).mpr ⟨k1, (same k3).mpr h1⟩, evalBind_eq_ok.mpr ⟨db, s3, (ihb _ _ _).mpr ⟨k3, h3⟩, h4⟩⟩
  have one : ∀ (f : Dist → Dist) (a e : Expr), e.inlined.dist = (do return f (← a.inlined.dist)) → e.dist = (do return f (← a.dist)) →
      (∀ (s s' : State) (d : Dist), a.dist s = (.ok d, s') ↔ DistSteps a.assignments s s' ∧ a.inlined.dist s' = (.ok d, s')) →
      ∀ (s s' : State) (d : Dist), e.dist s = (.ok d, s') ↔ DistSteps a.assignments s s' ∧ e.inlined.dist s' = (.ok d, s') := by
    intro f a e hi he iha s s' d
    rw [hi, he]
    constructor
    · intro h
      obtain ⟨da, s1, h1, h2⟩ := evalBind_eq_ok.mp h
      cases h2
      obtain ⟨k1, k2⟩ := (iha _ _ _).mp h1
      exact ⟨k1, evalBind_eq_ok.mpr ⟨da, s', k2, rfl⟩⟩
    · rintro ⟨h, h'⟩
      obtain ⟨da, s1, h1, h2⟩ := evalBind_eq_ok.mp h'
      cases h2
      exact evalBind_eq_ok.mpr ⟨da, s', (iha _ _ _).mpr ⟨h, h1⟩, rfl⟩
  have leaf : ∀ (e : Expr), e.NoAssign → e.inlined = e → e.assignments = [] → ∀ (s s' : State) (d : Dist), e.dist s = (.ok d, s') ↔
      DistSteps e.assignments s s' ∧ e.inlined.dist s' = (.ok d, s') := by
    intro e hn hi ha s s' d
    rw [hi, ha]
    constructor
    · intro h
      have := dist_state hn h
      subst this
      exact ⟨.nil _, h⟩
    · rintro ⟨h, h'⟩; cases h; exact h'
  intro e
  induction e with
  | paren e ih => exact ih
  | not e ih => intro h; exact one Dist.notOp e (.not e) rfl rfl (ih h)
  | abs e ih => intro h; exact one Dist.absOp e (.abs e) rfl rfl (ih h)
  | dropKeep t => intro _; exact leaf _ trivial rfl rfl
  | dice t => intro _; exact leaf _ trivial rfl rfl
  | constInt text => intro _; exact leaf _ trivial rfl rfl
  | constBin text => intro _; exact leaf _ trivial rfl rfl
  | getVar n => intro _; exact leaf _ trivial rfl rfl
  | add a b iha ihb => intro h; exact two .add a b (.add a b) rfl rfl h.2.2 (iha h.1) (ihb h.2.1)
  | sub a b iha ihb => intro h; exact two .sub a b (.sub a b) rfl rfl h.2.2 (iha h.1) (ihb h.2.1)
  | mul a b iha ihb => intro h; exact two .mul a b (.mul a b) rfl rfl h.2.2 (iha h.1) (ihb h.2.1)
  | div a b iha ihb => intro h; exact two .floordiv a b (.div a b) rfl rfl h.2.2 (iha h.1) (ihb h.2.1)
  | bin op a b iha ihb => intro h; exact two op.toBinOp a b (.bin op a b) rfl rfl h.2.2 (iha h.1) (ihb h.2.1)
  | minmax k a b iha ihb => intro h; exact two (if k then .max else .min) a b (.minmax k a b) rfl rfl h.2.2 (iha h.1) (ihb h.2.1)
  | assign x e ih =>
    intro h s s' d
    show _ ↔ DistSteps (e.assignments ++ [(x, e.inlined)]) s s' ∧ e.inlined.dist s' = (.ok d, s')
    rw [distSteps_append]
    have same : ∀ {s1 s2 : State} {d'}, s1.setVar x d' = (.ok (), s2) → ∀ {da}, (e.inlined.dist s1 = (.ok da, s1) ↔ e.inlined.dist s2 = (.ok da, s2)) := by
      intro s1 s2 d' hs da
      apply dist_same (inlined_noAssign e)
      intro n hn
      rw [inlined_reads] at hn
      exact (setVar_other hs (fun h' => h.2 (h' ▸ hn))).symm
    constructor
    · intro hd
      obtain ⟨s1, h1, h2⟩ := assign_dist.mp hd
      obtain ⟨k1, k2⟩ := (ih h.1 _ _ _).mp h1
      exact ⟨⟨s1, k1, distSteps_one.mpr ⟨d, assign_dist.mpr ⟨s1, k2, h2⟩⟩⟩, (same h2).mp k2⟩
    · rintro ⟨⟨s1, k1, k2⟩, k3⟩
      obtain ⟨d', k4⟩ := distSteps_one.mp k2
      obtain ⟨s2, k5, k6⟩ := assign_dist.mp k4
      have := dist_state (inlined_noAssign e) k5
      subst this
      have e1 := (same k6).mp k5
      rw [k3] at e1
      cases e1
      exact assign_dist.mpr ⟨s2, (ih h.1 _ _ _).mpr ⟨k1, k5⟩, k6⟩

theorem session_steps {q : Program} {s s' : State} (h : DistSteps q s s') : ∀ {p : Program}, Session p s → Session (p ++ q) s' := by
  induction h with
  | nil s => intro p hs; simpa using hs
  | cons hd _ ih => intro p hs; simpa using ih (Session.dist hs hd)

/-- Programs with assignments inside expressions, run by the interpreter. -/
theorem session_nested {parse : Str → Res Expr} {lines : List Str} {tr : List (Expr × Dist)} {s s' : State} (h : DistRun parse s lines tr s') :
    ∀ {p : Program} {es : List Expr}, Session p s → lines.map parse = es.map .ok → (∀ e ∈ es, e.Orderly) →
      Session (p ++ es.flatMap Expr.assignments) s' := by
  induction h with
  | nil s =>
    intro p es hs hq _
    have : es = [] := by simpa using hq.symm
    subst this
    simpa using hs
  | @cons s s1 s2 l ls e d tr hp hd h ih =>
    intro p es hs hq ho
    cases es with
    | nil => simp at hq
    | cons e' es =>
      simp only [List.map_cons, List.cons.injEq] at hq
      rw [hp] at hq
      obtain ⟨h1, h2⟩ := hq
      cases h1
      have h3 : Session (p ++ e.assignments) { s1 with var := dictSet s1.var stdoutName d } := by
        refine Session.other (session_steps ((dist_hoist e (ho e (by simp)) _ _ _).mp hd).1 hs) ?_ (fun _ => le_refl _)
        intro n hn
        show dictGet? (dictSet s1.var stdoutName d) n = _
        rw [get_set, if_neg]
        simpa [eq_comm] using hn
      have := ih h3 h2 (fun e he => ho e (by simp [he]))
      simpa using this

end

end PyDice
