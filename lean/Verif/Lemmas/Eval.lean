import Verif.Spec.Expr
import Verif.Lemmas.Dice
/-!
# Reasoning about the methods of expressions as computations on the state
-/

namespace PyDice

section
variable [R : PyRuntime]

theorem evalBind {α β : Type} (m : EvalM α) (f : α → EvalM β) (s : State) : (m >>= f) s =
    match m s with
    | (.ok a, s') => f a s'
    | (.error e, s') => (.error e, s') := rfl

theorem evalPure {α : Type} (a : α) (s : State) : (pure a : EvalM α) s = (.ok a, s) := rfl

theorem evalBind_ok {α β : Type} {m : EvalM α} {f : α → EvalM β} {s s' : State} {a : α} (h : m s = (.ok a, s')) :
    (m >>= f) s = f a s' := by rw [evalBind, h]

theorem evalBind_error {α β : Type} {m : EvalM α} {f : α → EvalM β} {s s' : State} {e : Err} (h : m s = (.error e, s')) :
    (m >>= f) s = (.error e, s') := by rw [evalBind, h]

theorem evalBind_eq_ok {α β : Type} {m : EvalM α} {f : α → EvalM β} {s s' : State} {b : β} :
    (m >>= f) s = (.ok b, s') ↔ ∃ a s1, m s = (.ok a, s1) ∧ f a s1 = (.ok b, s') := by
  rw [evalBind]
  constructor
  · intro h
    rcases hm : m s with ⟨r, s1⟩
    rw [hm] at h
    cases r with
    | ok a => exact ⟨a, s1, rfl, h⟩
    | error e => simp at h
  · rintro ⟨a, s1, h1, h2⟩
    rw [h1]; exact h2

/-- The computation has one result on all the states and leaves them as they are. -/
def Steady {α : Type} (m : EvalM α) (P : State → Prop) : Prop := ∃ r : Res α, ∀ t, P t → m t = (r, t)

theorem steady_bind {α β : Type} {m : EvalM α} {f : α → EvalM β} {P : State → Prop} (hm : Steady m P)
    (hf : ∀ a, Steady (f a) P) : Steady (m >>= f) P := by
  obtain ⟨r, hr⟩ := hm
  cases r with
  | error e => exact ⟨.error e, fun t ht => by rw [evalBind, hr t ht]⟩
  | ok a =>
    obtain ⟨r', hr'⟩ := hf a
    exact ⟨r', fun t ht => by rw [evalBind, hr t ht]; exact hr' t ht⟩

theorem steady_ofRes {α : Type} (r : Res α) (P : State → Prop) : Steady (EvalM.ofRes r) P := ⟨r, fun _ _ => rfl⟩

theorem steady_pure {α : Type} (a : α) (P : State → Prop) : Steady (pure a : EvalM α) P := ⟨.ok a, fun _ _ => rfl⟩

/-- The same for computations with random draws. -/
def RSteady {α : Type} (m : RollM α) (P : State → Prop) : Prop :=
  ∃ r : Rand (Res α), ∀ t, P t → m t = Rand.bind r fun a => .pure (a, t)

theorem rollBind {α β : Type} (m : RollM α) (f : α → RollM β) (s : State) : (m >>= f) s =
    Rand.bind (m s) fun
      | (.ok a, s') => f a s'
      | (.error e, s') => .pure (.error e, s') := rfl

theorem rsteady_bind {α β : Type} {m : RollM α} {f : α → RollM β} {P : State → Prop} (hm : RSteady m P)
    (hf : ∀ a, RSteady (f a) P) : RSteady (m >>= f) P := by
  obtain ⟨r, hr⟩ := hm
  choose g hg using hf
  refine ⟨Rand.bind r fun x => match x with
    | .ok a => g a
    | .error e => .pure (.error e), fun t ht => ?_⟩
  rw [rollBind, hr t ht, Rand.bind_assoc, Rand.bind_assoc]
  congr 1
  funext x
  cases x with
  | ok a => simp only [Rand.bind]; exact hg a t ht
  | error e => rfl

theorem rsteady_ofEval {α : Type} {m : EvalM α} {P : State → Prop} (h : Steady m P) : RSteady (RollM.ofEval m) P := by
  obtain ⟨r, hr⟩ := h
  exact ⟨.pure r, fun t ht => by unfold RollM.ofEval; rw [hr t ht]; rfl⟩

theorem rsteady_ofRand {α : Type} (r : Rand (Res α)) (P : State → Prop) : RSteady (RollM.ofRand r) P :=
  ⟨r, fun _ _ => rfl⟩

theorem rsteady_pure {α : Type} (a : α) (P : State → Prop) : RSteady (pure a : RollM α) P := ⟨.pure (.ok a), fun _ _ => rfl⟩

theorem agree_refl (names : List Str) (s : State) : AgreeOn names s s := fun _ _ => ⟨rfl, rfl⟩

theorem dist_steady (s : State) : ∀ (e : Expr), e.NoAssign → Steady e.dist (AgreeOn e.contained s) := by
  have mono : ∀ {α : Type} {m : EvalM α} {l l' : List Str}, (∀ n ∈ l, n ∈ l') → Steady m (AgreeOn l s) → Steady m (AgreeOn l' s) := by
    intro α m l l' hl ⟨r, hr⟩
    exact ⟨r, fun t ht => hr t (fun n hn => ht n (hl n hn))⟩
  have two : ∀ (a b : Expr) (op : BinOp), Steady a.dist (AgreeOn a.contained s) → Steady b.dist (AgreeOn b.contained s) →
      Steady (do let x ← a.dist; let y ← b.dist; EvalM.ofRes (Dist.binop op x y)) (AgreeOn (a.contained ++ b.contained) s) := by
    intro a b op ha hb
    exact steady_bind (mono (by simp +contextual) ha)
      (fun _ => steady_bind (mono (by simp +contextual) hb) (fun _ => steady_ofRes _ _))
  intro e
  induction e with
  | paren e ih => intro h; exact ih h
  | not e ih => intro h; exact steady_bind (ih h) (fun _ => steady_pure _ _)
  | abs e ih => intro h; exact steady_bind (ih h) (fun _ => steady_pure _ _)
  | dropKeep t => intro _; exact steady_ofRes _ _
  | dice t => intro _; exact steady_ofRes _ _
  | constInt t => intro _; exact steady_ofRes _ _
  | constBin t => intro _; exact steady_ofRes _ _
  | add a b iha ihb => intro h; exact two a b .add (iha h.1) (ihb h.2)
  | sub a b iha ihb => intro h; exact two a b .sub (iha h.1) (ihb h.2)
  | mul a b iha ihb => intro h; exact two a b .mul (iha h.1) (ihb h.2)
  | div a b iha ihb => intro h; exact two a b .floordiv (iha h.1) (ihb h.2)
  | bin op a b iha ihb => intro h; exact two a b op.toBinOp (iha h.1) (ihb h.2)
  | minmax k a b iha ihb => intro h; exact two a b (if k then .max else .min) (iha h.1) (ihb h.2)
  | assign n e _ => intro h; exact h.elim
  | getVar n =>
    intro _
    refine ⟨s.getVar n, fun t ht => ?_⟩
    have := (ht n (by simp [Expr.contained])).1
    simp only [Expr.dist, EvalM.read, State.getVar, this]

theorem steady_mono {α : Type} {m : EvalM α} {P Q : State → Prop} (hQ : ∀ t, Q t → P t) (h : Steady m P) : Steady m Q := by
  obtain ⟨r, hr⟩ := h
  exact ⟨r, fun t ht => hr t (hQ t ht)⟩

theorem rsteady_mono {α : Type} {m : RollM α} {P Q : State → Prop} (hQ : ∀ t, Q t → P t) (h : RSteady m P) : RSteady m Q := by
  obtain ⟨r, hr⟩ := h
  exact ⟨r, fun t ht => hr t (hQ t ht)⟩

theorem agree_left {l m : List Str} {s t : State} (h : AgreeOn (l ++ m) s t) : AgreeOn l s t :=
  fun n hn => h n (by simp [hn])
theorem agree_right {l m : List Str} {s t : State} (h : AgreeOn (l ++ m) s t) : AgreeOn m s t :=
  fun n hn => h n (by simp [hn])

theorem extreme_steady (isMax : Bool) (s : State) : ∀ (e : Expr), e.NoAssign →
    Steady (e.extreme isMax) (AgreeOn e.contained s) := by
  have via : ∀ e : Expr, e.NoAssign → Steady (viaDist isMax e.dist) (AgreeOn e.contained s) :=
    fun e h => steady_bind (dist_steady s e h) (fun _ => steady_ofRes _ _)
  intro e
  induction e with
  | paren e ih => intro h; exact ih h
  | not e ih => intro h; exact via (.not e) h
  | abs e ih => intro h; exact via (.abs e) h
  | dropKeep t => intro _; exact steady_ofRes _ _
  | dice t => intro _; exact steady_ofRes _ _
  | constInt t => intro _; exact steady_ofRes _ _
  | constBin t => intro _; exact steady_ofRes _ _
  | add a b iha ihb => intro h; exact via (.add a b) h
  | sub a b iha ihb => intro h; exact via (.sub a b) h
  | mul a b iha ihb => intro h; exact via (.mul a b) h
  | div a b iha ihb =>
    intro h
    refine steady_bind (steady_mono (fun t ht => agree_right ht) (dist_steady s b h.2)) (fun d => ?_)
    split
    · exact steady_ofRes _ _
    · exact via (.div a b) h
  | bin op a b iha ihb => intro h; exact via (.bin op a b) h
  | minmax k a b iha ihb =>
    intro h
    exact steady_bind (steady_mono (fun t ht => agree_left ht) (iha h.1))
      (fun _ => steady_bind (steady_mono (fun t ht => agree_right ht) (ihb h.2)) (fun _ => steady_pure _ _))
  | assign n e _ => intro h; exact h.elim
  | getVar n =>
    intro _
    refine ⟨s.getConstant n, fun t ht => ?_⟩
    have := (ht n (by simp [Expr.contained])).2
    simp only [Expr.extreme, EvalM.read, State.getConstant, this]

theorem cost_steady (s : State) : ∀ (e : Expr), e.NoAssign → Steady e.cost (AgreeOn e.contained s) := by
  have two : ∀ (a b : Expr), Steady a.cost (AgreeOn a.contained s) → Steady b.cost (AgreeOn b.contained s) →
      Steady (do let x ← a.cost; let y ← b.cost; return x + y) (AgreeOn (a.contained ++ b.contained) s) := by
    intro a b ha hb
    exact steady_bind (steady_mono (fun t ht => agree_left ht) ha)
      (fun _ => steady_bind (steady_mono (fun t ht => agree_right ht) hb) (fun _ => steady_pure _ _))
  intro e
  induction e with
  | paren e ih => intro h; exact ih h
  | not e ih => intro h; exact steady_bind (ih h) (fun _ => steady_ofRes _ _)
  | abs e ih => intro h; exact ih h
  | dropKeep t => intro _; exact steady_pure _ _
  | dice t => intro _; exact steady_pure _ _
  | constInt t => intro _; exact steady_pure _ _
  | constBin t => intro _; exact steady_pure _ _
  | add a b iha ihb => intro h; exact two a b (iha h.1) (ihb h.2)
  | sub a b iha ihb => intro h; exact two a b (iha h.1) (ihb h.2)
  | mul a b iha ihb => intro h; exact two a b (iha h.1) (ihb h.2)
  | div a b iha ihb => intro h; exact two a b (iha h.1) (ihb h.2)
  | bin op a b iha ihb => intro h; exact two a b (iha h.1) (ihb h.2)
  | minmax k a b iha ihb => intro h; exact two a b (iha h.1) (ihb h.2)
  | assign n e _ => intro h; exact h.elim
  | getVar n =>
    intro _
    refine ⟨s.getConstant n, fun t ht => ?_⟩
    have := (ht n (by simp [Expr.contained])).2
    simp only [Expr.cost, EvalM.read, State.getConstant, this]

theorem roll_steady (s : State) : ∀ (e : Expr), e.NoAssign → RSteady e.roll (AgreeOn e.contained s) := by
  have two : ∀ (a b : Expr) (g : Int → Int → Int), RSteady a.roll (AgreeOn a.contained s) → RSteady b.roll (AgreeOn b.contained s) →
      RSteady (do let x ← a.roll; let y ← b.roll; return g x y) (AgreeOn (a.contained ++ b.contained) s) := by
    intro a b g ha hb
    exact rsteady_bind (rsteady_mono (fun t ht => agree_left ht) ha)
      (fun _ => rsteady_bind (rsteady_mono (fun t ht => agree_right ht) hb) (fun _ => rsteady_pure _ _))
  intro e
  induction e with
  | paren e ih => intro h; exact ih h
  | not e ih => intro h; exact rsteady_bind (ih h) (fun _ => rsteady_pure _ _)
  | abs e ih => intro h; exact rsteady_bind (ih h) (fun _ => rsteady_pure _ _)
  | dropKeep t => intro _; exact rsteady_ofRand _ _
  | dice t => intro _; exact rsteady_ofRand _ _
  | constInt t => intro _; exact rsteady_ofEval (steady_ofRes _ _)
  | constBin t => intro _; exact rsteady_pure _ _
  | add a b iha ihb => intro h; exact two a b (fun x y => x + y) (iha h.1) (ihb h.2)
  | sub a b iha ihb => intro h; exact two a b (fun x y => x - y) (iha h.1) (ihb h.2)
  | mul a b iha ihb => intro h; exact two a b (fun x y => x * y) (iha h.1) (ihb h.2)
  | div a b iha ihb =>
    intro h
    refine rsteady_bind (rsteady_mono (fun t ht => agree_right ht) (ihb h.2)) (fun y => ?_)
    split
    · exact rsteady_ofEval (steady_ofRes _ _)
    · exact rsteady_bind (rsteady_mono (fun t ht => agree_left ht) (iha h.1)) (fun _ => rsteady_pure _ _)
  | bin op a b iha ihb => intro h; exact two a b (fun x y => if op.onInts x y then 1 else 0) (iha h.1) (ihb h.2)
  | minmax k a b iha ihb => intro h; exact two a b (minmaxOp k) (iha h.1) (ihb h.2)
  | assign n e _ => intro h; exact h.elim
  | getVar n =>
    intro _
    refine rsteady_ofEval ⟨s.getConstant n, fun t ht => ?_⟩
    have := (ht n (by simp [Expr.contained])).2
    simp only [EvalM.read, State.getConstant, this]

end

end PyDice
