import Verif.Lemmas.Reach
import Verif.Lemmas.DropKeepTerm
/-!
# What the methods can change in the state
-/

namespace PyDice
open PyRuntime

section
variable [R : PyRuntime]

/-- A relation between the states before and after that holds of doing nothing and of doing two things in a row. -/
structure Pre (P : State → State → Prop) : Prop where
  refl : ∀ s, P s s
  trans : ∀ {s t u}, P s t → P t u → P s u

/-- The computation relates the states before and after, also when it raises. -/
def Rel {α : Type} (P : State → State → Prop) (m : EvalM α) : Prop := ∀ s, P s (m s).2

theorem rel_bind {α β : Type} {P : State → State → Prop} (hP : Pre P) {m : EvalM α} {f : α → EvalM β} (hm : Rel P m)
    (hf : ∀ a, Rel P (f a)) : Rel P (m >>= f) := by
  intro s
  rw [evalBind]
  have := hm s
  rcases h : m s with ⟨r, s1⟩
  rw [h] at this
  cases r with
  | ok a => exact hP.trans this (hf a s1)
  | error e => exact this

theorem rel_pure {α : Type} {P : State → State → Prop} (hP : Pre P) (a : α) : Rel P (pure a : EvalM α) := fun s => hP.refl s
theorem rel_ofRes {α : Type} {P : State → State → Prop} (hP : Pre P) (r : Res α) : Rel P (EvalM.ofRes r) := fun s => hP.refl s
theorem rel_read {α : Type} {P : State → State → Prop} (hP : Pre P) (f : State → Res α) : Rel P (EvalM.read f) := fun s => hP.refl s

/-- The same for computations with random draws. -/
def RRel {α : Type} (P : State → State → Prop) (m : RollM α) : Prop := ∀ s x, Rand.Possible x (m s) → P s x.2

theorem rrel_bind {α β : Type} {P : State → State → Prop} (hP : Pre P) {m : RollM α} {f : α → RollM β} (hm : RRel P m)
    (hf : ∀ a, RRel P (f a)) : RRel P (m >>= f) := by
  intro s x hx
  rw [rollBind, Rand.possible_bind] at hx
  obtain ⟨⟨r, s'⟩, h1, h2⟩ := hx
  have h3 := hm s _ h1
  cases r with
  | ok a => exact hP.trans h3 (hf a s' x h2)
  | error e => rw [Rand.possible_pure] at h2; subst h2; exact h3

theorem rrel_eval {α : Type} {P : State → State → Prop} {m : EvalM α} (h : Rel P m) : RRel P (RollM.ofEval m) := by
  intro s x hx
  unfold RollM.ofEval at hx
  rw [Rand.possible_pure] at hx
  subst hx
  exact h s

theorem rrel_rand {α : Type} {P : State → State → Prop} (hP : Pre P) (r : Rand (Res α)) : RRel P (RollM.ofRand r) := by
  intro s x hx
  unfold RollM.ofRand at hx
  rw [Rand.possible_bind] at hx
  obtain ⟨a, _, h2⟩ := hx
  rw [Rand.possible_pure] at h2
  subst h2
  exact hP.refl s

theorem rrel_pure {α : Type} {P : State → State → Prop} (hP : Pre P) (a : α) : RRel P (pure a : RollM α) := by
  intro s x hx
  have : x = (.ok a, s) := Rand.possible_pure.mp hx
  subst this
  exact hP.refl s

/-! ### The methods, given what assignments do -/

theorem rel_dist {P : State → State → Prop} (hP : Pre P) : ∀ e : Expr,
    (∀ x ∈ e.assigned, ∀ d, Rel P (EvalM.setVar x d)) → Rel P e.dist := by
  have two : ∀ (a b : Expr) (op : BinOp),
      ((∀ x ∈ a.assigned, ∀ d, Rel P (EvalM.setVar x d)) → Rel P a.dist) →
      ((∀ x ∈ b.assigned, ∀ d, Rel P (EvalM.setVar x d)) → Rel P b.dist) →
      (∀ x ∈ a.assigned ++ b.assigned, ∀ d, Rel P (EvalM.setVar x d)) →
      Rel P (do let x ← a.dist; let y ← b.dist; EvalM.ofRes (Dist.binop op x y)) := by
    intro a b op ha hb h
    exact rel_bind hP (ha fun x hx => h x (by simp [hx])) (fun _ => rel_bind hP (hb fun x hx => h x (by simp [hx])) (fun _ => rel_ofRes hP _))
  intro e
  induction e with
  | paren e ih => exact ih
  | not e ih => intro h; exact rel_bind hP (ih h) (fun _ => rel_pure hP _)
  | abs e ih => intro h; exact rel_bind hP (ih h) (fun _ => rel_pure hP _)
  | dropKeep t => intro _; exact rel_ofRes hP _
  | dice t => intro _; exact rel_ofRes hP _
  | constInt t => intro _; exact rel_ofRes hP _
  | constBin t => intro _; exact rel_ofRes hP _
  | add a b iha ihb => exact two a b .add iha ihb
  | sub a b iha ihb => exact two a b .sub iha ihb
  | mul a b iha ihb => exact two a b .mul iha ihb
  | div a b iha ihb => exact two a b .floordiv iha ihb
  | bin op a b iha ihb => exact two a b op.toBinOp iha ihb
  | minmax k a b iha ihb => exact two a b (if k then .max else .min) iha ihb
  | assign x e ih =>
    intro h
    exact rel_bind hP (ih fun y hy => h y (by simp [Expr.assigned, hy])) (fun d =>
      rel_bind hP (h x (by simp [Expr.assigned]) d) (fun _ => rel_pure hP _))
  | getVar n => intro _; exact rel_read hP _

theorem rel_extreme {P : State → State → Prop} (hP : Pre P) (isMax : Bool) : ∀ e : Expr,
    (∀ x ∈ e.assigned, ∀ d, Rel P (EvalM.setVar x d)) → (∀ x ∈ e.assigned, ∀ v, Rel P (EvalM.setConstant x v)) →
    Rel P (e.extreme isMax) := by
  have via : ∀ e : Expr, (∀ x ∈ e.assigned, ∀ d, Rel P (EvalM.setVar x d)) → Rel P (viaDist isMax e.dist) :=
    fun e h => rel_bind hP (rel_dist hP e h) (fun _ => rel_ofRes hP _)
  intro e
  induction e with
  | paren e ih => exact ih
  | not e ih => intro h _; exact via (.not e) h
  | abs e ih => intro h _; exact via (.abs e) h
  | dropKeep t => intro _ _; exact rel_ofRes hP _
  | dice t => intro _ _; exact rel_ofRes hP _
  | constInt t => intro _ _; exact rel_ofRes hP _
  | constBin t => intro _ _; exact rel_ofRes hP _
  | add a b _ _ => intro h _; exact via (.add a b) h
  | sub a b _ _ => intro h _; exact via (.sub a b) h
  | mul a b _ _ => intro h _; exact via (.mul a b) h
  | div a b _ _ =>
    intro h _
    refine rel_bind hP (rel_dist hP b fun x hx => h x (by simp [Expr.assigned, hx])) (fun d => ?_)
    split
    · exact rel_ofRes hP _
    · exact via (.div a b) h
  | bin op a b _ _ => intro h _; exact via (.bin op a b) h
  | minmax k a b iha ihb =>
    intro h h'
    exact rel_bind hP (iha (fun x hx => h x (by simp [Expr.assigned, hx])) (fun x hx => h' x (by simp [Expr.assigned, hx]))) (fun _ =>
      rel_bind hP (ihb (fun x hx => h x (by simp [Expr.assigned, hx])) (fun x hx => h' x (by simp [Expr.assigned, hx])))
        (fun _ => rel_pure hP _))
  | assign x e ih =>
    intro h h'
    have h1 : ∀ y ∈ e.assigned, ∀ d, Rel P (EvalM.setVar y d) := fun y hy => h y (by simp [Expr.assigned, hy])
    exact rel_bind hP (ih h1 fun y hy => h' y (by simp [Expr.assigned, hy])) (fun v =>
      rel_bind hP (h' x (by simp [Expr.assigned]) v) (fun _ => rel_bind hP (rel_dist hP e h1) (fun d =>
        rel_bind hP (h x (by simp [Expr.assigned]) d) (fun _ => rel_pure hP _))))
  | getVar n => intro _ _; exact rel_read hP _

theorem rel_cost {P : State → State → Prop} (hP : Pre P) : ∀ e : Expr,
    (∀ x ∈ e.assigned, ∀ v, Rel P (EvalM.setConstant x v)) → Rel P e.cost := by
  have two : ∀ (a b : Expr),
      ((∀ x ∈ a.assigned, ∀ v, Rel P (EvalM.setConstant x v)) → Rel P a.cost) →
      ((∀ x ∈ b.assigned, ∀ v, Rel P (EvalM.setConstant x v)) → Rel P b.cost) →
      (∀ x ∈ a.assigned ++ b.assigned, ∀ v, Rel P (EvalM.setConstant x v)) →
      Rel P (do let x ← a.cost; let y ← b.cost; return x + y) := by
    intro a b ha hb h
    exact rel_bind hP (ha fun x hx => h x (by simp [hx])) (fun _ => rel_bind hP (hb fun x hx => h x (by simp [hx])) (fun _ => rel_pure hP _))
  intro e
  induction e with
  | paren e ih => exact ih
  | not e ih => intro h; exact rel_bind hP (ih h) (fun _ => rel_ofRes hP _)
  | abs e ih => exact ih
  | dropKeep t => intro _; exact rel_pure hP _
  | dice t => intro _; exact rel_pure hP _
  | constInt t => intro _; exact rel_pure hP _
  | constBin t => intro _; exact rel_pure hP _
  | add a b iha ihb => exact two a b iha ihb
  | sub a b iha ihb => exact two a b iha ihb
  | mul a b iha ihb => exact two a b iha ihb
  | div a b iha ihb => exact two a b iha ihb
  | bin op a b iha ihb => exact two a b iha ihb
  | minmax k a b iha ihb => exact two a b iha ihb
  | assign x e ih =>
    intro h
    exact rel_bind hP (ih fun y hy => h y (by simp [Expr.assigned, hy])) (fun c =>
      rel_bind hP (h x (by simp [Expr.assigned]) c) (fun _ => rel_pure hP _))
  | getVar n => intro _; exact rel_read hP _

theorem rrel_roll {P : State → State → Prop} (hP : Pre P) : ∀ e : Expr,
    (∀ x ∈ e.assigned, ∀ v, Rel P (EvalM.setConstant x v)) → RRel P e.roll := by
  have two : ∀ (a b : Expr) (g : Int → Int → Int),
      ((∀ x ∈ a.assigned, ∀ v, Rel P (EvalM.setConstant x v)) → RRel P a.roll) →
      ((∀ x ∈ b.assigned, ∀ v, Rel P (EvalM.setConstant x v)) → RRel P b.roll) →
      (∀ x ∈ a.assigned ++ b.assigned, ∀ v, Rel P (EvalM.setConstant x v)) →
      RRel P (do let x ← a.roll; let y ← b.roll; return g x y) := by
    intro a b g ha hb h
    exact rrel_bind hP (ha fun x hx => h x (by simp [hx])) (fun _ => rrel_bind hP (hb fun x hx => h x (by simp [hx])) (fun _ => rrel_pure hP _))
  intro e
  induction e with
  | paren e ih => exact ih
  | not e ih => intro h; exact rrel_bind hP (ih h) (fun _ => rrel_pure hP _)
  | abs e ih => intro h; exact rrel_bind hP (ih h) (fun _ => rrel_pure hP _)
  | dropKeep t => intro _; exact rrel_rand hP _
  | dice t => intro _; exact rrel_rand hP _
  | constInt t => intro _; exact rrel_eval (rel_ofRes hP _)
  | constBin t => intro _; exact rrel_pure hP _
  | add a b iha ihb => exact two a b (fun x y => x + y) iha ihb
  | sub a b iha ihb => exact two a b (fun x y => x - y) iha ihb
  | mul a b iha ihb => exact two a b (fun x y => x * y) iha ihb
  | div a b iha ihb =>
    intro h
    refine rrel_bind hP (ihb fun x hx => h x (by simp [Expr.assigned, hx])) (fun y => ?_)
    split
    · exact rrel_eval (rel_ofRes hP _)
    · exact rrel_bind hP (iha fun x hx => h x (by simp [Expr.assigned, hx])) (fun _ => rrel_pure hP _)
  | bin op a b iha ihb => exact two a b (fun x y => if op.onInts x y then 1 else 0) iha ihb
  | minmax k a b iha ihb => exact two a b (minmaxOp k) iha ihb
  | assign x e ih =>
    intro h
    exact rrel_bind hP (ih fun y hy => h y (by simp [Expr.assigned, hy])) (fun v =>
      rrel_bind hP (rrel_eval (h x (by simp [Expr.assigned]) v)) (fun _ => rrel_pure hP _))
  | getVar n => intro _; exact rrel_eval (rel_read hP _)

/-! ### Other names -/

/-- The name has the same distribution and the same constant. -/
def Same (x : Str) (s t : State) : Prop := dictGet? t.constants x = dictGet? s.constants x ∧ dictGet? t.var x = dictGet? s.var x

theorem pre_same (x : Str) : Pre (Same x) := ⟨fun _ => ⟨rfl, rfl⟩, fun h h' => ⟨h'.1.trans h.1, h'.2.trans h.2⟩⟩

theorem same_setConstant {x y : Str} (h : y ≠ x) (v : Int) : Rel (Same x) (EvalM.setConstant y v) := by
  intro s
  exact ⟨by simp [EvalM.setConstant, State.setConstant, get_set, h], rfl⟩

theorem same_setVar {x y : Str} (h : y ≠ x) (d : Dist) : Rel (Same x) (EvalM.setVar y d) := by
  intro s
  unfold EvalM.setVar
  rw [setVar_eq]
  exact ⟨rfl, by simp [get_set, h]⟩

theorem same_dist {x : Str} {e : Expr} (h : x ∉ e.assigned) : Rel (Same x) e.dist :=
  rel_dist (pre_same x) e (fun _ hy d => same_setVar (fun he => h (by rw [← he]; exact hy)) d)
theorem same_extreme {x : Str} {e : Expr} (h : x ∉ e.assigned) (isMax : Bool) : Rel (Same x) (e.extreme isMax) :=
  rel_extreme (pre_same x) isMax e (fun _ hy d => same_setVar (fun he => h (by rw [← he]; exact hy)) d)
    (fun _ hy v => same_setConstant (fun he => h (by rw [← he]; exact hy)) v)
theorem same_cost {x : Str} {e : Expr} (h : x ∉ e.assigned) : Rel (Same x) e.cost :=
  rel_cost (pre_same x) e (fun _ hy v => same_setConstant (fun he => h (by rw [← he]; exact hy)) v)
theorem same_roll {x : Str} {e : Expr} (h : x ∉ e.assigned) : RRel (Same x) e.roll :=
  rrel_roll (pre_same x) e (fun _ hy v => same_setConstant (fun he => h (by rw [← he]; exact hy)) v)

/-- The constants are the same. -/
def SameConstants (s t : State) : Prop := t.constants = s.constants

theorem pre_sameConstants : Pre SameConstants := ⟨fun _ => rfl, fun h h' => Eq.trans h' h⟩

theorem sameConstants_dist (e : Expr) : Rel SameConstants e.dist := by
  refine rel_dist pre_sameConstants e (fun x _ d s => ?_)
  unfold EvalM.setVar
  rw [setVar_eq]
  rfl

/-! ### Failing expressions -/

theorem noAssign_dist {e : Expr} (h : e.NoAssign) (s : State) : (e.dist s).2 = s := by
  obtain ⟨r, hr⟩ := dist_steady s e h
  rw [hr s (agree_refl _ s)]
theorem noAssign_extreme {e : Expr} (h : e.NoAssign) (isMax : Bool) (s : State) : (e.extreme isMax s).2 = s := by
  obtain ⟨r, hr⟩ := extreme_steady isMax s e h
  rw [hr s (agree_refl _ s)]
theorem noAssign_cost {e : Expr} (h : e.NoAssign) (s : State) : (e.cost s).2 = s := by
  obtain ⟨r, hr⟩ := cost_steady s e h
  rw [hr s (agree_refl _ s)]
theorem noAssign_roll {e : Expr} (h : e.NoAssign) {s : State} {x : Res Int × State} (hx : Rand.Possible x (e.roll s)) : x.2 = s := by
  obtain ⟨r, hr⟩ := roll_steady s e h
  rw [hr s (agree_refl _ s), Rand.possible_bind] at hx
  obtain ⟨a, _, h2⟩ := hx
  rw [Rand.possible_pure] at h2
  rw [h2]

omit R in
theorem topAssign_cases {e : Expr} (h : e.TopAssign) : e.NoAssign ∨ ∃ x e', e = .assign x e' ∧ e'.NoAssign := by
  cases e <;> first | exact Or.inl h | exact Or.inr ⟨_, _, rfl, h⟩

theorem fail_dist {e : Expr} (h : e.TopAssign) {s s' : State} {er : Err} (he : e.dist s = (.error er, s')) : s' = s := by
  rcases topAssign_cases h with h | ⟨x, e', rfl, h⟩
  · rw [← noAssign_dist h s, he]
  · have hs := noAssign_dist h s
    simp only [Expr.dist, evalBind] at he
    rcases hd : e'.dist s with ⟨r, s1⟩
    rw [hd] at he hs
    cases r with
    | error e => exact ((Prod.mk.inj he).2).symm.trans hs
    | ok d => simp only [EvalM.setVar, setVar_eq] at he; cases (Prod.mk.inj he).1

theorem fail_cost {e : Expr} (h : e.TopAssign) {s s' : State} {er : Err} (he : e.cost s = (.error er, s')) : s' = s := by
  rcases topAssign_cases h with h | ⟨x, e', rfl, h⟩
  · rw [← noAssign_cost h s, he]
  · have hs := noAssign_cost h s
    simp only [Expr.cost, evalBind] at he
    rcases hd : e'.cost s with ⟨r, s1⟩
    rw [hd] at he hs
    cases r with
    | error e => exact ((Prod.mk.inj he).2).symm.trans hs
    | ok d => cases (Prod.mk.inj he).1

theorem fail_roll {e : Expr} (h : e.TopAssign) {s s' : State} {er : Err} (he : Rand.Possible (.error er, s') (e.roll s)) : s' = s := by
  rcases topAssign_cases h with h | ⟨x, e', rfl, h⟩
  · exact noAssign_roll h he
  · simp only [Expr.roll] at he
    rw [rollBind, Rand.possible_bind] at he
    obtain ⟨⟨r, s1⟩, h1, h2⟩ := he
    have hs := noAssign_roll h h1
    cases r with
    | error e =>
      rw [Rand.possible_pure] at h2
      exact (Prod.mk.inj h2).2.trans hs
    | ok v =>
      have : (.error er, s') = ((.ok v : Res Int), s1.setConstant x v) := Rand.possible_pure.mp h2
      cases (Prod.mk.inj this).1

/-- A failed `max` / `min` of a line: nothing happened, or the value was computed, the constant set, and then the distribution raised. -/
theorem fail_extreme {e : Expr} (h : e.TopAssign) {isMax : Bool} {s s' : State} {er : Err}
    (he : e.extreme isMax s = (.error er, s')) :
    s' = s ∨ ∃ x e' v, e = .assign x e' ∧ e'.extreme isMax s = (.ok v, s) ∧ s' = s.setConstant x v ∧
      (e'.dist s').1 = .error er := by
  rcases topAssign_cases h with h | ⟨x, e', rfl, h⟩
  · left; rw [← noAssign_extreme h isMax s, he]
  · have hs := noAssign_extreme h isMax s
    simp only [Expr.extreme, evalBind] at he
    rcases hd : e'.extreme isMax s with ⟨r, s1⟩
    rw [hd] at he hs
    cases r with
    | error e => left; exact ((Prod.mk.inj he).2).symm.trans hs
    | ok v =>
      obtain rfl : s1 = s := hs
      simp only [EvalM.setConstant] at he
      have hs2 := noAssign_dist h (s1.setConstant x v)
      rcases hd2 : e'.dist (s1.setConstant x v) with ⟨r, s2⟩
      rw [hd2] at he hs2
      cases r with
      | error e =>
        obtain ⟨h1, h2⟩ := Prod.mk.inj he
        obtain rfl : s2 = s1.setConstant x v := hs2
        exact Or.inr ⟨x, e', v, rfl, hd, h2.symm, by rw [← h2, hd2]; cases h1; rfl⟩
      | ok d => simp only [EvalM.setVar, setVar_eq] at he; cases (Prod.mk.inj he).1

/-- Every constant but `stdout` has a distribution. -/
def Paired (s : State) : Prop := ∀ n, n ≠ stdoutName → (∃ v, dictGet? s.constants n = some v) → ∃ d, dictGet? s.var n = some d

theorem binop_ok_of_total {op : BinOp} (h : op ≠ .floordiv) {a b : Dist} (ha : a.Proper) : ∃ d, Dist.binop op a b = .ok d := by
  rw [binop_ok_iff ha]
  intro p _ q _
  cases op <;> first | exact ⟨_, rfl⟩ | exact absurd rfl h

theorem addDice_ok (single : Dist) : ∀ (n : Nat) (d : Dist), d.Proper → ∃ r, addDice single n d = .ok r := by
  intro n
  induction n with
  | zero => intro d _; exact ⟨d, rfl⟩
  | succ n ih =>
    intro d hd
    obtain ⟨d', h⟩ := binop_ok_of_total (op := .add) (by decide) (b := single) hd
    obtain ⟨r, hr⟩ := ih d' (binop_proper h hd)
    exact ⟨r, by unfold addDice; rw [h]; exact hr⟩

theorem diceDist_ok (t : DiceTerm) : ∃ d, t.dist = .ok d := by
  obtain ⟨s, hs, _⟩ := mkDistInt_spec (R := R) t.table
  obtain ⟨d, hd, _, _, hp, _⟩ := mkDistInt_spec (R := R) s.getResultMap
  obtain ⟨r, hr⟩ := addDice_ok s (t.number - 1) d hp
  exact ⟨r, by unfold DiceTerm.dist; rw [hs, ok_bind, hd, ok_bind]; exact hr⟩

theorem dropKeepDist_ok {form : Str} {t : DropKeepTerm} (ht : mkDropKeep form = .ok t) : ∃ d, t.dist = .ok d := by
  by_cases hn : 1 ≤ t.number
  · rcases count_cases ht hn with ⟨_, h2, h3⟩ | ⟨f, h⟩ | h
    · obtain ⟨d, hd, _⟩ := dropKeepDist_spec t h3 (by omega)
      exact ⟨d, hd⟩
    · obtain ⟨d, hd⟩ := diceDist_ok ⟨f, t.table, t.number⟩
      exact ⟨d, by unfold DropKeepTerm.dist; rw [h]; exact hd⟩
    · obtain ⟨d, hd, _⟩ := constDist_spec (R := R) 0
      exact ⟨d, by unfold DropKeepTerm.dist; rw [h]; exact hd⟩
  · obtain ⟨_, hp, hz, _⟩ := mkDropKeep_spec ht
    cases hk : t.keep with
    | true =>
      obtain ⟨f, h⟩ := hp (Or.inl ⟨hk, by omega⟩)
      obtain ⟨d, hd⟩ := diceDist_ok ⟨f, t.table, t.number⟩
      exact ⟨d, by unfold DropKeepTerm.dist; rw [h]; exact hd⟩
    | false =>
      have h := hz (Or.inr ⟨hk, by omega⟩)
      obtain ⟨d, hd, _⟩ := constDist_spec (R := R) 0
      exact ⟨d, by unfold DropKeepTerm.dist; rw [h]; exact hd⟩

theorem constDist_ok (v : Int) : ∃ d, constDist v = .ok d := by
  obtain ⟨d, hd, _⟩ := constDist_spec (R := R) v
  exact ⟨d, hd⟩

/-- When all constants read have distributions, an expression that has an extreme value has a distribution. -/
theorem dist_ok_of_extreme_ok (isMax : Bool) {s : State} (hs : TidyState s) (hp : Paired s) : ∀ e : Expr, e.NoAssign → e.Built →
    stdoutName ∉ e.reads → ∀ v, (e.extreme isMax s).1 = .ok v → ∃ d, (e.dist s).1 = .ok d := by
  have via : ∀ (m : EvalM Dist) (v : Int), (viaDist isMax m s).1 = .ok v → ∃ d, (m s).1 = .ok d := by
    intro m v h
    unfold viaDist at h
    rw [evalBind] at h
    rcases hm : m s with ⟨r, s1⟩
    rw [hm] at h
    cases r with
    | ok d => exact ⟨d, rfl⟩
    | error e => cases h
  intro e
  induction e with
  | paren e ih => exact ih
  | not e ih => intro _ _ _ v h; exact via _ v h
  | abs e ih => intro _ _ _ v h; exact via _ v h
  | dropKeep t => intro _ hb _ v _; obtain ⟨f, hf⟩ := hb; exact dropKeepDist_ok hf
  | dice t => intro _ _ _ v _; exact diceDist_ok t
  | constInt t =>
    intro _ _ _ v h
    obtain ⟨d, hd⟩ := constDist_ok (R := R) v
    refine ⟨d, ?_⟩
    have h' : pyInt t = .ok v := h
    simp only [Expr.dist, EvalM.ofRes, h', ok_bind, hd]
  | constBin t => intro _ _ _ v _; exact constDist_ok _
  | add a b _ _ => intro _ _ _ v h; exact via _ v h
  | sub a b _ _ => intro _ _ _ v h; exact via _ v h
  | mul a b _ _ => intro _ _ _ v h; exact via _ v h
  | div a b _ _ =>
    intro hn _ _ v h
    have h1 := noAssign_dist hn.2 s
    simp only [Expr.extreme] at h
    rw [evalBind] at h
    rcases hm : b.dist s with ⟨r, s1⟩
    rw [hm] at h h1
    obtain rfl : s1 = s := h1
    cases r with
    | error e => cases h
    | ok d =>
      dsimp only at h
      split at h
      · cases h
      · exact via _ v h
  | bin op a b _ _ => intro _ _ _ v h; exact via _ v h
  | minmax k a b iha ihb =>
    intro hn hb hr v h
    have hr' : stdoutName ∉ a.reads ∧ stdoutName ∉ b.reads := by simpa [Expr.reads] using hr
    have h1 := noAssign_extreme hn.1 isMax s
    simp only [Expr.extreme] at h
    rw [evalBind] at h
    rcases hm : a.extreme isMax s with ⟨r, s1⟩
    rw [hm] at h h1
    obtain rfl : s1 = s := h1
    cases r with
    | error e => cases h
    | ok x =>
      dsimp only at h
      rw [evalBind] at h
      rcases hm2 : b.extreme isMax s1 with ⟨r, s2⟩
      rw [hm2] at h
      cases r with
      | error e => cases h
      | ok y =>
        obtain ⟨da, hda⟩ := iha hn.1 hb.1 hr'.1 x (by rw [hm])
        obtain ⟨db, hdb⟩ := ihb hn.2 hb.2 hr'.2 y (by rw [hm2])
        have ea : a.dist s1 = (.ok da, s1) := Prod.ext hda (noAssign_dist hn.1 s1)
        have eb : b.dist s1 = (.ok db, s1) := Prod.ext hdb (noAssign_dist hn.2 s1)
        obtain ⟨A, hA, _⟩ := (keeps_dist a s1 hs).2.2 da (by rw [ea])
        have hop : (if k = true then BinOp.max else BinOp.min) ≠ .floordiv := by cases k <;> decide
        obtain ⟨d, hd⟩ := binop_ok_of_total hop (b := db) hA.proper
        refine ⟨d, ?_⟩
        simp only [Expr.dist]
        rw [evalBind_ok ea, evalBind_ok eb]
        exact hd
  | assign x e _ => intro h; exact h.elim
  | getVar n =>
    intro _ _ hr v h
    have hn : n ≠ stdoutName := by
      rintro rfl; simp [Expr.reads] at hr
    have : ∃ v, dictGet? s.constants n = some v := by
      simp only [Expr.extreme, EvalM.read, State.getConstant] at h
      split at h
      · rename_i w hw; exact ⟨w, hw⟩
      · cases h
    obtain ⟨d, hd⟩ := hp n hn this
    exact ⟨d, by simp [Expr.dist, EvalM.read, State.getVar, hd]⟩

theorem same_stdout {x : Str} (hx : x ≠ stdoutName) (s : State) (v : Int) :
    Same x s { s with constants := dictSet s.constants stdoutName v } :=
  ⟨by simp [get_set, hx.symm], rfl⟩

theorem paired_setBoth {s : State} (h : Paired s) (x : Str) (v : Int) (d : Dist) : Paired ((s.setConstant x v).setVar x d).2 := by
  intro n hn hc
  rw [setVar_eq] at hc ⊢
  simp only [State.setConstant, get_set] at hc ⊢
  by_cases hx : x = n
  · simp [hx]
  · simp only [hx, if_false] at hc ⊢
    exact h n hn hc

/-- Distributions are computed from stored distributions alone. -/
theorem dist_varSteady (s : State) : ∀ (e : Expr), e.NoAssign →
    Steady e.dist (fun t => ∀ n ∈ e.contained, dictGet? s.var n = dictGet? t.var n) := by
  have two : ∀ (a b : Expr) (op : BinOp), Steady a.dist (fun t => ∀ n ∈ a.contained, dictGet? s.var n = dictGet? t.var n) →
      Steady b.dist (fun t => ∀ n ∈ b.contained, dictGet? s.var n = dictGet? t.var n) →
      Steady (do let x ← a.dist; let y ← b.dist; EvalM.ofRes (Dist.binop op x y))
        (fun t => ∀ n ∈ a.contained ++ b.contained, dictGet? s.var n = dictGet? t.var n) := by
    intro a b op ha hb
    exact steady_bind (steady_mono (fun t ht n hn => ht n (by simp [hn])) ha)
      (fun _ => steady_bind (steady_mono (fun t ht n hn => ht n (by simp [hn])) hb) (fun _ => steady_ofRes _ _))
  intro e
  induction e with
  | paren e ih => intro h; exact ih h
  | not e ih => intro h; exact steady_bind (ih h) (fun _ => steady_pure _ _)
  | abs e ih => intro h; exact steady_bind (ih h) (fun _ => steady_pure _ _)
  | dropKeep t => intro _; exact steady_ofRes _ _
  | dice t => intro _; exact steady_ofRes _ _
  | constInt t => intro _; exact steady_ofRes _ _
  | constBin t => intro _; exact steady_ofRes _ _
  | add a b iha ihb => intro h; exact two a b .add (iha h.1) (ihb h.2)
  | sub a b iha ihb => intro h; exact two a b .sub (iha h.1) (ihb h.2)
  | mul a b iha ihb => intro h; exact two a b .mul (iha h.1) (ihb h.2)
  | div a b iha ihb => intro h; exact two a b .floordiv (iha h.1) (ihb h.2)
  | bin op a b iha ihb => intro h; exact two a b op.toBinOp (iha h.1) (ihb h.2)
  | minmax k a b iha ihb => intro h; exact two a b (if k then .max else .min) (iha h.1) (ihb h.2)
  | assign n e _ => intro h; exact h.elim
  | getVar n =>
    intro _
    refine ⟨s.getVar n, fun t ht => ?_⟩
    have := ht n (by simp [Expr.contained])
    simp only [Expr.dist, EvalM.read, State.getVar, this]

end

end PyDice
