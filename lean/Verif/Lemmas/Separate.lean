import Verif.Spec.Separate
import Verif.Lemmas.Dicts
import Verif.Lemmas.Runs
import Verif.Lemmas.AbsInterp
/-!
# Computations that do not look at some names
-/

namespace PyDice
open PyRuntime

theorem Rand.Same.bind {α β γ δ : Type} {Q : α → β → Prop} {Q' : γ → δ → Prop} {r : Rand α} {r' : Rand β} {f : α → Rand γ} {f' : β → Rand δ}
    (h : Rand.Same Q r r') (hf : ∀ a b, Q a b → Rand.Same Q' (f a) (f' b)) : Rand.Same Q' (Rand.bind r f) (Rand.bind r' f') := by
  induction h with
  | pure h => exact hf _ _ h
  | draw _ ih => exact .draw fun t ht => ih t ht

theorem Rand.Same.mono {α β : Type} {Q Q' : α → β → Prop} {r : Rand α} {r' : Rand β} (h : Rand.Same Q r r') (hq : ∀ a b, Q a b → Q' a b) :
    Rand.Same Q' r r' := by
  induction h with
  | pure h => exact .pure (hq _ _ h)
  | draw _ ih => exact .draw ih

theorem Rand.Same.refl {α : Type} {Q : α → α → Prop} (hQ : ∀ a, Q a a) (r : Rand α) : Rand.Same Q r r := by
  induction r with
  | pure a => exact .pure (hQ a)
  | draw n k ih => exact .draw fun t _ => ih t

theorem Rand.Same.expect {α β : Type} {Q : α → β → Prop} {r : Rand α} {r' : Rand β} (h : Rand.Same Q r r') {f : α → ℚ} {g : β → ℚ}
    (hf : ∀ a b, Q a b → f a = g b) : r.expect f = r'.expect g := by
  induction h with
  | pure h => exact hf _ _ h
  | draw _ ih =>
    simp only [Rand.expect]
    congr 2
    exact List.map_congr_left fun t ht => ih t (List.mem_range.mp ht)

theorem Rand.Same.possible {α β : Type} {Q : α → β → Prop} {r : Rand α} {r' : Rand β} (h : Rand.Same Q r r') :
    Rand.Same (fun a b => Q a b ∧ Rand.Possible a r ∧ Rand.Possible b r') r r' := by
  induction h with
  | pure h => exact .pure ⟨h, .pure, .pure⟩
  | draw _ ih => exact .draw fun t ht => (ih t ht).mono fun a b h => ⟨h.1, .draw t ht h.2.1, .draw t ht h.2.2⟩

theorem Rand.Same.find {α β : Type} {Q : α → β → Prop} {r : Rand α} {r' : Rand β} (h : Rand.Same Q r r') {b : β}
    (hb : Rand.Possible b r') : ∃ a, Rand.Possible a r ∧ Q a b := by
  induction h with
  | pure h => cases hb; exact ⟨_, .pure, h⟩
  | draw _ ih =>
    cases hb with
    | draw t ht hb =>
      obtain ⟨a, h1, h2⟩ := ih t ht hb
      exact ⟨a, .draw t ht h1, h2⟩

theorem Rand.Same.symm {α β : Type} {Q : α → β → Prop} {r : Rand α} {r' : Rand β} (h : Rand.Same Q r r') :
    Rand.Same (fun b a => Q a b) r' r := by
  induction h with
  | pure h => exact .pure h
  | draw _ ih => exact .draw ih

theorem sameOutside_refl {α : Type} (X : Set Str) (d : List (Str × α)) : SameOutside X d d := fun _ _ => rfl

theorem SameOutside.mono {α : Type} {X Y : Set Str} {d d' : List (Str × α)} (h : SameOutside X d d') (hXY : X ⊆ Y) : SameOutside Y d d' :=
  fun n hn => h n fun hx => hn (hXY hx)

theorem SameOutside.symm {α : Type} {X : Set Str} {d d' : List (Str × α)} (h : SameOutside X d d') : SameOutside X d' d :=
  fun n hn => (h n hn).symm

theorem SameOutside.trans {α : Type} {X : Set Str} {d d' d'' : List (Str × α)} (h : SameOutside X d d') (h' : SameOutside X d' d'') :
    SameOutside X d d'' := fun n hn => (h n hn).trans (h' n hn)

theorem SameOutside.set {α : Type} {X : Set Str} {d d' : List (Str × α)} (h : SameOutside X d d') (k : Str) (v : α) :
    SameOutside (X \ {k}) (dictSet d k v) (dictSet d' k v) := by
  intro n hn
  rw [get_set, get_set]
  split
  · rfl
  · next hk => exact h n fun hx => hn ⟨hx, fun e => hk e.symm⟩

theorem sameOutside_set {α : Type} {X : Set Str} (d : List (Str × α)) {k : Str} (hk : k ∈ X) (v : α) : SameOutside X (dictSet d k v) d := by
  intro n hn
  rw [get_set, if_neg (fun e : k = n => hn (e ▸ hk))]

section
variable [R : PyRuntime]

/-! ### States -/

/-- Two states that differ only in the variables `V`, the constants `C` and the counters `T`. -/
structure Differ (V C T : Set Str) (s t : State) : Prop where
  var : SameOutside V s.var t.var
  constants : SameOutside C s.constants t.constants
  timesSet : SameOutside T s.timesSet t.timesSet

theorem Differ.mono {V C T V' C' T' : Set Str} {s t : State} (h : Differ V C T s t) (hV : V ⊆ V') (hC : C ⊆ C') (hT : T ⊆ T') :
    Differ V' C' T' s t := ⟨h.var.mono hV, h.constants.mono hC, h.timesSet.mono hT⟩

theorem AgreeOff.differ {X : Set Str} {s t : State} (h : AgreeOff X s t) : Differ X X X s t := ⟨h.var, h.constants, h.timesSet⟩
theorem Differ.agreeOff {X : Set Str} {s t : State} (h : Differ X X X s t) : AgreeOff X s t := ⟨h.var, h.constants, h.timesSet⟩

theorem agreeOff_refl (X : Set Str) (s : State) : AgreeOff X s s := ⟨sameOutside_refl _ _, sameOutside_refl _ _, sameOutside_refl _ _⟩
theorem AgreeOff.symm {X : Set Str} {s t : State} (h : AgreeOff X s t) : AgreeOff X t s := ⟨h.var.symm, h.constants.symm, h.timesSet.symm⟩
theorem AgreeOff.trans {X : Set Str} {s t u : State} (h : AgreeOff X s t) (h' : AgreeOff X t u) : AgreeOff X s u :=
  ⟨h.var.trans h'.var, h.constants.trans h'.constants, h.timesSet.trans h'.timesSet⟩
theorem AgreeOff.mono {X Y : Set Str} {s t : State} (h : AgreeOff X s t) (hXY : X ⊆ Y) : AgreeOff Y s t :=
  ⟨h.var.mono hXY, h.constants.mono hXY, h.timesSet.mono hXY⟩

omit R in
theorem sameOutside_bump {T : Set Str} {d d' : List (Str × Nat)} (h : SameOutside T d d') {x : Str} (hx : x ∉ T) :
    SameOutside T (bump d x) (bump d' x) := by
  intro n hn
  unfold bump
  rw [get_safeAdd, get_safeAdd, h x hx]
  split
  · rfl
  · exact h n hn

theorem Differ.setVar {V C T : Set Str} {s t : State} (h : Differ V C T s t) {x : Str} (hx : x ∉ T) (d : Dist) :
    (s.setVar x d).1 = (t.setVar x d).1 ∧ Differ V C T (s.setVar x d).2 (t.setVar x d).2 := by
  rw [setVar_eq, setVar_eq]
  refine ⟨rfl, ⟨?_, h.constants, sameOutside_bump h.timesSet hx⟩⟩
  have : s.times x = t.times x := by unfold State.times; rw [h.timesSet x hx]
  rw [this]
  exact (h.var.set x _).mono Set.sdiff_subset

theorem Differ.setConstant {V C T : Set Str} {s t : State} (h : Differ V C T s t) {x : Str} (hx : x ∉ T) (v : Int) :
    Differ V C T (s.setConstant x v) (t.setConstant x v) :=
  ⟨h.var, (h.constants.set x v).mono Set.sdiff_subset, sameOutside_bump h.timesSet hx⟩

/-! ### Computations -/

/-- On states that differ in the given way the computation has one result, and leaves states that differ in that way. -/
def Oblivious {α : Type} (P : State → State → Prop) (m : EvalM α) : Prop := ∀ s t, P s t → (m s).1 = (m t).1 ∧ P (m s).2 (m t).2

theorem obliv_bind {α β : Type} {P : State → State → Prop} {m : EvalM α} {f : α → EvalM β} (hm : Oblivious P m) (hf : ∀ a, Oblivious P (f a)) :
    Oblivious P (m >>= f) := by
  intro s t h
  have := hm s t h
  rw [evalBind, evalBind]
  revert this
  rcases m s with ⟨r, s1⟩
  rcases m t with ⟨r', t1⟩
  rintro ⟨rfl, h1⟩
  cases r with
  | ok a => exact hf a s1 t1 h1
  | error e => exact ⟨rfl, h1⟩

theorem obliv_ofRes {α : Type} {P : State → State → Prop} (r : Res α) : Oblivious P (EvalM.ofRes r) := fun _ _ h => ⟨rfl, h⟩
theorem obliv_pure {α : Type} {P : State → State → Prop} (a : α) : Oblivious P (pure a : EvalM α) := fun _ _ h => ⟨rfl, h⟩

variable {V C T : Set Str}

theorem obliv_setVar {x : Str} (hx : x ∉ T) (d : Dist) : Oblivious (Differ V C T) (EvalM.setVar x d) := fun _ _ h => h.setVar hx d
theorem obliv_setConstant {x : Str} (hx : x ∉ T) (v : Int) : Oblivious (Differ V C T) (EvalM.setConstant x v) := fun _ _ h => ⟨rfl, h.setConstant hx v⟩

theorem obliv_getVar {x : Str} (hx : x ∉ V) : Oblivious (Differ V C T) (EvalM.read fun s => s.getVar x) := by
  intro s t h
  refine ⟨?_, h⟩
  show s.getVar x = t.getVar x
  unfold State.getVar
  rw [h.var x hx]

theorem obliv_getConstant {x : Str} (hx : x ∉ C) : Oblivious (Differ V C T) (EvalM.read fun s => s.getConstant x) := by
  intro s t h
  refine ⟨?_, h⟩
  show s.getConstant x = t.getConstant x
  unfold State.getConstant
  rw [h.constants x hx]

theorem obliv_dist : ∀ e : Expr, (∀ n ∈ e.reads, n ∉ V) → (∀ n ∈ e.assigned, n ∉ T) → Oblivious (Differ V C T) e.dist := by
  have two : ∀ (a b : Expr) (op : BinOp),
      ((∀ n ∈ a.reads, n ∉ V) → (∀ n ∈ a.assigned, n ∉ T) → Oblivious (Differ V C T) a.dist) →
      ((∀ n ∈ b.reads, n ∉ V) → (∀ n ∈ b.assigned, n ∉ T) → Oblivious (Differ V C T) b.dist) →
      (∀ n ∈ a.reads ++ b.reads, n ∉ V) → (∀ n ∈ a.assigned ++ b.assigned, n ∉ T) →
      Oblivious (Differ V C T) (do let x ← a.dist; let y ← b.dist; EvalM.ofRes (Dist.binop op x y)) := by
    intro a b op ha hb h h'
    exact obliv_bind (ha (fun n hn => h n (by simp [hn])) (fun n hn => h' n (by simp [hn]))) (fun _ =>
      obliv_bind (hb (fun n hn => h n (by simp [hn])) (fun n hn => h' n (by simp [hn]))) (fun _ => obliv_ofRes _))
  intro e
  induction e with
  | paren e ih => exact ih
  | not e ih => intro h h'; exact obliv_bind (ih h h') (fun _ => obliv_pure _)
  | abs e ih => intro h h'; exact obliv_bind (ih h h') (fun _ => obliv_pure _)
  | dropKeep t => intro _ _; exact obliv_ofRes _
  | dice t => intro _ _; exact obliv_ofRes _
  | constInt t => intro _ _; exact obliv_ofRes _
  | constBin t => intro _ _; exact obliv_ofRes _
  | add a b iha ihb => exact two a b .add iha ihb
  | sub a b iha ihb => exact two a b .sub iha ihb
  | mul a b iha ihb => exact two a b .mul iha ihb
  | div a b iha ihb => exact two a b .floordiv iha ihb
  | bin op a b iha ihb => exact two a b op.toBinOp iha ihb
  | minmax k a b iha ihb => exact two a b (if k then .max else .min) iha ihb
  | assign x e ih =>
    intro h h'
    exact obliv_bind (ih h fun n hn => h' n (by simp [Expr.assigned, hn])) (fun d =>
      obliv_bind (obliv_setVar (h' x (by simp [Expr.assigned])) d) (fun _ => obliv_pure _))
  | getVar n => intro h _; exact obliv_getVar (h n (by simp [Expr.reads]))

theorem obliv_extreme (isMax : Bool) : ∀ e : Expr, (∀ n ∈ e.reads, n ∉ V ∧ n ∉ C) → (∀ n ∈ e.assigned, n ∉ T) →
    Oblivious (Differ V C T) (e.extreme isMax) := by
  have via : ∀ e : Expr, (∀ n ∈ e.reads, n ∉ V ∧ n ∉ C) → (∀ n ∈ e.assigned, n ∉ T) → Oblivious (Differ V C T) (viaDist isMax e.dist) :=
    fun e h h' => obliv_bind (obliv_dist e (fun n hn => (h n hn).1) h') (fun _ => obliv_ofRes _)
  intro e
  induction e with
  | paren e ih => exact ih
  | not e ih => exact via (.not e)
  | abs e ih => exact via (.abs e)
  | dropKeep t => intro _ _; exact obliv_ofRes _
  | dice t => intro _ _; exact obliv_ofRes _
  | constInt t => intro _ _; exact obliv_ofRes _
  | constBin t => intro _ _; exact obliv_ofRes _
  | add a b _ _ => exact via (.add a b)
  | sub a b _ _ => exact via (.sub a b)
  | mul a b _ _ => exact via (.mul a b)
  | div a b _ _ =>
    intro h h'
    refine obliv_bind (obliv_dist b (fun n hn => (h n (by simp [Expr.reads, hn])).1) (fun n hn => h' n (by simp [Expr.assigned, hn]))) (fun d => ?_)
    split
    · exact obliv_ofRes _
    · exact via (.div a b) h h'
  | bin op a b _ _ => exact via (.bin op a b)
  | minmax k a b iha ihb =>
    intro h h'
    exact obliv_bind (iha (fun n hn => h n (by simp [Expr.reads, hn])) (fun n hn => h' n (by simp [Expr.assigned, hn]))) (fun _ =>
      obliv_bind (ihb (fun n hn => h n (by simp [Expr.reads, hn])) (fun n hn => h' n (by simp [Expr.assigned, hn]))) (fun _ => obliv_pure _))
  | assign x e ih =>
    intro h h'
    have h1 : ∀ n ∈ e.assigned, n ∉ T := fun n hn => h' n (by simp [Expr.assigned, hn])
    have hx : x ∉ T := h' x (by simp [Expr.assigned])
    exact obliv_bind (ih h h1) (fun v => obliv_bind (obliv_setConstant hx v) (fun _ =>
      obliv_bind (obliv_dist e (fun n hn => (h n hn).1) h1) (fun d => obliv_bind (obliv_setVar hx d) (fun _ => obliv_pure _))))
  | getVar n => intro h _; exact obliv_getConstant (h n (by simp [Expr.reads])).2

theorem obliv_cost : ∀ e : Expr, (∀ n ∈ e.reads, n ∉ C) → (∀ n ∈ e.assigned, n ∉ T) → Oblivious (Differ V C T) e.cost := by
  have two : ∀ (a b : Expr),
      ((∀ n ∈ a.reads, n ∉ C) → (∀ n ∈ a.assigned, n ∉ T) → Oblivious (Differ V C T) a.cost) →
      ((∀ n ∈ b.reads, n ∉ C) → (∀ n ∈ b.assigned, n ∉ T) → Oblivious (Differ V C T) b.cost) →
      (∀ n ∈ a.reads ++ b.reads, n ∉ C) → (∀ n ∈ a.assigned ++ b.assigned, n ∉ T) →
      Oblivious (Differ V C T) (do let x ← a.cost; let y ← b.cost; return x + y) := by
    intro a b ha hb h h'
    exact obliv_bind (ha (fun n hn => h n (by simp [hn])) (fun n hn => h' n (by simp [hn]))) (fun _ =>
      obliv_bind (hb (fun n hn => h n (by simp [hn])) (fun n hn => h' n (by simp [hn]))) (fun _ => obliv_pure _))
  intro e
  induction e with
  | paren e ih => exact ih
  | not e ih => intro h h'; exact obliv_bind (ih h h') (fun _ => obliv_ofRes _)
  | abs e ih => exact ih
  | dropKeep t => intro _ _; exact obliv_pure _
  | dice t => intro _ _; exact obliv_pure _
  | constInt t => intro _ _; exact obliv_pure _
  | constBin t => intro _ _; exact obliv_pure _
  | add a b iha ihb => exact two a b iha ihb
  | sub a b iha ihb => exact two a b iha ihb
  | mul a b iha ihb => exact two a b iha ihb
  | div a b iha ihb => exact two a b iha ihb
  | bin op a b iha ihb => exact two a b iha ihb
  | minmax k a b iha ihb => exact two a b iha ihb
  | assign x e ih =>
    intro h h'
    exact obliv_bind (ih h fun n hn => h' n (by simp [Expr.assigned, hn])) (fun v =>
      obliv_bind (obliv_setConstant (h' x (by simp [Expr.assigned])) v) (fun _ => obliv_pure _))
  | getVar n => intro h _; exact obliv_getConstant (h n (by simp [Expr.reads]))

/-! ### Rolls -/

/-- The same for computations with random draws. -/
def ROblivious {α : Type} (P : State → State → Prop) (m : RollM α) : Prop :=
  ∀ s t, P s t → Rand.Same (fun x y => x.1 = y.1 ∧ P x.2 y.2) (m s) (m t)

theorem robliv_bind {α β : Type} {P : State → State → Prop} {m : RollM α} {f : α → RollM β} (hm : ROblivious P m) (hf : ∀ a, ROblivious P (f a)) :
    ROblivious P (m >>= f) := by
  intro s t h
  rw [rollBind, rollBind]
  refine (hm s t h).bind ?_
  rintro ⟨r, s1⟩ ⟨r', t1⟩ ⟨h1, h2⟩
  obtain rfl : r = r' := h1
  cases r with
  | ok a => exact hf a s1 t1 h2
  | error e => exact .pure ⟨rfl, h2⟩

theorem robliv_eval {α : Type} {P : State → State → Prop} {m : EvalM α} (h : Oblivious P m) : ROblivious P (RollM.ofEval m) :=
  fun s t hst => .pure (h s t hst)

theorem robliv_rand {α : Type} {P : State → State → Prop} (r : Rand (Res α)) : ROblivious P (RollM.ofRand r) := by
  intro s t h
  refine (Rand.Same.refl (Q := Eq) (fun _ => rfl) r).bind ?_
  rintro a b rfl
  exact .pure ⟨rfl, h⟩

theorem robliv_pure {α : Type} {P : State → State → Prop} (a : α) : ROblivious P (pure a : RollM α) := fun _ _ h => .pure ⟨rfl, h⟩

theorem robliv_roll : ∀ e : Expr, (∀ n ∈ e.reads, n ∉ C) → (∀ n ∈ e.assigned, n ∉ T) → ROblivious (Differ V C T) e.roll := by
  have two : ∀ (a b : Expr) (g : Int → Int → Int),
      ((∀ n ∈ a.reads, n ∉ C) → (∀ n ∈ a.assigned, n ∉ T) → ROblivious (Differ V C T) a.roll) →
      ((∀ n ∈ b.reads, n ∉ C) → (∀ n ∈ b.assigned, n ∉ T) → ROblivious (Differ V C T) b.roll) →
      (∀ n ∈ a.reads ++ b.reads, n ∉ C) → (∀ n ∈ a.assigned ++ b.assigned, n ∉ T) →
      ROblivious (Differ V C T) (do let x ← a.roll; let y ← b.roll; return g x y) := by
    intro a b g ha hb h h'
    exact robliv_bind (ha (fun n hn => h n (by simp [hn])) (fun n hn => h' n (by simp [hn]))) (fun _ =>
      robliv_bind (hb (fun n hn => h n (by simp [hn])) (fun n hn => h' n (by simp [hn]))) (fun _ => robliv_pure _))
  intro e
  induction e with
  | paren e ih => exact ih
  | not e ih => intro h h'; exact robliv_bind (ih h h') (fun _ => robliv_pure _)
  | abs e ih => intro h h'; exact robliv_bind (ih h h') (fun _ => robliv_pure _)
  | dropKeep t => intro _ _; exact robliv_rand _
  | dice t => intro _ _; exact robliv_rand _
  | constInt t => intro _ _; exact robliv_eval (obliv_ofRes _)
  | constBin t => intro _ _; exact robliv_pure _
  | add a b iha ihb => exact two a b _ iha ihb
  | sub a b iha ihb => exact two a b _ iha ihb
  | mul a b iha ihb => exact two a b _ iha ihb
  | div a b iha ihb =>
    intro h h'
    refine robliv_bind (ihb (fun n hn => h n (by simp [Expr.reads, hn])) (fun n hn => h' n (by simp [Expr.assigned, hn]))) (fun y => ?_)
    split
    · exact robliv_eval (obliv_ofRes _)
    · exact robliv_bind (iha (fun n hn => h n (by simp [Expr.reads, hn])) (fun n hn => h' n (by simp [Expr.assigned, hn])))
        (fun _ => robliv_pure _)
  | bin op a b iha ihb => exact two a b _ iha ihb
  | minmax k a b iha ihb => exact two a b _ iha ihb
  | assign x e ih =>
    intro h h'
    exact robliv_bind (ih h fun n hn => h' n (by simp [Expr.assigned, hn])) (fun v =>
      robliv_bind (robliv_eval (obliv_setConstant (h' x (by simp [Expr.assigned])) v)) (fun _ => robliv_pure _))
  | getVar n => intro h _; exact robliv_eval (obliv_getConstant (h n (by simp [Expr.reads])))

end

end PyDice
