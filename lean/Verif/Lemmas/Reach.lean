import Verif.Lemmas.Tidy
/-!
# All reachable states are tidy
-/

namespace PyDice
open PyRuntime

section
variable [R : PyRuntime]

theorem Keeps.weaken {α : Type} {m : EvalM α} {Q Q' : State → α → Prop} (h : Keeps m Q) (hQ : ∀ s a, Q s a → Q' s a) : Keeps m Q' :=
  fun s hs => ⟨(h s hs).1, (h s hs).2.1, fun a ha => hQ _ _ ((h s hs).2.2 a ha)⟩

/-- Nothing is claimed of the result. -/
def Any {α : Type} : State → α → Prop := fun _ _ => True

theorem keeps_bind_any {α β : Type} {m : EvalM α} {f : α → EvalM β} {Q : State → β → Prop} (hm : Keeps m Any)
    (hf : ∀ a, Keeps (f a) Q) : Keeps (m >>= f) Q := keeps_bind hm (fun a s hs _ => hf a s hs)

theorem keeps_pure {α : Type} (a : α) : Keeps (pure a : EvalM α) Any := fun s hs => ⟨hs, later_refl s, fun _ _ => trivial⟩

theorem keeps_res {α : Type} (r : Res α) : Keeps (EvalM.ofRes r) Any := keeps_ofRes r _ (fun _ _ _ => trivial)

theorem keeps_setConstant (x : Str) (v : Int) : Keeps (EvalM.setConstant x v) Any :=
  fun s hs => ⟨tidyState_setConstant hs x v, later_setConstant s x v, fun _ _ => trivial⟩

theorem keeps_dist_any (e : Expr) : Keeps e.dist Any := (keeps_dist e).weaken (fun _ _ _ => trivial)

theorem keeps_viaDist (isMax : Bool) {m : EvalM Dist} (h : Keeps m TidyIn) : Keeps (viaDist isMax m) Any :=
  keeps_bind_any (h.weaken (fun _ _ _ => trivial)) (fun d => keeps_res _)

theorem keeps_extreme (isMax : Bool) : ∀ e : Expr, Keeps (e.extreme isMax) Any := by
  intro e
  induction e with
  | paren e ih => exact ih
  | not e ih => exact keeps_viaDist isMax (keeps_dist (.not e))
  | abs e ih => exact keeps_viaDist isMax (keeps_dist (.abs e))
  | dropKeep t => exact keeps_res _
  | dice t => exact keeps_res _
  | constInt t => exact keeps_res _
  | constBin t => exact keeps_res _
  | add a b _ _ => exact keeps_viaDist isMax (keeps_dist (.add a b))
  | sub a b _ _ => exact keeps_viaDist isMax (keeps_dist (.sub a b))
  | mul a b _ _ => exact keeps_viaDist isMax (keeps_dist (.mul a b))
  | div a b _ _ =>
    refine keeps_bind_any (keeps_dist_any b) (fun d => ?_)
    split
    · exact keeps_res _
    · exact keeps_viaDist isMax (keeps_dist (.div a b))
  | bin op a b _ _ => exact keeps_viaDist isMax (keeps_dist (.bin op a b))
  | minmax k a b iha ihb => exact keeps_bind_any iha (fun x => keeps_bind_any ihb (fun y => keeps_pure _))
  | assign x e ih =>
    refine keeps_bind_any ih (fun v => keeps_bind_any (keeps_setConstant x v) (fun _ => ?_))
    refine keeps_bind (keeps_dist e) ?_
    intro d s hs hd
    have hset : (do EvalM.setVar x d; return v : EvalM Int) s = (.ok v, (s.setVar x d).2) := by
      rw [evalBind]
      unfold EvalM.setVar
      rw [setVar_eq]; rfl
    rw [hset]
    exact ⟨tidyState_setVar hs x hd, later_setVar s x d, fun _ _ => trivial⟩
  | getVar n => exact fun s hs => ⟨hs, later_refl s, fun _ _ => trivial⟩

theorem keeps_cost : ∀ e : Expr, Keeps e.cost Any := by
  have two : ∀ a b : Expr, Keeps a.cost Any → Keeps b.cost Any →
      Keeps (do let x ← a.cost; let y ← b.cost; return x + y) Any := fun a b ha hb =>
    keeps_bind_any ha (fun x => keeps_bind_any hb (fun y => keeps_pure _))
  intro e
  induction e with
  | paren e ih => exact ih
  | not e ih => exact keeps_bind_any ih (fun _ => keeps_res _)
  | abs e ih => exact ih
  | dropKeep t => exact keeps_pure _
  | dice t => exact keeps_pure _
  | constInt t => exact keeps_pure _
  | constBin t => exact keeps_pure _
  | add a b iha ihb => exact two a b iha ihb
  | sub a b iha ihb => exact two a b iha ihb
  | mul a b iha ihb => exact two a b iha ihb
  | div a b iha ihb => exact two a b iha ihb
  | bin op a b iha ihb => exact two a b iha ihb
  | minmax k a b iha ihb => exact two a b iha ihb
  | assign x e ih => exact keeps_bind_any ih (fun c => keeps_bind_any (keeps_setConstant x c) (fun _ => keeps_pure _))
  | getVar n => exact fun s hs => ⟨hs, later_refl s, fun _ _ => trivial⟩

/-! ### rolls -/

/-- Rolling leaves the distributions alone and only raises counters. -/
def OnlyConstants (s t : State) : Prop := t.var = s.var ∧ Later s t

theorem onlyConstants_refl (s : State) : OnlyConstants s s := ⟨rfl, later_refl s⟩
theorem OnlyConstants.trans {s t u : State} (h : OnlyConstants s t) (h' : OnlyConstants t u) : OnlyConstants s u :=
  ⟨h'.1.trans h.1, h.2.trans h'.2⟩

theorem OnlyConstants.tidy {s t : State} (h : OnlyConstants s t) (hs : TidyState s) : TidyState t := by
  intro n d hd
  rw [h.1] at hd
  exact h.2.tidyIn (hs n d hd)

/-- Every way a random computation can go changes constants and counters only. -/
def RKeeps {α : Type} (m : RollM α) : Prop := ∀ s x, Rand.Possible x (m s) → OnlyConstants s x.2

theorem rkeeps_bind {α β : Type} {m : RollM α} {f : α → RollM β} (hm : RKeeps m) (hf : ∀ a, RKeeps (f a)) : RKeeps (m >>= f) := by
  intro s x hx
  rw [rollBind, Rand.possible_bind] at hx
  obtain ⟨⟨r, s'⟩, h1, h2⟩ := hx
  have h3 := hm s _ h1
  cases r with
  | ok a => exact h3.trans (hf a s' x h2)
  | error e => rw [Rand.possible_pure] at h2; subst h2; exact h3

theorem rkeeps_eval {α : Type} {m : EvalM α} (h : ∀ s, OnlyConstants s (m s).2) : RKeeps (RollM.ofEval m) := by
  intro s x hx
  unfold RollM.ofEval at hx
  rw [Rand.possible_pure] at hx
  subst hx
  exact h s

theorem rkeeps_rand {α : Type} (r : Rand (Res α)) : RKeeps (RollM.ofRand r) := by
  intro s x hx
  unfold RollM.ofRand at hx
  rw [Rand.possible_bind] at hx
  obtain ⟨a, _, h2⟩ := hx
  rw [Rand.possible_pure] at h2
  subst h2
  exact onlyConstants_refl s

theorem rkeeps_pure {α : Type} (a : α) : RKeeps (pure a : RollM α) := by
  intro s x hx
  have : x = (.ok a, s) := Rand.possible_pure.mp hx
  subst this
  exact onlyConstants_refl s

theorem rkeeps_roll : ∀ e : Expr, RKeeps e.roll := by
  intro e
  induction e with
  | paren e ih => exact ih
  | not e ih => exact rkeeps_bind ih (fun _ => rkeeps_pure _)
  | abs e ih => exact rkeeps_bind ih (fun _ => rkeeps_pure _)
  | dropKeep t => exact rkeeps_rand _
  | dice t => exact rkeeps_rand _
  | constInt t => exact rkeeps_eval (fun s => onlyConstants_refl s)
  | constBin t => exact rkeeps_pure _
  | add a b iha ihb => exact rkeeps_bind iha (fun _ => rkeeps_bind ihb (fun _ => rkeeps_pure _))
  | sub a b iha ihb => exact rkeeps_bind iha (fun _ => rkeeps_bind ihb (fun _ => rkeeps_pure _))
  | mul a b iha ihb => exact rkeeps_bind iha (fun _ => rkeeps_bind ihb (fun _ => rkeeps_pure _))
  | div a b iha ihb =>
    refine rkeeps_bind ihb (fun y => ?_)
    split
    · exact rkeeps_eval (fun s => onlyConstants_refl s)
    · exact rkeeps_bind iha (fun _ => rkeeps_pure _)
  | bin op a b iha ihb => exact rkeeps_bind iha (fun _ => rkeeps_bind ihb (fun _ => rkeeps_pure _))
  | minmax k a b iha ihb => exact rkeeps_bind iha (fun _ => rkeeps_bind ihb (fun _ => rkeeps_pure _))
  | assign x e ih =>
    refine rkeeps_bind ih (fun v => rkeeps_bind (rkeeps_eval (fun s => ?_)) (fun _ => rkeeps_pure _))
    exact ⟨rfl, later_setConstant s x v⟩
  | getVar n => exact rkeeps_eval (fun s => onlyConstants_refl s)

/-! ### The interpreter's loops -/

variable (parse : Str → Res Expr)

theorem rkeeps_rollLines : ∀ lines : List Str, RKeeps (rollLines parse lines) := by
  intro lines
  induction lines with
  | nil => exact rkeeps_pure _
  | cons l ls ih =>
    refine rkeeps_bind (rkeeps_bind (rkeeps_eval (fun s => onlyConstants_refl s)) (fun e => rkeeps_bind (rkeeps_roll e) ?_)) (fun _ => ih)
    intro v s x hx
    have := Rand.possible_pure.mp hx
    subst this
    exact ⟨rfl, fun _ => le_refl _⟩

theorem rkeeps_interpRoll (lines : List Str) : RKeeps (interpRoll parse lines) := by
  refine rkeeps_bind (rkeeps_rollLines parse lines) ?_
  intro _ s x hx
  have := Rand.possible_pure.mp hx
  subst this
  exact onlyConstants_refl s

theorem keeps_extremeLines (isMax : Bool) : ∀ lines : List Str, Keeps (extremeLines parse isMax lines) Any := by
  intro lines
  induction lines with
  | nil => exact keeps_pure _
  | cons l ls ih =>
    refine keeps_bind_any (keeps_bind_any (keeps_res _) (fun e => keeps_bind_any (keeps_extreme isMax e) ?_)) (fun _ => ih)
    intro v s hs
    exact ⟨fun n d hd => hs n d hd, fun _ => le_refl _, fun _ _ => trivial⟩

theorem keeps_interpExtreme (isMax : Bool) (lines : List Str) : Keeps (interpExtreme parse isMax lines) Any :=
  keeps_bind_any (keeps_extremeLines parse isMax lines) (fun _ s hs => ⟨hs, later_refl s, fun _ _ => trivial⟩)

theorem tidyState_setStdout {s : State} (hs : TidyState s) (x : Str) {d : Dist} (hd : TidyIn s d) :
    TidyState { s with var := dictSet s.var x d } := by
  intro n d' hd'
  simp only [get_set] at hd'
  split at hd'
  · cases hd'; exact hd
  · exact hs n d' hd'

theorem keeps_distLines : ∀ lines : List Str, Keeps (distLines parse lines) Any := by
  intro lines
  induction lines with
  | nil => exact keeps_pure _
  | cons l ls ih =>
    refine keeps_bind_any (keeps_bind_any (keeps_res _) (fun e => keeps_bind (keeps_dist e) ?_)) (fun _ => ih)
    intro d s hs hd
    exact ⟨tidyState_setStdout hs stdoutName hd, fun _ => le_refl _, fun _ _ => trivial⟩

theorem keeps_interpDists (lines : List Str) : Keeps (interpDists parse lines) Any :=
  keeps_bind_any (keeps_distLines parse lines) (fun _ s hs => ⟨hs, later_refl s, fun _ _ => trivial⟩)

theorem keeps_lastDist : ∀ (lines : List Str) (d : Dist), Keeps (lastDist parse lines d) Any := by
  intro lines
  induction lines with
  | nil => intro d; exact keeps_pure _
  | cons l ls ih =>
    intro d
    exact keeps_bind_any (keeps_res _) (fun e => keeps_bind_any (keeps_dist_any e) (fun d' => ih d'))

theorem keeps_costLines : ∀ (lines : List Str) (c : Int), Keeps (costLines parse lines c) Any := by
  intro lines
  induction lines with
  | nil => intro c; exact keeps_pure _
  | cons l ls ih =>
    intro c
    exact keeps_bind_any (keeps_res _) (fun e => keeps_bind_any (keeps_cost e) (fun x => ih _))

theorem tidy_reachable {s : State} (h : Reachable parse s) : TidyState s := by
  induction h with
  | new => exact tidyState_new
  | roll lines _ hx ih => exact (rkeeps_interpRoll parse lines _ _ hx).tidy ih
  | extreme isMax lines _ ih => exact (keeps_interpExtreme parse isMax lines _ ih).1
  | dists lines _ ih => exact (keeps_interpDists parse lines _ ih).1
  | dictForms lines _ ih => exact (keeps_bind_any (keeps_interpDists parse lines) (fun _ => keeps_res _) _ ih).1
  | averages lines _ ih => exact (keeps_bind_any (keeps_interpDists parse lines) (fun _ => keeps_res _) _ ih).1
  | histogram lines _ ih => exact (keeps_lastDist parse lines _ _ ih).1
  | cost lines _ ih => exact (keeps_costLines parse lines _ _ ih).1
  | exprRoll e _ hx ih => exact (rkeeps_roll e _ _ hx).tidy ih
  | exprExtreme isMax e _ ih => exact (keeps_extreme isMax e _ ih).1
  | exprDist e _ ih => exact (keeps_dist e _ ih).1
  | exprCost e _ ih => exact (keeps_cost e _ ih).1

/-! ### Independent operands -/

theorem combineLoop_all {M : Type} [AddCommMonoid M] (op : BinOp) (f : Int → M) :
    ∀ (ps : List ((Outcome × Nat) × (Outcome × Nat))) (acc m : List (Outcome × Nat)),
    (∀ x ∈ ps, iter x.1.1.cs ≠ []) → (∀ x ∈ ps, ∃ ω, Sat ω x.1.1.cs ∧ Sat ω x.2.1.cs) → combineLoop op ps acc = .ok m →
    wsum m (fun o => f o.value) = wsum acc (fun o => f o.value) + (ps.map fun x =>
      (x.1.2 * x.2.2) • onOk (op.apply x.1.1.value x.2.1.value) f).sum := by
  intro ps
  induction ps with
  | nil => intro acc m _ _ h; simp [combineLoop] at h; subst h; simp
  | cons x ps ih =>
    obtain ⟨p, q⟩ := x
    intro acc m h1 h2 h
    have h1' : ∀ x ∈ ps, iter x.1.1.cs ≠ [] := fun x hx => h1 x (by simp [hx])
    have h2' : ∀ x ∈ ps, ∃ ω, Sat ω x.1.1.cs ∧ Sat ω x.2.1.cs := fun x hx => h2 x (by simp [hx])
    have hspec := outcome_combine_spec op p.1 q.1 (h1 (p, q) (by simp))
    unfold combineLoop at h
    cases hv : op.apply p.1.value q.1.value with
    | error e => rw [hspec.1 _ hv] at h; simp [bind, Except.bind] at h
    | ok v =>
      obtain ⟨cs, hcs, hm⟩ := hspec.2 v hv
      have hp : Outcome.isPossible ⟨v, cs⟩ = true := by
        obtain ⟨ω, hω⟩ := h2 (p, q) (by simp)
        exact (isPossible_iff hm.normal).mpr ⟨ω, (hm.sat ω).mpr hω⟩
      simp only [hcs, bind, Except.bind, hp, if_true] at h
      simp only [List.map_cons, List.sum_cons]
      rw [ih _ _ h1' h2' h, wsum_safeAdd _ _ _ _ (resp_value f), hv, add_assoc]
      rfl

/-- When every pair of outcomes can hold together, combining counts all pairs. -/
theorem binop_E_all {M : Type} [AddCommMonoid M] {op : BinOp} {a b d : Dist} (h : Dist.binop op a b = .ok d) (ha : a.Proper)
    (hc : ∀ p ∈ a.resultMap, ∀ q ∈ b.resultMap, ∃ ω, Sat ω p.1.cs ∧ Sat ω q.1.cs) (f : Int → M) :
    d.E f = a.E (fun x => b.E (fun y => onOk (op.apply x y) f)) := by
  unfold Dist.binop at h
  cases hm : combineLoop op (pairsOf a.resultMap b.getConstraintResultMap) [] with
  | error e => rw [hm] at h; simp [bind, Except.bind] at h
  | ok m =>
    rw [hm] at h; simp [bind, Except.bind, pure, Except.pure] at h
    subst h
    unfold Dist.E
    rw [wsum_mkDist _ _ (resp_value f), combineLoop_all op f _ _ _ ?_ ?_ hm, wsum_nil, zero_add]
    · rw [show b.getConstraintResultMap = b.resultMap from rfl,
        sum_pairs a.resultMap b.resultMap (fun p q => onOk (op.apply p.value q.value) f)]
    · intro x hx
      exact ha _ ((mem_pairsOf _ _ _).mp hx).1
    · intro x hx
      rw [mem_pairsOf] at hx
      exact hc _ hx.1 _ hx.2

/-! ### Expressions that use no variable -/

theorem untied_mkDistInt {m : List (Int × Nat)} {d : Dist} (h : mkDistInt m = .ok d) : d.Untied ∧ d.Proper := by
  obtain ⟨d', h', _, h1, h2, _⟩ := mkDistInt_spec (R := R) m
  rw [h] at h'
  injection h' with h'
  subst h'
  exact ⟨h1, h2⟩

theorem untied_addDice {single : Dist} (hs : single.Untied) : ∀ (n : Nat) (d r : Dist), d.Untied ∧ d.Proper →
    addDice single n d = .ok r → r.Untied ∧ r.Proper := by
  intro n
  induction n with
  | zero => intro d r hd h; cases h; exact hd
  | succ n ih =>
    intro d r hd h
    unfold addDice at h
    obtain ⟨d', h1, h2⟩ := bind_eq_ok.mp h
    exact ih d' r ⟨binop_untied h1 hd.2 hd.1 hs, binop_proper h1 hd.2⟩ h2

theorem untied_dice {t : DiceTerm} {d : Dist} (h : t.dist = .ok d) : d.Untied ∧ d.Proper := by
  unfold DiceTerm.dist at h
  obtain ⟨single, h1, h⟩ := bind_eq_ok.mp h
  obtain ⟨d0, h2, h⟩ := bind_eq_ok.mp h
  exact untied_addDice (untied_mkDistInt h1).1 _ _ _ (untied_mkDistInt h2) h

theorem untied_dropKeep {t : DropKeepTerm} {d : Dist} (h : t.dist = .ok d) : d.Untied ∧ d.Proper := by
  unfold DropKeepTerm.dist at h
  split at h
  · exact untied_dice h
  · exact untied_mkDistInt h
  · obtain ⟨m, h1, h⟩ := bind_eq_ok.mp h
    exact untied_mkDistInt h

theorem untied_expr : ∀ (e : Expr), e.NoAssign → e.reads = [] → ∀ (s s' : State) (d : Dist), e.dist s = (.ok d, s') →
    d.Untied ∧ d.Proper := by
  have two : ∀ (a b : Expr) (op : BinOp), (∀ (s s' : State) (d : Dist), a.dist s = (.ok d, s') → d.Untied ∧ d.Proper) →
      (∀ (s s' : State) (d : Dist), b.dist s = (.ok d, s') → d.Untied ∧ d.Proper) →
      ∀ (s s' : State) (d : Dist), (do let x ← a.dist; let y ← b.dist; EvalM.ofRes (Dist.binop op x y) : EvalM Dist) s = (.ok d, s') →
        d.Untied ∧ d.Proper := by
    intro a b op ha hb s s' d h
    obtain ⟨x, s1, h1, h⟩ := evalBind_eq_ok.mp h
    obtain ⟨y, s2, h2, h⟩ := evalBind_eq_ok.mp h
    obtain ⟨h3, _⟩ := Prod.mk.inj h
    have hx := ha _ _ _ h1
    exact ⟨binop_untied h3 hx.2 hx.1 (hb _ _ _ h2).1, binop_proper h3 hx.2⟩
  intro e
  induction e with
  | paren e ih => intro h1 h2; exact ih h1 h2
  | not e ih =>
    intro h1 h2 s s' d h
    obtain ⟨x, s1, h3, h⟩ := evalBind_eq_ok.mp h
    obtain ⟨h4, _⟩ := Prod.mk.inj h
    cases h4
    have := ih h1 h2 _ _ _ h3
    rw [notOp_eq]
    exact ⟨mapValue_untied _ this.1, mapValue_proper _ this.2⟩
  | abs e ih =>
    intro h1 h2 s s' d h
    obtain ⟨x, s1, h3, h⟩ := evalBind_eq_ok.mp h
    obtain ⟨h4, _⟩ := Prod.mk.inj h
    cases h4
    have := ih h1 h2 _ _ _ h3
    rw [absOp_eq]
    exact ⟨mapValue_untied _ this.1, mapValue_proper _ this.2⟩
  | dropKeep t => intro _ _ s s' d h; exact untied_dropKeep (Prod.mk.inj h).1
  | dice t => intro _ _ s s' d h; exact untied_dice (Prod.mk.inj h).1
  | constInt t =>
    intro _ _ s s' d h
    obtain ⟨v, _, h⟩ := bind_eq_ok.mp (Prod.mk.inj h).1
    exact untied_mkDistInt h
  | constBin t => intro _ _ s s' d h; exact untied_mkDistInt (Prod.mk.inj h).1
  | add a b iha ihb =>
    intro h1 h2; have h2 := List.append_eq_nil_iff.mp h2; exact two a b .add (iha h1.1 h2.1) (ihb h1.2 h2.2)
  | sub a b iha ihb =>
    intro h1 h2; have h2 := List.append_eq_nil_iff.mp h2; exact two a b .sub (iha h1.1 h2.1) (ihb h1.2 h2.2)
  | mul a b iha ihb =>
    intro h1 h2; have h2 := List.append_eq_nil_iff.mp h2; exact two a b .mul (iha h1.1 h2.1) (ihb h1.2 h2.2)
  | div a b iha ihb =>
    intro h1 h2; have h2 := List.append_eq_nil_iff.mp h2; exact two a b .floordiv (iha h1.1 h2.1) (ihb h1.2 h2.2)
  | bin op a b iha ihb =>
    intro h1 h2; have h2 := List.append_eq_nil_iff.mp h2; exact two a b op.toBinOp (iha h1.1 h2.1) (ihb h1.2 h2.2)
  | minmax k a b iha ihb =>
    intro h1 h2; have h2 := List.append_eq_nil_iff.mp h2
    exact two a b (if k then .max else .min) (iha h1.1 h2.1) (ihb h1.2 h2.2)
  | assign x e _ => intro h1; exact h1.elim
  | getVar n => intro _ h2; simp [Expr.reads] at h2

end

end PyDice
