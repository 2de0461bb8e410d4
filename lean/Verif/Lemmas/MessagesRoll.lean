import Verif.Lemmas.Messages
import Verif.Lemmas.Print
import Verif.Lemmas.Errors
import Verif.Lemmas.Frame
/-!
# Texts of exceptions: rolls, divisions, lines
-/

namespace PyDice
open PyRuntime LexSpec ParseSpec

/-! ### Rolls -/

section
variable [R : PyRuntime]

/-- The same random computation without texts. -/
def RollErases {α : Type} (m : RollX α) (m' : RollM α) : Prop :=
  ∀ s, m' s = Rand.bind (m s) fun x => .pure (x.1.mapError Exc.cls, x.2)

theorem RollErases.pure {α : Type} (a : α) : RollErases (Pure.pure a : RollX α) (Pure.pure a) := fun _ => rfl

theorem RollErases.bind {α β : Type} {m : RollX α} {m' : RollM α} {f : α → RollX β} {f' : α → RollM β} (h : RollErases m m')
    (hf : ∀ a, RollErases (f a) (f' a)) : RollErases (m >>= f) (m' >>= f') := by
  intro s
  show Rand.bind (m' s) _ = Rand.bind (Rand.bind (m s) _) _
  rw [h s, Rand.bind_assoc, Rand.bind_assoc]
  congr 1
  funext x
  obtain ⟨r, s'⟩ := x
  cases r with
  | error x => rfl
  | ok a => exact hf a s'

theorem RollErases.ofEval {α : Type} {m : EvalX α} {m' : EvalM α} (h : Erases m m') : RollErases (.ofEval m) (.ofEval m') := by
  intro s
  show Rand.pure (m' s) = Rand.pure _
  rw [h s]

theorem RollErases.ofRand {α : Type} (r : Rand (Res α)) : RollErases (.ofRand r) (.ofRand r) := by
  intro s
  unfold RollX.ofRand RollM.ofRand
  rw [Rand.bind_assoc]
  congr 1
  funext a
  cases a <;> rfl

theorem rollX_erases (e : Expr) : RollErases e.rollX e.roll := by
  induction e with
  | paren e ih => exact ih
  | not e ih => exact ih.bind fun _ => .pure _
  | abs e ih => exact ih.bind fun _ => .pure _
  | dropKeep t => exact .ofRand _
  | dice t => exact .ofRand _
  | constInt text => exact .ofEval (.plain _)
  | constBin text => exact .pure _
  | add a b iha ihb => exact iha.bind fun _ => ihb.bind fun _ => .pure _
  | sub a b iha ihb => exact iha.bind fun _ => ihb.bind fun _ => .pure _
  | mul a b iha ihb => exact iha.bind fun _ => ihb.bind fun _ => .pure _
  | div a b iha ihb =>
    refine ihb.bind fun y => ?_
    by_cases hy : y = 0
    · rw [if_pos hy, if_pos hy]; exact .ofEval fun s => rfl
    · rw [if_neg hy, if_neg hy]; exact iha.bind fun _ => .pure _
  | bin op a b iha ihb => exact iha.bind fun _ => ihb.bind fun _ => .pure _
  | minmax k a b iha ihb => exact iha.bind fun _ => ihb.bind fun _ => .pure _
  | assign x e ih => exact ih.bind fun _ => (RollErases.ofEval (.plain _)).bind fun _ => .pure _
  | getVar n => exact .ofEval (.getConstant n)

/-- As `Tracks`, for everything that can be rolled. -/
def RollTracks {α : Type} (m : RollX α) (st : List Step) : Prop := ∀ s r s', Rand.Possible (r, s') (m s) →
  (∀ a, r = .ok a → firstMissing s.has st = none ∧ s'.has = filled s.has st) ∧
  (∀ t, r = .error (.own .key t) → ∃ p, firstMissing s.has st = some p ∧ t = some p.complaint) ∧
  r ≠ .error (.other .key)

theorem RollTracks.ofEval {α : Type} {m : EvalX α} {st : List Step} (h : Tracks m st) : RollTracks (.ofEval m) st := by
  intro s r s' hr
  exact h s r s' (Rand.possible_pure.mp hr).symm

theorem RollTracks.pure {α : Type} (a : α) : RollTracks (Pure.pure a : RollX α) [] := .ofEval (.pure a)

theorem RollTracks.bind {α β : Type} {m : RollX α} {f : α → RollX β} {st st' : List Step} (h : RollTracks m st)
    (hf : ∀ a, RollTracks (f a) st') : RollTracks (m >>= f) (st ++ st') := by
  intro s r s' hr
  obtain ⟨⟨r1, s1⟩, hm, hr⟩ := Rand.possible_bind.mp hr
  obtain ⟨h1, h2, h3⟩ := h s r1 s1 hm
  rw [firstMissing_append, filled_append]
  cases r1 with
  | error x =>
    cases Rand.possible_pure.mp hr
    refine ⟨nofun, ?_, ?_⟩
    · intro t ht
      cases ht
      obtain ⟨p, h4, h5⟩ := h2 t rfl
      exact ⟨p, by rw [h4]; rfl, h5⟩
    · intro ht
      cases ht
      exact h3 rfl
  | ok a =>
    obtain ⟨h4, h5⟩ := h1 a rfl
    rw [h4, Option.none_or, ← h5]
    exact hf a s1 r s' hr

theorem RollTracks.ofRand {α : Type} {r : Rand (Res α)} (h : ¬ Rand.Possible (.error .key) r) : RollTracks (.ofRand r) [] := by
  intro s x s' hx
  obtain ⟨a, ha, hx⟩ := Rand.possible_bind.mp hx
  cases Rand.possible_pure.mp hx
  cases a with
  | ok a => exact ⟨fun _ _ => ⟨rfl, rfl⟩, nofun, nofun⟩
  | error e => exact ⟨nofun, nofun, fun h' => by cases h'; exact h ha⟩

omit R in
theorem noKey_choices {table : List (Int × Nat)} {n : Nat} (h : Rand.Possible (.error .key) (choices table n)) : False := by
  rcases choices_error h with ⟨h, _⟩ | ⟨h, _⟩ <;> cases h

omit R in
theorem noKey_diceRoll (t : DiceTerm) : ¬ Rand.Possible (.error .key) t.roll := by
  intro h
  rcases diceRoll_error h with ⟨h, _⟩ | ⟨h, _⟩ <;> cases h

omit R in
theorem noKey_dropKeepRoll (t : DropKeepTerm) : ¬ Rand.Possible (.error .key) t.roll := by
  intro h
  unfold DropKeepTerm.roll at h
  split at h
  · exact noKey_diceRoll _ h
  · cases Rand.possible_pure.mp h
  · obtain ⟨a, ha, h⟩ := Rand.possible_bind.mp h
    cases a with
    | ok l => cases Rand.possible_pure.mp h
    | error e =>
      cases Rand.possible_pure.mp h
      exact noKey_choices ha

/-- What can be rolled in `e`: without the divisor being zero. -/
theorem rollX_tracks (e : Expr) : RollTracks e.rollX e.rollSteps := by
  have two : ∀ {a b : Expr} {g : Int → Int → Int}, RollTracks a.rollX a.rollSteps → RollTracks b.rollX b.rollSteps →
      RollTracks (do let x ← a.rollX; let y ← b.rollX; return g x y) (a.rollSteps ++ b.rollSteps) := by
    intro a b g ha hb
    have := ha.bind fun x => hb.bind fun y => RollTracks.pure (g x y)
    rwa [List.append_nil] at this
  have one : ∀ {a : Expr} {g : Int → Int}, RollTracks a.rollX a.rollSteps →
      RollTracks (do return g (← a.rollX)) a.rollSteps := by
    intro a g ha
    have := ha.bind fun x => RollTracks.pure (g x)
    rwa [List.append_nil] at this
  induction e with
  | paren e ih => exact ih
  | not e ih => exact one (g := fun x => if x ≠ 0 then 0 else 1) ih
  | abs e ih => exact one ih
  | dropKeep t => exact .ofRand (noKey_dropKeepRoll t)
  | dice t => exact .ofRand (noKey_diceRoll t)
  | constInt text => exact .ofEval (.plain (noKey_pyInt _))
  | constBin text => exact .pure _
  | add a b iha ihb => exact two iha ihb
  | sub a b iha ihb => exact two iha ihb
  | mul a b iha ihb => exact two iha ihb
  | div a b iha ihb =>
    refine ihb.bind fun y => ?_
    by_cases hy : y = 0
    · rw [if_pos hy]
      intro s r s' h
      cases Rand.possible_pure.mp h
      exact ⟨nofun, nofun, nofun⟩
    · rw [if_neg hy]
      exact one (g := fun x => x.fdiv y) iha
  | bin op a b iha ihb => exact two (g := fun x y => if op.onInts x y then 1 else 0) iha ihb
  | minmax k a b iha ihb => exact two iha ihb
  | assign x e ih => exact ih.bind fun _ => (RollTracks.ofEval (.setConstant x _)).bind fun _ => .pure _
  | getVar n => exact .ofEval (.getConstant n)

/-! ### Own exceptions other than `KeyError` -/

/-- Every own exception but `KeyError` is of this sort; `P` may speak about the state left behind. -/
def Owns {α : Type} (m : EvalX α) (P : Err → Option Str → State → Prop) : Prop := ∀ s s' c t,
  m s = (.error (.own c t), s') → c = .key ∨ P c t s'

theorem Owns.pure {α : Type} {P : Err → Option Str → State → Prop} (a : α) : Owns (Pure.pure a : EvalX α) P := by
  intro s s' c t h; cases h

theorem Owns.plain {α : Type} {P : Err → Option Str → State → Prop} (m : EvalM α) : Owns (EvalX.plain m) P := by
  intro s s' c t h
  unfold EvalX.plain at h
  rcases hm : m s with ⟨r, s1⟩
  rw [hm] at h
  cases r <;> cases h

theorem Owns.getVar {P : Err → Option Str → State → Prop} (n : Str) : Owns (EvalX.read (fun s => s.getVarX n)) P := by
  intro s s' c t h
  have h : (s.getVarX n, s) = (_, _) := h
  unfold State.getVarX at h
  cases hd : dictGet? s.var n <;> rw [hd] at h <;> cases h
  exact .inl rfl

theorem Owns.getConstant {P : Err → Option Str → State → Prop} (n : Str) : Owns (EvalX.read (fun s => s.getConstantX n)) P := by
  intro s s' c t h
  have h : (s.getConstantX n, s) = (_, _) := h
  unfold State.getConstantX at h
  cases hd : dictGet? s.constants n <;> rw [hd] at h <;> cases h
  exact .inl rfl

theorem Owns.bind {α β : Type} {P : Err → Option Str → State → Prop} {m : EvalX α} {f : α → EvalX β} (h : Owns m P)
    (hf : ∀ a, Owns (f a) P) : Owns (m >>= f) P := by
  intro s s' c t hr
  have hr : EvalX.bind m f s = (_, s') := hr
  unfold EvalX.bind at hr
  rcases hm : m s with ⟨r1, s1⟩
  rw [hm] at hr
  cases r1 with
  | error x =>
    cases hr
    exact h s s' c t hm
  | ok a => exact hf a s1 s' c t hr

theorem Owns.mono {α : Type} {P Q : Err → Option Str → State → Prop} {m : EvalX α} (h : Owns m P) (hpq : ∀ c t s, P c t s → Q c t s) :
    Owns m Q := fun s s' c t hm => (h s s' c t hm).imp_right (hpq c t s')

theorem distX_owns (e : Expr) (P : Err → Option Str → State → Prop) : Owns e.distX P := by
  induction e with
  | paren e ih => exact ih
  | not e ih => exact ih.bind fun _ => .pure _
  | abs e ih => exact ih.bind fun _ => .pure _
  | dropKeep t => exact .plain _
  | dice t => exact .plain _
  | constInt text => exact .plain _
  | constBin text => exact .plain _
  | add a b iha ihb => exact iha.bind fun _ => ihb.bind fun _ => .plain _
  | sub a b iha ihb => exact iha.bind fun _ => ihb.bind fun _ => .plain _
  | mul a b iha ihb => exact iha.bind fun _ => ihb.bind fun _ => .plain _
  | div a b iha ihb => exact iha.bind fun _ => ihb.bind fun _ => .plain _
  | bin op a b iha ihb => exact iha.bind fun _ => ihb.bind fun _ => .plain _
  | minmax k a b iha ihb => exact iha.bind fun _ => ihb.bind fun _ => .plain _
  | assign x e ih => exact ih.bind fun _ => (Owns.plain _).bind fun _ => .pure _
  | getVar n => exact .getVar n

theorem costX_owns (e : Expr) (P : Err → Option Str → State → Prop) : Owns e.costX P := by
  induction e with
  | paren e ih => exact ih
  | not e ih => exact ih.bind fun _ => .plain _
  | abs e ih => exact ih
  | dropKeep t => exact .pure _
  | dice t => exact .pure _
  | constInt text => exact .pure _
  | constBin text => exact .pure _
  | add a b iha ihb => exact iha.bind fun _ => ihb.bind fun _ => .pure _
  | sub a b iha ihb => exact iha.bind fun _ => ihb.bind fun _ => .pure _
  | mul a b iha ihb => exact iha.bind fun _ => ihb.bind fun _ => .pure _
  | div a b iha ihb => exact iha.bind fun _ => ihb.bind fun _ => .pure _
  | bin op a b iha ihb => exact iha.bind fun _ => ihb.bind fun _ => .pure _
  | minmax k a b iha ihb => exact iha.bind fun _ => ihb.bind fun _ => .pure _
  | assign x e ih => exact ih.bind fun _ => (Owns.plain _).bind fun _ => .pure _
  | getVar n => exact .getConstant n

/-- The complaint about a divisor: one of these divisions is named, and its divisor can be zero in some state that leads here. -/
def DivComplaint (l : List (Expr × Expr)) (c : Err) (t : Option Str) (s' : State) : Prop :=
  c = .zeroDivision ∧ ∃ q ∈ l, t = some ((Expr.div q.1 q.2).str ++ ", divisor could be zero".toList) ∧
    ∃ s d, q.2.dist s = (.ok d, s') ∧ ∃ p ∈ d.resultMap, p.1.value = 0

theorem DivComplaint.mono {l m : List (Expr × Expr)} (h : ∀ q ∈ l, q ∈ m) {c : Err} {t : Option Str} {s' : State}
    (hc : DivComplaint l c t s') : DivComplaint m c t s' := by
  obtain ⟨h1, q, h2, h3⟩ := hc
  exact ⟨h1, q, h q h2, h3⟩

theorem dist_of_distX {e : Expr} {s s' : State} {d : Dist} (h : e.distX s = (.ok d, s')) : e.dist s = (.ok d, s') := by
  have := distX_erases e s
  rw [h] at this
  exact this

theorem distX_of_dist {e : Expr} {s s' : State} {d : Dist} (h : e.dist s = (.ok d, s')) : e.distX s = (.ok d, s') := by
  have := distX_erases e s
  rw [h] at this
  rcases hx : e.distX s with ⟨r, s1⟩
  rw [hx] at this
  cases r with
  | error x => cases this
  | ok a => cases this; rfl

end

theorem dictGet_safeAdd_isSome {κ : Type} [BEq κ] [LawfulBEq κ] (l : List (κ × Nat)) (k q : κ) (n : Nat) :
    (dictGet? (safeAdd l k n) q).isSome = (k == q || (dictGet? l q).isSome) := by
  induction l with
  | nil => simp [safeAdd, dictGet?]; split <;> simp_all
  | cons a l ih =>
    obtain ⟨k', m⟩ := a
    by_cases h : k' = k
    · subst h
      by_cases h2 : k' = q
      · subst h2; simp [safeAdd, dictGet?]
      · simp [safeAdd, dictGet?, h2]
    · by_cases h2 : k' = q
      · subst h2; simp [safeAdd, dictGet?, h]
      · simp [safeAdd, dictGet?, h, h2, ih]

section
variable [R : PyRuntime]

theorem containsZero_iff (d : Dist) : d.containsZero = true ↔ ∃ p ∈ d.resultMap, p.1.value = 0 := by
  have key : ∀ (l : List (Outcome × Nat)) (m : List (Int × Nat)),
      (dictGet? (l.foldl (fun m p => safeAdd m p.1.value p.2) m) 0).isSome = true ↔
        (∃ p ∈ l, p.1.value = 0) ∨ (dictGet? m 0).isSome = true := by
    intro l
    induction l with
    | nil => intro m; simp
    | cons a l ih =>
      intro m
      rw [List.foldl_cons, ih, dictGet_safeAdd_isSome]
      simp only [List.mem_cons, Bool.or_eq_true, beq_iff_eq, exists_eq_or_imp]
      rw [or_left_comm, or_assoc]
  unfold Dist.containsZero Dist.getResultMap
  rw [Bool.and_true, key]
  simp [dictGet?]

theorem Owns.viaDist {P : Err → Option Str → State → Prop} (isMax : Bool) {m : EvalX Dist} (h : Owns m P) :
    Owns (viaDistX isMax m) P := h.bind fun _ => .plain _

theorem extremeX_owns (isMax : Bool) (e : Expr) : Owns (e.extremeX isMax) (DivComplaint e.outerDivs) := by
  induction e with
  | paren e ih => exact ih
  | not e ih => exact (distX_owns _ _).viaDist isMax
  | abs e ih => exact (distX_owns _ _).viaDist isMax
  | dropKeep t => exact .plain _
  | dice t => exact .plain _
  | constInt text => exact .plain _
  | constBin text => exact .plain _
  | add a b iha ihb => exact (distX_owns _ _).viaDist isMax
  | sub a b iha ihb => exact (distX_owns _ _).viaDist isMax
  | mul a b iha ihb => exact (distX_owns _ _).viaDist isMax
  | div a b iha ihb =>
    intro s s' c t h
    have h : EvalX.bind b.distX _ s = _ := h
    unfold EvalX.bind at h
    rcases hb : b.distX s with ⟨r, s1⟩
    rw [hb] at h
    cases r with
    | error x =>
      cases h
      exact (distX_owns b (fun _ _ _ => False) s s' c t hb).imp_right False.elim
    | ok d =>
      dsimp only at h
      cases hz : d.containsZero with
      | true =>
        rw [hz] at h
        cases h
        exact .inr ⟨rfl, (a, b), by simp [Expr.outerDivs], rfl, s, d, dist_of_distX hb, (containsZero_iff d).mp hz⟩
      | false =>
        rw [hz] at h
        exact (distX_owns (.div a b) _).viaDist isMax s1 s' c t h
  | bin op a b iha ihb => exact (distX_owns _ _).viaDist isMax
  | minmax k a b iha ihb =>
    exact (iha.mono fun c t s h => h.mono fun q hq => List.mem_append_left _ hq).bind fun _ =>
      (ihb.mono fun c t s h => h.mono fun q hq => List.mem_append_right _ hq).bind fun _ => .pure _
  | assign x e ih =>
    exact ih.bind fun _ => (Owns.plain _).bind fun _ => (distX_owns e _).bind fun _ => (Owns.plain _).bind fun _ => .pure _
  | getVar n => exact .getConstant n

end

/-! ### Parts of a parsed expression -/

theorem outerDivs_parts (e : Expr) : ∀ q ∈ e.outerDivs, Expr.div q.1 q.2 ∈ e.parts := by
  induction e with
  | paren e ih => intro q hq; exact List.mem_cons_of_mem _ (ih q hq)
  | div a b => intro q hq; rw [List.mem_singleton.mp hq]; exact List.mem_cons_self
  | minmax k a b iha ihb =>
    intro q hq
    rcases List.mem_append.mp hq with h | h
    · exact List.mem_cons_of_mem _ (List.mem_append_left _ (iha q h))
    · exact List.mem_cons_of_mem _ (List.mem_append_right _ (ihb q h))
  | assign x e ih => intro q hq; exact List.mem_cons_of_mem _ (ih q hq)
  | _ => intro q hq; cases hq

theorem parts_spelt (e : Expr) : Spelt e → Grouped e → ∀ d ∈ e.parts, Spelt d ∧ Grouped d := by
  have self : ∀ {e d : Expr} {l : List Expr}, Spelt e → Grouped e → (∀ d ∈ l, Spelt d ∧ Grouped d) → d ∈ e :: l → Spelt d ∧ Grouped d := by
    intro e d l h1 h2 h3 h
    rcases List.mem_cons.mp h with rfl | h
    · exact ⟨h1, h2⟩
    · exact h3 d h
  have both : ∀ {l m : List Expr}, (∀ d ∈ l, Spelt d ∧ Grouped d) → (∀ d ∈ m, Spelt d ∧ Grouped d) →
      ∀ d ∈ l ++ m, Spelt d ∧ Grouped d := by
    intro l m h1 h2 d hd
    exact (List.mem_append.mp hd).elim (h1 d) (h2 d)
  induction e with
  | paren e ih => intro h1 h2 d hd; exact self h1 h2 (ih h1 h2) hd
  | not e ih => intro h1 h2 d hd; exact self h1 h2 (ih h1 h2) hd
  | abs e ih => intro h1 h2 d hd; exact self h1 h2 (ih h1 h2) hd
  | assign x e ih => intro h1 h2 d hd; exact self h1 h2 (ih h1.2 h2) hd
  | add a b iha ihb => intro h1 h2 d hd; exact self h1 h2 (both (iha h1.1 h2.2.1) (ihb h1.2 h2.2.2)) hd
  | sub a b iha ihb => intro h1 h2 d hd; exact self h1 h2 (both (iha h1.1 h2.2.1) (ihb h1.2 h2.2.2)) hd
  | mul a b iha ihb => intro h1 h2 d hd; exact self h1 h2 (both (iha h1.1 h2.2.1) (ihb h1.2 h2.2.2)) hd
  | div a b iha ihb => intro h1 h2 d hd; exact self h1 h2 (both (iha h1.1 h2.2.1) (ihb h1.2 h2.2.2)) hd
  | bin op a b iha ihb => intro h1 h2 d hd; exact self h1 h2 (both (iha h1.1 h2.2.1) (ihb h1.2 h2.2.2)) hd
  | minmax k a b iha ihb => intro h1 h2 d hd; exact self h1 h2 (both (iha h1.1 h2.1) (ihb h1.2 h2.2)) hd
  | dropKeep t => intro h1 h2 d hd; rw [List.mem_singleton.mp hd]; exact ⟨h1, h2⟩
  | dice t => intro h1 h2 d hd; rw [List.mem_singleton.mp hd]; exact ⟨h1, h2⟩
  | constInt t => intro h1 h2 d hd; rw [List.mem_singleton.mp hd]; exact ⟨h1, h2⟩
  | constBin t => intro h1 h2 d hd; rw [List.mem_singleton.mp hd]; exact ⟨h1, h2⟩
  | getVar n => intro h1 h2 d hd; rw [List.mem_singleton.mp hd]; exact ⟨h1, h2⟩

end PyDice
