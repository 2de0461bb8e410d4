import Verif.Lemmas.Eval
import Verif.Interp
import Verif.Lemmas.State
import Verif.Lemmas.DropKeepTerm
import Verif.Lemmas.Cost
import Verif.Spec.Cost
/-!
# C34, C35, C39: estimated cost; dependence on contained variables; parentheses
-/

namespace PyDice

/-! ### C35 -/

section
variable [R : PyRuntime]

/-- C35, distributions: the result depends only on the stored distributions of the contained variables, and evaluating leaves the
    state as it is. -/
theorem C35_dist (e : Expr) (h : e.NoAssign) (s t : State) (ha : AgreeOn e.contained s t) :
    (e.dist t).1 = (e.dist s).1 ∧ (e.dist s).2 = s := by
  obtain ⟨r, hr⟩ := dist_steady s e h
  rw [hr t ha, hr s (agree_refl _ _)]
  exact ⟨rfl, rfl⟩

/-- C35, `max` and `min`. -/
theorem C35_max_min (isMax : Bool) (e : Expr) (h : e.NoAssign) (s t : State) (ha : AgreeOn e.contained s t) :
    (e.extreme isMax t).1 = (e.extreme isMax s).1 ∧ (e.extreme isMax s).2 = s := by
  obtain ⟨r, hr⟩ := extreme_steady isMax s e h
  rw [hr t ha, hr s (agree_refl _ _)]
  exact ⟨rfl, rfl⟩

/-- C35, `estimated_cost`. -/
theorem C35_cost (e : Expr) (h : e.NoAssign) (s t : State) (ha : AgreeOn e.contained s t) :
    (e.cost t).1 = (e.cost s).1 ∧ (e.cost s).2 = s := by
  obtain ⟨r, hr⟩ := cost_steady s e h
  rw [hr t ha, hr s (agree_refl _ _)]
  exact ⟨rfl, rfl⟩

/-- C35, `roll`: one and the same tree of draws gives the result in both states, and each state is left as it is. -/
theorem C35_roll (e : Expr) (h : e.NoAssign) (s t : State) (ha : AgreeOn e.contained s t) :
    ∃ r : Rand (Res Int), e.roll s = Rand.bind r (fun a => .pure (a, s)) ∧ e.roll t = Rand.bind r (fun a => .pure (a, t)) := by
  obtain ⟨r, hr⟩ := roll_steady s e h
  exact ⟨r, hr s (agree_refl _ _), hr t ha⟩

omit R in
/-- `get_contained_variables` lists exactly the variables read. -/
theorem C35_contained (e : Expr) (h : e.NoAssign) : e.contained = e.reads := by
  induction e with
  | paren e ih => exact ih h
  | not e ih => exact ih h
  | abs e ih => exact ih h
  | add a b iha ihb => simp only [Expr.contained, Expr.reads, iha h.1, ihb h.2]
  | sub a b iha ihb => simp only [Expr.contained, Expr.reads, iha h.1, ihb h.2]
  | mul a b iha ihb => simp only [Expr.contained, Expr.reads, iha h.1, ihb h.2]
  | div a b iha ihb => simp only [Expr.contained, Expr.reads, iha h.1, ihb h.2]
  | bin op a b iha ihb => simp only [Expr.contained, Expr.reads, iha h.1, ihb h.2]
  | minmax k a b iha ihb => simp only [Expr.contained, Expr.reads, iha h.1, ihb h.2]
  | assign n e _ => exact h.elim
  | _ => rfl

end

/-- `x + 1` in two states that differ in `y`. -/
example : let _ := listRuntime
    let s : State := State.new.setConstant ['x'] 4
    let t : State := (State.new.setConstant ['y'] 9).setConstant ['x'] 4
    (Expr.add (.getVar ['x']) (.constInt ['1'])).NoAssign ∧ AgreeOn (Expr.add (.getVar ['x']) (.constInt ['1'])).contained s t := by
  refine ⟨⟨trivial, trivial⟩, fun n hn => ?_⟩
  obtain rfl : n = ['x'] := by simpa [Expr.contained] using hn
  exact ⟨rfl, rfl⟩

/-! ### C39 -/

section
variable [R : PyRuntime]

/-- C39: a parenthesised expression is the expression inside, for every method and in every state. -/
theorem C39_parentheses (e : Expr) : (Expr.paren e).roll = e.roll ∧ (∀ isMax, (Expr.paren e).extreme isMax = e.extreme isMax) ∧
    (Expr.paren e).cost = e.cost ∧ (Expr.paren e).dist = e.dist ∧ (Expr.paren e).contained = e.contained :=
  ⟨rfl, fun _ => rfl, rfl, rfl, rfl⟩

theorem C39_strip_dist (e : Expr) : e.strip.dist = e.dist := by
  induction e with
  | paren e ih => exact ih
  | not e ih => simp only [Expr.strip, Expr.dist, ih]
  | abs e ih => simp only [Expr.strip, Expr.dist, ih]
  | add a b iha ihb => simp only [Expr.strip, Expr.dist, iha, ihb]
  | sub a b iha ihb => simp only [Expr.strip, Expr.dist, iha, ihb]
  | mul a b iha ihb => simp only [Expr.strip, Expr.dist, iha, ihb]
  | div a b iha ihb => simp only [Expr.strip, Expr.dist, iha, ihb]
  | bin op a b iha ihb => simp only [Expr.strip, Expr.dist, iha, ihb]
  | minmax k a b iha ihb => simp only [Expr.strip, Expr.dist, iha, ihb]
  | assign n e ih => simp only [Expr.strip, Expr.dist, ih]
  | _ => rfl

theorem C39_strip_max_min (isMax : Bool) (e : Expr) : e.strip.extreme isMax = e.extreme isMax := by
  induction e with
  | paren e ih => exact ih
  | not e ih => simp only [Expr.strip, Expr.extreme, Expr.dist, C39_strip_dist]
  | abs e ih => simp only [Expr.strip, Expr.extreme, Expr.dist, C39_strip_dist]
  | add a b iha ihb => simp only [Expr.strip, Expr.extreme, Expr.dist, C39_strip_dist]
  | sub a b iha ihb => simp only [Expr.strip, Expr.extreme, Expr.dist, C39_strip_dist]
  | mul a b iha ihb => simp only [Expr.strip, Expr.extreme, Expr.dist, C39_strip_dist]
  | div a b iha ihb => simp only [Expr.strip, Expr.extreme, Expr.dist, C39_strip_dist]
  | bin op a b iha ihb => simp only [Expr.strip, Expr.extreme, Expr.dist, C39_strip_dist]
  | minmax k a b iha ihb => simp only [Expr.strip, Expr.extreme, iha, ihb]
  | assign n e ih => simp only [Expr.strip, Expr.extreme, ih, C39_strip_dist]
  | _ => rfl

theorem C39_strip_roll_cost (e : Expr) : e.strip.roll = e.roll ∧ e.strip.cost = e.cost := by
  induction e with
  | paren e ih => exact ih
  | not e ih => simp only [Expr.strip, Expr.roll, Expr.cost, ih, and_self]
  | abs e ih => simp only [Expr.strip, Expr.roll, Expr.cost, ih, and_self]
  | add a b iha ihb => simp only [Expr.strip, Expr.roll, Expr.cost, iha, ihb, and_self]
  | sub a b iha ihb => simp only [Expr.strip, Expr.roll, Expr.cost, iha, ihb, and_self]
  | mul a b iha ihb => simp only [Expr.strip, Expr.roll, Expr.cost, iha, ihb, and_self]
  | div a b iha ihb => simp only [Expr.strip, Expr.roll, Expr.cost, iha, ihb, and_self]
  | bin op a b iha ihb => simp only [Expr.strip, Expr.roll, Expr.cost, iha, ihb, and_self]
  | minmax k a b iha ihb => simp only [Expr.strip, Expr.roll, Expr.cost, iha, ihb, and_self]
  | assign n e ih => simp only [Expr.strip, Expr.roll, Expr.cost, ih, and_self]
  | _ => exact ⟨rfl, rfl⟩

omit R in
theorem C39_strip_contained (e : Expr) : e.strip.contained = e.contained := by
  induction e with
  | paren e ih => exact ih
  | not e ih => simp only [Expr.strip, Expr.contained, ih]
  | abs e ih => simp only [Expr.strip, Expr.contained, ih]
  | add a b iha ihb => simp only [Expr.strip, Expr.contained, iha, ihb]
  | sub a b iha ihb => simp only [Expr.strip, Expr.contained, iha, ihb]
  | mul a b iha ihb => simp only [Expr.strip, Expr.contained, iha, ihb]
  | div a b iha ihb => simp only [Expr.strip, Expr.contained, iha, ihb]
  | bin op a b iha ihb => simp only [Expr.strip, Expr.contained, iha, ihb]
  | minmax k a b iha ihb => simp only [Expr.strip, Expr.contained, iha, ihb]
  | _ => rfl

end

/-! ### C34 -/

section
variable [R : PyRuntime]

/-- C34: costing touches no stored distribution, even when it fails. -/
theorem C34_keeps_distributions (e : Expr) : ∀ s : State, (e.cost s).2.var = s.var := by
  have two : ∀ a b : Expr, (∀ s, (a.cost s).2.var = s.var) → (∀ s, (b.cost s).2.var = s.var) →
      ∀ s, ((do let x ← a.cost; let y ← b.cost; return x + y : EvalM Int) s).2.var = s.var := by
    intro a b ha hb s
    rw [evalBind]
    rcases h : a.cost s with ⟨r, s1⟩
    have h1 : s1.var = s.var := by have := ha s; rwa [h] at this
    cases r with
    | error e => exact h1
    | ok x =>
      show ((do let y ← b.cost; return x + y : EvalM Int) s1).2.var = s.var
      rw [evalBind]
      rcases h' : b.cost s1 with ⟨r', s2⟩
      have h2 : s2.var = s1.var := by have := hb s1; rwa [h'] at this
      cases r' with
      | error e => exact h2.trans h1
      | ok y => exact h2.trans h1
  induction e with
  | paren e ih => exact ih
  | not e ih =>
    intro s
    simp only [Expr.cost, evalBind]
    have := ih s
    rcases h : e.cost s with ⟨r, s1⟩
    rw [h] at this
    cases r <;> exact this
  | abs e ih => exact ih
  | add a b iha ihb => exact two a b iha ihb
  | sub a b iha ihb => exact two a b iha ihb
  | mul a b iha ihb => exact two a b iha ihb
  | div a b iha ihb => exact two a b iha ihb
  | bin op a b iha ihb => exact two a b iha ihb
  | minmax k a b iha ihb => exact two a b iha ihb
  | assign n e ih =>
    intro s
    simp only [Expr.cost, evalBind]
    have := ih s
    rcases h : e.cost s with ⟨r, s1⟩
    rw [h] at this
    cases r <;> exact this
  | _ => intro s; rfl

/-- C34: the same for a whole costing call. -/
theorem C34_call_keeps_distributions (parse : Str → Res Expr) : ∀ (lines : List Str) (s : State),
    (interpCost parse lines s).2.var = s.var := by
  suffices h : ∀ (lines : List Str) (total : Int) (s : State), (costLines parse lines total s).2.var = s.var from
    fun lines s => h lines 0 s
  intro lines
  induction lines with
  | nil => intro total s; rfl
  | cons l ls ih =>
    intro total s
    simp only [costLines, evalBind, EvalM.ofRes]
    cases parse l with
    | error e => rfl
    | ok e =>
      have := C34_keeps_distributions e s
      simp only
      rcases h : e.cost s with ⟨r, s1⟩
      rw [h] at this
      cases r with
      | error e => exact this
      | ok c => simp only; rw [ih]; exact this

/-- C34: a reference to a variable costs what its defining expression cost, as long as the name was not set again. -/
theorem C34_reference (x : Str) (e : Expr) (s s1 : State) (c : Int) (h : e.cost s = (.ok c, s1)) :
    ∃ s2, (Expr.assign x e).cost s = (.ok (2 + c), s2) ∧ (Expr.getVar x).cost s2 = (.ok c, s2) := by
  refine ⟨s1.setConstant x c, ?_, ?_⟩
  · simp only [Expr.cost, evalBind, h, EvalM.setConstant]; rfl
  · simp only [Expr.cost, EvalM.read, State.getConstant, State.setConstant, get_set, if_true]

/-- C34: the cost is the sum over the leaves, whatever operators join them.  (`!` and `VAR` have theorems of their own.) -/
theorem C34_leaves (e : Expr) (price : Str → Int) (s : State) (he : e.Priced)
    (hs : ∀ x ∈ e.reads, dictGet? s.constants x = some (price x)) : e.cost s = (.ok (e.leafPrices price).sum, s) := by
  have two : ∀ (a b : Expr), a.cost s = (.ok (a.leafPrices price).sum, s) → b.cost s = (.ok (b.leafPrices price).sum, s) →
      (do let x ← a.cost; let y ← b.cost; return x + y : EvalM Int) s =
        (.ok (a.leafPrices price ++ b.leafPrices price).sum, s) := by
    intro a b ha hb
    rw [List.sum_append]
    exact evalBind_eq_ok.mpr ⟨_, s, ha, evalBind_eq_ok.mpr ⟨_, s, hb, rfl⟩⟩
  induction e with
  | paren e ih => exact ih he hs
  | abs e ih => exact ih he hs
  | not e ih => exact he.elim
  | assign n e ih => exact he.elim
  | constInt n => rfl
  | constBin n => rfl
  | getVar x =>
    have := hs x (by simp [Expr.reads])
    simp [Expr.cost, EvalM.read, State.getConstant, this, Expr.leafPrices]
  | dice t => simp [Expr.cost, DiceTerm.cost, Expr.leafPrices]; rfl
  | dropKeep t =>
    obtain ⟨hn, form, ht⟩ := he
    obtain ⟨_, hp, hz, hnone⟩ := mkDropKeep_spec ht
    show (Except.ok t.cost, s) = _
    simp only [Expr.leafPrices, List.sum_singleton]
    congr 2
    unfold DropKeepTerm.cost DropKeepTerm.counted
    cases hk : t.keep with
    | true =>
      simp only [if_true]
      by_cases h1 : t.number ≤ t.count
      · obtain ⟨f, hf⟩ := hp (Or.inl ⟨hk, h1⟩)
        rw [hf, if_pos h1]; rfl
      · rw [if_neg h1]
        by_cases h0 : t.count = 0
        · rw [hz (Or.inl ⟨hk, h0, by omega⟩), if_pos h0]
        · rw [hnone (by omega) (by omega), if_neg h0]
    | false =>
      simp only [Bool.false_eq_true, if_false]
      by_cases h0 : t.count = 0
      · obtain ⟨f, hf⟩ := hp (Or.inr ⟨hk, h0, by omega⟩)
        rw [hf, if_pos (by omega)]; rfl
      · rw [if_neg (by omega)]
        by_cases h1 : t.number ≤ t.count
        · rw [hz (Or.inr ⟨hk, h1⟩), if_pos (by omega)]
        · rw [hnone (by omega) (by omega), if_neg (by omega)]
          push_cast [Nat.le_of_not_le h1]
          rfl
  | add a b iha ihb =>
    exact two a b (iha he.1 fun x hx => hs x (by simp [Expr.reads, hx])) (ihb he.2 fun x hx => hs x (by simp [Expr.reads, hx]))
  | sub a b iha ihb =>
    exact two a b (iha he.1 fun x hx => hs x (by simp [Expr.reads, hx])) (ihb he.2 fun x hx => hs x (by simp [Expr.reads, hx]))
  | mul a b iha ihb =>
    exact two a b (iha he.1 fun x hx => hs x (by simp [Expr.reads, hx])) (ihb he.2 fun x hx => hs x (by simp [Expr.reads, hx]))
  | div a b iha ihb =>
    exact two a b (iha he.1 fun x hx => hs x (by simp [Expr.reads, hx])) (ihb he.2 fun x hx => hs x (by simp [Expr.reads, hx]))
  | bin op a b iha ihb =>
    exact two a b (iha he.1 fun x hx => hs x (by simp [Expr.reads, hx])) (ihb he.2 fun x hx => hs x (by simp [Expr.reads, hx]))
  | minmax k a b iha ihb =>
    exact two a b (iha he.1 fun x hx => hs x (by simp [Expr.reads, hx])) (ihb he.2 fun x hx => hs x (by simp [Expr.reads, hx]))

omit R in
/-- `4d6d1`: four dice, three of them counted, six faces, 72; the hypothesis holds for it. -/
example : ∃ t, mkDropKeep "4d6d1".toList = .ok t ∧ (Expr.dropKeep t).Priced ∧
    (Expr.add (.dropKeep t) (.constInt ['1'])).leafPrices (fun _ => 0) = [72, 2] :=
  ⟨_, rfl, ⟨by decide, "4d6d1".toList, rfl⟩, by decide⟩

/-- The costs of the lines, each in the state left by the earlier ones. -/
inductive LineCosts (parse : Str → Res Expr) : State → List Str → List Int → State → Prop where
  | nil (s : State) : LineCosts parse s [] [] s
  | cons {s s1 s2 : State} {l : Str} {ls : List Str} {e : Expr} {c : Int} {cs : List Int} (hp : parse l = .ok e)
      (hc : e.cost s = (.ok c, s1)) (h : LineCosts parse s1 ls cs s2) : LineCosts parse s (l :: ls) (c :: cs) s2

/-- C34: the cost of a program is the sum of the costs of its lines. -/
theorem C34_sum (parse : Str → Res Expr) (lines : List Str) (s s' : State) (total : Int) :
    interpCost parse lines s = (.ok total, s') ↔ ∃ cs, LineCosts parse s lines cs s' ∧ total = cs.sum := by
  suffices h : ∀ (lines : List Str) (t : Int) (s : State), costLines parse lines t s = (.ok total, s') ↔
      ∃ cs, LineCosts parse s lines cs s' ∧ total = t + cs.sum by
    have := h lines 0 s
    simpa [interpCost] using this
  intro lines
  induction lines with
  | nil =>
    intro t s
    constructor
    · intro h
      have h : ((.ok t : Res Int), s) = (.ok total, s') := h
      obtain ⟨h1, rfl⟩ := Prod.mk.inj h
      cases h1
      exact ⟨[], .nil s, by simp⟩
    · rintro ⟨cs, h, rfl⟩
      cases h
      simp [costLines, evalPure]
  | cons l ls ih =>
    intro t s
    constructor
    · intro h
      simp only [costLines] at h
      obtain ⟨e, s1, h1, h2⟩ := evalBind_eq_ok.mp h
      obtain ⟨c, s2, h3, h4⟩ := evalBind_eq_ok.mp h2
      obtain ⟨cs, h5, h6⟩ := (ih _ _).mp h4
      obtain ⟨hp, rfl⟩ := Prod.mk.inj h1
      exact ⟨c :: cs, .cons hp h3 h5, by rw [h6, List.sum_cons]; omega⟩
    · rintro ⟨cs, h, rfl⟩
      cases h with
      | cons hp hc h =>
        rename_i s1 e c cs
        simp only [costLines, evalBind, EvalM.ofRes, hp, hc]
        exact (ih _ _).mpr ⟨cs, h, by rw [List.sum_cons]; omega⟩

/-- C34: costs are never negative when no stored constant is (in particular from a new state), for every expression, and costing
    stores no negative constant. -/
theorem C34_nonneg (parse : Str → Res Expr) (hp : ∀ l e, parse l = .ok e → e.Built) (lines : List Str) (s s' : State) (total : Int)
    (hs : ∀ n v, dictGet? s.constants n = some v → 0 ≤ v) (h : interpCost parse lines s = (.ok total, s')) :
    0 ≤ total ∧ ∀ n v, dictGet? s'.constants n = some v → 0 ≤ v := by
  obtain ⟨cs, hc, rfl⟩ := (C34_sum parse lines s s' total).mp h
  clear h
  induction hc with
  | nil s => exact ⟨by simp, hs⟩
  | cons hpl hc _ ih =>
    obtain ⟨h1, h2⟩ := cost_nonneg _ (hp _ _ hpl) _ _ _ hs hc
    obtain ⟨h3, h4⟩ := ih h2
    exact ⟨by rw [List.sum_cons]; omega, h4⟩

end

/-- Costs from a new state: `VAR x = 2d6` then `x + 1`. -/
example : let _ := listRuntime
    let parse : Str → Res Expr := fun l =>
      if l = ['1'] then .ok (.assign ['x'] (.dice ⟨"2d6".toList, ones (pyRange 1 7), 2⟩)) else .ok (.add (.getVar ['x']) (.constInt ['1']))
    (interpCost parse [['1'], ['2']] State.new).1 = .ok (14 + 14) ∧
    (∀ n v, dictGet? (State.new : State).constants n = some v → 0 ≤ v) := by
  refine ⟨rfl, ?_⟩
  intro n v h
  simp [State.new, dictGet?] at h

/-- After a roll has left a negative constant behind a cost can be negative. -/
theorem C34_leftover_counterexample : ∃ (R : PyRuntime) (s : @State R), @Expr.cost R (Expr.getVar ['x']) s = (.ok (-5), s) :=
  ⟨listRuntime, @State.mk listRuntime [] [(['x'], -5)] [], rfl⟩

section
variable [R : PyRuntime]

/-- C34: a `!` costs a tenth more, rounded down, than what it negates.  The code computes this with floats; that is exact up to
    the bound, which `C34_not_counterexample` shows to be sharp. -/
theorem C34_not (e : Expr) (s s' : State) (c : Int) (h : e.cost s = (.ok c, s')) (h0 : 0 ≤ c) (hc : c < 511772684928469) :
    (Expr.not e).cost s = (.ok ⌊(11 * c : ℚ) / 10⌋, s') := by
  show (e.cost >>= fun c => EvalM.ofRes (notCost c)) s = _
  rw [evalBind_eq_ok]
  refine ⟨c, s', h, ?_⟩
  rw [notCost_exact h0 hc]; rfl

/-- C34: whatever the size, a `!` around something dearer is never cheaper, and there is a cost up to `2 ** 1022`. -/
theorem C34_not_monotone (a b : Expr) (s s1 s2 : State) (x y : Int) (ha : a.cost s = (.ok x, s1)) (hb : b.cost s = (.ok y, s2))
    (hxy : x ≤ y) (hx : |x| ≤ 2 ^ 1022) (hy : |y| ≤ 2 ^ 1022) :
    ∃ v w, (Expr.not a).cost s = (.ok v, s1) ∧ (Expr.not b).cost s = (.ok w, s2) ∧ v ≤ w := by
  obtain ⟨v, hv⟩ := notCost_defined hx
  obtain ⟨w, hw⟩ := notCost_defined hy
  refine ⟨v, w, ?_, ?_, notCost_mono hv hw hxy⟩
  · show (a.cost >>= fun c => EvalM.ofRes (notCost c)) s = _
    rw [evalBind_eq_ok]; exact ⟨x, s1, ha, by rw [hv]; rfl⟩
  · show (b.cost >>= fun c => EvalM.ofRes (notCost c)) s = _
    rw [evalBind_eq_ok]; exact ⟨y, s2, hb, by rw [hw]; rfl⟩

end

/-- `!511772684928469d1` costs one more than the exact floor; `!` around `10 ** 309` dice of one face is an `OverflowError`; and
    the negative cost -50 (a leftover constant) becomes -56, not -55. -/
theorem C34_not_counterexample : ∃ R : PyRuntime,
    (@Expr.cost R (.not (.dice ⟨"511772684928469d1".toList, [(1, 1)], 511772684928469⟩)) State.new).1 =
      .ok (⌊(11 * 511772684928469 : ℚ) / 10⌋ + 1) ∧
    (@Expr.cost R (.not (.dice ⟨('1' :: List.replicate 309 '0') ++ "d1".toList, [(1, 1)], 10 ^ 309⟩)) State.new).1 = .error .overflow ∧
    (@Expr.cost R (.not (.getVar ['x'])) (@State.mk R [] [(['x'], -50)] [])).1 = .ok (-56) ∧ ⌊(11 * (-50) : ℚ) / 10⌋ = -55 :=
  ⟨listRuntime, by decide +kernel⟩

/-- The bound holds for `!3d6`: 18, and a tenth more is 19. -/
example : let _ := listRuntime
    ((Expr.dice ⟨"3d6".toList, ones (pyRange 1 7), 3⟩).cost State.new).1 = .ok 18 ∧
    ((Expr.not (.dice ⟨"3d6".toList, ones (pyRange 1 7), 3⟩)).cost State.new).1 = .ok 19 := by
  decide +kernel

end PyDice
