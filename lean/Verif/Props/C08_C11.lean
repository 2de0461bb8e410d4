import Verif.Lemmas.Hist
import Verif.Lemmas.Convolve
import Mathlib.Algebra.Order.BigOperators.Group.List
import Verif.Lemmas.Summary
/-!
# C08 - C11 and C41: summaries of a distribution
-/

namespace PyDice

open PyRuntime

section
variable [R : PyRuntime]

/-! ## C08 -/

/-- C08: with positive total, `get_dict_form` lists the keys of `get_result_map` in the same order, each with its relative
    count, and these are numbers between 0 and 1 that sum to 1. -/
theorem C08_dict_form (d : Dist) (hc : d.Constructed) (hN : 0 < d.outcomeCount) :
    ∃ f, d.getDictForm = .ok f ∧ f.map Prod.fst = d.getResultMap.map Prod.fst ∧
      (∀ v, hasKey d.getResultMap v →
        dictGet? f v = some ((countOf d.getResultMap v : ℚ) / ((d.getResultMap.map Prod.snd).sum : ℚ))) ∧
      (∀ p ∈ f, 0 ≤ p.2 ∧ p.2 ≤ 1) ∧ (f.map Prod.snd).sum = 1 := by
  have hN' : d.outcomeCount ≠ 0 := by omega
  have hQ : (0 : ℚ) < (d.outcomeCount : ℚ) := by exact_mod_cast hN
  have htot : (d.getResultMap.map Prod.snd).sum = d.outcomeCount := by
    rw [← total_eq d hc]; unfold wsum; simp
  refine ⟨_, getDictForm_eq d hN', by rw [List.map_map]; rfl, ?_, ?_, ?_⟩
  · intro v hv
    have h1 := (hasKey_dictForm d v).mpr hv
    rw [← dictGet_isSome, Option.isSome_iff_exists] at h1
    obtain ⟨x, hx⟩ := h1
    have := dictGet_dictForm d v
    rw [hx] at this ⊢
    rw [htot]
    simpa using this
  · intro p hp
    rw [List.mem_map] at hp
    obtain ⟨q, hq, rfl⟩ := hp
    refine ⟨by positivity, ?_⟩
    rw [div_le_one hQ]
    have : q.2 ≤ (d.getResultMap.map Prod.snd).sum := List.single_le_sum (by simp) _ (List.mem_map.mpr ⟨q, hq, rfl⟩)
    rw [htot] at this
    exact_mod_cast this
  · rw [List.map_map]
    have : ∀ l : List (Int × Nat), (l.map (Prod.snd ∘ fun p : Int × Nat => (p.1, (p.2 : ℚ) / (d.outcomeCount : ℚ)))).sum =
        ((l.map Prod.snd).sum : ℚ) / (d.outcomeCount : ℚ) := by
      intro l
      induction l with
      | nil => simp
      | cons p l ih => simp only [List.map_cons, List.sum_cons, ih, Function.comp]; push_cast; ring
    rw [this, htot, div_self (ne_of_gt hQ)]

/-- C08: with total 0 and at least one outcome, `get_dict_form` raises `ZeroDivisionError`. -/
theorem C08_dict_form_zero (d : Dist) (hN : d.outcomeCount = 0) (hne : ∃ v, hasKey d.getResultMap v) :
    d.getDictForm = .error .zeroDivision := by
  apply getDictForm_error d hN
  rintro h0
  obtain ⟨v, hv⟩ := hne
  rw [h0] at hv; simp [hasKey] at hv

/-! ## C09 -/

/-- C09: `max()` is the largest listed value, `min()` the smallest. -/
theorem C09_max_min (d : Dist) (v : Int) :
    (d.max = .ok v ↔ hasKey d.getResultMap v ∧ ∀ x, hasKey d.getResultMap x → x ≤ v) ∧
    (d.min = .ok v ↔ hasKey d.getResultMap v ∧ ∀ x, hasKey d.getResultMap x → v ≤ x) :=
  ⟨listMax_spec _ _, listMin_spec _ _⟩

/-- C09: `max()` and `min()` succeed exactly when there is an outcome. -/
theorem C09_max_min_defined (d : Dist) :
    ((∃ v, d.max = .ok v) ↔ ∃ x, hasKey d.getResultMap x) ∧ ((∃ v, d.min = .ok v) ↔ ∃ x, hasKey d.getResultMap x) ∧
    (d.getResultMap = [] → d.max = .error .value ∧ d.min = .error .value) := by
  refine ⟨⟨?_, ?_⟩, ⟨?_, ?_⟩, ?_⟩
  · rintro ⟨v, h⟩; exact ⟨v, ((C09_max_min d v).1.mp h).1⟩
  · rintro ⟨x, hx⟩; exact listMax_nonempty (List.ne_nil_of_mem hx)
  · rintro ⟨v, h⟩; exact ⟨v, ((C09_max_min d v).2.mp h).1⟩
  · rintro ⟨x, hx⟩; exact listMin_nonempty (List.ne_nil_of_mem hx)
  · intro h; unfold Dist.max Dist.min; rw [h]; exact ⟨rfl, rfl⟩

/-- C09: `contains_zero()` says whether 0 is listed. -/
theorem C09_contains_zero (d : Dist) : d.containsZero = true ↔ hasKey d.getResultMap 0 := by
  unfold Dist.containsZero
  rw [Bool.and_true]
  exact dictGet_isSome _ _

/-- C09: `average()` is the count-weighted mean. -/
theorem C09_average (d : Dist) (hc : d.Constructed) (hN : 0 < d.outcomeCount) :
    d.average = .ok ((((d.getResultMap.map fun p => p.1 * (p.2 : Int)).sum : Int) : ℚ) /
      ((d.getResultMap.map Prod.snd).sum : ℚ)) := by
  have htot : (d.getResultMap.map Prod.snd).sum = d.outcomeCount := by
    rw [← total_eq d hc]; unfold wsum; simp
  have hs : (d.getResultMap.map fun p => p.1 * (p.2 : Int)).sum = wsum d.getResultMap (fun x => x) := by
    unfold wsum
    congr 1
    apply List.map_congr_left
    intro p _
    simp only [nsmul_eq_mul]; ring
  unfold Dist.average
  simp only [foldl_weighted, zero_add]
  rw [if_neg (by omega), hs, htot]

/-- C09: the average lies between the minimum and the maximum. -/
theorem C09_average_between (d : Dist) (hc : d.Constructed) (hN : 0 < d.outcomeCount) :
    ∃ lo hi m, d.min = .ok lo ∧ d.max = .ok hi ∧ d.average = .ok m ∧ (lo : ℚ) ≤ m ∧ m ≤ (hi : ℚ) := by
  have hne : ∃ x, hasKey d.getResultMap x := by
    have := resultMap_ne_nil (by omega : d.outcomeCount ≠ 0) hc
    cases hm : d.getResultMap with
    | nil => exact absurd hm this
    | cons p l => exact ⟨p.1, by simp [hasKey]⟩
  obtain ⟨hi, hhi⟩ := (C09_max_min_defined d).1.mpr hne
  obtain ⟨lo, hlo⟩ := (C09_max_min_defined d).2.1.mpr hne
  have hQ : (0 : ℚ) < (d.outcomeCount : ℚ) := by exact_mod_cast hN
  have h1 := ((C09_max_min d hi).1.mp hhi).2
  have h2 := ((C09_max_min d lo).2.mp hlo).2
  have hk : ∀ p ∈ d.resultMap, hasKey d.getResultMap p.1.value := fun p hp => (hasKey_getResultMap _ _).mpr ⟨p, hp, rfl⟩
  refine ⟨lo, hi, _, hlo, hhi, average_E d hN, ?_, ?_⟩
  · rw [le_div_iff₀ hQ]
    have := wsum_mono d.resultMap (fun _ => lo) (fun o => o.value) (fun p hp => h2 _ (hk p hp))
    rw [wsum_const, ← outcomeCount_constructed hc] at this
    unfold Dist.E
    calc (lo : ℚ) * (d.outcomeCount : ℚ) = (((d.outcomeCount : Int) * lo : Int) : ℚ) := by push_cast; ring
      _ ≤ _ := by exact_mod_cast this
  · rw [div_le_iff₀ hQ]
    have := wsum_mono d.resultMap (fun o => o.value) (fun _ => hi) (fun p hp => h1 _ (hk p hp))
    rw [wsum_const, ← outcomeCount_constructed hc] at this
    unfold Dist.E
    calc _ ≤ (((d.outcomeCount : Int) * hi : Int) : ℚ) := by exact_mod_cast this
      _ = (hi : ℚ) * (d.outcomeCount : ℚ) := by push_cast; ring

/-- C09: averages of sums and differences of untied distributions. -/
theorem C09_average_linear (a b s t : Dist) (hs : Dist.binop .add a b = .ok s) (ht : Dist.binop .sub a b = .ok t)
    (ha : a.Proper) (ua : a.Untied) (ub : b.Untied) (ca : a.Constructed) (cb : b.Constructed)
    (na : 0 < a.outcomeCount) (nb : 0 < b.outcomeCount) :
    ∃ x y, a.average = .ok x ∧ b.average = .ok y ∧ s.average = .ok (x + y) ∧ t.average = .ok (x - y) := by
  have qa : (a.outcomeCount : ℚ) ≠ 0 := by exact_mod_cast (by omega : a.outcomeCount ≠ 0)
  have qb : (b.outcomeCount : ℚ) ≠ 0 := by exact_mod_cast (by omega : b.outcomeCount ≠ 0)
  have ns := binop_total hs ha ua ub ca cb
  have nt := binop_total ht ha ua ub ca cb
  refine ⟨_, _, average_E a na, average_E b nb, ?_, ?_⟩
  · rw [average_E s (by rw [ns]; positivity), binop_E hs ha ua ub, ns]
    have : a.E (fun x => b.E (fun y => onOk (BinOp.add.apply x y) (fun v => v))) =
        (b.outcomeCount : Int) * a.E (fun x => x) + a.outcomeCount * b.E (fun y => y) := by
      have h : ∀ x, b.E (fun y => onOk (BinOp.add.apply x y) (fun v => v)) =
          (b.outcomeCount : Int) * x + b.E (fun y => y) := by
        intro x
        have := E_affine b cb 1 x
        simp only [one_mul] at this
        rw [add_comm, ← this]
        simp only [BinOp.apply, onOk]
        congr 1; funext y; ring
      simp only [h]
      exact E_affine a ca _ _
    rw [this]
    congr 1
    field_simp
    push_cast
    ring
  · rw [average_E t (by rw [nt]; positivity), binop_E ht ha ua ub, nt]
    have : a.E (fun x => b.E (fun y => onOk (BinOp.sub.apply x y) (fun v => v))) =
        (b.outcomeCount : Int) * a.E (fun x => x) + a.outcomeCount * ((-1) * b.E (fun y => y)) := by
      have h : ∀ x, b.E (fun y => onOk (BinOp.sub.apply x y) (fun v => v)) =
          (b.outcomeCount : Int) * x + (-1) * b.E (fun y => y) := by
        intro x
        rw [add_comm, ← E_affine b cb (-1) x]
        simp only [BinOp.apply, onOk]
        congr 1; funext y; ring
      simp only [h]
      exact E_affine a ca _ _
    rw [this]
    congr 1
    field_simp
    push_cast
    ring

/-! ## C10 -/

/-- C10: keys and values of `at_least`. -/
theorem C10_at_least (d : Dist) (hc : d.Constructed) (hN : 0 < d.outcomeCount) :
    ∃ lo hi f, d.min = .ok lo ∧ d.max = .ok hi ∧ d.atLeast = .ok f ∧ f.map Prod.fst = pyRange lo (hi + 1) ∧
      (∀ v, lo ≤ v → v ≤ hi → dictGet? f v = some (probOf d (fun x => decide (v ≤ x)))) ∧ dictGet? f lo = some 1 := by
  obtain ⟨h, lo, hi, f, g, _, h1, h2, h3, h4, h5, h6, h7, h8, h9, h10⟩ := tails d hc hN
  refine ⟨lo, hi, f, h1, h2, h3, h5, h7, ?_⟩
  rw [h7 lo (le_refl _) h10, probOf_eq d hc]
  have : wsum d.getResultMap (fun x => if decide (lo ≤ x) = true then (1 : Nat) else 0) = d.outcomeCount := by
    rw [← total_eq d hc]
    apply wsum_congr
    intro p hp
    simp [(h9 _ ((hasKey_iff _ _).mpr ⟨p, hp, rfl⟩)).1]
  congr 1
  rw [this]
  exact div_self (by exact_mod_cast (by omega : d.outcomeCount ≠ 0))

/-- C10: keys and values of `at_most`. -/
theorem C10_at_most (d : Dist) (hc : d.Constructed) (hN : 0 < d.outcomeCount) :
    ∃ lo hi g, d.min = .ok lo ∧ d.max = .ok hi ∧ d.atMost = .ok g ∧ g.map Prod.fst = pyRange lo (hi + 1) ∧
      (∀ v, lo ≤ v → v ≤ hi → dictGet? g v = some (probOf d (fun x => decide (x ≤ v)))) ∧ dictGet? g hi = some 1 := by
  obtain ⟨h, lo, hi, f, g, _, h1, h2, h3, h4, h5, h6, h7, h8, h9, h10⟩ := tails d hc hN
  refine ⟨lo, hi, g, h1, h2, h4, h6, h8, ?_⟩
  rw [h8 hi h10 (le_refl _), probOf_eq d hc]
  have : wsum d.getResultMap (fun x => if decide (x ≤ hi) = true then (1 : Nat) else 0) = d.outcomeCount := by
    rw [← total_eq d hc]
    apply wsum_congr
    intro p hp
    simp [(h9 _ ((hasKey_iff _ _).mpr ⟨p, hp, rfl⟩)).2]
  congr 1
  rw [this]
  exact div_self (by exact_mod_cast (by omega : d.outcomeCount ≠ 0))

/-- C10: `at_least` never increases, `at_most` never decreases. -/
theorem C10_monotone (d : Dist) (hc : d.Constructed) (hN : 0 < d.outcomeCount) (u v : Int) (huv : u ≤ v)
    (f g : List (Int × ℚ)) (hf : d.atLeast = .ok f) (hg : d.atMost = .ok g) (x y x' y' : ℚ)
    (hx : dictGet? f u = some x) (hy : dictGet? f v = some y) (hx' : dictGet? g u = some x')
    (hy' : dictGet? g v = some y') : y ≤ x ∧ x' ≤ y' := by
  obtain ⟨h, lo, hi, f0, g0, _, _, _, h3, h4, h5, h6, h7, h8, _, _⟩ := tails d hc hN
  rw [hf] at h3; rw [hg] at h4
  injection h3 with h3; injection h4 with h4
  subst h3; subst h4
  have key : ∀ (k : List (Int × ℚ)) w z, k.map Prod.fst = pyRange lo (hi + 1) → dictGet? k w = some z → lo ≤ w ∧ w ≤ hi := by
    intro k w z hk hz
    have : hasKey k w := (dictGet_isSome _ _).mp (by rw [hz]; rfl)
    unfold hasKey at this
    rw [hk, mem_pyRange] at this
    omega
  obtain ⟨a1, a2⟩ := key f u x h5 hx
  obtain ⟨b1, b2⟩ := key f v y h5 hy
  rw [h7 u a1 a2] at hx; rw [h7 v b1 b2] at hy; rw [h8 u a1 a2] at hx'; rw [h8 v b1 b2] at hy'
  injection hx with hx; injection hy with hy; injection hx' with hx'; injection hy' with hy'
  subst hx; subst hy; subst hx'; subst hy'
  constructor
  · apply probOf_mono
    intro z hz; simp only [decide_eq_true_eq] at hz ⊢; omega
  · apply probOf_mono
    intro z hz; simp only [decide_eq_true_eq] at hz ⊢; omega

/-! ## C11 (distributions) -/

/-- C11: `//` raises `ZeroDivisionError` exactly when the dividend has an outcome and 0 is an outcome of the divisor. -/
theorem C11_floordiv_error (a b : Dist) (ha : a.Proper) :
    Dist.binop .floordiv a b = .error .zeroDivision ↔ (∃ x, hasKey a.getResultMap x) ∧ hasKey b.getResultMap 0 := by
  constructor
  · intro h
    by_contra hcon
    have : ∃ d, Dist.binop .floordiv a b = .ok d := by
      rw [binop_ok_iff ha]
      intro p hp q hq
      have : q.1.value ≠ 0 := by
        intro h0
        exact hcon ⟨⟨_, (hasKey_getResultMap _ _).mpr ⟨p, hp, rfl⟩⟩, (hasKey_getResultMap _ _).mpr ⟨q, hq, h0⟩⟩
      exact ⟨_, if_neg this⟩
    obtain ⟨d, hd⟩ := this
    rw [h] at hd; cases hd
  · rintro ⟨⟨x, hx⟩, h0⟩
    obtain ⟨p, hp, rfl⟩ := (hasKey_getResultMap _ _).mp hx
    obtain ⟨q, hq, hq0⟩ := (hasKey_getResultMap _ _).mp h0
    apply binop_error ha
    intro d hd
    obtain ⟨v, hv⟩ := (binop_ok_iff ha).mp ⟨d, hd⟩ p hp q hq
    simp [BinOp.apply, hq0] at hv

/-- C11: otherwise it succeeds and every outcome is the floor of a quotient of outcomes. -/
theorem C11_floordiv_floor (a b : Dist) (ha : a.Proper) (h : (∃ x, hasKey a.getResultMap x) → ¬ hasKey b.getResultMap 0) :
    ∃ d, Dist.binop .floordiv a b = .ok d ∧ ∀ v, hasKey d.getResultMap v → ∃ x y, hasKey a.getResultMap x ∧
      hasKey b.getResultMap y ∧ y ≠ 0 ∧ v = ⌊(x : ℚ) / (y : ℚ)⌋ := by
  have : ∃ d, Dist.binop .floordiv a b = .ok d := by
    rw [binop_ok_iff ha]
    intro p hp q hq
    have : q.1.value ≠ 0 := by
      intro h0
      exact h ⟨_, (hasKey_getResultMap _ _).mpr ⟨p, hp, rfl⟩⟩ ((hasKey_getResultMap _ _).mpr ⟨q, hq, h0⟩)
    exact ⟨_, if_neg this⟩
  obtain ⟨d, hd⟩ := this
  refine ⟨d, hd, ?_⟩
  intro v hv
  obtain ⟨e, he, rfl⟩ := (hasKey_getResultMap _ _).mp hv
  obtain ⟨p, hp, q, hq, h1, _⟩ := binop_mem hd ha he
  have := (apply_yields _ _ _ _).mp h1
  exact ⟨_, _, (hasKey_getResultMap _ _).mpr ⟨p, hp, rfl⟩, (hasKey_getResultMap _ _).mpr ⟨q, hq, rfl⟩, this.1, this.2⟩

end

/-! ## Non-vacuity -/

section
attribute [local instance] listRuntime

/-- A distribution with a gap meets the hypotheses of `C08_dict_form`, `C09_average`, `C10_at_least`. -/
example : ∃ d : Dist, mkDistInt [(1, 2), (4, 1)] = .ok d ∧ d.Constructed ∧ 0 < d.outcomeCount ∧ d.max = .ok 4 ∧ d.min = .ok 1 :=
  ⟨_, rfl, ⟨_, rfl⟩, by decide, by decide, by decide⟩

/-- Total 0 with one outcome: `C08_dict_form_zero` applies. -/
example : ∃ d : Dist, mkDistInt [(5, 0)] = .ok d ∧ d.outcomeCount = 0 ∧ hasKey d.getResultMap 5 :=
  ⟨_, rfl, by decide, by simp [hasKey, mkDist, Dist.getResultMap, safeAdd]⟩

/-- Division of a distribution with negative values; 0 is no divisor. -/
example : (do
    let a ← mkDistInt [(-7, 1), (7, 2)]
    let b ← mkDistInt [(2, 1), (-2, 1)]
    let d ← Dist.binop .floordiv a b
    return d.getResultMap) = Except.ok [(-4, 3), (3, 3)] := by decide

/-- Division by a distribution that contains 0 (even with count 0) raises. -/
example : (do
    let a ← mkDistInt [(-7, 1)]
    let b ← mkDistInt [(2, 1), (0, 0)]
    let d ← Dist.binop .floordiv a b
    return d.getResultMap) = Except.error .zeroDivision := by decide

end

end PyDice
