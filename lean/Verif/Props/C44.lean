import Verif.Lemmas.Figures
import Verif.Props.C08_C11
/-!
# C44: the figures reported as floats
-/

namespace PyDice

/-- The rounding used throughout is the one IEEE 754 prescribes: to a nearest double, the even one on a tie. -/
theorem C44_rounding (q x : ℚ) : RoundsTo q x ↔ x = toDouble q :=
  ⟨fun h => roundsTo_unique h (toDouble_rounds q), fun h => h ▸ toDouble_rounds q⟩

section
variable [R : PyRuntime]

/-- C44: `get_dict_form` reports for every value the double nearest to its probability.  It lies between 0 and 1, and it is not 0
    for a possible outcome unless the counts add up to more than `2 ** 1074`. -/
theorem C44_dict_form (d : Dist) (hc : d.Constructed) (hN : 0 < d.outcomeCount) :
    ∃ f, d.getDictFormF = .ok f ∧ f.map Prod.fst = d.getResultMap.map Prod.fst ∧
      ∀ v, hasKey d.getResultMap v → ∃ x, dictGet? f v = some x ∧
        RoundsTo ((countOf d.getResultMap v : ℚ) / ((d.getResultMap.map Prod.snd).sum : ℚ)) x ∧ 0 ≤ x ∧ x ≤ 1 ∧
        ((d.getResultMap.map Prod.snd).sum ≤ 2 ^ 1074 → 0 < countOf d.getResultMap v → 0 < x) := by
  have hN' : d.outcomeCount ≠ 0 := by omega
  have hQ : (0 : ℚ) < (d.outcomeCount : ℚ) := by exact_mod_cast hN
  have htot : (d.getResultMap.map Prod.snd).sum = d.outcomeCount := by rw [← total_eq d hc]; unfold wsum; simp
  refine ⟨_, getDictFormF_eq d hc hN', by rw [List.map_map]; rfl, ?_⟩
  intro v hv
  rw [htot]
  have hget : dictGet? (d.getResultMap.map fun p => (p.1, toDouble ((p.2 : ℚ) / (d.outcomeCount : ℚ)))) v =
      some (toDouble (d.share v)) := by
    unfold Dist.share countOf
    revert hv
    generalize d.getResultMap = l
    intro hv
    induction l with
    | nil => simp [hasKey] at hv
    | cons p l ih =>
      simp only [List.map_cons, dictGet?]
      by_cases h : p.1 == v
      · simp [h]
      · simp only [h]
        apply ih
        have h' : p.1 ≠ v := by simpa using h
        simpa [hasKey, Ne.symm h'] using hv
  refine ⟨_, hget, toDouble_rounds _, toDouble_nonneg (share_nonneg d v), toDouble_le_one (share_le_one d hc v), ?_⟩
  intro hbig hpos
  apply toDouble_pos
  unfold Dist.share
  rw [le_div_iff₀ hQ]
  have h1 : (d.outcomeCount : ℚ) ≤ (2 : ℚ) ^ (1074 : ℤ) := by
    rw [show (1074 : ℤ) = ((1074 : ℕ) : ℤ) by norm_num, zpow_natCast]
    exact_mod_cast hbig
  have h2 : (1 : ℚ) ≤ (countOf d.getResultMap v : ℚ) := by exact_mod_cast hpos
  calc (2 : ℚ) ^ (-1074 : ℤ) * (d.outcomeCount : ℚ) ≤ (2 : ℚ) ^ (-1074 : ℤ) * (2 : ℚ) ^ (1074 : ℤ) :=
        mul_le_mul_of_nonneg_left h1 (by positivity)
    _ = 1 := by rw [← zpow_add₀ (by norm_num)]; norm_num
    _ ≤ _ := h2

/-- C44: an outcome with the larger count never gets the smaller float, and equal counts get the same float. -/
theorem C44_dict_form_order (d : Dist) (hc : d.Constructed) (hN : 0 < d.outcomeCount) (f : List (Int × ℚ)) (hf : d.getDictFormF = .ok f)
    (u v : Int) (x y : ℚ) (hx : dictGet? f u = some x) (hy : dictGet? f v = some y)
    (h : countOf d.getResultMap u ≤ countOf d.getResultMap v) : x ≤ y := by
  rw [getDictFormF_eq d hc (by omega)] at hf
  cases hf
  have key : ∀ (l : List (Int × Nat)) (n : ℚ) (v : Int) (x : ℚ),
      dictGet? (l.map fun p => (p.1, toDouble ((p.2 : ℚ) / n))) v = some x → x = toDouble ((countOf l v : ℚ) / n) := by
    intro l n v x
    induction l with
    | nil => intro h; simp [dictGet?] at h
    | cons p l ih =>
      simp only [List.map_cons, dictGet?, countOf]
      by_cases h : p.1 == v
      · simp only [h, if_true]; intro e; cases e; rfl
      · simp only [h]; exact ih
  rw [key _ _ _ _ hx, key _ _ _ _ hy]
  apply toDouble_mono
  apply div_le_div_of_nonneg_right _ (by positivity)
  exact_mod_cast h

/-- C44: the reported floats add up (exactly, as numbers) to 1 within `2 ** -53`, but for underflow. -/
theorem C44_dict_form_sum (d : Dist) (hc : d.Constructed) (hN : 0 < d.outcomeCount) (f : List (Int × ℚ)) (hf : d.getDictFormF = .ok f) :
    |(f.map Prod.snd).sum - 1| ≤ (2 : ℚ) ^ (-53 : ℤ) + f.length * (2 : ℚ) ^ (-1075 : ℤ) := by
  have hQ : (0 : ℚ) < (d.outcomeCount : ℚ) := by exact_mod_cast hN
  have htot : (d.getResultMap.map Prod.snd).sum = d.outcomeCount := by rw [← total_eq d hc]; unfold wsum; simp
  rw [getDictFormF_eq d hc (by omega)] at hf
  cases hf
  have key : ∀ (l : List (Int × Nat)) (n : ℚ), 0 < n →
      |((l.map fun p => (p.1, toDouble ((p.2 : ℚ) / n))).map Prod.snd).sum - ((l.map Prod.snd).sum : ℚ) / n| ≤
        ((l.map Prod.snd).sum : ℚ) / n * (2 : ℚ) ^ (-53 : ℤ) + l.length * (2 : ℚ) ^ (-1075 : ℤ) := by
    intro l n hn
    generalize he : (2 : ℚ) ^ (-53 : ℤ) = ε
    generalize ht : (2 : ℚ) ^ (-1075 : ℤ) = τ
    induction l with
    | nil => simp
    | cons p l ih =>
      have e1 := toDouble_error ((p.2 : ℚ) / n)
      rw [he, ht, abs_of_nonneg (show (0 : ℚ) ≤ (p.2 : ℚ) / n by positivity)] at e1
      simp only [List.map_cons, List.sum_cons, List.length_cons]
      push_cast
      rw [add_div]
      have e1' := abs_le.mp e1
      have ih' := abs_le.mp ih
      rw [abs_le]
      constructor <;> nlinarith [e1'.1, e1'.2, ih'.1, ih'.2]
  have := key d.getResultMap d.outcomeCount hQ
  rw [htot, div_self (ne_of_gt hQ), one_mul] at this
  simpa using this

/-- C44: `average` reports the double nearest to the mean (`OverflowError` beyond the range of doubles), which lies between the
    smallest and the largest outcome when these are at most `2 ** 53` in size. -/
theorem C44_average (d : Dist) (m : ℚ) (h : d.average = .ok m) :
    d.averageF = toFloat m ∧ (|m| ≤ (2 : ℚ) ^ (1023 : ℤ) → d.averageF = .ok (toDouble m)) ∧
    (d.Constructed → 0 < d.outcomeCount → ∀ lo hi, d.min = .ok lo → d.max = .ok hi → |lo| ≤ 2 ^ 53 → |hi| ≤ 2 ^ 53 →
      ∃ x, d.averageF = .ok x ∧ RoundsTo m x ∧ (lo : ℚ) ≤ x ∧ x ≤ (hi : ℚ)) := by
  have h1 : d.averageF = toFloat m := by
    unfold Dist.average at h
    unfold Dist.averageF
    simp only at h ⊢
    split at h
    · cases h
    · next h0 => cases h; rw [if_neg h0]
  have h2 : |m| ≤ (2 : ℚ) ^ (1023 : ℤ) → d.averageF = .ok (toDouble m) := by
    intro hm
    rw [h1]
    exact toFloat_eq (lt_of_le_of_lt (toDouble_abs_le (by norm_num) hm) (zpow_lt_zpow_right₀ (by norm_num) (by norm_num)))
  refine ⟨h1, h2, ?_⟩
  intro hc hN lo hi hlo hhi blo bhi
  obtain ⟨lo', hi', m', e1, e2, e3, e4, e5⟩ := C09_average_between d hc hN
  rw [hlo] at e1; rw [hhi] at e2; rw [h] at e3
  cases e1; cases e2; cases e3
  have hsm : |m| ≤ (2 : ℚ) ^ (1023 : ℤ) := by
    have hl : -(2 : ℚ) ^ 53 ≤ lo := by
      have := (abs_le.mp blo).1
      exact_mod_cast this
    have hh : (hi : ℚ) ≤ 2 ^ 53 := by
      have := (abs_le.mp bhi).2
      exact_mod_cast this
    have : |m| ≤ (2 : ℚ) ^ 53 := abs_le.mpr ⟨by linarith, by linarith⟩
    refine this.trans ?_
    have := zpow_le_zpow_right₀ (show (1 : ℚ) ≤ 2 by norm_num) (show (53 : ℤ) ≤ 1023 by norm_num)
    refine le_trans ?_ this
    norm_num
  refine ⟨_, h2 hsm, toDouble_rounds m, ?_, ?_⟩
  · rw [← toDouble_int blo]; exact toDouble_mono e4
  · rw [← toDouble_int bhi]; exact toDouble_mono e5

omit R in
/-- C44: the error of a reported probability or average. -/
theorem C44_error (q : ℚ) : |toDouble q - q| ≤ |q| * (2 : ℚ) ^ (-53 : ℤ) + (2 : ℚ) ^ (-1075 : ℤ) := toDouble_error q

/-- C44 for `at_least`.  Full statement: every figure lies between 0 and 1.  Missing: the lower bound, refuted by
    `C44_tails_counterexample`.  What holds: the figures are listed for the whole range, start with 1.0, never increase, and are
    off by at most `2 ** -53` per step. -/
theorem C44_at_least_partial (d : Dist) (hc : d.Constructed) (hN : 0 < d.outcomeCount) :
    ∃ lo hi f, d.min = .ok lo ∧ d.max = .ok hi ∧ d.atLeastF = .ok f ∧ f.map Prod.fst = pyRange lo (hi + 1) ∧
      dictGet? f lo = some 1 ∧
      (∀ u v x y, u ≤ v → dictGet? f u = some x → dictGet? f v = some y → y ≤ x ∧ x ≤ 1) ∧
      (hi - lo ≤ 2 ^ 52 → ∀ v, lo ≤ v → v ≤ hi → ∃ x, dictGet? f v = some x ∧
        |x - probOf d (fun z => decide (v ≤ z))| ≤ (v - lo) * (1 / 2 ^ 53)) := by
  obtain ⟨lo, hi, f, g, h1, h2, h3, h4, h5, h6, h7, h8, h9, h10⟩ := tailsF d hc hN
  have hkey : ∀ v x, dictGet? f v = some x → lo ≤ v ∧ v ≤ hi := by
    intro v x h
    have : hasKey f v := by rw [← dictGet_isSome, h]; rfl
    unfold hasKey at this
    rw [h5, mem_pyRange] at this
    omega
  have one : IsDouble 1 := by simpa using isDouble_int (n := 1) (by norm_num)
  refine ⟨lo, hi, f, h1, h2, h3, h5, ?_, ?_, ?_⟩
  · rw [h7 lo (le_refl _) h10]; simp [pyRange]
  · intro u v x y huv hx hy
    obtain ⟨u1, u2⟩ := hkey u x hx
    obtain ⟨v1, v2⟩ := hkey v y hy
    rw [h7 u u1 u2] at hx
    rw [h7 v v1 v2] at hy
    cases hx; cases hy
    have hu := down_isDouble d.share (pyRange lo u) 1 one
    refine ⟨?_, down_le d.share (share_nonneg d) _ 1 one⟩
    rcases lt_or_eq_of_le huv with hlt | rfl
    · rw [pyRange_split lo v u u1 hlt, List.foldl_append]
      exact down_le d.share (share_nonneg d) _ _ hu
    · exact le_refl _
  · intro hr v v1 v2
    refine ⟨_, h7 v v1 v2, ?_⟩
    have hs := share_sum d hc lo v (fun x hx => (h9 x hx).1)
    have hlen : (pyRange lo v).length ≤ 2 ^ 52 := by rw [pyRange_length]; omega
    obtain ⟨_, _, e⟩ := down_spec d.share (share_nonneg d) (pyRange lo v) (by rw [hs]; exact (probOf_range d hc _).2) hlen
    rw [hs, probOf_compl d hc (by omega), pyRange_length] at e
    have hcast : (((v - lo).toNat : ℕ) : ℚ) = (v : ℚ) - lo := by
      have : (((v - lo).toNat : ℕ) : ℤ) = v - lo := Int.toNat_of_nonneg (by omega)
      rw [← Int.cast_natCast, this]; push_cast; rfl
    rw [hcast, sub_sub_cancel] at e
    exact e

/-- C44 for `at_most`.  Full statement: every figure lies between 0 and 1, and the last one is 1.0.  Missing: the upper bound and
    the last figure, refuted by `C44_tails_counterexample`.  What holds: the figures are listed for the whole range, are not
    negative, never decrease, and are off by at most `2 ** -52` per step. -/
theorem C44_at_most_partial (d : Dist) (hc : d.Constructed) (hN : 0 < d.outcomeCount) :
    ∃ lo hi g, d.min = .ok lo ∧ d.max = .ok hi ∧ d.atMostF = .ok g ∧ g.map Prod.fst = pyRange lo (hi + 1) ∧
      (∀ u v x y, u ≤ v → dictGet? g u = some x → dictGet? g v = some y → 0 ≤ x ∧ x ≤ y) ∧
      (hi - lo < 2 ^ 51 → ∀ v, lo ≤ v → v ≤ hi → ∃ x, dictGet? g v = some x ∧
        |x - probOf d (fun z => decide (z ≤ v))| ≤ (v - lo + 1) * (1 / 2 ^ 52)) := by
  obtain ⟨lo, hi, f, g, h1, h2, h3, h4, h5, h6, h7, h8, h9, h10⟩ := tailsF d hc hN
  have hkey : ∀ v x, dictGet? g v = some x → lo ≤ v ∧ v ≤ hi := by
    intro v x h
    have : hasKey g v := by rw [← dictGet_isSome, h]; rfl
    unfold hasKey at this
    rw [h6, mem_pyRange] at this
    omega
  refine ⟨lo, hi, g, h1, h2, h4, h6, ?_, ?_⟩
  · intro u v x y huv hx hy
    obtain ⟨u1, u2⟩ := hkey u x hx
    obtain ⟨v1, v2⟩ := hkey v y hy
    rw [h8 u u1 u2] at hx
    rw [h8 v v1 v2] at hy
    cases hx; cases hy
    have hu := up_isDouble d.share (pyRange lo (u + 1)) 0 isDouble_zero
    refine ⟨up_ge d.share (share_nonneg d) _ 0 isDouble_zero, ?_⟩
    rcases lt_or_eq_of_le huv with hlt | rfl
    · rw [pyRange_split lo (v + 1) (u + 1) (by omega) (by omega), List.foldl_append]
      exact up_ge d.share (share_nonneg d) _ _ hu
    · exact le_refl _
  · intro hr v v1 v2
    refine ⟨_, h8 v v1 v2, ?_⟩
    have hs := share_sum d hc lo (v + 1) (fun x hx => (h9 x hx).1)
    have hlen : (pyRange lo (v + 1)).length ≤ 2 ^ 51 := by rw [pyRange_length]; omega
    obtain ⟨_, _, e⟩ := up_spec d.share (share_nonneg d) (pyRange lo (v + 1)) (by rw [hs]; exact (probOf_range d hc _).2) hlen
    have hfun : (fun x : Int => decide (x < v + 1)) = fun x => decide (x ≤ v) := by
      funext x; simp [Int.lt_add_one_iff]
    rw [hs, pyRange_length, hfun] at e
    have hcast : (((v + 1 - lo).toNat : ℕ) : ℚ) = (v : ℚ) - lo + 1 := by
      have : (((v + 1 - lo).toNat : ℕ) : ℤ) = v + 1 - lo := Int.toNat_of_nonneg (by omega)
      rw [← Int.cast_natCast, this]; push_cast; ring
    rw [hcast] at e
    have h2u : 2 * halfUlp = 1 / 2 ^ 52 := by norm_num [halfUlp]
    rwa [h2u] at e

/-- C30 for the figures: `get_average` gives for every name the weighted mean of the result map of its distribution, and
    `get_probability_distributions_dict` the counts divided by their total. -/
theorem C30_figures (parse : Str → Res Expr) (lines : List Str) (s s' : State) (hs : Reachable parse s) :
    (∀ m, interpAverages parse lines s = (.ok m, s') → ∃ ds, interpDists parse lines s = (.ok ds, s') ∧
      m = ds.map fun p => (p.1, (((p.2.getResultMap.map fun q => q.1 * (q.2 : Int)).sum : Int) : ℚ) / ((p.2.getResultMap.map Prod.snd).sum : ℚ))) ∧
    ∀ m, interpDictForms parse lines s = (.ok m, s') → ∃ ds, interpDists parse lines s = (.ok ds, s') ∧
      m = ds.map fun p => (p.1, p.2.getResultMap.map fun q => (q.1, (q.2 : ℚ) / ((p.2.getResultMap.map Prod.snd).sum : ℚ))) := by
  have htot : ∀ d : Dist, d.Constructed → (d.getResultMap.map Prod.snd).sum = d.outcomeCount := by
    intro d hc
    rw [← total_eq d hc]; unfold wsum; simp
  constructor
  · intro m h
    obtain ⟨ds, s1, h1, h2⟩ := evalBind_eq_ok.mp h
    obtain ⟨h3, rfl⟩ := Prod.mk.inj h2
    have hcon := interpDists_constructed parse lines hs h1
    refine ⟨ds, h1, mapValues_values (g := fun d : Dist => (((d.getResultMap.map fun q => q.1 * (q.2 : Int)).sum : Int) : ℚ) /
      ((d.getResultMap.map Prod.snd).sum : ℚ)) h3 ?_⟩
    intro p hp y hy
    have hN : 0 < p.2.outcomeCount := by
      rcases Nat.eq_zero_or_pos p.2.outcomeCount with h0 | h0
      · unfold Dist.average at hy; rw [if_pos h0] at hy; cases hy
      · exact h0
    rw [C09_average p.2 (hcon p hp) hN] at hy
    cases hy; rfl
  · intro m h
    obtain ⟨ds, s1, h1, h2⟩ := evalBind_eq_ok.mp h
    obtain ⟨h3, rfl⟩ := Prod.mk.inj h2
    have hcon := interpDists_constructed parse lines hs h1
    refine ⟨ds, h1, mapValues_values (g := fun d : Dist => d.getResultMap.map fun q => (q.1, (q.2 : ℚ) / ((d.getResultMap.map Prod.snd).sum : ℚ)))
      h3 ?_⟩
    intro p hp y hy
    by_cases hN : p.2.outcomeCount = 0
    · by_cases hne : p.2.getResultMap = []
      · unfold Dist.getDictForm at hy
        rw [hne] at hy ⊢
        cases hy; rfl
      · rw [getDictForm_error _ hN hne] at hy; cases hy
    · rw [getDictForm_eq _ hN] at hy
      cases hy
      rw [htot _ (hcon p hp)]

/-- C44 for `get_probability_distributions_dict` and `get_average`: in every reachable state they report the exact figures rounded to
    doubles, under the same names, raise the same exceptions and leave the same state; except that averages beyond the range of
    doubles (above `2 ** 1023` in size) may raise `OverflowError`. -/
theorem C44_methods (parse : Str → Res Expr) (lines : List Str) (s : State) (hs : Reachable parse s) :
    interpDictFormsF parse lines s =
      ((interpDictForms parse lines s).1.map (fun m => m.map fun p => (p.1, p.2.map fun q => (q.1, toDouble q.2))),
        (interpDictForms parse lines s).2) ∧
    (interpAveragesF parse lines s).2 = (interpAverages parse lines s).2 ∧
    (∀ m s', interpAverages parse lines s = (.ok m, s') → (∀ p ∈ m, |p.2| ≤ (2 : ℚ) ^ (1023 : ℤ)) →
      interpAveragesF parse lines s = (.ok (m.map fun p => (p.1, toDouble p.2)), s')) ∧
    (∀ e, (interpAveragesF parse lines s).1 = .error e → e ≠ .overflow →
      (interpAverages parse lines s).1 = .error e) := by
  refine ⟨?_, ?_, ?_, ?_⟩
  · unfold interpDictFormsF interpDictForms
    rw [evalBind, evalBind]
    cases h1 : interpDists parse lines s with
    | mk r s1 =>
      cases r with
      | error e => rfl
      | ok d =>
        have hcon := interpDists_constructed parse lines hs h1
        refine Prod.ext ?_ rfl
        refine mapValues_except (r := fun f : List (Int × ℚ) => f.map fun q => (q.1, toDouble q.2)) ?_
        intro p hp
        by_cases hN : p.2.outcomeCount = 0
        · unfold Dist.getDictForm Dist.getDictFormF
          cases hrm : p.2.getResultMap with
          | nil => rfl
          | cons q l => rw [List.mapM_cons, List.mapM_cons, if_pos hN, if_pos hN]; rfl
        · rw [getDictForm_eq _ hN, getDictFormF_eq _ (hcon p hp) hN]
          exact congrArg Except.ok (by simp)
  · unfold interpAveragesF interpAverages
    rw [evalBind, evalBind]
    cases h1 : interpDists parse lines s with
    | mk r s1 => cases r <;> rfl
  · intro m s' h hsm
    obtain ⟨d, s1, h1, h2⟩ := evalBind_eq_ok.mp h
    obtain ⟨h3, rfl⟩ := Prod.mk.inj h2
    refine evalBind_eq_ok.mpr ⟨d, s1, h1, ?_⟩
    show (mapValues Dist.averageF d, s1) = _
    rw [mapValues_map (r := toDouble) h3]
    intro p hp y hy hm
    exact (C44_average p.2 y hy).2.1 (hsm (p.1, y) hm)
  · intro e h he
    rcases evalBind_eq_error.mp (Prod.ext h rfl) with h1 | ⟨d, s1, h1, h2⟩
    · exact congrArg Prod.fst (evalBind_eq_error.mpr (Or.inl h1))
    · obtain ⟨h3, _⟩ := Prod.mk.inj h2
      obtain ⟨p, hp, h5⟩ := mapValues_raises h3
      obtain ⟨rfl, h6⟩ := (averageF_error h5).resolve_left he
      cases h4 : mapValues Dist.average d with
      | error e' =>
        obtain ⟨_, _, h7⟩ := mapValues_raises h4
        cases average_error h7
        exact congrArg Prod.fst (evalBind_eq_error.mpr (Or.inr ⟨d, s1, h1, by rw [EvalM.ofRes, h4]⟩))
      | ok m =>
        obtain ⟨_, h7⟩ := mapValues_ok_mem h4 p hp
        rw [h6] at h7; cases h7

end

/-! ### Where the figures are wrong -/

set_option synthInstance.maxSize 2000 in
/-- `at_most` of `d9` ends above 1, `at_most` of `d6` ends below 1, and `at_least` of `d[1-9*100000000000000000000,10]` reports a
    negative probability for the possible outcome 10. -/
theorem C44_tails_counterexample : ∃ R : PyRuntime,
    (∃ d g x, (interpDists parse ["d9".toList] State.new).1 = .ok [(stdoutName, d)] ∧
      d.atMostF = .ok g ∧ dictGet? g 9 = some x ∧ 1 < x) ∧
    (∃ d g x, (interpDists parse ["d6".toList] State.new).1 = .ok [(stdoutName, d)] ∧
      d.atMostF = .ok g ∧ dictGet? g 6 = some x ∧ x < 1) ∧
    (∃ d f x, (interpDists parse ["d[1-9*100000000000000000000,10]".toList] State.new).1 = .ok [(stdoutName, d)] ∧
      d.atLeastF = .ok f ∧ dictGet? f 10 = some x ∧ x < 0 ∧ 0 < countOf d.getResultMap 10) := by
  let _ := listRuntime
  refine ⟨listRuntime, ?_, ?_, ?_⟩
  · obtain ⟨d, f, g, h1, _, _, h2, _, h3⟩ :=
      program_figures "d9".toList ((pyRange 1 10).map fun v => (v, 1)) 9 1 9 (by decide) (by decide +kernel)
    exact ⟨d, g, _, h1, h2, h3 9 (by decide) (by decide), by decide +kernel⟩
  · obtain ⟨d, f, g, h1, _, _, h2, _, h3⟩ :=
      program_figures "d6".toList ((pyRange 1 7).map fun v => (v, 1)) 6 1 6 (by decide) (by decide +kernel)
    exact ⟨d, g, _, h1, h2, h3 6 (by decide) (by decide), by decide +kernel⟩
  · obtain ⟨d, f, g, h1, h2, h3, _, h4, _⟩ :=
      program_figures "d[1-9*100000000000000000000,10]".toList
        (((pyRange 1 10).map fun v => (v, 100000000000000000000)) ++ [(10, 1)]) 900000000000000000001 1 10 (by decide) (by decide +kernel)
    exact ⟨d, f, _, h1, h3, h4 10 (by decide) (by decide), by decide +kernel, by rw [h2]; decide +kernel⟩

/-! ### Examples -/

/-- One third, and two ties resolved to the even neighbour. -/
example : toDouble (1 / 3) = 6004799503160661 / 18014398509481984 ∧ toDouble (2 ^ 53 + 1) = 2 ^ 53 ∧ toDouble (2 ^ 53 + 3) = 2 ^ 53 + 4 := by
  decide +kernel

/-- `d6`, with its six figures of 0.16666666666666666. -/
example : let _ := listRuntime
    ∃ d : Dist, mkDistInt ((pyRange 1 7).map fun v => (v, 1)) = .ok d ∧ d.Constructed ∧ 0 < d.outcomeCount ∧
      d.getDictFormF = .ok ((pyRange 1 7).map fun v => (v, 6004799503160661 / 36028797018963968)) ∧
      d.averageF = .ok (7 / 2) ∧ d.min = .ok 1 ∧ d.max = .ok 6 :=
  let _ := listRuntime
  ⟨_, rfl, ⟨_, rfl⟩, by decide, by decide +kernel, by decide +kernel, by decide, by decide⟩

/-- A state reached by a first call, in which the float methods succeed. -/
example : let _ := listRuntime
    let s := (interpDists parse ["VAR a = d3".toList] State.new).2
    Reachable parse s ∧
    (interpDictForms parse ["a // 2".toList] s).1 = .ok [("a".toList, [(1, 1 / 3), (2, 1 / 3), (3, 1 / 3)]), (stdoutName, [(0, 1 / 3), (1, 2 / 3)])] ∧
    (interpAveragesF parse ["a // 2".toList] s).1 = .ok [("a".toList, 2), (stdoutName, 6004799503160661 / 9007199254740992)] :=
  let _ := listRuntime
  ⟨Reachable.dists _ Reachable.new, by decide +kernel, by decide +kernel⟩

end PyDice
