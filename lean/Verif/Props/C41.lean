import Verif.Props.C08_C11
import Verif.Lemmas.Plot
/-!
# C41: the data handed to the plots
-/

namespace PyDice

open PyRuntime

section
variable [R : PyRuntime]

/-- C41: `get_histogram`, `get_at_least_histogram`, `get_at_most_histogram`. -/
theorem C41_histograms (d : Dist) (hc : d.Constructed) (hN : 0 < d.outcomeCount) :
    ∃ lo hi, d.min = .ok lo ∧ d.max = .ok hi ∧
      d.histogramData = .ok (rangePlot lo hi fun v => probOf d (fun x => decide (x = v))) ∧
      d.atLeastHistogramData = .ok (rangePlot lo hi fun v => probOf d (fun x => decide (v ≤ x))) ∧
      d.atMostHistogramData = .ok (rangePlot lo hi fun v => probOf d (fun x => decide (x ≤ v))) := by
  have hN' : d.outcomeCount ≠ 0 := by omega
  obtain ⟨h, lo, hi, f, g, e, hlo, hhi, ef, eg, kf, kg, vf, vg, hkey, hle⟩ := tails d hc hN
  obtain ⟨h', lo', hi', e', hlo', hhi', h1, h2, h3, h4⟩ := histogram_spec d hc hN'
  rw [e] at e'; injection e' with e'; subst e'
  rw [hlo] at hlo'; injection hlo' with hlo'; subst hlo'
  rw [hhi] at hhi'; injection hhi' with hhi'; subst hhi'
  have hav := average_E d hN
  have gen : ∀ (k : List (Int × ℚ)) (P : Int → ℚ), (k.map Prod.fst).Perm (pyRange lo (hi + 1)) →
      (∀ v, lo ≤ v → v ≤ hi → (dictGet? k v).getD 0 = P v) →
      makeHistogram (k.map Prod.fst) (lookupAll k (k.map Prod.fst)) = .ok (rangePlot lo hi P) := by
    intro k P hk hv
    have : lookupAll k (k.map Prod.fst) = (k.map Prod.fst).map P := by
      unfold lookupAll
      apply List.map_congr_left
      intro v hmem
      have := hk.mem_iff.mp hmem
      rw [mem_pyRange] at this
      exact hv v this.1 (by omega)
    rw [this]
    exact makeHistogram_range _ P lo hi hle hk
  refine ⟨lo, hi, hlo, hhi, ?_, ?_, ?_⟩
  · have : d.histogramData = ((d.getDictForm >>= getHistogramForm) >>= fun h =>
        d.average >>= fun _ => makeHistogram (h.map Prod.fst) (lookupAll h (h.map Prod.fst))) := by
      unfold Dist.histogramData; cases d.getDictForm <;> rfl
    rw [this, e, hav]
    exact gen h _ (hist_keys_perm h lo hi h1 h2) (fun v _ _ => by rw [h3, countOf_prob d hc])
  · unfold Dist.atLeastHistogramData
    rw [ef, hav]
    exact gen f _ (by rw [kf]) (fun v a b => by rw [vf v a b]; rfl)
  · unfold Dist.atMostHistogramData
    rw [eg, hav]
    exact gen g _ (by rw [kg]) (fun v a b => by rw [vg v a b]; rfl)

/-- C41: what `get_compare_histogram` hands to the plot: the integers of *both* ranges one range after the other, sorted, each
    occurrence with the difference of the probabilities.  The full statement ("every outcome once") needs the two ranges to be
    disjoint; see `C41_compare_counterexample`. -/
theorem C41_compare_partial (d e : Dist) (hd : d.Constructed) (he : e.Constructed) (nd : 0 < d.outcomeCount)
    (ne : 0 < e.outcomeCount) :
    ∃ lo hi lo' hi' data, d.min = .ok lo ∧ d.max = .ok hi ∧ e.min = .ok lo' ∧ e.max = .ok hi' ∧
      d.compareHistogramData e = .ok data ∧
      data.xs.Perm (pyRange lo (hi + 1) ++ pyRange lo' (hi' + 1)) ∧ data.xs.Pairwise (· ≤ ·) ∧
      data.weights = data.xs.map (fun v => probOf d (fun x => decide (x = v)) - probOf e (fun x => decide (x = v))) ∧
      (data.xs.Nodup ↔ (hi < lo' ∨ hi' < lo)) := by
  obtain ⟨h, lo, hi, e1, hlo, hhi, h1, h2, h3, h4⟩ := histogram_spec d hd (by omega)
  obtain ⟨h', lo', hi', e1', hlo', hhi', h1', h2', h3', h4'⟩ := histogram_spec e he (by omega)
  have hle : lo ≤ hi := (h4 lo ((C09_max_min d lo).2.mp hlo).1).2
  have hp : (h.map Prod.fst ++ h'.map Prod.fst).Perm (pyRange lo (hi + 1) ++ pyRange lo' (hi' + 1)) :=
    (hist_keys_perm h lo hi h1 h2).append (hist_keys_perm h' lo' hi' h1' h2')
  have hne : h.map Prod.fst ++ h'.map Prod.fst ≠ [] := by
    intro h0
    rw [h0] at hp
    have := hp.mem_iff (a := lo)
    rw [List.mem_append, mem_pyRange] at this
    simp only [List.not_mem_nil, false_iff, not_or] at this
    omega
  have hw : (h.map Prod.fst ++ h'.map Prod.fst).map (fun x => (dictGet? h x).getD 0 - (dictGet? h' x).getD 0) =
      (h.map Prod.fst ++ h'.map Prod.fst).map
        (fun v => probOf d (fun x => decide (x = v)) - probOf e (fun x => decide (x = v))) := by
    apply List.map_congr_left
    intro v _
    rw [h3, h3', countOf_prob d hd, countOf_prob e he]
  obtain ⟨ys, es, hys, hsorted⟩ := sortedZip_spec (h.map Prod.fst ++ h'.map Prod.fst)
    (fun v => probOf d (fun x => decide (x = v)) - probOf e (fun x => decide (x = v))) hne
  have hyne : ys ≠ [] := by
    intro h0; rw [h0] at hys
    exact hne (List.length_eq_zero_iff.mp hys.length_eq.symm)
  have hdata : d.compareHistogramData e = .ok ⟨ys, ys.map (fun v => probOf d (fun x => decide (x = v)) -
      probOf e (fun x => decide (x = v))), ys.map (fun v : Int => (v : ℚ) - 1 / 2) ++ [((ys.getLast hyne : Int) : ℚ) + 1 / 2]⟩ := by
    have : d.compareHistogramData e = ((d.getDictForm >>= getHistogramForm) >>= fun h =>
        (e.getDictForm >>= getHistogramForm) >>= fun h' =>
        makeHistogram (h.map Prod.fst ++ h'.map Prod.fst) ((h.map Prod.fst ++ h'.map Prod.fst).map
          fun x => (dictGet? h x).getD 0 - (dictGet? h' x).getD 0)) := by
      unfold Dist.compareHistogramData
      cases d.getDictForm with
      | error => rfl
      | ok a =>
        cases h5 : getHistogramForm a with
        | error => simp [bind, Except.bind, h5]
        | ok b => simp only [bind, Except.bind, h5]; cases e.getDictForm <;> rfl
    rw [this, e1, e1']
    show makeHistogram _ _ = _
    rw [hw]
    unfold makeHistogram
    rw [es]
    simp only [bind, Except.bind]
    rw [List.getLast?_eq_some_getLast hyne]
    rfl
  refine ⟨lo, hi, lo', hi', _, hlo, hhi, hlo', hhi', hdata, hys.trans hp, hsorted, rfl, ?_⟩
  have hle' : lo' ≤ hi' := (h4' lo' ((C09_max_min e lo').2.mp hlo').1).2
  rw [(hys.trans hp).nodup_iff, List.nodup_append]
  constructor
  · rintro ⟨_, _, h5⟩
    by_contra hcon
    exact h5 (max lo lo') (by rw [mem_pyRange]; omega) (max lo lo') (by rw [mem_pyRange]; omega) rfl
  · intro hdis
    refine ⟨pyRange_nodup _ _, pyRange_nodup _ _, ?_⟩
    intro a ha b hb
    rw [mem_pyRange] at ha hb
    omega

/-- C41, second half, fails: comparing `{1: 1}` with `{1: 1, 2: 1}` hands the outcome 1 to the plot twice, and the two entries
    are added up by the plot. -/
theorem C41_compare_counterexample : ∃ (d e : Dist) (data : HistData), mkDistInt [(1, 1)] = .ok d ∧
    mkDistInt [(1, 1), (2, 1)] = .ok e ∧ d.compareHistogramData e = .ok data ∧ data.xs = [1, 1, 2] ∧ ¬ data.xs.Nodup := by
  obtain ⟨d, hd, cd, _, _, Ed, kd⟩ := mkDistInt_spec (R := R) [(1, 1)]
  obtain ⟨e, he, ce, _, _, Ee, ke⟩ := mkDistInt_spec (R := R) [(1, 1), (2, 1)]
  have nd : d.outcomeCount = 1 := by rw [← E_one d cd, Ed]; rfl
  have ne : e.outcomeCount = 2 := by rw [← E_one e ce, Ee]; rfl
  obtain ⟨lo, hi, lo', hi', data, h1, h2, h3, h4, h5, h6, h7, h8, h9⟩ :=
    C41_compare_partial d e cd ce (by omega) (by omega)
  have m1 := (C09_max_min d lo).2.mp h1
  have m2 := (C09_max_min d hi).1.mp h2
  have m3 := (C09_max_min e lo').2.mp h3
  have m4 := (C09_max_min e hi').1.mp h4
  simp only [kd, ke] at m1 m2 m3 m4
  simp only [hasKey, List.map_cons, List.map_nil, List.mem_cons, List.not_mem_nil, or_false] at m1 m2 m3 m4
  have a1 : lo = 1 := m1.1
  have a2 : hi = 1 := m2.1
  have a3 : lo' = 1 := by have := m3.2 1 (by simp); omega
  have a4 : hi' = 2 := by have := m4.2 2 (by simp); omega
  subst a1; subst a2; subst a3; subst a4
  have hx : data.xs = [1, 1, 2] :=
    h6.eq_of_pairwise (le := (· ≤ ·)) (by intro a b _ _ h1 h2; omega) h7 (by decide)
  exact ⟨d, e, data, hd, he, h5, hx, by rw [hx]; decide⟩

/-- C41: the line plots of `get_compare`, `get_compare_at_least`, `get_compare_at_most` show each distribution on its own
    range. -/
theorem C41_line_plots (d e : Dist) (hd : d.Constructed) (he : e.Constructed) (nd : 0 < d.outcomeCount)
    (ne : 0 < e.outcomeCount) :
    ∃ lo hi lo' hi', d.min = .ok lo ∧ d.max = .ok hi ∧ e.min = .ok lo' ∧ e.max = .ok hi' ∧
      (∃ f g, d.compareData e = .ok ((pyRange lo (hi + 1), f), (pyRange lo' (hi' + 1), g)) ∧
        f = (pyRange lo (hi + 1)).map (fun v => probOf d (fun x => decide (x = v))) ∧
        g = (pyRange lo' (hi' + 1)).map (fun v => probOf e (fun x => decide (x = v)))) ∧
      (∃ f g, d.compareAtLeastData e = .ok ((pyRange lo (hi + 1), f), (pyRange lo' (hi' + 1), g)) ∧
        f = (pyRange lo (hi + 1)).map (fun v => probOf d (fun x => decide (v ≤ x))) ∧
        g = (pyRange lo' (hi' + 1)).map (fun v => probOf e (fun x => decide (v ≤ x)))) ∧
      (∃ f g, d.compareAtMostData e = .ok ((pyRange lo (hi + 1), f), (pyRange lo' (hi' + 1), g)) ∧
        f = (pyRange lo (hi + 1)).map (fun v => probOf d (fun x => decide (x ≤ v))) ∧
        g = (pyRange lo' (hi' + 1)).map (fun v => probOf e (fun x => decide (x ≤ v)))) := by
  have side : ∀ (d : Dist), d.Constructed → 0 < d.outcomeCount → ∃ h lo hi f g,
      (d.getDictForm >>= getHistogramForm) = .ok h ∧ d.min = .ok lo ∧ d.max = .ok hi ∧
      d.atLeast = .ok f ∧ d.atMost = .ok g ∧
      sortedZip (h.map Prod.fst) (lookupAll h (h.map Prod.fst)) =
        .ok (pyRange lo (hi + 1), (pyRange lo (hi + 1)).map (fun v => probOf d (fun x => decide (x = v)))) ∧
      sortedZip (f.map Prod.fst) (lookupAll f (f.map Prod.fst)) =
        .ok (pyRange lo (hi + 1), (pyRange lo (hi + 1)).map (fun v => probOf d (fun x => decide (v ≤ x)))) ∧
      sortedZip (g.map Prod.fst) (lookupAll g (g.map Prod.fst)) =
        .ok (pyRange lo (hi + 1), (pyRange lo (hi + 1)).map (fun v => probOf d (fun x => decide (x ≤ v)))) := by
    intro d hc hN
    obtain ⟨h, lo, hi, f, g, e, hlo, hhi, ef, eg, kf, kg, vf, vg, hkey, hle⟩ := tails d hc hN
    obtain ⟨h', lo', hi', e', hlo', hhi', h1, h2, h3, h4⟩ := histogram_spec d hc (by omega)
    rw [e] at e'; injection e' with e'; subst e'
    rw [hlo] at hlo'; injection hlo' with hlo'; subst hlo'
    rw [hhi] at hhi'; injection hhi' with hhi'; subst hhi'
    have gen : ∀ (k : List (Int × ℚ)) (P : Int → ℚ), (k.map Prod.fst).Perm (pyRange lo (hi + 1)) →
        (∀ v, lo ≤ v → v ≤ hi → (dictGet? k v).getD 0 = P v) →
        sortedZip (k.map Prod.fst) (lookupAll k (k.map Prod.fst)) =
          .ok (pyRange lo (hi + 1), (pyRange lo (hi + 1)).map P) := by
      intro k P hk hv
      have : lookupAll k (k.map Prod.fst) = (k.map Prod.fst).map P := by
        unfold lookupAll
        apply List.map_congr_left
        intro v hmem
        have := hk.mem_iff.mp hmem
        rw [mem_pyRange] at this
        exact hv v this.1 (by omega)
      rw [this]
      have hne : k.map Prod.fst ≠ [] := by
        intro h0
        have := hk.mem_iff (a := lo)
        rw [h0, mem_pyRange] at this
        simp only [List.not_mem_nil, false_iff] at this
        omega
      obtain ⟨ys, e, hp, hs⟩ := sortedZip_spec (k.map Prod.fst) P hne
      rw [e, perm_range_eq (hp.trans hk) hs]
    refine ⟨h, lo, hi, f, g, e, hlo, hhi, ef, eg, ?_, ?_, ?_⟩
    · exact gen h _ (hist_keys_perm h lo hi h1 h2) (fun v _ _ => by rw [h3, countOf_prob d hc])
    · exact gen f _ (by rw [kf]) (fun v a b => by rw [vf v a b]; rfl)
    · exact gen g _ (by rw [kg]) (fun v a b => by rw [vg v a b]; rfl)
  obtain ⟨h, lo, hi, f, g, e1, hlo, hhi, ef, eg, s1, s2, s3⟩ := side d hd nd
  obtain ⟨h', lo', hi', f', g', e1', hlo', hhi', ef', eg', s1', s2', s3'⟩ := side e he ne
  refine ⟨lo, hi, lo', hi', hlo, hhi, hlo', hhi', ⟨_, _, ?_, rfl, rfl⟩, ⟨_, _, ?_, rfl, rfl⟩, ⟨_, _, ?_, rfl, rfl⟩⟩
  · have : d.compareData e = ((d.getDictForm >>= getHistogramForm) >>= fun h =>
        (e.getDictForm >>= getHistogramForm) >>= fun h' => makeLinePlot h h') := by
      unfold Dist.compareData
      cases d.getDictForm with
      | error => rfl
      | ok a =>
        cases h5 : getHistogramForm a with
        | error => simp [bind, Except.bind, h5]
        | ok b => simp only [bind, Except.bind, h5]; cases e.getDictForm <;> rfl
    rw [this, e1, e1']
    show makeLinePlot h h' = _
    unfold makeLinePlot
    rw [s1, s1']; rfl
  · unfold Dist.compareAtLeastData
    rw [ef, ef']
    show makeLinePlot f f' = _
    unfold makeLinePlot
    rw [s2, s2']; rfl
  · unfold Dist.compareAtMostData
    rw [eg, eg']
    show makeLinePlot g g' = _
    unfold makeLinePlot
    rw [s3, s3']; rfl

end

/-! ## Non-vacuity -/

section
attribute [local instance] listRuntime

/-- A distribution with a gap meets the hypotheses of `C41_histograms`, `C08_dict_form`, `C10_at_least`. -/
example : ∃ d : Dist, mkDistInt [(1, 2), (4, 1)] = .ok d ∧ d.Constructed ∧ 0 < d.outcomeCount :=
  ⟨_, rfl, ⟨_, rfl⟩, by decide⟩

end

end PyDice
