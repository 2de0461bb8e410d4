import Verif.Lemmas.FloatShow
/-!
# C56: what the histograms show
-/

namespace PyDice

open PyRuntime

section
variable [R : PyRuntime]

/-- C56, `get_histogram`, for outcomes below `2 ** 52`: one bar of width 1 around every integer from the smallest to the largest
    outcome, as high as the double nearest to the probability of the integer; and a vertical line at the double nearest to the
    average, from 0 to 1.1 times the highest bar.  Without the bound on the outcomes the bars are wrong
    (`C56_large_counterexample`). -/
theorem C56_histogram_partial (d : Dist) (hc : d.Constructed) (hN : 0 < d.outcomeCount) (lo hi : Int) (hlo : d.min = .ok lo)
    (hhi : d.max = .ok hi) (b1 : |lo| < 2 ^ 52) (b2 : |hi| < 2 ^ 52) :
    ∃ p f x m, d.histogramF = .ok p ∧ (∀ v, RoundsTo (probOf d (fun z => decide (z = v))) (f v)) ∧ ShowsRange p.hist lo hi f ∧
      d.average = .ok m ∧ RoundsTo m x ∧ (lo : ℚ) ≤ x ∧ x ≤ (hi : ℚ) ∧ LineIs p.line x ((pyRange lo (hi + 1)).map f) := by
  obtain ⟨h, lo', hi', e, hlo', hhi', h1, h2, h3, h4⟩ := histogramF_spec d hc (by omega)
  rw [hlo] at hlo'; rw [hhi] at hhi'; cases hlo'; cases hhi'
  have hle : lo ≤ hi := (h4 lo ((C09_max_min d lo).2.mp hlo).1).2
  obtain ⟨p, x, m, k1, k2, k3, k4⟩ := shows_range d hc hN lo hi hlo hhi b1 b2 hle h (fun v => toDouble (d.share v))
    (hist_keys_perm h lo hi h1 h2) (fun v _ _ => h3 v)
  refine ⟨p, _, x, m, ?_, ?_, k2, k3, k4⟩
  · have : d.histogramF = ((d.getDictFormF >>= getHistogramForm) >>= fun h =>
        d.averageF >>= fun a => makeHistogramF (h.map Prod.fst) (lookupAll h (h.map Prod.fst)) (some a)) := by
      unfold Dist.histogramF; cases d.getDictFormF <;> rfl
    rw [this, e]; exact k1
  · intro v
    show RoundsTo _ (toDouble (d.share v))
    rw [← countOf_prob d hc]
    exact toDouble_rounds _

/-- C56, `get_at_least_histogram` and `get_at_most_histogram`: the same for the figures of `at_least` and `at_most`. -/
theorem C56_tails_partial (d : Dist) (hc : d.Constructed) (hN : 0 < d.outcomeCount) (lo hi : Int) (hlo : d.min = .ok lo)
    (hhi : d.max = .ok hi) (b1 : |lo| < 2 ^ 52) (b2 : |hi| < 2 ^ 52) :
    ∃ p q f g x m, d.atLeastHistogramF = .ok p ∧ d.atMostHistogramF = .ok q ∧ d.atLeastF = .ok f ∧ d.atMostF = .ok g ∧
      ShowsRange p.hist lo hi (fun v => (dictGet? f v).getD 0) ∧ ShowsRange q.hist lo hi (fun v => (dictGet? g v).getD 0) ∧
      d.average = .ok m ∧ RoundsTo m x ∧
      LineIs p.line x (f.map Prod.snd) ∧ LineIs q.line x (g.map Prod.snd) := by
  obtain ⟨lo', hi', f, g, hlo', hhi', e1, e2, kf, kg, vf, vg, hk, hle⟩ := tailsF d hc hN
  rw [hlo] at hlo'; rw [hhi] at hhi'; cases hlo'; cases hhi'
  obtain ⟨p, x, m, k1, k2, k3, k4, _, _, k5⟩ := shows_range d hc hN lo hi hlo hhi b1 b2 hle f (fun v => (dictGet? f v).getD 0)
    (by rw [kf]) (fun v _ _ => rfl)
  obtain ⟨q, y, n, l1, l2, l3, l4, _, _, l5⟩ := shows_range d hc hN lo hi hlo hhi b1 b2 hle g (fun v => (dictGet? g v).getD 0)
    (by rw [kg]) (fun v _ _ => rfl)
  rw [k3] at l3; cases l3
  have := roundsTo_unique k4 l4
  subst this
  rw [range_values f lo hi kf] at k5
  rw [range_values g lo hi kg] at l5
  refine ⟨p, q, f, g, x, m, ?_, ?_, e1, e2, k2, l2, k3, k4, k5, l5⟩
  · unfold Dist.atLeastHistogramF; rw [e1]; exact k1
  · unfold Dist.atMostHistogramF; rw [e2]; exact l1

omit R in
/-- C56: the average line reaches at least as high as every bar, if some bar is not below 0. -/
theorem C56_line (line : Option (List ℚ × List ℚ)) (x : ℚ) (hs : List ℚ) (hl : LineIs line x hs) (h0 : ∃ h ∈ hs, 0 ≤ h)
    (hd : ∀ h ∈ hs, IsDouble h) : ∃ t, line = some ([x, x], [0, t]) ∧ ∀ h ∈ hs, h ≤ t := by
  obtain ⟨m, c, t, h1, h2, h3, h4, h5⟩ := hl
  refine ⟨t, h5, ?_⟩
  intro h hh
  obtain ⟨h', hh', hp⟩ := h0
  have hm : 0 ≤ m := hp.trans (h2 h' hh')
  have hc : 1 ≤ c := by
    rw [roundsTo_unique h3 (toDouble_rounds _)]
    have := toDouble_mono (show (1 : ℚ) ≤ 11 / 10 by norm_num)
    rwa [toDouble_one] at this
  have ht : m ≤ t := by
    rw [roundsTo_unique h4 (toDouble_rounds _)]
    have := toDouble_mono (show m ≤ m * c by nlinarith)
    rwa [toDouble_exact (hd m h1)] at this
  exact (h2 h hh).trans ht

/-- C56, `get_compare_histogram`.  Full statement: every integer of either range has one bar of width 1, as high as the difference of
    the two probabilities.  Refuted by `C56_compare_counterexample`.  What holds, for outcomes below `2 ** 52`: every integer of
    either range has one bar, beginning a half below it.  It is as high as the difference times the number of ranges the integer
    lies in, and it reaches up to the next integer that has a bar.  There is nothing else to see. -/
theorem C56_compare_partial (d e : Dist) (hd : d.Constructed) (he : e.Constructed) (nd : 0 < d.outcomeCount) (ne : 0 < e.outcomeCount)
    (lo hi lo' hi' : Int) (h1 : d.min = .ok lo) (h2 : d.max = .ok hi) (h3 : e.min = .ok lo') (h4 : e.max = .ok hi')
    (b1 : |lo| < 2 ^ 52) (b2 : |hi| < 2 ^ 52) (b3 : |lo'| < 2 ^ 52) (b4 : |hi'| < 2 ^ 52) :
    ∃ (p : Picture) (f g w : Int → ℚ), d.compareHistogramF e = .ok p ∧ p.line = none ∧
      (∀ v, RoundsTo (probOf d (fun z => decide (z = v))) (f v)) ∧ (∀ v, RoundsTo (probOf e (fun z => decide (z = v))) (g v)) ∧
      (∀ v, RoundsTo (f v - g v) (w v)) ∧
      (∀ v : Int, (lo ≤ v ∧ v ≤ hi) ∨ (lo' ≤ v ∧ v ≤ hi') → ∃ i b,
        BarIs p.hist i ((v : ℚ) - 1 / 2) b
          (((if lo ≤ v ∧ v ≤ hi then 1 else 0) + (if lo' ≤ v ∧ v ≤ hi' then 1 else 0)) * w v) ∧ (v : ℚ) - 1 / 2 < b ∧
        (((lo ≤ v + 1 ∧ v + 1 ≤ hi) ∨ (lo' ≤ v + 1 ∧ v + 1 ≤ hi') ∨ (hi ≤ v ∧ hi' ≤ v)) → b = (v : ℚ) + 1 / 2) ∧
        (v = hi → hi < lo' → b = (lo' : ℚ) - 1 / 2) ∧ (v = hi' → hi' < lo → b = (lo : ℚ) - 1 / 2)) ∧
      (∀ i a b h, BarIs p.hist i a b h → (∃ v : Int, ((lo ≤ v ∧ v ≤ hi) ∨ (lo' ≤ v ∧ v ≤ hi')) ∧ a = (v : ℚ) - 1 / 2) ∧
        (a < b ∨ (a = b ∧ h = 0))) := by
  obtain ⟨h, lo1, hi1, e1, k1, k2, k3, k4, k5, k6⟩ := histogramF_spec d hd (by omega)
  obtain ⟨h', lo2, hi2, e2, l1, l2, l3, l4, l5, l6⟩ := histogramF_spec e he (by omega)
  rw [h1] at k1; rw [h2] at k2; rw [h3] at l1; rw [h4] at l2
  cases k1; cases k2; cases l1; cases l2
  have hle : lo ≤ hi := (k6 lo ((C09_max_min d lo).2.mp h1).1).2
  have hle' : lo' ≤ hi' := (l6 lo' ((C09_max_min e lo').2.mp h3).1).2
  have hp : (h.map Prod.fst ++ h'.map Prod.fst).Perm (pyRange lo (hi + 1) ++ pyRange lo' (hi' + 1)) :=
    (hist_keys_perm h lo hi k3 k4).append (hist_keys_perm h' lo' hi' l3 l4)
  have hmem : ∀ v, v ∈ h.map Prod.fst ++ h'.map Prod.fst ↔ (lo ≤ v ∧ v ≤ hi) ∨ (lo' ≤ v ∧ v ≤ hi') := by
    intro v
    rw [hp.mem_iff, List.mem_append, mem_pyRange, mem_pyRange]
    omega
  have hne : h.map Prod.fst ++ h'.map Prod.fst ≠ [] := by
    intro h0
    have := (hmem lo).mpr (Or.inl ⟨le_refl _, hle⟩)
    rw [h0] at this
    cases this
  have hy : ∀ v, yValueF h h' v = toDouble (toDouble (d.share v) - toDouble (e.share v)) := by
    intro v
    have a1 := k5 v
    have a2 := l5 v
    have a3 := toDouble_isDouble (d.share v)
    unfold yValueF
    rw [← a1, ← a2]
    rw [← a1] at a3
    cases c1 : dictGet? h v with
    | none =>
      cases c2 : dictGet? h' v with
      | none => simp [toDouble_zero]
      | some y => simp
    | some x =>
      rw [c1] at a3
      simp only [Option.getD_some] at a3
      cases c2 : dictGet? h' v with
      | none => simp
      | some y => simp [toDouble_exact a3]
  rw [abs_lt] at b1 b2 b3 b4
  obtain ⟨ys, hn, p, q1, q2, q3, q4, _, q6⟩ := makeHistogramF_spec (h.map Prod.fst ++ h'.map Prod.fst) (yValueF h h') hne (by
    intro v hv
    have := (hmem v).mp hv
    rw [abs_lt]
    omega) none
  have hcount : ∀ v : Int, ((ys.count v : Nat) : ℚ) =
      (if lo ≤ v ∧ v ≤ hi then 1 else 0) + (if lo' ≤ v ∧ v ≤ hi' then 1 else 0) := by
    intro v
    have one : ∀ a b : Int, (((pyRange a (b + 1)).count v : Nat) : ℚ) = if a ≤ v ∧ v ≤ b then 1 else 0 := by
      intro a b
      split
      · next hv => rw [List.count_eq_one_of_mem (pyRange_nodup _ _) (by rw [mem_pyRange]; omega)]; simp
      · next hv => rw [List.count_eq_zero_of_not_mem (by rw [mem_pyRange]; omega)]; simp
    rw [(q1.trans hp).count_eq, List.count_append]
    push_cast
    rw [one, one]
  have hys : ∀ v, v ∈ ys ↔ (lo ≤ v ∧ v ≤ hi) ∨ (lo' ≤ v ∧ v ≤ hi') := fun v => q1.mem_iff.trans (hmem v)
  refine ⟨p, fun v => toDouble (d.share v), fun v => toDouble (e.share v), yValueF h h', ?_, q6 rfl, ?_, ?_, ?_, ?_, ?_⟩
  · have : d.compareHistogramF e = ((d.getDictFormF >>= getHistogramForm) >>= fun h =>
        (e.getDictFormF >>= getHistogramForm) >>= fun h' =>
        makeHistogramF (h.map Prod.fst ++ h'.map Prod.fst) ((h.map Prod.fst ++ h'.map Prod.fst).map (yValueF h h')) none) := by
      unfold Dist.compareHistogramF
      cases d.getDictFormF with
      | error => rfl
      | ok a =>
        cases h5 : getHistogramForm a with
        | error => simp [bind, Except.bind, h5]
        | ok b => simp only [bind, Except.bind, h5]; cases e.getDictFormF <;> rfl
    rw [this, e1, e2]; exact q3
  · intro v
    show RoundsTo _ (toDouble (d.share v))
    rw [← countOf_prob d hd]; exact toDouble_rounds _
  · intro v
    show RoundsTo _ (toDouble (e.share v))
    rw [← countOf_prob e he]; exact toDouble_rounds _
  · intro v
    rw [hy]; exact toDouble_rounds _
  · intro v hv
    obtain ⟨i, b, r1, r2⟩ := exactHist_value ys (yValueF h h') hn q2 v ((hys v).mpr hv)
    rw [q4, ← hcount]
    refine ⟨i, b, r1, ?_⟩
    rcases r2 with ⟨w, w1, w2, w3, rfl⟩ | ⟨w1, rfl⟩
    · have hw := (hys w).mp w1
      have hvw : (v : ℚ) < w := by exact_mod_cast w2
      refine ⟨by linarith, ?_, ?_, ?_⟩
      · intro hc
        have : w = v + 1 := by
          rcases hc with hc | hc | hc
          · have := w3 (v + 1) ((hys _).mpr (Or.inl hc)) (by omega); omega
          · have := w3 (v + 1) ((hys _).mpr (Or.inr hc)) (by omega); omega
          · omega
        subst this
        push_cast; ring
      · rintro rfl hlt
        have := w3 lo' ((hys _).mpr (Or.inr ⟨le_refl _, hle'⟩)) hlt
        have : w = lo' := by omega
        rw [this]
      · rintro rfl hlt
        have := w3 lo ((hys _).mpr (Or.inl ⟨le_refl _, hle⟩)) hlt
        have : w = lo := by omega
        rw [this]
    · refine ⟨by linarith, fun _ => rfl, ?_, ?_⟩
      · rintro rfl hlt
        have := w1 lo' ((hys _).mpr (Or.inr ⟨le_refl _, hle'⟩))
        omega
      · rintro rfl hlt
        have := w1 lo ((hys _).mpr (Or.inl ⟨le_refl _, hle⟩))
        omega
  · intro i a b t ht
    rw [q4] at ht
    obtain ⟨⟨v, hv, r1⟩, r2⟩ := exactHist_all ys _ hn q2 i a b t ht
    exact ⟨⟨v, (hys v).mp hv, r1⟩, r2⟩

/-- C56, the line plots: `get_compare` draws for both distributions the doubles nearest to the probabilities over the whole range;
    `get_compare_at_least` and `get_compare_at_most` draw the figures of `at_least` and `at_most`. -/
theorem C56_line_plots (d e : Dist) (hd : d.Constructed) (he : e.Constructed) (nd : 0 < d.outcomeCount) (ne : 0 < e.outcomeCount)
    (lo hi lo' hi' : Int) (h1 : d.min = .ok lo) (h2 : d.max = .ok hi) (h3 : e.min = .ok lo') (h4 : e.max = .ok hi') :
    (∃ f g : Int → ℚ, (∀ v, RoundsTo (probOf d (fun z => decide (z = v))) (f v)) ∧
      (∀ v, RoundsTo (probOf e (fun z => decide (z = v))) (g v)) ∧
      d.compareF e = .ok ((pyRange lo (hi + 1), (pyRange lo (hi + 1)).map f), (pyRange lo' (hi' + 1), (pyRange lo' (hi' + 1)).map g))) ∧
    (∃ f g, d.atLeastF = .ok f ∧ e.atLeastF = .ok g ∧
      d.compareAtLeastF e = .ok ((pyRange lo (hi + 1), f.map Prod.snd), (pyRange lo' (hi' + 1), g.map Prod.snd))) ∧
    (∃ f g, d.atMostF = .ok f ∧ e.atMostF = .ok g ∧
      d.compareAtMostF e = .ok ((pyRange lo (hi + 1), f.map Prod.snd), (pyRange lo' (hi' + 1), g.map Prod.snd))) := by
  obtain ⟨h, lo1, hi1, e1, k1, k2, k3, k4, k5, k6⟩ := histogramF_spec d hd (by omega)
  obtain ⟨h', lo2, hi2, e2, l1, l2, l3, l4, l5, l6⟩ := histogramF_spec e he (by omega)
  rw [h1] at k1; rw [h2] at k2; rw [h3] at l1; rw [h4] at l2
  cases k1; cases k2; cases l1; cases l2
  obtain ⟨_, _, f, g, t1, t2, t3, t4, t5, t6, _, _, _, t7⟩ := tailsF d hd nd
  obtain ⟨_, _, f', g', u1, u2, u3, u4, u5, u6, _, _, _, u7⟩ := tailsF e he ne
  rw [h1] at t1; rw [h2] at t2; rw [h3] at u1; rw [h4] at u2
  cases t1; cases t2; cases u1; cases u2
  refine ⟨⟨fun v => toDouble (d.share v), fun v => toDouble (e.share v), ?_, ?_, ?_⟩, ⟨f, f', t3, u3, ?_⟩, ⟨g, g', t4, u4, ?_⟩⟩
  · intro v
    show RoundsTo _ (toDouble (d.share v))
    rw [← countOf_prob d hd]; exact toDouble_rounds _
  · intro v
    show RoundsTo _ (toDouble (e.share v))
    rw [← countOf_prob e he]; exact toDouble_rounds _
  · have : d.compareF e = ((d.getDictFormF >>= getHistogramForm) >>= fun h =>
        (e.getDictFormF >>= getHistogramForm) >>= fun h' => makeLinePlot h h') := by
      unfold Dist.compareF
      cases d.getDictFormF with
      | error => rfl
      | ok a =>
        cases h5 : getHistogramForm a with
        | error => simp [bind, Except.bind, h5]
        | ok b => simp only [bind, Except.bind, h5]; cases e.getDictFormF <;> rfl
    rw [this, e1, e2]
    show makeLinePlot h h' = _
    unfold makeLinePlot
    rw [range_zip h _ lo hi t7 (hist_keys_perm h lo hi k3 k4) (fun v _ _ => k5 v),
      range_zip h' _ lo' hi' u7 (hist_keys_perm h' lo' hi' l3 l4) (fun v _ _ => l5 v)]
    rfl
  · unfold Dist.compareAtLeastF
    rw [t3, u3]
    show makeLinePlot f f' = _
    unfold makeLinePlot
    rw [range_zip f _ lo hi t7 (by rw [t5]) (fun v _ _ => rfl), range_zip f' _ lo' hi' u7 (by rw [u5]) (fun v _ _ => rfl),
      range_values f lo hi t5, range_values f' lo' hi' u5]
    rfl
  · unfold Dist.compareAtMostF
    rw [t4, u4]
    show makeLinePlot g g' = _
    unfold makeLinePlot
    rw [range_zip g _ lo hi t7 (by rw [t6]) (fun v _ _ => rfl), range_zip g' _ lo' hi' u7 (by rw [u6]) (fun v _ _ => rfl),
      range_values g lo hi t6, range_values g' lo' hi' u6]
    rfl

/-- C56, the interpreter's methods: the picture is that of the last line's distribution, which was made by the constructor. -/
theorem C56_interpreter (parse : Str → Res Expr) (lines : List Str) (s : State) (hs : Reachable parse s) :
    (∀ d s', interpHistogramDist parse lines s = (.ok d, s') → d.Constructed ∧
      interpHistogramF parse lines s = (d.histogramF, s') ∧ interpAtLeastHistogramF parse lines s = (d.atLeastHistogramF, s') ∧
      interpAtMostHistogramF parse lines s = (d.atMostHistogramF, s')) ∧
    (∀ er s', interpHistogramDist parse lines s = (.error er, s') → interpHistogramF parse lines s = (.error er, s') ∧
      interpAtLeastHistogramF parse lines s = (.error er, s') ∧ interpAtMostHistogramF parse lines s = (.error er, s')) := by
  constructor
  · intro d s' h
    refine ⟨lastDist_constructed parse lines _ s (tidy_reachable parse hs) ⟨_, rfl⟩ d s' h, ?_, ?_, ?_⟩
    · unfold interpHistogramF; rw [evalBind, h]; rfl
    · unfold interpAtLeastHistogramF; rw [evalBind, h]; rfl
    · unfold interpAtMostHistogramF; rw [evalBind, h]; rfl
  · intro er s' h
    refine ⟨?_, ?_, ?_⟩
    · unfold interpHistogramF; rw [evalBind, h]
    · unfold interpAtLeastHistogramF; rw [evalBind, h]
    · unfold interpAtMostHistogramF; rw [evalBind, h]

end

/-- C56 fails for `get_compare_histogram`: comparing `{1: 1}` with `{1: 1, 2: 1}`, the probabilities of 1 differ by 1/2 but the bar
    over 1 is 1 high; comparing `{1: 1}` with `{5: 1}`, the bar of 1 reaches up to 4.5. -/
theorem C56_compare_counterexample : ∃ _R : PyRuntime,
    (∃ d e p i, mkDistInt [(1, 1)] = .ok d ∧ mkDistInt [(1, 1), (2, 1)] = .ok e ∧ d.compareHistogramF e = .ok p ∧
      probOf d (fun z => decide (z = 1)) - probOf e (fun z => decide (z = 1)) = 1 / 2 ∧ BarIs p.hist i (1 / 2) (3 / 2) 1) ∧
    (∃ d e p i, mkDistInt [(1, 1)] = .ok d ∧ mkDistInt [(5, 1)] = .ok e ∧ d.compareHistogramF e = .ok p ∧
      BarIs p.hist i (1 / 2) (9 / 2) 1) := by
  let _ := listRuntime
  have half : IsDouble (1 / 2) := by have := isDouble_half (n := 1) (by norm_num); simpa using this
  have one : IsDouble 1 := by have := isDouble_int (n := 1) (by norm_num); simpa using this
  have ex : ∀ {q x : ℚ}, IsDouble q → RoundsTo q x → x = q := fun hq h => by
    rw [roundsTo_unique h (toDouble_rounds _), toDouble_exact hq]
  refine ⟨listRuntime, ?_, ?_⟩
  · obtain ⟨d, hd, cd, nd, d1, d2, d3⟩ : ∃ d : Dist, mkDistInt [(1, 1)] = .ok d ∧ d.Constructed ∧ 0 < d.outcomeCount ∧
        d.min = .ok 1 ∧ d.max = .ok 1 ∧ probOf d (fun z => decide (z = 1)) = 1 :=
      ⟨_, rfl, ⟨_, rfl⟩, by decide, by decide, by decide, by decide +kernel⟩
    obtain ⟨e, he, ce, ne, e1, e2, e3⟩ : ∃ d : Dist, mkDistInt [(1, 1), (2, 1)] = .ok d ∧ d.Constructed ∧ 0 < d.outcomeCount ∧
        d.min = .ok 1 ∧ d.max = .ok 2 ∧ probOf d (fun z => decide (z = 1)) = 1 / 2 :=
      ⟨_, rfl, ⟨_, rfl⟩, by decide, by decide, by decide, by decide +kernel⟩
    obtain ⟨p, f, g, w, h1, _, h2, h3, h4, h5, _⟩ := C56_compare_partial d e cd ce nd ne 1 1 1 2 d1 d2 e1 e2 (by norm_num) (by norm_num)
      (by norm_num) (by norm_num)
    obtain ⟨i, b, h6, _, h7, _⟩ := h5 1 (Or.inl (by norm_num))
    have hb := h7 (Or.inr (Or.inl (by norm_num)))
    have f1 := h2 1
    have g1 := h3 1
    have w1 := h4 1
    rw [d3] at f1; rw [e3] at g1
    rw [ex one f1, ex half g1, show (1 : ℚ) - 1 / 2 = 1 / 2 by norm_num] at w1
    refine ⟨d, e, p, i, hd, he, h1, by rw [d3, e3]; norm_num, ?_⟩
    rw [hb, ex half w1] at h6
    norm_num at h6 ⊢
    exact h6
  · obtain ⟨d, hd, cd, nd, d1, d2, d3⟩ : ∃ d : Dist, mkDistInt [(1, 1)] = .ok d ∧ d.Constructed ∧ 0 < d.outcomeCount ∧
        d.min = .ok 1 ∧ d.max = .ok 1 ∧ probOf d (fun z => decide (z = 1)) = 1 :=
      ⟨_, rfl, ⟨_, rfl⟩, by decide, by decide, by decide, by decide +kernel⟩
    obtain ⟨e, he, ce, ne, e1, e2, e3⟩ : ∃ d : Dist, mkDistInt [(5, 1)] = .ok d ∧ d.Constructed ∧ 0 < d.outcomeCount ∧
        d.min = .ok 5 ∧ d.max = .ok 5 ∧ probOf d (fun z => decide (z = 1)) = 0 :=
      ⟨_, rfl, ⟨_, rfl⟩, by decide, by decide, by decide, by decide +kernel⟩
    obtain ⟨p, f, g, w, h1, _, h2, h3, h4, h5, _⟩ := C56_compare_partial d e cd ce nd ne 1 1 5 5 d1 d2 e1 e2 (by norm_num) (by norm_num)
      (by norm_num) (by norm_num)
    obtain ⟨i, b, h6, _, _, h7, _⟩ := h5 1 (Or.inl (by norm_num))
    have hb := h7 rfl (by norm_num)
    have f1 := h2 1
    have g1 := h3 1
    have w1 := h4 1
    rw [d3] at f1; rw [e3] at g1
    rw [ex one f1, ex isDouble_zero g1, show (1 : ℚ) - 0 = 1 by norm_num] at w1
    refine ⟨d, e, p, i, hd, he, h1, ?_⟩
    rw [hb, ex one w1] at h6
    norm_num at h6 ⊢
    exact h6

/-- C56 fails from `2 ** 52` on: in the histogram of `{4503599627370496: 1, 4503599627370497: 1}` the bar of the first outcome is
    empty and ends at the outcome; both outcomes are counted in the second bar. -/
theorem C56_large_counterexample : ∃ _R : PyRuntime, ∃ d p, mkDistInt [(4503599627370496, 1), (4503599627370497, 1)] = .ok d ∧
    d.histogramF = .ok p ∧ d.min = .ok (2 ^ 52) ∧ BarIs p.hist 0 (2 ^ 52 - 1 / 2) (2 ^ 52) 0 ∧ BarIs p.hist 1 (2 ^ 52) (2 ^ 52 + 2) 1 := by
  let _ := listRuntime
  obtain ⟨d, hd, cd, nd, d1, d2, d3, d4⟩ : ∃ d : Dist, mkDistInt [(4503599627370496, 1), (4503599627370497, 1)] = .ok d ∧
      d.Constructed ∧ 0 < d.outcomeCount ∧ d.min = .ok 4503599627370496 ∧ d.max = .ok 4503599627370497 ∧
      toDouble (d.share 4503599627370496) = 1 / 2 ∧ toDouble (d.share 4503599627370497) = 1 / 2 :=
    ⟨_, rfl, ⟨_, rfl⟩, by decide, by decide, by decide, by decide +kernel, by decide +kernel⟩
  obtain ⟨h, lo', hi', e, hlo', hhi', h1, h2, h3, h4⟩ := histogramF_spec d cd (by omega)
  rw [d1] at hlo'; rw [d2] at hhi'; cases hlo'; cases hhi'
  obtain ⟨x, hx, _⟩ := (C44_average d _ (average_E d nd)).2.2 cd nd _ _ d1 d2 (by norm_num) (by norm_num)
  have hz := range_zip h (fun v => toDouble (d.share v)) _ _ (by norm_num) (hist_keys_perm h _ _ h1 h2) (fun v _ _ => h3 v)
  have hr : pyRange 4503599627370496 (4503599627370497 + 1) = [4503599627370496, 4503599627370497] := by decide
  rw [hr] at hz
  have hh : d.histogramF = ((d.getDictFormF >>= getHistogramForm) >>= fun h =>
      d.averageF >>= fun a => makeHistogramF (h.map Prod.fst) (lookupAll h (h.map Prod.fst)) (some a)) := by
    unfold Dist.histogramF; cases d.getDictFormF <;> rfl
  have s1 : shiftF 4503599627370496 (-(1 / 2)) = .ok (2 ^ 52 - 1 / 2) := by decide +kernel
  have s2 : shiftF 4503599627370497 (-(1 / 2)) = .ok (2 ^ 52) := by decide +kernel
  have s3 : shiftF 4503599627370497 (1 / 2) = .ok (2 ^ 52 + 2) := by decide +kernel
  have hm : [4503599627370496, 4503599627370497].mapM (fun v => shiftF v (-(1 / 2))) = .ok [2 ^ 52 - 1 / 2, 2 ^ 52] := by
    rw [List.mapM_cons, List.mapM_cons, s1, s2]; rfl
  refine ⟨listRuntime, d, ⟨⟨[4503599627370496, 4503599627370497], [1 / 2, 1 / 2], [2 ^ 52 - 1 / 2, 2 ^ 52, 2 ^ 52 + 2]⟩,
    some ([x, x], [0, toDouble (1 / 2 * toDouble (11 / 10))])⟩, hd, ?_, d1, ⟨rfl, rfl, ?_⟩, ⟨rfl, rfl, ?_⟩⟩
  · rw [hh, e, hx]
    show makeHistogramF (h.map Prod.fst) (lookupAll h (h.map Prod.fst)) (some x) = _
    unfold makeHistogramF
    rw [hz]
    simp only [bind, Except.bind, List.map_cons, List.map_nil, d3, d4]
    rw [hm]
    simp only [List.getLast?_cons_cons, List.getLast?_singleton]
    rw [s3]
    simp [maxF, pure, Except.pure]
  · norm_num [List.filter]
  · norm_num [List.filter]

/-- A die and a comparison that meet the hypotheses. -/
example : let _ := listRuntime
    ∃ d e : Dist, mkDistInt ((pyRange 1 7).map fun v => (v, 1)) = .ok d ∧ mkDistInt [(-3, 1), (4, 2)] = .ok e ∧ d.Constructed ∧
      e.Constructed ∧ 0 < d.outcomeCount ∧ 0 < e.outcomeCount ∧ d.min = .ok 1 ∧ d.max = .ok 6 ∧ e.min = .ok (-3) ∧ e.max = .ok 4 :=
  let _ := listRuntime
  ⟨_, _, rfl, rfl, ⟨_, rfl⟩, ⟨_, rfl⟩, by decide, by decide, by decide, by decide, by decide, by decide⟩

/-- Heights as in the histogram of `{1: 1, 2: 3}`, and its average line. -/
example : LineIs (some ([7 / 4, 7 / 4], [0, toDouble (3 / 4 * toDouble (11 / 10))])) (7 / 4) [1 / 4, 3 / 4] ∧
    ∀ h ∈ ([1 / 4, 3 / 4] : List ℚ), IsDouble h ∧ 0 ≤ h :=
  ⟨⟨3 / 4, _, _, by simp, by norm_num, toDouble_rounds _, toDouble_rounds _, rfl⟩, by
    intro h hh
    simp only [List.mem_cons, List.not_mem_nil, or_false] at hh
    rcases hh with rfl | rfl
    · exact ⟨⟨1, -2, by norm_num, by norm_num, by norm_num⟩, by norm_num⟩
    · exact ⟨⟨3, -2, by norm_num, by norm_num, by norm_num⟩, by norm_num⟩⟩

/-- A program for the interpreter's methods, in a state left by an earlier call. -/
example : let _ := listRuntime
    let s := (interpDists parse ["VAR a = d3".toList] State.new).2
    Reachable parse s ∧ ((interpHistogramDist parse ["a // 2".toList] s).1.toOption.map Dist.getResultMap) = some [(0, 1), (1, 2)] :=
  let _ := listRuntime
  ⟨Reachable.dists _ Reachable.new, by decide +kernel⟩

end PyDice
