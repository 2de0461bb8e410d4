import Verif.Props.C12_C13
import Verif.Lemmas.DropKeepTerm
/-!
# C16 - C20: keep/drop, and the law of a roll
-/

namespace PyDice

open PyRuntime

/-! ### What the constructor of `DropKeepExpression` establishes -/

section
variable [R : PyRuntime]

/-! ## C16 -/

/-- C16: for `0 < k < n` the count of `v` is the number of tuples of faces whose `k` highest (keep) or `n - k` lowest (drop)
    dice sum to `v`; the total is the number of all tuples. -/
theorem C16_keep_drop_counts (form : Str) (t : DropKeepTerm) (ht : mkDropKeep form = .ok t) (h0 : 0 < t.count)
    (h1 : t.count < t.number) : ∃ d, t.dist = .ok d ∧
    (∀ v, countOf d.getResultMap v = tupleCount t.table t.number
      (if form.contains 'k' then sumHighest t.count else sumLowest (t.number - t.count)) v) ∧
    (∀ v, hasKey d.getResultMap v ↔ ∃ l ∈ tuples (t.table.map Prod.fst) t.number,
      v = (if form.contains 'k' then sumHighest t.count else sumLowest (t.number - t.count)) l) ∧
    (d.getResultMap.map Prod.snd).sum = (t.table.map Prod.snd).sum ^ t.number := by
  obtain ⟨hkeep, _, _, hnone⟩ := mkDropKeep_spec ht
  obtain ⟨d, g1, g2, g3, g4⟩ := dropKeepDist_spec t (hnone h0 h1) (by omega)
  have hsc : t.score = (if form.contains 'k' then sumHighest t.count else sumLowest (t.number - t.count)) := by
    funext l; unfold DropKeepTerm.score; rw [hkeep]; split <;> rfl
  refine ⟨d, g1, ?_, ?_, ?_⟩
  · intro v
    rw [countOf_getResultMap, g3, tupleCount, ← count_filter, hsc]
  · intro v; rw [g4, hsc]
  · rw [total_E g2, g3, ← length_facesOf, ← length_tuples]; simp

/-- `4d6k3` meets the hypotheses of C16. -/
example : ∃ t, mkDropKeep "4d6k3".toList = .ok t ∧ 0 < t.count ∧ t.count < t.number ∧ t.number = 4 ∧ t.table.length = 6 :=
  ⟨⟨"4d6k3".toList, 4, [(1, 1), (2, 1), (3, 1), (4, 1), (5, 1), (6, 1)], 3, true, .none⟩,
    by decide, by decide, by decide, rfl, rfl⟩

/-- The score of C16 on one tuple: keeping the 2 highest of 3, 1, 2 gives 5, the lowest 2 sum to 3. -/
example : sumHighest 2 [3, 1, 2] = 5 ∧ sumLowest 2 [3, 1, 2] = 3 := by
  rw [sumHighest_eq, sumLowest_eq]; decide

/-! ## C17 -/

/-- C17: keeping at least as many dice as rolled, or dropping none, is the plain roll of the same dice in every method. -/
theorem C17_plain (form : Str) (t : DropKeepTerm) (ht : mkDropKeep form = .ok t)
    (h : form.contains 'k' = true ∧ t.number ≤ t.count ∨ form.contains 'k' = false ∧ t.count = 0 ∧ 0 < t.number) :
    ∃ p : DiceTerm, p.table = t.table ∧ p.number = t.number ∧
      t.roll = p.roll ∧ t.extreme true = p.extreme true ∧ t.extreme false = p.extreme false ∧ t.cost = p.cost ∧
      t.dist = p.dist := by
  obtain ⟨hkeep, hp, _, _⟩ := mkDropKeep_spec ht
  rw [← hkeep] at h
  obtain ⟨f, hf⟩ := hp h
  exact ⟨⟨f, t.table, t.number⟩, rfl, rfl, by simp [DropKeepTerm.roll, hf], by simp [DropKeepTerm.extreme, hf],
    by simp [DropKeepTerm.extreme, hf], by simp [DropKeepTerm.cost, hf], by simp [DropKeepTerm.dist, hf]⟩

/-- C17: keeping no dice, or dropping at least as many as rolled, is the constant 0 in every method. -/
theorem C17_zero (form : Str) (t : DropKeepTerm) (ht : mkDropKeep form = .ok t)
    (h : form.contains 'k' = true ∧ t.count = 0 ∧ 0 < t.number ∨ form.contains 'k' = false ∧ t.number ≤ t.count) :
    t.roll = .pure (.ok 0) ∧ t.extreme true = .ok 0 ∧ t.extreme false = .ok 0 ∧ t.cost = 2 ∧
      ∃ d, t.dist = .ok d ∧ d.getResultMap = [(0, 1)] := by
  obtain ⟨hkeep, _, hz, _⟩ := mkDropKeep_spec ht
  rw [← hkeep] at h
  have hf := hz h
  refine ⟨by simp [DropKeepTerm.roll, hf], by simp [DropKeepTerm.extreme, hf], by simp [DropKeepTerm.extreme, hf],
    by simp [DropKeepTerm.cost, hf], ?_⟩
  simp only [DropKeepTerm.dist, hf, constDist]
  refine ⟨_, mkDistInt_eq _, ?_⟩
  rfl

/-- `2d6k5`, `2d6d0`, `2d6k0` and `2d6d2` are on the boundary. -/
example : (∃ t, mkDropKeep "2d6k5".toList = .ok t ∧ "2d6k5".toList.contains 'k' = true ∧ t.number ≤ t.count) ∧
    (∃ t, mkDropKeep "2d6d0".toList = .ok t ∧ "2d6d0".toList.contains 'k' = false ∧ t.count = 0 ∧ 0 < t.number) ∧
    (∃ t, mkDropKeep "2d6k0".toList = .ok t ∧ "2d6k0".toList.contains 'k' = true ∧ t.count = 0 ∧ 0 < t.number) ∧
    (∃ t, mkDropKeep "2d6d2".toList = .ok t ∧ "2d6d2".toList.contains 'k' = false ∧ t.number ≤ t.count) := by
  refine ⟨⟨⟨"2d6k5".toList, 2, ones (pyRange 1 7), 5, true, .dice ⟨"2d6".toList, ones (pyRange 1 7), 2⟩⟩, ?_⟩,
    ⟨⟨"2d6d0".toList, 2, ones (pyRange 1 7), 0, false, .dice ⟨"2d6".toList, ones (pyRange 1 7), 2⟩⟩, ?_⟩,
    ⟨⟨"2d6k0".toList, 2, ones (pyRange 1 7), 0, true, .zero⟩, ?_⟩, ⟨⟨"2d6d2".toList, 2, ones (pyRange 1 7), 2, false, .zero⟩, ?_⟩⟩ <;> decide

/-! ## C18 -/

/-- C18: for `n >= 1` dice with at least one face, `max()` and `min()` of a keep/drop term are those of its distribution. -/
theorem C18_max_min (form : Str) (t : DropKeepTerm) (ht : mkDropKeep form = .ok t) (hn : 1 ≤ t.number) (hne : t.table ≠ []) :
    ∃ d a b, t.dist = .ok d ∧ t.extreme false = .ok a ∧ t.extreme true = .ok b ∧ d.min = .ok a ∧ d.max = .ok b := by
  rcases count_cases ht hn with ⟨h0, h1, hs⟩ | ⟨f, hf⟩ | hz
  · obtain ⟨d, g1, g2, g3, g4⟩ := dropKeepDist_spec t hs (by omega)
    have hne' : t.table.map Prod.fst ≠ [] := by simpa using hne
    obtain ⟨hi, hhi, hhi1, hhi2⟩ := listMax_ok hne'
    obtain ⟨lo, hlo, hlo1, hlo2⟩ := listMin_ok hne'
    refine ⟨d, lo * t.kept, hi * t.kept, g1, extreme_none t hs (by omega) false lo hlo,
      extreme_none t hs (by omega) true hi hhi, ?_, ?_⟩
    · rw [(C09_max_min d _).2]
      refine ⟨(g4 _).mpr ⟨_, replicate_mem_tuples hlo1 _, (score_replicate t (by omega) lo).symm⟩, ?_⟩
      intro x hx
      obtain ⟨l, hl, rfl⟩ := (g4 x).mp hx
      rw [mem_tuples] at hl
      exact (score_bounds t (by omega) hl.1 (fun y hy => ⟨hlo2 y (hl.2 y hy), hhi2 y (hl.2 y hy)⟩)).1
    · rw [(C09_max_min d _).1]
      refine ⟨(g4 _).mpr ⟨_, replicate_mem_tuples hhi1 _, (score_replicate t (by omega) hi).symm⟩, ?_⟩
      intro x hx
      obtain ⟨l, hl, rfl⟩ := (g4 x).mp hx
      rw [mem_tuples] at hl
      exact (score_bounds t (by omega) hl.1 (fun y hy => ⟨hlo2 y (hl.2 y hy), hhi2 y (hl.2 y hy)⟩)).2
  · obtain ⟨d, a, b, h⟩ := C13_max_min ⟨f, t.table, t.number⟩ hn hne
    exact ⟨d, a, b, by simpa [DropKeepTerm.dist, DropKeepTerm.extreme, hf] using h⟩
  · obtain ⟨d, g1, g2, g3, g4⟩ := constDist_spec 0
    refine ⟨d, 0, 0, by simpa [DropKeepTerm.dist, hz] using g1, by simp [DropKeepTerm.extreme, hz],
      by simp [DropKeepTerm.extreme, hz], ?_, ?_⟩
    · rw [(C09_max_min d _).2]
      exact ⟨(g4 0).mpr rfl, fun x hx => by rw [(g4 x).mp hx]⟩
    · rw [(C09_max_min d _).1]
      exact ⟨(g4 0).mpr rfl, fun x hx => by rw [(g4 x).mp hx]⟩

omit R in
/-- C18: every roll of a keep/drop term lies between `min()` and `max()`. -/
theorem C18_roll_between (form : Str) (t : DropKeepTerm) (ht : mkDropKeep form = .ok t) (hn : 1 ≤ t.number)
    (hw : 0 < (t.table.map Prod.snd).sum) : ∃ a b, t.extreme false = .ok a ∧ t.extreme true = .ok b ∧
      ∀ r, Rand.Possible r t.roll → ∃ v, r = .ok v ∧ a ≤ v ∧ v ≤ b := by
  rcases count_cases ht hn with ⟨h0, h1, hs⟩ | ⟨f, hf⟩ | hz
  · have hne' : t.table.map Prod.fst ≠ [] := by intro h; simp at h; rw [h] at hw; simp at hw
    obtain ⟨hi, hhi, hhi1, hhi2⟩ := listMax_ok hne'
    obtain ⟨lo, hlo, hlo1, hlo2⟩ := listMin_ok hne'
    refine ⟨lo * t.kept, hi * t.kept, extreme_none t hs (by omega) false lo hlo,
      extreme_none t hs (by omega) true hi hhi, ?_⟩
    intro r hr
    obtain ⟨l, hl, rfl⟩ := (dropKeepRoll_possible t hs h0 hw r).mp hr
    rw [mem_tuples] at hl
    exact ⟨_, rfl, score_bounds t (by omega) hl.1
      (fun y hy => ⟨hlo2 y (facesOf_subset (hl.2 y hy)), hhi2 y (facesOf_subset (hl.2 y hy))⟩)⟩
  · have := C13_roll_between ⟨f, t.table, t.number⟩ hw
    simpa [DropKeepTerm.roll, DropKeepTerm.extreme, hf] using this
  · refine ⟨0, 0, by simp [DropKeepTerm.extreme, hz], by simp [DropKeepTerm.extreme, hz], ?_⟩
    intro r hr
    simp only [DropKeepTerm.roll, hz] at hr
    exact ⟨0, Rand.possible_pure.mp hr, le_refl _, le_refl _⟩

/-- `5d[-2--1,3]d2` meets the hypotheses of C18. -/
example : ∃ t, mkDropKeep "5d[-2--1,3]d2".toList = .ok t ∧ 1 ≤ t.number ∧ 0 < (t.table.map Prod.snd).sum ∧
    t.extreme false = .ok (-6) ∧ t.extreme true = .ok 9 :=
  ⟨⟨"5d[-2--1,3]d2".toList, 5, [(-2, 1), (-1, 1), (3, 1)], 2, false, .none⟩, by decide, by decide, by decide, by decide, by decide⟩

/-! ## C19 -/

omit R in
/-- C19: a key decodes to the sorted list it was made from; a list that is already sorted comes back unchanged; two lists get
    the same key exactly when they are permutations of each other. -/
theorem C19_encoding (l : List Int) : ∃ s, keyToList (listToKey l) = .ok s ∧ s.Perm l ∧ s.Pairwise (· ≤ ·) :=
  ⟨_, keyToList_listToKey l, sortInts_perm l, sortInts_sorted l⟩

omit R in
/-- C19, second part. -/
theorem C19_key_eq_iff (l m : List Int) : listToKey l = listToKey m ↔ l.Perm m := by
  constructor
  · intro h
    have := listToKey_injective h
    exact (sortInts_perm l).symm.trans (this ▸ sortInts_perm m)
  · intro h
    unfold listToKey
    rw [sortInts_eq_of_perm h]

omit R in
/-- C19: a step of the iteration maps the key of `l` and a face `x` to the key of `l` with `x` added and, when keeping, one
    lowest, when dropping, one highest value taken away. -/
theorem C19_update (keep : Bool) (l : List Int) (x : Int) : ∃ m y, updateKey keep (listToKey l) x = .ok (listToKey m) ∧
    (y :: m).Perm (x :: l) ∧ (∀ z ∈ m, if keep then y ≤ z else z ≤ y) := by
  have hu : ∀ m, (if keep then (sortInts (sortInts l ++ [x])).drop 1 else (sortInts (sortInts l ++ [x])).dropLast) = m →
      updateKey keep (listToKey l) x = .ok (listToKey m) := by
    rintro m rfl
    simp only [updateKey, keyToList_listToKey, ok_bind]; rfl
  have hp : (sortInts (sortInts l ++ [x])).Perm (x :: l) :=
    (sortInts_perm _).trans ((List.perm_append_singleton x _).trans ((sortInts_perm l).cons x))
  have hs := sortInts_sorted (sortInts l ++ [x])
  generalize sortInts (sortInts l ++ [x]) = s at hu hp hs
  have hne : s ≠ [] := by intro h0; rw [h0] at hp; simpa using hp.length_eq
  cases keep with
  | true =>
    cases s with
    | nil => exact absurd rfl hne
    | cons y m => exact ⟨m, y, hu m rfl, hp, fun z hz => by simpa using (List.pairwise_cons.mp hs).1 z hz⟩
  | false =>
    refine ⟨s.dropLast, s.getLast hne, hu _ rfl, ?_, ?_⟩
    · refine (List.Perm.trans ?_ hp)
      have : s.dropLast ++ [s.getLast hne] = s := List.dropLast_append_getLast hne
      exact (List.perm_append_singleton _ _).symm.trans (.of_eq this)
    · intro z hz
      have : s.dropLast ++ [s.getLast hne] = s := List.dropLast_append_getLast hne
      rw [← this, List.pairwise_append] at hs
      simpa using hs.2.2 z hz _ (by simp)

/-- Negative and multi-digit faces. -/
example : listToKey [10, -3, 7] = "-3|7|10".toList ∧ keyToList "-3|7|10".toList = .ok [-3, 7, 10] := by decide

/-! ## C20 -/

/-- C20: a dice term (`n >= 1`, positive total weight) rolls `v` with exactly the probability that its distribution's
    `get_dict_form()` gives to `v`. -/
theorem C20_dice_law (t : DiceTerm) (hn : 1 ≤ t.number) (hw : 0 < (t.table.map Prod.snd).sum) :
    ∃ d f, t.dist = .ok d ∧ d.getDictForm = .ok f ∧
      ∀ v, t.roll.prob (fun r => decide (r = .ok v)) = (dictGet? f v).getD 0 := by
  obtain ⟨d, g1, g2, g3, g4⟩ := diceDist_spec t hn
  obtain ⟨f, h1, h2⟩ := prob_of_counts g2 _ List.sum (tuples_ne_nil t.table hw t.number) g3
  refine ⟨d, f, g1, h1, ?_⟩
  intro v
  rw [h2, Rand.prob, roll_expect t hw, length_tuples]
  push_cast
  rfl

/-- C20: the same for keep/drop terms. -/
theorem C20_keep_drop_law (form : Str) (t : DropKeepTerm) (ht : mkDropKeep form = .ok t) (hn : 1 ≤ t.number)
    (hw : 0 < (t.table.map Prod.snd).sum) : ∃ d f, t.dist = .ok d ∧ d.getDictForm = .ok f ∧
      ∀ v, t.roll.prob (fun r => decide (r = .ok v)) = (dictGet? f v).getD 0 := by
  rcases count_cases ht hn with ⟨h0, h1, hs⟩ | ⟨f, hf⟩ | hz
  · obtain ⟨d, g1, g2, g3, g4⟩ := dropKeepDist_spec t hs (by omega)
    obtain ⟨f, h1, h2⟩ := prob_of_counts g2 _ t.score (tuples_ne_nil t.table hw t.number) g3
    refine ⟨d, f, g1, h1, ?_⟩
    intro v
    rw [h2, Rand.prob, dropKeepRoll_eq t hs h0 hw, length_tuples]
    push_cast
    rfl
  · have := C20_dice_law ⟨f, t.table, t.number⟩ hn hw
    simpa [DropKeepTerm.roll, DropKeepTerm.dist, hf] using this
  · obtain ⟨d, g1, g2, g3, g4⟩ := constDist_spec 0
    obtain ⟨f, h1, h2⟩ := prob_of_counts g2 [[]] (fun _ => 0) (by simp) (by intro M _ f; rw [g3]; simp)
    refine ⟨d, f, by simpa [DropKeepTerm.dist, hz] using g1, h1, ?_⟩
    intro v
    rw [h2]
    simp only [DropKeepTerm.roll, hz, Rand.prob, Rand.expect]
    simp

/-- C20 needs `n >= 1`: `0d6` always rolls 0, to which its distribution gives probability 0. -/
theorem C20_zero_dice_counterexample : ∃ t d f, mkDice "0d6".toList = .ok t ∧ t.dist = .ok d ∧ d.getDictForm = .ok f ∧
    t.roll.prob (fun r => decide (r = .ok 0)) = 1 ∧ (dictGet? f 0).getD 0 = 0 := by
  have hE := fun hn => diceDist_spec ⟨"0d6".toList, ones (pyRange 1 7), 1⟩ hn
  obtain ⟨d, g1, g2, g3, g4⟩ := hE (by decide)
  obtain ⟨f, h1, h2⟩ := prob_of_counts g2 _ List.sum (tuples_ne_nil (ones (pyRange 1 7)) (by decide) 1) g3
  refine ⟨⟨"0d6".toList, ones (pyRange 1 7), 0⟩, d, f, by decide, ?_, h1, ?_, ?_⟩
  · rw [diceDist_zero _ rfl]; exact g1
  · rw [Rand.prob, roll_expect _ (by decide)]
    simp [tuples]
  · rw [h2]
    have : ((tuples (facesOf (ones (pyRange 1 7))) 1).map fun l =>
        if decide ((Except.ok l.sum : Res Int) = .ok 0) = true then (1 : ℚ) else 0) = [0, 0, 0, 0, 0, 0] := by rfl
    rw [this]
    simp

/-- `2d6` and `3d[0*0,2]k2` meet the hypotheses of C20. -/
example : (∃ t, mkDice "2d6".toList = .ok t ∧ 1 ≤ t.number ∧ 0 < (t.table.map Prod.snd).sum) ∧
    (∃ t, mkDropKeep "3d[0*0,2]k2".toList = .ok t ∧ 1 ≤ t.number ∧ 0 < (t.table.map Prod.snd).sum) :=
  ⟨⟨⟨"2d6".toList, ones (pyRange 1 7), 2⟩, by decide, by decide, by decide⟩,
    ⟨⟨"3d[0*0,2]k2".toList, 3, [(0, 0), (2, 1)], 2, true, .none⟩, by decide, by decide, by decide⟩⟩

end

end PyDice
