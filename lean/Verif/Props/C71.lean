import Verif.Lemmas.Bell
import Verif.Props.C14_C15
import Verif.Props.C57
/-!
# C71: the middle is likeliest
-/

namespace PyDice
open PyRuntime

section
variable [R : PyRuntime]

/-- C71: of two values of a sum of consecutively numbered dice the one nearer to the middle is at least as likely, so that values equally
    far from it are equally likely; and the average is the middle. -/
theorem C71_middle {e : Expr} {m : Int} (h : Centred e m) (s : State) : ∃ d, e.dist s = (.ok d, s) ∧ d.average = .ok ((m : ℚ) / 2) ∧
    ∀ v w : Int, |2 * v - m| ≤ |2 * w - m| →
      countOf d.getResultMap w ≤ countOf d.getResultMap v ∧ probOf d (fun x => decide (x = w)) ≤ probOf d (fun x => decide (x = v)) := by
  obtain ⟨d, l, h1, h2, h3, h4, h5⟩ := centred_box h s
  have key : ∀ v w : Int, |2 * v - m| ≤ |2 * w - m| → countOf d.getResultMap w ≤ countOf d.getResultMap v := by
    intro v w hvw
    rw [countOf_getResultMap, countOf_getResultMap, h5, h5]
    exact (boxSum_bell l h3).nearer (by rw [h4]; exact hvw)
  have one : (d.outcomeCount : ℚ) = boxSum l (fun _ => (1 : ℚ)) := by
    rw [← E_one d h2.constructed, ← h5]
    unfold Dist.E
    rw [wsum_cast]
    simp
  obtain ⟨e1, e2⟩ := boxSum_mean l h3
  have pos : 0 < d.outcomeCount := by
    rcases Nat.eq_zero_or_pos d.outcomeCount with h | h
    · rw [← one, h] at e2
      simp at e2
    · exact h
  refine ⟨d, h1, ?_, fun v w hvw => ⟨key v w hvw, ?_⟩⟩
  · rw [average_mean d pos]
    unfold Dist.mean
    rw [h5, one, e1, h4]
    congr 1
    field_simp
  · rw [probOf_eq d h2.constructed, probOf_eq d h2.constructed]
    have := key v w hvw
    rw [countOf_eq_wsum _ _ (distinct_getResultMap d), countOf_eq_wsum _ _ (distinct_getResultMap d)] at this
    simp only [decide_eq_true_eq]
    gcongr

/-- C71: none is likelier than the value in the middle, or, if the middle lies between two values, than these. -/
theorem C71_peak {e : Expr} {m : Int} (h : Centred e m) (s : State) : ∃ d, e.dist s = (.ok d, s) ∧
    ∀ w, countOf d.getResultMap w ≤ countOf d.getResultMap (m / 2) ∧ countOf d.getResultMap w ≤ countOf d.getResultMap ((m + 1) / 2) := by
  obtain ⟨d, h1, _, h2⟩ := C71_middle h s
  refine ⟨d, h1, fun w => ⟨?_, ?_⟩⟩
  · by_cases hm : m % 2 = 0
    · exact (h2 _ w (by rw [show 2 * (m / 2) - m = 0 by omega]; simp)).1
    · refine (h2 _ w ?_).1
      rw [show 2 * (m / 2) - m = -1 by omega]
      have : 2 * w - m ≠ 0 := by omega
      simpa using Int.one_le_abs this
  · by_cases hm : m % 2 = 0
    · exact (h2 _ w (by rw [show 2 * ((m + 1) / 2) - m = 0 by omega]; simp)).1
    · refine (h2 _ w ?_).1
      rw [show 2 * ((m + 1) / 2) - m = 1 by omega]
      have : 2 * w - m ≠ 0 := by omega
      simpa using Int.one_le_abs this

omit R in
/-- C71: `ndS`, `nd%` and `ndF` are such dice. -/
theorem C71_ordinary (ds : Str) (hds : ∀ c ∈ ds, isDigit c = true) (hn : ds = [] ∨ 1 ≤ natOf ds) (sides : Str) :
    (sides ≠ [] → (∀ c ∈ sides, isDigit c = true) → 1 ≤ natOf sides → ∃ t, mkDice (ds ++ 'd' :: sides) = .ok t ∧
      Centred (.dice t) ((if ds = [] then 1 else natOf ds) * (natOf sides + 1 : Nat))) ∧
    (sides = ['%'] → ∃ t, mkDice (ds ++ 'd' :: sides) = .ok t ∧ Centred (.dice t) ((if ds = [] then 1 else natOf ds) * 101)) ∧
    (sides = ['F'] → ∃ t, mkDice (ds ++ 'd' :: sides) = .ok t ∧ Centred (.dice t) 0) := by
  have number : 1 ≤ (if ds = [] then 1 else natOf ds) := by
    rcases hn with h | h
    · rw [if_pos h]
    · split
      · exact le_refl _
      · exact h
  have plain : ∀ sides : Str, sides ≠ [] → (∀ c ∈ sides, isDigit c = true) →
      singleDiceMap sides = .ok (ones (pyRange 1 ((natOf sides : Int) + 1))) := by
    intro sides h1 h2
    have hm : Re.isMatch (Re.plus Re.digit) sides = true :=
      (Re.isMatch_iff (by simp [Re.Plain, Re.plus, Re.digit]) _).mpr
        ⟨sides, [], by simp, (Re.lang_plus_digit _).mpr ((isDigits_iff _).mpr ⟨h1, h2⟩)⟩
    unfold singleDiceMap
    rw [if_pos hm, pyInt_digits ((isDigits_iff _).mpr ⟨h1, h2⟩)]
    rfl
  refine ⟨fun h1 h2 h3 => ?_, ?_, ?_⟩
  · refine ⟨_, C14_number ds sides _ hds (fun c hc => digit_ne (h2 c hc) (by decide)) (plain sides h1 h2), ?_⟩
    have := Centred.dice ⟨ds ++ 'd' :: sides, ones (pyRange 1 ((natOf sides : Int) + 1)), if ds = [] then 1 else natOf ds⟩
      1 (natOf sides) (by exact_mod_cast h3) number rfl
    convert this using 1
    push_cast
    ring
  · rintro rfl
    have h100 := C14_percent_fate.1.trans (plain "100".toList (by decide) (by decide))
    refine ⟨_, C14_number ds ['%'] _ hds (by decide) h100, ?_⟩
    have := Centred.dice ⟨ds ++ ['d', '%'], ones (pyRange 1 ((natOf "100".toList : Int) + 1)), if ds = [] then 1 else natOf ds⟩
      1 100 (by decide) number rfl
    convert this using 1
    push_cast
    ring
  · rintro rfl
    refine ⟨_, C14_number ds ['F'] _ hds (by decide) C14_percent_fate.2, ?_⟩
    have := Centred.dice ⟨ds ++ ['d', 'F'], [(-1, 1), (0, 1), (1, 1)], if ds = [] then 1 else natOf ds⟩
      (-1) 1 (by decide) number rfl
    convert this using 1
    simp

/-- Without the condition on the faces C71 fails: the middle of `d[1,3]` is never rolled. -/
theorem C71_gap_counterexample : ∃ t d, mkDice "d[1,3]".toList = .ok t ∧ t.dist = .ok d ∧ d.average = .ok 2 ∧
    countOf d.getResultMap 2 = 0 ∧ countOf d.getResultMap 1 = 1 := by
  obtain ⟨d, h1, h2, _⟩ := C12_dice_counts ⟨"d[1,3]".toList, [(1, 1), (3, 1)], 1⟩ (by decide)
  obtain ⟨d', g1, g2⟩ := C57_average ⟨"d[1,3]".toList, [(1, 1), (3, 1)], 1⟩ (by decide) (by decide)
  rw [h1] at g1
  cases g1
  refine ⟨_, d, by decide +kernel, h1, ?_, ?_, ?_⟩
  · rw [g2]
    norm_num [facesOf]
  · rw [h2]; decide
  · rw [h2]; decide

end

/-! ### The hypotheses can be met -/

/-- `2d6 - dF + 3`, with the middle 10. -/
example : ∃ a b, mkDice "2d6".toList = .ok a ∧ mkDice "dF".toList = .ok b ∧
    Centred (.add (.sub (.dice a) (.dice b)) (.constInt ['3'])) 20 := by
  obtain ⟨a, h1, h2⟩ := (C71_ordinary ['2'] (by decide) (.inr (by decide)) ['6']).1 (by decide) (by decide) (by decide)
  obtain ⟨b, g1, g2⟩ := (C71_ordinary [] (by decide) (.inl rfl) ['F']).2.2 rfl
  exact ⟨a, b, h1, g1, (h2.sub g2).add (.const _ 3 (by decide))⟩

end PyDice
