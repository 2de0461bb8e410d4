import Verif.Lemmas.Summary
/-!
# Helpers for C41
-/

namespace PyDice

open PyRuntime

/-- The order used by `sorted` on pairs. -/
def pairLe (a b : Int × ℚ) : Bool := decide (a.1 < b.1 ∨ (a.1 = b.1 ∧ a.2 ≤ b.2))

theorem pairLe_iff (a b : Int × ℚ) : pairLe a b = true ↔ (a.1 < b.1 ∨ (a.1 = b.1 ∧ a.2 ≤ b.2)) := by simp [pairLe]

theorem pairLe_trans (a b c : Int × ℚ) (h1 : pairLe a b = true) (h2 : pairLe b c = true) : pairLe a c = true := by
  rw [pairLe_iff] at *
  rcases h1 with h1 | ⟨h1, h1'⟩ <;> rcases h2 with h2 | ⟨h2, h2'⟩
  · left; omega
  · left; omega
  · left; omega
  · right; exact ⟨by omega, le_trans h1' h2'⟩

theorem pairLe_total (a b : Int × ℚ) : (pairLe a b || pairLe b a) = true := by
  rw [Bool.or_eq_true, pairLe_iff, pairLe_iff]
  rcases lt_trichotomy a.1 b.1 with h | h | h
  · exact Or.inl (Or.inl h)
  · rcases le_total a.2 b.2 with h' | h'
    · exact Or.inl (Or.inr ⟨h, h'⟩)
    · exact Or.inr (Or.inr ⟨h.symm, h'⟩)
  · exact Or.inr (Or.inl h)

theorem zip_map_self (xs : List Int) (f : Int → ℚ) : xs.zip (xs.map f) = xs.map (fun x => (x, f x)) := by
  induction xs with
  | nil => rfl
  | cons x xs ih => simp [ih]

/-- Sorting the plotted pairs leaves every x paired with its own y. -/
theorem sortedZip_spec (xs : List Int) (f : Int → ℚ) (hne : xs ≠ []) :
    ∃ ys : List Int, sortedZip xs (xs.map f) = .ok (ys, ys.map f) ∧ ys.Perm xs ∧ ys.Pairwise (· ≤ ·) := by
  have hperm := List.mergeSort_perm (xs.map (fun x => (x, f x))) pairLe
  have hsort := List.pairwise_mergeSort (le := pairLe) pairLe_trans pairLe_total (xs.map (fun x => (x, f x)))
  obtain ⟨s, hs⟩ : ∃ s, s = (xs.map (fun x => (x, f x))).mergeSort pairLe := ⟨_, rfl⟩
  rw [← hs] at hperm hsort
  have hf : ∀ p ∈ s, p.2 = f p.1 := by
    intro p hp
    have := hperm.mem_iff.mp hp
    rw [List.mem_map] at this
    obtain ⟨x, _, rfl⟩ := this
    rfl
  refine ⟨s.map Prod.fst, ?_, ?_, ?_⟩
  · unfold sortedZip
    simp only [zip_map_self]
    have e : (xs.map fun x => (x, f x)).mergeSort (fun a b => decide (a.1 < b.1 ∨ (a.1 = b.1 ∧ a.2 ≤ b.2))) = s := by
      rw [hs]; rfl
    rw [e, if_neg]
    · congr 2
      rw [List.map_map]
      apply List.map_congr_left
      intro p hp
      exact hf p hp
    · rw [hperm.length_eq, List.length_map]
      intro h0; exact hne (List.length_eq_zero_iff.mp h0)
  · have := hperm.map Prod.fst
    rw [List.map_map] at this
    simpa [Function.comp_def] using this
  · rw [List.pairwise_map]
    apply hsort.imp
    intro a b h
    rw [pairLe_iff] at h
    omega

theorem perm_range_eq {ys : List Int} {lo hi : Int} (hp : ys.Perm (pyRange lo hi)) (hs : ys.Pairwise (· ≤ ·)) :
    ys = pyRange lo hi :=
  hp.eq_of_pairwise (le := (· ≤ ·)) (by intro a b _ _ h1 h2; omega) hs ((pyRange_sorted _ _).imp (fun h => le_of_lt h))

theorem makeHistogram_range (xs : List Int) (f : Int → ℚ) (lo hi : Int) (hle : lo ≤ hi)
    (hxs : xs.Perm (pyRange lo (hi + 1))) :
    makeHistogram xs (xs.map f) = .ok ⟨pyRange lo (hi + 1), (pyRange lo (hi + 1)).map f,
      (pyRange lo (hi + 2)).map (fun v : Int => (v : ℚ) - 1 / 2)⟩ := by
  have hsplit : pyRange lo (hi + 1) = pyRange lo hi ++ [hi] := by
    rw [pyRange_split lo (hi + 1) hi hle (by omega)]
    simp [pyRange]
  have hsplit2 : pyRange lo (hi + 2) = pyRange lo (hi + 1) ++ [hi + 1] := by
    rw [pyRange_split lo (hi + 2) (hi + 1) (by omega) (by omega)]
    congr 2
    unfold pyRange
    have : (hi + 2 - (hi + 1 + 1)).toNat = 0 := by omega
    rw [this]; rfl
  have hne : xs ≠ [] := by
    intro h; rw [h] at hxs
    have := hxs.length_eq
    rw [hsplit] at this; simp at this
  obtain ⟨ys, e, hp, hs⟩ := sortedZip_spec xs f hne
  have hys := perm_range_eq (hp.trans hxs) hs
  subst hys
  unfold makeHistogram
  rw [e]
  simp only [bind, Except.bind]
  have hlast : (pyRange lo (hi + 1)).getLast? = some hi := by rw [hsplit]; simp
  rw [hlast]
  simp only [pure, Except.pure, Except.ok.injEq]
  rw [hsplit2, List.map_append]
  congr 2
  simp only [List.map_cons, List.map_nil, List.cons.injEq, and_true]
  push_cast; ring

section
variable [R : PyRuntime]

omit R in
theorem hist_keys_perm (h : List (Int × ℚ)) (lo hi : Int) (hd : DistinctKeys h)
    (hk : ∀ v, hasKey h v ↔ lo ≤ v ∧ v ≤ hi) : (h.map Prod.fst).Perm (pyRange lo (hi + 1)) := by
  apply (List.perm_ext_iff_of_nodup ((distinct_iff_nodup h).mp hd) (pyRange_nodup _ _)).mpr
  intro v
  rw [mem_pyRange]
  have := hk v
  unfold hasKey at this
  rw [this]; omega

theorem countOf_prob (d : Dist) (hc : d.Constructed) (v : Int) :
    (countOf d.getResultMap v : ℚ) / (d.outcomeCount : ℚ) = probOf d (fun x => decide (x = v)) := by
  rw [probOf_eq d hc, countOf_eq_wsum _ _ (distinct_getResultMap d)]
  simp only [decide_eq_true_eq]

/-- The plot data for the integers from `lo` to `hi` with heights `f`: each integer once, in increasing order, with unit bins
    around them. -/
def rangePlot (lo hi : Int) (f : Int → ℚ) : HistData :=
  ⟨pyRange lo (hi + 1), (pyRange lo (hi + 1)).map f, (pyRange lo (hi + 2)).map (fun v : Int => (v : ℚ) - 1 / 2)⟩

end

end PyDice
