import Verif.Spec.Drawn
import Verif.Lemmas.FloatDist
import Verif.Lemmas.Plot
import Mathlib.Algebra.BigOperators.Group.List.Basic
/-!
# Lemmas on the plots in floats
-/

namespace PyDice

open PyRuntime

/-- Half-integers below `2 ** 52` are doubles. -/
theorem isDouble_half {n : ℤ} (h : |n| ≤ 2 ^ 53) : IsDouble ((n : ℚ) / 2) := by
  have := isDouble_of_le h (e := -1) (by norm_num)
  have e : (n : ℚ) / 2 = (n : ℚ) * (2 : ℚ) ^ (-1 : ℤ) := by rw [zpow_neg_one]; rfl
  rwa [e]

theorem toFloat_int {v : Int} (h : |v| ≤ 2 ^ 53) : toFloat (v : ℚ) = .ok (v : ℚ) := by
  have e := toDouble_int h
  have := toFloat_eq (q := (v : ℚ)) (by
    rw [e, ← Int.cast_abs]
    have h1 : ((|v| : ℤ) : ℚ) ≤ 2 ^ 53 := by exact_mod_cast h
    refine lt_of_le_of_lt h1 ?_
    have : (2 : ℚ) ^ 53 = (2 : ℚ) ^ (53 : ℤ) := by norm_num
    rw [this]
    exact zpow_lt_zpow_right₀ (by norm_num) (by norm_num))
  rwa [e] at this

theorem shiftF_down {v : Int} (h : |v| < 2 ^ 52) : shiftF v (-(1 / 2)) = .ok ((v : ℚ) - 1 / 2) := by
  unfold shiftF
  rw [toFloat_int (by omega)]
  have : (v : ℚ) + -(1 / 2) = ((2 * v - 1 : ℤ) : ℚ) / 2 := by push_cast; ring
  show Except.ok (toDouble ((v : ℚ) + -(1 / 2))) = _
  rw [this, toDouble_exact (isDouble_half (by rw [abs_le]; rw [abs_lt] at h; omega))]
  congr 1
  push_cast; ring

theorem shiftF_up {v : Int} (h : |v| < 2 ^ 52) : shiftF v (1 / 2) = .ok ((v : ℚ) + 1 / 2) := by
  unfold shiftF
  rw [toFloat_int (by omega)]
  have : (v : ℚ) + (1 / 2) = ((2 * v + 1 : ℤ) : ℚ) / 2 := by push_cast; ring
  show Except.ok (toDouble ((v : ℚ) + (1 / 2))) = _
  rw [this, toDouble_exact (isDouble_half (by rw [abs_le]; rw [abs_lt] at h; omega))]

theorem bins_exact (xs : List Int) (h : ∀ v ∈ xs, |v| < 2 ^ 52) :
    xs.mapM (fun v => shiftF v (-(1 / 2))) = .ok (xs.map fun v : Int => (v : ℚ) - 1 / 2) := by
  induction xs with
  | nil => rfl
  | cons x xs ih =>
    rw [List.mapM_cons, shiftF_down (h x (by simp)), ih (fun v hv => h v (by simp [hv]))]
    rfl

theorem maxF_spec (l : List ℚ) (hne : l ≠ []) : ∃ m, maxF l = .ok m ∧ m ∈ l ∧ ∀ y ∈ l, y ≤ m := by
  cases l with
  | nil => exact absurd rfl hne
  | cons y ys =>
    refine ⟨_, rfl, ?_⟩
    clear hne
    induction ys generalizing y with
    | nil => simp
    | cons z zs ih =>
      rw [List.foldl_cons]
      split
      · next h =>
        obtain ⟨h1, h2⟩ := ih z
        refine ⟨List.mem_cons_of_mem _ h1, ?_⟩
        intro w hw
        rcases List.mem_cons.mp hw with rfl | hw
        · exact (h.trans_le (h2 z (by simp))).le
        · exact h2 w hw
      · next h =>
        obtain ⟨h1, h2⟩ := ih y
        refine ⟨?_, ?_⟩
        · rcases List.mem_cons.mp h1 with h1 | h1
          · rw [h1]; simp
          · simp [h1]
        · intro w hw
          rcases List.mem_cons.mp hw with rfl | hw
          · exact h2 w (by simp)
          · rcases List.mem_cons.mp hw with rfl | hw
            · exact (not_lt.mp h).trans (h2 y (by simp))
            · exact h2 w (by simp [hw])

/-- The data of a histogram with exact bins. -/
def exactHist (ys : List Int) (f : Int → ℚ) (hne : ys ≠ []) : HistData :=
  ⟨ys, ys.map f, ys.map (fun v : Int => (v : ℚ) - 1 / 2) ++ [((ys.getLast hne : Int) : ℚ) + 1 / 2]⟩

theorem makeHistogramF_spec (xs : List Int) (f : Int → ℚ) (hne : xs ≠ []) (h : ∀ v ∈ xs, |v| < 2 ^ 52) (avg : Option ℚ) :
    ∃ (ys : List Int) (hn : ys ≠ []) (p : Picture), ys.Perm xs ∧ ys.Pairwise (· ≤ ·) ∧ makeHistogramF xs (xs.map f) avg = .ok p ∧
      p.hist = exactHist ys f hn ∧ (∀ a, avg = some a → LineIs p.line a (ys.map f)) ∧ (avg = none → p.line = none) := by
  obtain ⟨ys, e, hp, hs⟩ := sortedZip_spec xs f hne
  have hn : ys ≠ [] := by
    intro h0; rw [h0] at hp
    exact hne (List.length_eq_zero_iff.mp hp.length_eq.symm)
  have hb := bins_exact ys (fun v hv => h v (hp.mem_iff.mp hv))
  have ht := shiftF_up (h _ (hp.mem_iff.mp (List.getLast_mem hn)))
  obtain ⟨m, hm, hm1, hm2⟩ := maxF_spec (ys.map f) (by simpa using hn)
  cases avg with
  | none =>
    refine ⟨ys, hn, ⟨exactHist ys f hn, none⟩, hp, hs, ?_, rfl, (by intro a ha; cases ha), fun _ => rfl⟩
    unfold makeHistogramF
    rw [e]
    simp only [bind, Except.bind]
    rw [hb]
    simp only []
    rw [List.getLast?_eq_some_getLast hn]
    simp only []
    rw [ht]
    rfl
  | some a =>
    refine ⟨ys, hn, ⟨exactHist ys f hn, some ([a, a], [0, toDouble (m * toDouble (11 / 10))])⟩, hp, hs, ?_, rfl, ?_,
      (by intro h; cases h)⟩
    · unfold makeHistogramF
      rw [e]
      simp only [bind, Except.bind]
      rw [hb]
      simp only []
      rw [List.getLast?_eq_some_getLast hn]
      simp only []
      rw [ht]
      simp only []
      rw [hm]
      rfl
    · intro b hb
      cases hb
      exact ⟨m, _, _, hm1, hm2, toDouble_rounds _, toDouble_rounds _, rfl⟩

theorem half_le (x y : Int) : ((x : ℚ) - 1 / 2 ≤ (y : ℚ)) ↔ x ≤ y := by
  constructor
  · intro h
    by_contra hc
    have : (y : ℚ) + 1 ≤ x := by exact_mod_cast (by omega : y + 1 ≤ x)
    linarith
  · intro h
    have : (x : ℚ) ≤ y := by exact_mod_cast h
    linarith

theorem lt_half (x y : Int) : ((y : ℚ) < (x : ℚ) - 1 / 2) ↔ y < x := by
  constructor
  · intro h
    have : (y : ℚ) < x := by linarith
    exact_mod_cast this
  · intro h
    have : (y : ℚ) + 1 ≤ x := by exact_mod_cast (by omega : y + 1 ≤ x)
    linarith

theorem ne_half (x y : Int) : (y : ℚ) ≠ (x : ℚ) - 1 / 2 := by
  intro h
  have h1 := (half_le x y).mp h.ge
  have : (x : ℚ) ≤ y := by exact_mod_cast h1
  linarith

theorem sum_copies (l : List Int) (f : Int → ℚ) (v : Int) :
    ((l.filter (fun x => decide (x = v))).map f).sum = (l.count v : ℚ) * f v := by
  induction l with
  | nil => simp
  | cons x l ih =>
    by_cases h : x = v
    · subst h
      simp [ih]; ring
    · simp [h, ih]

/-- The bar that begins at the entry with number `i`: its height counts every copy of the entry, unless the next entry is another
    copy; then it has no width and no height. -/
theorem exactHist_bar (ys : List Int) (f : Int → ℚ) (hne : ys ≠ []) (hs : ys.Pairwise (· ≤ ·)) (i : Nat) (hi : i < ys.length) :
    BarIs (exactHist ys f hne) i ((ys[i] : ℚ) - 1 / 2)
      (if h : i + 1 < ys.length then (ys[i + 1] : ℚ) - 1 / 2 else (ys[i] : ℚ) + 1 / 2)
      (if ys[i + 1]? = some ys[i] then 0 else (ys.count ys[i] : ℚ) * f ys[i]) := by
  have hsort : ∀ (a b : Nat) (ha : a < ys.length) (hb : b < ys.length), a ≤ b → ys[a] ≤ ys[b] := by
    intro a b ha hb hab
    rcases Nat.lt_or_eq_of_le hab with h | h
    · exact List.pairwise_iff_getElem.mp hs a b ha hb h
    · subst h; exact le_refl _
  -- the right edge is a half-integer above some integer `w`
  obtain ⟨w, hw1, hw2⟩ : ∃ w : Int, (if h : i + 1 < ys.length then (ys[i + 1] : ℚ) - 1 / 2 else (ys[i] : ℚ) + 1 / 2) = (w : ℚ) - 1 / 2 ∧
      ∀ x ∈ ys, (ys[i] ≤ x ∧ x < w) ↔ (x = ys[i] ∧ ys[i + 1]? ≠ some ys[i]) := by
    by_cases h : i + 1 < ys.length
    · refine ⟨ys[i + 1], by rw [dif_pos h], ?_⟩
      intro x hx
      rw [List.getElem?_eq_getElem h]
      simp only [ne_eq, Option.some.injEq]
      obtain ⟨j, hj, rfl⟩ := List.getElem_of_mem hx
      have h1 := hsort i (i + 1) hi h (by omega)
      constructor
      · rintro ⟨h2, h3⟩
        have : j ≤ i := by
          by_contra hc
          exact absurd (hsort (i + 1) j h hj (by omega)) (not_le.mpr h3)
        have := hsort j i hj hi this
        exact ⟨le_antisymm this h2, by omega⟩
      · rintro ⟨h2, h3⟩
        rw [h2]
        exact ⟨le_refl _, by omega⟩
    · refine ⟨ys[i] + 1, by rw [dif_neg h]; push_cast; ring, ?_⟩
      intro x hx
      rw [List.getElem?_eq_none (by omega)]
      simp only [ne_eq, reduceCtorEq, not_false_eq_true, and_true]
      omega
  have hlen : (ys.map (fun v : Int => (v : ℚ) - 1 / 2)).length = ys.length := by simp
  refine ⟨?_, ?_, ?_⟩
  · show (ys.map (fun v : Int => (v : ℚ) - 1 / 2) ++ _)[i]? = _
    rw [List.getElem?_append_left (by omega), List.getElem?_map, List.getElem?_eq_getElem hi]
    rfl
  · show (ys.map (fun v : Int => (v : ℚ) - 1 / 2) ++ [((ys.getLast hne : Int) : ℚ) + 1 / 2])[i + 1]? = _
    by_cases h : i + 1 < ys.length
    · rw [List.getElem?_append_left (by omega), List.getElem?_map, List.getElem?_eq_getElem h, dif_pos h]
      rfl
    · rw [List.getElem?_append_right (by omega), hlen, dif_neg h]
      have e1 : i + 1 - ys.length = 0 := by omega
      have e2 : ys.getLast hne = ys[i] := by rw [List.getLast_eq_getElem]; congr 1; omega
      rw [e1, e2]; rfl
  · rw [hw1]
    show _ = (((ys.zip (ys.map f)).filter _).map Prod.snd).sum
    rw [zip_map_self, List.filter_map, List.map_map]
    have e : ∀ P : Int → Bool, (∀ x ∈ ys, P x = (decide (x = ys[i]) && decide (ys[i + 1]? ≠ some ys[i]))) →
        (if ys[i + 1]? = some ys[i] then (0 : ℚ) else (ys.count ys[i] : ℚ) * f ys[i]) = ((ys.filter P).map f).sum := by
      intro P hP
      rw [List.filter_congr hP]
      by_cases h : ys[i + 1]? = some ys[i]
      · rw [if_pos h]
        simp [h]
      · rw [if_neg h, ← sum_copies]
        simp [h]
    refine e _ ?_
    intro x hx
    rw [← Bool.decide_and, Function.comp, decide_eq_decide]
    simp only
    rw [half_le, lt_half, ← hw2 x hx]
    constructor
    · rintro ⟨h1, h2 | h2⟩
      · exact ⟨h1, h2⟩
      · exact absurd h2.2 (ne_half _ _)
    · rintro ⟨h1, h2⟩
      exact ⟨h1, Or.inl h2⟩

theorem last_index (ys : List Int) (v : Int) (hv : v ∈ ys) : ∃ (i : Nat) (h : i < ys.length), ys[i] = v ∧ ys[i + 1]? ≠ some v := by
  induction ys with
  | nil => cases hv
  | cons x t ih =>
    by_cases ht : v ∈ t
    · obtain ⟨i, h, h1, h2⟩ := ih ht
      exact ⟨i + 1, by simp only [List.length_cons]; omega, h1, h2⟩
    · have hx : v = x := by simpa [ht] using hv
      refine ⟨0, by simp, hx.symm, ?_⟩
      intro h
      simp only [zero_add, List.getElem?_cons_succ] at h
      exact ht (List.mem_of_getElem? h)

theorem barIs_unique {p : HistData} {i : Nat} {a b h a' b' h' : ℚ} (h1 : BarIs p i a b h) (h2 : BarIs p i a' b' h') :
    a = a' ∧ b = b' ∧ h = h' := by
  obtain ⟨x1, x2, x3⟩ := h1
  obtain ⟨y1, y2, y3⟩ := h2
  rw [x1] at y1; rw [x2] at y2
  cases y1; cases y2
  exact ⟨rfl, rfl, x3.trans y3.symm⟩

theorem exactHist_value (ys : List Int) (f : Int → ℚ) (hne : ys ≠ []) (hs : ys.Pairwise (· ≤ ·)) (v : Int) (hv : v ∈ ys) :
    ∃ i b, BarIs (exactHist ys f hne) i ((v : ℚ) - 1 / 2) b ((ys.count v : ℚ) * f v) ∧
      ((∃ w ∈ ys, v < w ∧ (∀ u ∈ ys, v < u → w ≤ u) ∧ b = (w : ℚ) - 1 / 2) ∨ ((∀ u ∈ ys, u ≤ v) ∧ b = (v : ℚ) + 1 / 2)) := by
  obtain ⟨i, hi, h1, h2⟩ := last_index ys v hv
  have hsort : ∀ (a b : Nat) (ha : a < ys.length) (hb : b < ys.length), a ≤ b → ys[a] ≤ ys[b] := by
    intro a b ha hb hab
    rcases Nat.lt_or_eq_of_le hab with h | h
    · exact List.pairwise_iff_getElem.mp hs a b ha hb h
    · subst h; exact le_refl _
  have hb := exactHist_bar ys f hne hs i hi
  rw [h1, if_neg h2] at hb
  refine ⟨i, _, hb, ?_⟩
  by_cases h : i + 1 < ys.length
  · left
    rw [List.getElem?_eq_getElem h] at h2
    have h3 := hsort i (i + 1) hi h (by omega)
    have h4 : ys[i + 1] ≠ v := fun h => h2 (by rw [h])
    refine ⟨ys[i + 1], List.getElem_mem h, by omega, ?_, by rw [dif_pos h]⟩
    intro u hu hvu
    obtain ⟨j, hj, rfl⟩ := List.getElem_of_mem hu
    refine hsort _ _ h hj ?_
    by_contra hc
    have := hsort j i hj hi (by omega)
    omega
  · right
    refine ⟨?_, by rw [dif_neg h]⟩
    intro u hu
    obtain ⟨j, hj, rfl⟩ := List.getElem_of_mem hu
    have := hsort j i hj hi (by omega)
    omega

theorem exactHist_all (ys : List Int) (f : Int → ℚ) (hne : ys ≠ []) (hs : ys.Pairwise (· ≤ ·)) (i : Nat) (a b h : ℚ)
    (hb : BarIs (exactHist ys f hne) i a b h) : (∃ v ∈ ys, a = (v : ℚ) - 1 / 2) ∧ (a < b ∨ (a = b ∧ h = 0)) := by
  have hi : i < ys.length := by
    have := hb.2.1
    have h1 : i + 1 < (exactHist ys f hne).bins.length := by
      by_contra hc
      rw [List.getElem?_eq_none (by omega)] at this
      cases this
    simp only [exactHist, List.length_append, List.length_map, List.length_singleton] at h1
    omega
  obtain ⟨e1, e2, e3⟩ := barIs_unique hb (exactHist_bar ys f hne hs i hi)
  refine ⟨⟨ys[i], List.getElem_mem hi, e1⟩, ?_⟩
  rw [e1, e2, e3]
  by_cases h : i + 1 < ys.length
  · rw [dif_pos h, List.getElem?_eq_getElem h]
    have h3 : ys[i] ≤ ys[i + 1] := List.pairwise_iff_getElem.mp hs i (i + 1) hi h (by omega)
    rcases lt_or_eq_of_le h3 with h4 | h4
    · left
      have : (ys[i] : ℚ) < (ys[i + 1] : ℚ) := by exact_mod_cast h4
      linarith
    · right
      rw [← h4]
      simp
  · left
    rw [dif_neg h]
    linarith

theorem exactHist_range (lo hi : Int) (f : Int → ℚ) (hle : lo ≤ hi) (hne : pyRange lo (hi + 1) ≠ []) :
    ShowsRange (exactHist (pyRange lo (hi + 1)) f hne) lo hi f := by
  have hlen : (pyRange lo (hi + 1)).length = (hi + 1 - lo).toNat := pyRange_length _ _
  constructor
  · show ((List.map _ _ ++ [_]).length : Int) = _
    simp only [List.length_append, List.length_map, List.length_singleton, hlen]
    omega
  · intro v h1 h2
    have hget : ∀ (u : Int) (a : lo ≤ u) (b : u ≤ hi), (pyRange lo (hi + 1))[(u - lo).toNat]? = some u := by
      intro u a b
      unfold pyRange
      rw [List.getElem?_map, List.getElem?_range (by omega)]
      simp only [Option.map_some]
      congr 1; omega
    have hi' : (v - lo).toNat < (pyRange lo (hi + 1)).length := by omega
    have hv : (pyRange lo (hi + 1))[(v - lo).toNat] = v := by
      have := hget v h1 h2
      rw [List.getElem?_eq_getElem hi'] at this
      exact Option.some.inj this
    have := exactHist_bar (pyRange lo (hi + 1)) f hne ((pyRange_sorted _ _).imp le_of_lt) (v - lo).toNat hi'
    rw [hv] at this
    have hc : (pyRange lo (hi + 1)).count v = 1 :=
      List.count_eq_one_of_mem (pyRange_nodup _ _) (by rw [mem_pyRange]; omega)
    have e1 : (if h : (v - lo).toNat + 1 < (pyRange lo (hi + 1)).length then
        ((pyRange lo (hi + 1))[(v - lo).toNat + 1] : ℚ) - 1 / 2 else (v : ℚ) + 1 / 2) = (v : ℚ) + 1 / 2 := by
      split
      · next h =>
        have h3 : (v - lo).toNat + 1 = (v + 1 - lo).toNat := by omega
        have h4 := hget (v + 1) (by omega) (by omega)
        rw [← h3, List.getElem?_eq_getElem h] at h4
        rw [Option.some.inj h4]
        push_cast; ring
      · rfl
    have e2 : ¬ (pyRange lo (hi + 1))[(v - lo).toNat + 1]? = some v := by
      have h3 : (v - lo).toNat + 1 = (v + 1 - lo).toNat := by omega
      by_cases h : v + 1 ≤ hi
      · rw [h3, hget (v + 1) (by omega) h]
        simp
      · rw [List.getElem?_eq_none (by omega)]; simp
    rw [e1, if_neg e2, hc] at this
    simpa using this

end PyDice
