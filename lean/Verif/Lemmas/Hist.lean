import Verif.Lemmas.Dist
import Mathlib.Algebra.BigOperators.Ring.List
import Mathlib.Tactic.FieldSimp
import Mathlib.Tactic.Ring
import Mathlib.Tactic.Positivity
/-!
# Lemmas: max/min, dict form, histogram form, running sums
-/

namespace PyDice

theorem foldl_max_spec (l : List Int) : ∀ x : Int, let m := l.foldl (fun m y => if y > m then y else m) x
    (m = x ∨ m ∈ l) ∧ x ≤ m ∧ ∀ y ∈ l, y ≤ m := by
  induction l with
  | nil => intro x; simp
  | cons z l ih =>
    intro x
    simp only [List.foldl_cons]
    obtain ⟨h1, h2, h3⟩ := ih (if z > x then z else x)
    refine ⟨?_, ?_, ?_⟩
    · rcases h1 with h1 | h1
      · rw [h1]; split
        · right; simp
        · left; rfl
      · right; exact List.mem_cons_of_mem _ h1
    · refine le_trans ?_ h2
      split <;> omega
    · intro y hy
      rcases List.mem_cons.mp hy with rfl | hy
      · refine le_trans ?_ h2
        split <;> omega
      · exact h3 y hy

theorem foldl_min_spec (l : List Int) : ∀ x : Int, let m := l.foldl (fun m y => if y < m then y else m) x
    (m = x ∨ m ∈ l) ∧ m ≤ x ∧ ∀ y ∈ l, m ≤ y := by
  induction l with
  | nil => intro x; simp
  | cons z l ih =>
    intro x
    simp only [List.foldl_cons]
    obtain ⟨h1, h2, h3⟩ := ih (if z < x then z else x)
    refine ⟨?_, ?_, ?_⟩
    · rcases h1 with h1 | h1
      · rw [h1]; split
        · right; simp
        · left; rfl
      · right; exact List.mem_cons_of_mem _ h1
    · refine le_trans h2 ?_
      split <;> omega
    · intro y hy
      rcases List.mem_cons.mp hy with rfl | hy
      · refine le_trans h2 ?_
        split <;> omega
      · exact h3 y hy

theorem listMax_spec (l : List Int) (v : Int) : listMax l = .ok v ↔ v ∈ l ∧ ∀ y ∈ l, y ≤ v := by
  cases l with
  | nil => simp [listMax]
  | cons x l =>
    obtain ⟨h1, h2, h3⟩ := foldl_max_spec l x
    simp only [listMax, Except.ok.injEq]
    constructor
    · rintro rfl
      refine ⟨?_, ?_⟩
      · rcases h1 with h1 | h1
        · rw [h1]; simp
        · exact List.mem_cons_of_mem _ h1
      · intro y hy
        rcases List.mem_cons.mp hy with rfl | hy
        · exact h2
        · exact h3 y hy
    · rintro ⟨h4, h5⟩
      apply le_antisymm
      · rcases h1 with h1 | h1
        · rw [h1]; exact h5 x (by simp)
        · exact h5 _ (List.mem_cons_of_mem _ h1)
      · rcases List.mem_cons.mp h4 with rfl | h4
        · exact h2
        · exact h3 v h4

theorem listMin_spec (l : List Int) (v : Int) : listMin l = .ok v ↔ v ∈ l ∧ ∀ y ∈ l, v ≤ y := by
  cases l with
  | nil => simp [listMin]
  | cons x l =>
    obtain ⟨h1, h2, h3⟩ := foldl_min_spec l x
    simp only [listMin, Except.ok.injEq]
    constructor
    · rintro rfl
      refine ⟨?_, ?_⟩
      · rcases h1 with h1 | h1
        · rw [h1]; simp
        · exact List.mem_cons_of_mem _ h1
      · intro y hy
        rcases List.mem_cons.mp hy with rfl | hy
        · exact h2
        · exact h3 y hy
    · rintro ⟨h4, h5⟩
      apply le_antisymm
      · rcases List.mem_cons.mp h4 with rfl | h4
        · exact h2
        · exact h3 v h4
      · rcases h1 with h1 | h1
        · rw [h1]; exact h5 x (by simp)
        · exact h5 _ (List.mem_cons_of_mem _ h1)

theorem listMax_nonempty {l : List Int} (h : l ≠ []) : ∃ v, listMax l = .ok v := by
  cases l with
  | nil => exact absurd rfl h
  | cons x l => exact ⟨_, rfl⟩

theorem listMin_nonempty {l : List Int} (h : l ≠ []) : ∃ v, listMin l = .ok v := by
  cases l with
  | nil => exact absurd rfl h
  | cons x l => exact ⟨_, rfl⟩

/-! ### range -/

theorem mem_pyRange (lo hi v : Int) : v ∈ pyRange lo hi ↔ lo ≤ v ∧ v < hi := by
  unfold pyRange
  rw [List.mem_map]
  constructor
  · rintro ⟨i, hi', rfl⟩
    rw [List.mem_range] at hi'
    omega
  · rintro ⟨h1, h2⟩
    exact ⟨(v - lo).toNat, by rw [List.mem_range]; omega, by omega⟩

theorem pyRange_sorted (lo hi : Int) : (pyRange lo hi).Pairwise (· < ·) := by
  unfold pyRange
  rw [List.pairwise_map]
  apply List.Pairwise.imp _ List.pairwise_lt_range
  intro a b h; omega

theorem pyRange_nodup (lo hi : Int) : (pyRange lo hi).Nodup :=
  (pyRange_sorted lo hi).imp (fun h => ne_of_lt h)

theorem sum_ind_eq_count {α : Type} [DecidableEq α] (l : List α) (x : α) :
    (l.map (fun u => if x = u then (1 : Nat) else 0)).sum = l.count x := by
  induction l with
  | nil => rfl
  | cons y l ih =>
    simp only [List.map_cons, List.sum_cons, ih, List.count_cons]
    by_cases h : x = y
    · subst h; simp [add_comm]
    · have h' : ¬ y = x := fun h' => h h'.symm
      simp [h, h']

theorem sum_ind_pyRange (lo hi x : Int) :
    ((pyRange lo hi).map (fun u => if x = u then (1 : Nat) else 0)).sum = if lo ≤ x ∧ x < hi then 1 else 0 := by
  rw [sum_ind_eq_count]
  by_cases h : lo ≤ x ∧ x < hi
  · rw [if_pos h, List.count_eq_one_of_mem (pyRange_nodup lo hi) ((mem_pyRange _ _ _).mpr h)]
  · rw [if_neg h, List.count_eq_zero_of_not_mem (fun h' => h ((mem_pyRange _ _ _).mp h'))]

theorem pyRange_split (lo hi v : Int) (h1 : lo ≤ v) (h2 : v < hi) :
    pyRange lo hi = pyRange lo v ++ v :: pyRange (v + 1) hi := by
  have hp : (pyRange lo hi).Perm (pyRange lo v ++ v :: pyRange (v + 1) hi) := by
    apply (List.perm_ext_iff_of_nodup (pyRange_nodup _ _) _).mpr
    · intro a
      simp only [List.mem_append, List.mem_cons, mem_pyRange]
      omega
    · rw [List.nodup_append]
      refine ⟨pyRange_nodup _ _, ?_, ?_⟩
      · rw [List.nodup_cons]
        exact ⟨by rw [mem_pyRange]; omega, pyRange_nodup _ _⟩
      · intro a ha b hb
        rw [mem_pyRange] at ha
        rcases List.mem_cons.mp hb with rfl | hb
        · omega
        · rw [mem_pyRange] at hb; omega
  apply hp.eq_of_pairwise (le := (· < ·)) (by intro a b _ _ h1 h2; omega) (pyRange_sorted _ _)
  rw [List.pairwise_append]
  refine ⟨pyRange_sorted _ _, ?_, ?_⟩
  · rw [List.pairwise_cons]
    exact ⟨fun a ha => by rw [mem_pyRange] at ha; omega, pyRange_sorted _ _⟩
  · intro a ha b hb
    rw [mem_pyRange] at ha
    rcases List.mem_cons.mp hb with rfl | hb
    · omega
    · rw [mem_pyRange] at hb; omega

/-! ### item assignment -/

theorem dictGet_dictSet {ν : Type} (d : List (Int × ν)) (k v : Int) (x : ν) :
    dictGet? (dictSet d k x) v = if v = k then some x else dictGet? d v := by
  induction d with
  | nil =>
    simp only [dictSet, dictGet?]
    by_cases h : k = v
    · subst h; simp
    · have h' : ¬ v = k := fun h' => h h'.symm
      simp [h, h']
  | cons p d ih =>
    obtain ⟨k', y⟩ := p
    unfold dictSet
    by_cases hk : k' = k
    · simp only [hk, beq_self_eq_true, if_true, dictGet?]
      by_cases h : v = k
      · simp [h]
      · have h' : ¬ k = v := fun h' => h h'.symm
        simp [h, h']
    · simp only [beq_iff_eq, hk, if_false, dictGet?]
      by_cases hv : k' = v
      · have : ¬ v = k := by rw [← hv]; exact hk
        simp [hv, this]
      · simp only [hv, if_false]; exact ih

theorem dictSet_append {ν : Type} (d : List (Int × ν)) (k : Int) (x : ν) (h : ¬ hasKey d k) :
    dictSet d k x = d ++ [(k, x)] := by
  induction d with
  | nil => rfl
  | cons p d ih =>
    obtain ⟨k', y⟩ := p
    unfold hasKey at h ih
    simp only [List.map_cons, List.mem_cons, not_or] at h
    have hk : ¬ k' = k := fun h' => h.1 h'.symm
    simp only [dictSet, beq_iff_eq, hk, if_false, ih h.2, List.cons_append]

theorem keys_dictSet {ν : Type} (d : List (Int × ν)) (k : Int) (x : ν) (v : Int) :
    hasKey (dictSet d k x) v ↔ v = k ∨ hasKey d v := by
  rw [← dictGet_isSome, ← dictGet_isSome, dictGet_dictSet]
  by_cases h : v = k <;> simp [h]

theorem distinct_dictSet {ν : Type} (d : List (Int × ν)) (k : Int) (x : ν) (h : DistinctKeys d) :
    DistinctKeys (dictSet d k x) := by
  by_cases hk : hasKey d k
  · have hkeys : (dictSet d k x).map Prod.fst = d.map Prod.fst := by
      clear h
      induction d with
      | nil => simp [hasKey] at hk
      | cons p d ih =>
        obtain ⟨k', y⟩ := p
        unfold dictSet
        by_cases hkk : k' = k
        · simp [hkk]
        · have hkk' : ¬ k = k' := fun h => hkk h.symm
          simp only [beq_iff_eq, hkk, if_false, List.map_cons]
          rw [ih]
          unfold hasKey at hk ⊢
          simpa [hkk'] using hk
    rw [distinct_iff_nodup] at h ⊢
    rw [hkeys]; exact h
  · rw [dictSet_append _ _ _ hk, distinct_iff_nodup] at *
    rw [List.map_append, List.nodup_append]
    refine ⟨h, by simp, ?_⟩
    intro a ha b hb hab
    simp at hb
    subst hab; subst hb
    exact hk ha

/-! ### histogram form -/

theorem fill_spec (range : List Int) : ∀ base : List (Int × ℚ), DistinctKeys base →
    let h := range.foldl (fun d i => if (dictGet? d i).isSome then d else dictSet d i 0) base
    DistinctKeys h ∧ (∀ v, hasKey h v ↔ hasKey base v ∨ v ∈ range) ∧
      (∀ v, (dictGet? h v).getD 0 = (dictGet? base v).getD 0) := by
  induction range with
  | nil => intro base hb; simpa using hb
  | cons i range ih =>
    intro base hb
    simp only [List.foldl_cons]
    by_cases hi : (dictGet? base i).isSome = true
    · simp only [hi, if_true]
      obtain ⟨h1, h2, h3⟩ := ih base hb
      refine ⟨h1, ?_, h3⟩
      intro v
      rw [h2 v, List.mem_cons]
      constructor
      · rintro (h | h)
        · exact Or.inl h
        · exact Or.inr (Or.inr h)
      · rintro (h | rfl | h)
        · exact Or.inl h
        · exact Or.inl ((dictGet_isSome _ _).mp hi)
        · exact Or.inr h
    · simp only [hi]
      obtain ⟨h1, h2, h3⟩ := ih (dictSet base i 0) (distinct_dictSet _ _ _ hb)
      refine ⟨h1, ?_, ?_⟩
      · intro v
        have h2v := h2 v
        simp only [Bool.false_eq_true, if_false] at h2v ⊢
        rw [h2v, keys_dictSet, List.mem_cons]
        constructor
        · rintro ((h | h) | h)
          · exact Or.inr (Or.inl h)
          · exact Or.inl h
          · exact Or.inr (Or.inr h)
        · rintro (h | h | h)
          · exact Or.inl (Or.inr h)
          · exact Or.inl (Or.inl h)
          · exact Or.inr h
      · intro v
        have h3v := h3 v
        simp only [Bool.false_eq_true, if_false] at h3v ⊢
        rw [h3v, dictGet_dictSet]
        by_cases hv : v = i
        · subst hv
          cases hd : dictGet? base v with
          | none => simp
          | some => rw [hd] at hi; simp at hi
        · simp [hv]

theorem sorted_head_last (l : List (Int × ℚ)) (hs : l.Pairwise (fun a b => a.1 ≤ b.1)) (lo hi : Int × ℚ)
    (h1 : l.head? = some lo) (h2 : l.getLast? = some hi) :
    lo ∈ l ∧ hi ∈ l ∧ ∀ p ∈ l, lo.1 ≤ p.1 ∧ p.1 ≤ hi.1 := by
  refine ⟨List.mem_of_mem_head? h1, List.mem_of_mem_getLast? h2, ?_⟩
  intro p hp
  constructor
  · cases l with
    | nil => simp at h1
    | cons x l =>
      simp at h1; subst h1
      rw [List.pairwise_cons] at hs
      rcases List.mem_cons.mp hp with rfl | hp
      · exact le_refl _
      · exact hs.1 p hp
  · obtain ⟨init, hl⟩ : ∃ init, l = init ++ [hi] := by
      have hne : l ≠ [] := List.ne_nil_of_mem hp
      refine ⟨l.dropLast, ?_⟩
      have := List.dropLast_append_getLast hne
      rw [List.getLast?_eq_some_getLast hne] at h2
      injection h2 with h2
      rw [← h2]; exact this.symm
    rw [hl] at hs hp
    rw [List.pairwise_append] at hs
    rcases List.mem_append.mp hp with hp | hp
    · exact hs.2.2 p hp hi (by simp)
    · simp at hp; rw [hp]

theorem getHistogramForm_spec (base : List (Int × ℚ)) (hb : DistinctKeys base) (hne : base ≠ []) :
    ∃ h lo hi, getHistogramForm base = .ok h ∧ hasKey base lo ∧ hasKey base hi ∧
      (∀ v, hasKey base v → lo ≤ v ∧ v ≤ hi) ∧ DistinctKeys h ∧ (∀ v, hasKey h v ↔ lo ≤ v ∧ v ≤ hi) ∧
      (∀ v, (dictGet? h v).getD 0 = (dictGet? base v).getD 0) := by
  have hperm := List.mergeSort_perm base (fun a b => decide (a.1 ≤ b.1))
  have hsort : (base.mergeSort (fun a b => decide (a.1 ≤ b.1))).Pairwise (fun a b => a.1 ≤ b.1) := by
    have := List.pairwise_mergeSort (le := fun (a b : Int × ℚ) => decide (a.1 ≤ b.1))
      (by intro a b c; simp only [decide_eq_true_eq]; omega)
      (by intro a b; simp only [Bool.or_eq_true, decide_eq_true_eq]; omega) base
    exact this.imp (fun h => by simpa using h)
  have hne' : base.mergeSort (fun a b => decide (a.1 ≤ b.1)) ≠ [] := by
    intro h0
    have := hperm.length_eq
    rw [h0] at this
    exact hne (List.length_eq_zero_iff.mp this.symm)
  obtain ⟨lo, hlo⟩ : ∃ x, (base.mergeSort (fun a b => decide (a.1 ≤ b.1))).head? = some x :=
    ⟨_, List.head?_eq_some_head hne'⟩
  obtain ⟨hi, hhi⟩ : ∃ x, (base.mergeSort (fun a b => decide (a.1 ≤ b.1))).getLast? = some x :=
    ⟨_, List.getLast?_eq_some_getLast hne'⟩
  obtain ⟨h1, h2, h3⟩ := sorted_head_last _ hsort lo hi hlo hhi
  obtain ⟨f1, f2, f3⟩ := fill_spec (pyRange lo.1 (hi.1 + 1)) base hb
  have hbound : ∀ v, hasKey base v → lo.1 ≤ v ∧ v ≤ hi.1 := by
    intro v hv
    rw [hasKey_iff] at hv
    obtain ⟨p, hp, rfl⟩ := hv
    exact h3 p (hperm.mem_iff.mpr hp)
  refine ⟨_, lo.1, hi.1, by unfold getHistogramForm; simp only [hlo, hhi], ?_, ?_, hbound, f1, ?_, f3⟩
  · rw [hasKey_iff]; exact ⟨lo, hperm.mem_iff.mp h1, rfl⟩
  · rw [hasKey_iff]; exact ⟨hi, hperm.mem_iff.mp h2, rfl⟩
  · intro v
    rw [f2 v, mem_pyRange]
    constructor
    · rintro (h | h)
      · exact hbound v h
      · omega
    · intro h; right; omega

theorem sorted_keys_eq (h : List (Int × ℚ)) (lo hi : Int) (hd : DistinctKeys h)
    (hk : ∀ v, hasKey h v ↔ lo ≤ v ∧ v ≤ hi) :
    (h.map Prod.fst).mergeSort (fun a b => decide (a ≤ b)) = pyRange lo (hi + 1) := by
  have hperm := List.mergeSort_perm (h.map Prod.fst) (fun a b => decide (a ≤ b))
  have hsort : ((h.map Prod.fst).mergeSort (fun a b => decide (a ≤ b))).Pairwise (fun a b => a ≤ b) := by
    have := List.pairwise_mergeSort (le := fun (a b : Int) => decide (a ≤ b))
      (by intro a b c; simp only [decide_eq_true_eq]; omega)
      (by intro a b; simp only [Bool.or_eq_true, decide_eq_true_eq]; omega) (h.map Prod.fst)
    exact this.imp (fun h => by simpa using h)
  have hp2 : (h.map Prod.fst).Perm (pyRange lo (hi + 1)) := by
    apply (List.perm_ext_iff_of_nodup ((distinct_iff_nodup h).mp hd) (pyRange_nodup _ _)).mpr
    intro v
    rw [mem_pyRange]
    have := hk v
    unfold hasKey at this
    rw [this]; omega
  apply (hperm.trans hp2).eq_of_pairwise (le := (· ≤ ·)) (by intro a b _ _ h1 h2; omega) hsort
  exact (pyRange_sorted _ _).imp (fun h => le_of_lt h)

/-- The items listed by `at_least` for the sorted keys. -/
def scanDown (h : Int → ℚ) : List Int → ℚ → List (Int × ℚ)
  | [], _ => []
  | v :: rest, above => (v, above) :: scanDown h rest (above - h v)

/-- The items listed by `at_most` for the sorted keys. -/
def scanUp (h : Int → ℚ) : List Int → ℚ → List (Int × ℚ)
  | [], _ => []
  | v :: rest, below => (v, below + h v) :: scanUp h rest (below + h v)

theorem scanDown_keys (h : Int → ℚ) (l : List Int) : ∀ a, (scanDown h l a).map Prod.fst = l := by
  induction l with
  | nil => intro a; rfl
  | cons v l ih => intro a; simp [scanDown, ih]

theorem scanUp_keys (h : Int → ℚ) (l : List Int) : ∀ a, (scanUp h l a).map Prod.fst = l := by
  induction l with
  | nil => intro a; rfl
  | cons v l ih => intro a; simp [scanUp, ih]

theorem atLeastLoop_eq (h : List (Int × ℚ)) (l : List Int) : ∀ (a : ℚ) (acc : List (Int × ℚ)), l.Nodup →
    (∀ v ∈ l, ¬ hasKey acc v) →
    atLeastLoop h l a acc = acc ++ scanDown (fun v => (dictGet? h v).getD 0) l a := by
  induction l with
  | nil => intro a acc _ _; simp [atLeastLoop, scanDown]
  | cons v l ih =>
    intro a acc hnd hacc
    rw [List.nodup_cons] at hnd
    unfold atLeastLoop scanDown
    rw [dictSet_append _ _ _ (hacc v (by simp)), ih _ _ hnd.2]
    · simp
    · intro u hu hk
      unfold hasKey at hk
      rw [List.map_append, List.mem_append] at hk
      rcases hk with hk | hk
      · exact hacc u (by simp [hu]) hk
      · simp at hk; subst hk; exact hnd.1 hu

theorem atMostLoop_eq (h : List (Int × ℚ)) (l : List Int) : ∀ (a : ℚ) (acc : List (Int × ℚ)), l.Nodup →
    (∀ v ∈ l, ¬ hasKey acc v) →
    atMostLoop h l a acc = acc ++ scanUp (fun v => (dictGet? h v).getD 0) l a := by
  induction l with
  | nil => intro a acc _ _; simp [atMostLoop, scanUp]
  | cons v l ih =>
    intro a acc hnd hacc
    rw [List.nodup_cons] at hnd
    unfold atMostLoop scanUp
    simp only
    rw [dictSet_append _ _ _ (hacc v (by simp)), ih _ _ hnd.2]
    · simp
    · intro u hu hk
      unfold hasKey at hk
      rw [List.map_append, List.mem_append] at hk
      rcases hk with hk | hk
      · exact hacc u (by simp [hu]) hk
      · simp at hk; subst hk; exact hnd.1 hu

theorem scanDown_get (h : Int → ℚ) (v : Int) (l2 l1 : List Int) : ∀ a, v ∉ l1 →
    dictGet? (scanDown h (l1 ++ v :: l2) a) v = some (a - (l1.map h).sum) := by
  induction l1 with
  | nil => intro a _; simp [scanDown, dictGet?]
  | cons u l1 ih =>
    intro a hv
    simp only [List.mem_cons, not_or] at hv
    have hu : ¬ u = v := fun h => hv.1 h.symm
    simp only [List.cons_append, scanDown, dictGet?, beq_iff_eq, hu, if_false, List.map_cons, List.sum_cons]
    rw [ih _ hv.2]
    congr 1
    ring

theorem scanUp_get (h : Int → ℚ) (v : Int) (l2 l1 : List Int) : ∀ a, v ∉ l1 →
    dictGet? (scanUp h (l1 ++ v :: l2) a) v = some (a + (l1.map h).sum + h v) := by
  induction l1 with
  | nil => intro a _; simp [scanUp, dictGet?]
  | cons u l1 ih =>
    intro a hv
    simp only [List.mem_cons, not_or] at hv
    have hu : ¬ u = v := fun h => hv.1 h.symm
    simp only [List.cons_append, scanUp, dictGet?, beq_iff_eq, hu, if_false, List.map_cons, List.sum_cons]
    rw [ih _ hv.2]
    congr 1
    ring

section
variable [R : PyRuntime]

theorem E_one (d : Dist) (h : d.Constructed) : d.E (fun _ => 1) = d.outcomeCount := by
  rw [outcomeCount_constructed h]; rfl

theorem total_eq (d : Dist) (h : d.Constructed) : wsum d.getResultMap (fun _ => (1 : Nat)) = d.outcomeCount := by
  rw [wsum_getResultMap, E_one d h]

theorem getDictForm_eq (d : Dist) (h : d.outcomeCount ≠ 0) :
    d.getDictForm = .ok (d.getResultMap.map fun p => (p.1, (p.2 : ℚ) / (d.outcomeCount : ℚ))) := by
  unfold Dist.getDictForm
  simp only [h, if_false]
  generalize d.getResultMap = l
  induction l with
  | nil => rfl
  | cons p l ih => rw [List.mapM_cons, ih]; rfl

theorem getDictForm_error (d : Dist) (h : d.outcomeCount = 0) (hne : d.getResultMap ≠ []) :
    d.getDictForm = .error .zeroDivision := by
  unfold Dist.getDictForm
  simp only [h, if_true]
  cases hm : d.getResultMap with
  | nil => exact absurd hm hne
  | cons p l => rw [List.mapM_cons]; rfl

theorem distinct_dictForm (d : Dist) :
    DistinctKeys (d.getResultMap.map fun p => (p.1, (p.2 : ℚ) / (d.outcomeCount : ℚ))) := by
  rw [distinct_iff_nodup, List.map_map]
  exact (distinct_iff_nodup _).mp (distinct_getResultMap d)

theorem hasKey_dictForm (d : Dist) (v : Int) :
    hasKey (d.getResultMap.map fun p => (p.1, (p.2 : ℚ) / (d.outcomeCount : ℚ))) v ↔ hasKey d.getResultMap v := by
  unfold hasKey
  rw [List.map_map]
  exact Iff.rfl

theorem dictGet_dictForm (d : Dist) (v : Int) :
    (dictGet? (d.getResultMap.map fun p => (p.1, (p.2 : ℚ) / (d.outcomeCount : ℚ))) v).getD 0 =
      (countOf d.getResultMap v : ℚ) / (d.outcomeCount : ℚ) := by
  unfold countOf
  generalize d.getResultMap = l
  generalize (d.outcomeCount : ℚ) = n
  induction l with
  | nil => simp [dictGet?]
  | cons p l ih =>
    obtain ⟨k, m⟩ := p
    simp only [List.map_cons, dictGet?]
    by_cases hk : k = v
    · simp [hk]
    · simp only [beq_iff_eq, hk, if_false]; exact ih

theorem resultMap_ne_nil {d : Dist} (h : d.outcomeCount ≠ 0) (hc : d.Constructed) : d.getResultMap ≠ [] := by
  intro h0
  apply h
  rw [← total_eq d hc, h0]; rfl

/-- The histogram form of a distribution with positive total. -/
theorem histogram_spec (d : Dist) (hc : d.Constructed) (hN : d.outcomeCount ≠ 0) :
    ∃ h lo hi, (d.getDictForm >>= getHistogramForm) = .ok h ∧ d.min = .ok lo ∧ d.max = .ok hi ∧
      DistinctKeys h ∧ (∀ v, hasKey h v ↔ lo ≤ v ∧ v ≤ hi) ∧
      (∀ v, (dictGet? h v).getD 0 = (countOf d.getResultMap v : ℚ) / (d.outcomeCount : ℚ)) ∧
      (∀ v, hasKey d.getResultMap v → lo ≤ v ∧ v ≤ hi) := by
  have hne := resultMap_ne_nil hN hc
  obtain ⟨h, lo, hi, h1, h2, h3, h4, h5, h6, h7⟩ :=
    getHistogramForm_spec _ (distinct_dictForm d) (by simpa using hne)
  rw [hasKey_dictForm] at h2 h3
  have h4' : ∀ v, hasKey d.getResultMap v → lo ≤ v ∧ v ≤ hi := fun v hv => h4 v ((hasKey_dictForm d v).mpr hv)
  refine ⟨h, lo, hi, ?_, ?_, ?_, h5, h6, ?_, h4'⟩
  · rw [getDictForm_eq d hN]; exact h1
  · exact (listMin_spec _ _).mpr ⟨h2, fun y hy => (h4' y hy).1⟩
  · exact (listMax_spec _ _).mpr ⟨h3, fun y hy => (h4' y hy).2⟩
  · intro v; rw [h7 v, dictGet_dictForm]

omit R in
theorem sum_counts_range (m : List (Int × Nat)) (hd : DistinctKeys m) (lo hi : Int) :
    ((pyRange lo hi).map (fun u => countOf m u)).sum = wsum m (fun x => if lo ≤ x ∧ x < hi then 1 else 0) := by
  have h1 : ∀ l : List Int, (l.map (fun u => countOf m u)).sum =
      wsum m (fun x => (l.map (fun u => if x = u then (1 : Nat) else 0)).sum) := by
    intro l
    induction l with
    | nil => simp [wsum_zero]
    | cons u l ih => simp only [List.map_cons, List.sum_cons, ih, countOf_eq_wsum m u hd, wsum_add]
  rw [h1]
  apply wsum_congr
  intro p _
  exact sum_ind_pyRange _ _ _

omit R in
theorem sum_div_range (c : Int → Nat) (n : ℚ) (l : List Int) :
    (l.map (fun u => (c u : ℚ) / n)).sum = ((l.map c).sum : ℚ) / n := by
  induction l with
  | nil => simp
  | cons u l ih => simp only [List.map_cons, List.sum_cons, ih]; push_cast; ring

end

end PyDice
