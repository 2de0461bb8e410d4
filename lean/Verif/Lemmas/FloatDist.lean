import Verif.FloatDist
import Verif.Lemmas.Cost
import Verif.Lemmas.Summary
/-!
# Lemmas about the figures in floats
-/

namespace PyDice

/-- `2 ** -53`. -/
abbrev halfUlp : ℚ := 1 / 2 ^ 53

theorem halfUlp_eq : halfUlp = (2 : ℚ) ^ (-53 : ℤ) := by norm_num [halfUlp]

theorem error_one {q : ℚ} (h : |q| ≤ 1) : |toDouble q - q| ≤ halfUlp / 2 := by
  have := toDouble_error_le (q := q) (e := 0) (by norm_num) (by simpa using h)
  refine le_trans this ?_
  norm_num [halfUlp]

theorem error_two {q : ℚ} (h : |q| ≤ 2) : |toDouble q - q| ≤ halfUlp := by
  have := toDouble_error_le (q := q) (e := 1) (by norm_num) (by simpa using h)
  refine le_trans this ?_
  norm_num [halfUlp]

/-! ### Running sums -/

theorem down_spec (p : Int → ℚ) (h0 : ∀ v, 0 ≤ p v) (l : List Int) (hs : (l.map p).sum ≤ 1) (hl : l.length ≤ 2 ^ 52) :
    let x := l.foldl (fun a v => toDouble (a - toDouble (p v))) 1
    IsDouble x ∧ x ≤ 1 ∧ |x - (1 - (l.map p).sum)| ≤ l.length * halfUlp := by
  induction l using List.reverseRecOn with
  | nil => simpa using isDouble_int (n := 1) (by norm_num)
  | append_singleton l v ih =>
    rw [List.map_append, List.sum_append] at hs
    simp only [List.map_cons, List.map_nil, List.sum_cons, List.sum_nil, add_zero] at hs
    have hlen : (l ++ [v]).length = l.length + 1 := by simp
    rw [hlen] at hl
    have hv := h0 v
    have hl0 : 0 ≤ (l.map p).sum := List.sum_nonneg (by simpa using fun a _ => h0 a)
    obtain ⟨i1, i2, i3⟩ := ih (by linarith) (by omega)
    simp only [List.foldl_append, List.foldl_cons, List.foldl_nil]
    set x := l.foldl (fun a v => toDouble (a - toDouble (p v))) 1
    have fv := toDouble_nonneg hv
    have e1 := abs_le.mp (error_one (q := p v) (by rw [abs_of_nonneg hv]; linarith))
    have i3' := abs_le.mp i3
    have hcast : (l.length : ℚ) + 1 ≤ 2 ^ 52 := by exact_mod_cast hl
    have hsmall : (l.length : ℚ) * halfUlp + halfUlp ≤ 1 / 2 := by
      have := mul_le_mul_of_nonneg_right hcast (show (0 : ℚ) ≤ halfUlp by positivity)
      have e : (2 : ℚ) ^ 52 * halfUlp = 1 / 2 := by norm_num [halfUlp]
      rw [e] at this
      linarith
    have hu : (0 : ℚ) < halfUlp := by positivity
    have e2 := @error_one (x - toDouble (p v))
    generalize halfUlp = u at *
    have hle : x - toDouble (p v) ≤ 1 := by linarith
    have hge : -1 ≤ x - toDouble (p v) := by linarith [i3'.1, e1.2]
    have e2 := e2 (abs_le.mpr ⟨hge, hle⟩)
    refine ⟨toDouble_isDouble _, toDouble_le_one hle, ?_⟩
    have e2' := abs_le.mp e2
    rw [hlen, List.map_append, List.sum_append]
    simp only [List.map_cons, List.map_nil, List.sum_cons, List.sum_nil, add_zero]
    push_cast
    rw [abs_le]
    constructor <;> nlinarith [i3'.1, i3'.2, e1.1, e1.2, e2'.1, e2'.2]

theorem up_spec (p : Int → ℚ) (h0 : ∀ v, 0 ≤ p v) (l : List Int) (hs : (l.map p).sum ≤ 1) (hl : l.length ≤ 2 ^ 51) :
    let x := l.foldl (fun a v => toDouble (a + toDouble (p v))) 0
    IsDouble x ∧ 0 ≤ x ∧ |x - (l.map p).sum| ≤ l.length * (2 * halfUlp) := by
  induction l using List.reverseRecOn with
  | nil => simpa using isDouble_zero
  | append_singleton l v ih =>
    rw [List.map_append, List.sum_append] at hs
    simp only [List.map_cons, List.map_nil, List.sum_cons, List.sum_nil, add_zero] at hs
    have hlen : (l ++ [v]).length = l.length + 1 := by simp
    rw [hlen] at hl
    have hv := h0 v
    have hl0 : 0 ≤ (l.map p).sum := List.sum_nonneg (by simpa using fun a _ => h0 a)
    obtain ⟨i1, i2, i3⟩ := ih (by linarith) (by omega)
    simp only [List.foldl_append, List.foldl_cons, List.foldl_nil]
    set x := l.foldl (fun a v => toDouble (a + toDouble (p v))) 0
    have fv := toDouble_nonneg hv
    have e1 := abs_le.mp (error_one (q := p v) (by rw [abs_of_nonneg hv]; linarith))
    have i3' := abs_le.mp i3
    have hcast : (l.length : ℚ) + 1 ≤ 2 ^ 51 := by exact_mod_cast hl
    have hsmall : (l.length : ℚ) * (2 * halfUlp) + 2 * halfUlp ≤ 1 / 2 := by
      have := mul_le_mul_of_nonneg_right hcast (show (0 : ℚ) ≤ 2 * halfUlp by positivity)
      have e : (2 : ℚ) ^ 51 * (2 * halfUlp) = 1 / 2 := by norm_num [halfUlp]
      rw [e] at this
      linarith
    have hu : (0 : ℚ) < halfUlp := by positivity
    have e2 := @error_two (x + toDouble (p v))
    generalize halfUlp = u at *
    have hle : x + toDouble (p v) ≤ 2 := by linarith [i3'.2, e1.2]
    have e2 := abs_le.mp (e2 (abs_le.mpr ⟨by linarith, hle⟩))
    refine ⟨toDouble_isDouble _, toDouble_nonneg (by linarith), ?_⟩
    rw [hlen, List.map_append, List.sum_append]
    simp only [List.map_cons, List.map_nil, List.sum_cons, List.sum_nil, add_zero]
    push_cast
    rw [abs_le]
    constructor <;> nlinarith [i3'.1, i3'.2, e1.1, e1.2, e2.1, e2.2]

theorem down_isDouble (p : Int → ℚ) (l : List Int) : ∀ a, IsDouble a → IsDouble (l.foldl (fun a v => toDouble (a - toDouble (p v))) a) := by
  induction l with
  | nil => intro a h; exact h
  | cons v l ih => intro a _; exact ih _ (toDouble_isDouble _)

theorem up_isDouble (p : Int → ℚ) (l : List Int) : ∀ a, IsDouble a → IsDouble (l.foldl (fun a v => toDouble (a + toDouble (p v))) a) := by
  induction l with
  | nil => intro a h; exact h
  | cons v l ih => intro a _; exact ih _ (toDouble_isDouble _)

theorem down_le (p : Int → ℚ) (h0 : ∀ v, 0 ≤ p v) (l : List Int) : ∀ a, IsDouble a →
    l.foldl (fun a v => toDouble (a - toDouble (p v))) a ≤ a := by
  induction l with
  | nil => intro a _; exact le_refl _
  | cons v l ih =>
    intro a ha
    have h1 : toDouble (a - toDouble (p v)) ≤ a := by
      have := toDouble_mono (show a - toDouble (p v) ≤ a by linarith [toDouble_nonneg (h0 v)])
      rwa [toDouble_exact ha] at this
    exact (ih _ (toDouble_isDouble _)).trans h1

theorem up_ge (p : Int → ℚ) (h0 : ∀ v, 0 ≤ p v) (l : List Int) : ∀ a, IsDouble a →
    a ≤ l.foldl (fun a v => toDouble (a + toDouble (p v))) a := by
  induction l with
  | nil => intro a _; exact le_refl _
  | cons v l ih =>
    intro a ha
    have h1 : a ≤ toDouble (a + toDouble (p v)) := by
      have := toDouble_mono (show a ≤ a + toDouble (p v) by linarith [toDouble_nonneg (h0 v)])
      rwa [toDouble_exact ha] at this
    exact h1.trans (ih _ (toDouble_isDouble _))

/-! ### The loops -/

/-- The items listed by `at_least` for the sorted keys. -/
def scanDownF (h : Int → ℚ) : List Int → ℚ → List (Int × ℚ)
  | [], _ => []
  | v :: rest, above => (v, toDouble (above / 1)) :: scanDownF h rest (toDouble (above - h v))

/-- The items listed by `at_most` for the sorted keys. -/
def scanUpF (h : Int → ℚ) : List Int → ℚ → List (Int × ℚ)
  | [], _ => []
  | v :: rest, below => (v, toDouble (toDouble (below + h v) / 1)) :: scanUpF h rest (toDouble (below + h v))

theorem scanDownF_keys (h : Int → ℚ) (l : List Int) : ∀ a, (scanDownF h l a).map Prod.fst = l := by
  induction l with
  | nil => intro a; rfl
  | cons v l ih => intro a; simp [scanDownF, ih]

theorem scanUpF_keys (h : Int → ℚ) (l : List Int) : ∀ a, (scanUpF h l a).map Prod.fst = l := by
  induction l with
  | nil => intro a; rfl
  | cons v l ih => intro a; simp [scanUpF, ih]

theorem atLeastLoopF_eq (h : List (Int × ℚ)) (l : List Int) : ∀ (a : ℚ) (acc : List (Int × ℚ)), l.Nodup →
    (∀ v ∈ l, ¬ hasKey acc v) →
    atLeastLoopF h l a acc = acc ++ scanDownF (fun v => (dictGet? h v).getD 0) l a := by
  induction l with
  | nil => intro a acc _ _; simp [atLeastLoopF, scanDownF]
  | cons v l ih =>
    intro a acc hnd hacc
    rw [List.nodup_cons] at hnd
    unfold atLeastLoopF scanDownF
    rw [dictSet_append _ _ _ (hacc v (by simp)), ih _ _ hnd.2]
    · simp
    · intro u hu hk
      unfold hasKey at hk
      rw [List.map_append, List.mem_append] at hk
      rcases hk with hk | hk
      · exact hacc u (by simp [hu]) hk
      · simp at hk; subst hk; exact hnd.1 hu

theorem atMostLoopF_eq (h : List (Int × ℚ)) (l : List Int) : ∀ (a : ℚ) (acc : List (Int × ℚ)), l.Nodup →
    (∀ v ∈ l, ¬ hasKey acc v) →
    atMostLoopF h l a acc = acc ++ scanUpF (fun v => (dictGet? h v).getD 0) l a := by
  induction l with
  | nil => intro a acc _ _; simp [atMostLoopF, scanUpF]
  | cons v l ih =>
    intro a acc hnd hacc
    rw [List.nodup_cons] at hnd
    unfold atMostLoopF scanUpF
    simp only
    rw [dictSet_append _ _ _ (hacc v (by simp)), ih _ _ hnd.2]
    · simp
    · intro u hu hk
      unfold hasKey at hk
      rw [List.map_append, List.mem_append] at hk
      rcases hk with hk | hk
      · exact hacc u (by simp [hu]) hk
      · simp at hk; subst hk; exact hnd.1 hu

theorem scanDownF_get (h : Int → ℚ) (v : Int) (l2 l1 : List Int) : ∀ a, IsDouble a → v ∉ l1 →
    dictGet? (scanDownF h (l1 ++ v :: l2) a) v = some (l1.foldl (fun a v => toDouble (a - h v)) a) := by
  induction l1 with
  | nil => intro a ha _; simp [scanDownF, dictGet?, toDouble_exact ha]
  | cons u l1 ih =>
    intro a _ hv
    simp only [List.mem_cons, not_or] at hv
    have hu : ¬ u = v := fun h => hv.1 h.symm
    simp only [List.cons_append, scanDownF, dictGet?, beq_iff_eq, hu, if_false, List.foldl_cons]
    rw [ih _ (toDouble_isDouble _) hv.2]

theorem scanUpF_get (h : Int → ℚ) (v : Int) (l2 l1 : List Int) : ∀ a, v ∉ l1 →
    dictGet? (scanUpF h (l1 ++ v :: l2) a) v = some ((l1 ++ [v]).foldl (fun a v => toDouble (a + h v)) a) := by
  induction l1 with
  | nil => intro a _; simp [scanUpF, dictGet?, toDouble_exact (toDouble_isDouble _)]
  | cons u l1 ih =>
    intro a hv
    simp only [List.mem_cons, not_or] at hv
    have hu : ¬ u = v := fun h => hv.1 h.symm
    simp only [List.cons_append, scanUpF, dictGet?, beq_iff_eq, hu, if_false, List.foldl_cons]
    rw [ih _ hv.2]

section
variable [R : PyRuntime]

/-- The exact probability of a value. -/
def Dist.share (d : Dist) (v : Int) : ℚ := (countOf d.getResultMap v : ℚ) / (d.outcomeCount : ℚ)

theorem share_nonneg (d : Dist) (v : Int) : 0 ≤ d.share v := by unfold Dist.share; positivity

theorem share_le_one (d : Dist) (hc : d.Constructed) (v : Int) : d.share v ≤ 1 := by
  unfold Dist.share
  apply div_le_one_of_le₀ _ (by positivity)
  have := countOf_le_total d.getResultMap v
  rw [total_eq d hc] at this
  exact_mod_cast this

omit R in
theorem toFloat_small {q : ℚ} (h0 : 0 ≤ q) (h1 : q ≤ 1) : toFloat q = .ok (toDouble q) := by
  apply toFloat_eq
  rw [abs_of_nonneg (toDouble_nonneg h0)]
  refine lt_of_le_of_lt (toDouble_le_one h1) ?_
  exact one_lt_zpow₀ (by norm_num) (by norm_num)

theorem getDictFormF_eq (d : Dist) (hc : d.Constructed) (h : d.outcomeCount ≠ 0) :
    d.getDictFormF = .ok (d.getResultMap.map fun p => (p.1, toDouble ((p.2 : ℚ) / (d.outcomeCount : ℚ)))) := by
  have key : ∀ p ∈ d.getResultMap, toFloat ((p.2 : ℚ) / (d.outcomeCount : ℚ)) = .ok (toDouble ((p.2 : ℚ) / (d.outcomeCount : ℚ))) := by
    intro p hp
    apply toFloat_small (by positivity)
    apply div_le_one_of_le₀ _ (by positivity)
    have : p.2 ≤ (d.getResultMap.map Prod.snd).sum := List.single_le_sum (by simp) _ (List.mem_map.mpr ⟨p, hp, rfl⟩)
    have htot : (d.getResultMap.map Prod.snd).sum = d.outcomeCount := by rw [← total_eq d hc]; unfold wsum; simp
    rw [htot] at this
    exact_mod_cast this
  unfold Dist.getDictFormF
  simp only [h, if_false]
  revert key
  generalize d.getResultMap = l
  induction l with
  | nil => intro _; rfl
  | cons p l ih =>
    intro key
    rw [List.mapM_cons, ih (fun q hq => key q (by simp [hq])), key p (by simp)]
    rfl

theorem histogramF_spec (d : Dist) (hc : d.Constructed) (hN : d.outcomeCount ≠ 0) :
    ∃ h lo hi, (d.getDictFormF >>= getHistogramForm) = .ok h ∧ d.min = .ok lo ∧ d.max = .ok hi ∧
      DistinctKeys h ∧ (∀ v, hasKey h v ↔ lo ≤ v ∧ v ≤ hi) ∧
      (∀ v, (dictGet? h v).getD 0 = toDouble (d.share v)) ∧
      (∀ v, hasKey d.getResultMap v → lo ≤ v ∧ v ≤ hi) := by
  have hne := resultMap_ne_nil hN hc
  have hd : DistinctKeys (d.getResultMap.map fun p => (p.1, toDouble ((p.2 : ℚ) / (d.outcomeCount : ℚ)))) := by
    rw [distinct_iff_nodup, List.map_map]
    exact (distinct_iff_nodup _).mp (distinct_getResultMap d)
  have hk : ∀ v, hasKey (d.getResultMap.map fun p => (p.1, toDouble ((p.2 : ℚ) / (d.outcomeCount : ℚ)))) v ↔ hasKey d.getResultMap v := by
    intro v; unfold hasKey; rw [List.map_map]; exact Iff.rfl
  obtain ⟨h, lo, hi, h1, h2, h3, h4, h5, h6, h7⟩ := getHistogramForm_spec _ hd (by simpa using hne)
  rw [hk] at h2 h3
  have h4' : ∀ v, hasKey d.getResultMap v → lo ≤ v ∧ v ≤ hi := fun v hv => h4 v ((hk v).mpr hv)
  refine ⟨h, lo, hi, ?_, ?_, ?_, h5, h6, ?_, h4'⟩
  · rw [getDictFormF_eq d hc hN]; exact h1
  · exact (listMin_spec _ _).mpr ⟨h2, fun y hy => (h4' y hy).1⟩
  · exact (listMax_spec _ _).mpr ⟨h3, fun y hy => (h4' y hy).2⟩
  · intro v
    rw [h7 v]
    unfold Dist.share countOf
    generalize d.getResultMap = l
    generalize (d.outcomeCount : ℚ) = n
    induction l with
    | nil => simp [dictGet?, toDouble_zero]
    | cons p l ih =>
      simp only [List.map_cons, dictGet?]
      by_cases hv : p.1 == v
      · simp [hv]
      · simp only [hv]; exact ih

theorem share_sum (d : Dist) (hc : d.Constructed) (lo v : Int) (hlo : ∀ x, hasKey d.getResultMap x → lo ≤ x) :
    ((pyRange lo v).map d.share).sum = probOf d (fun x => decide (x < v)) := by
  unfold Dist.share
  rw [sum_div_range, sum_counts_range _ (distinct_getResultMap d), probOf_eq d hc]
  congr 2
  apply wsum_congr
  intro p hp
  have := hlo p.1 ((hasKey_iff _ _).mpr ⟨p, hp, rfl⟩)
  simp [this]

theorem probOf_compl (d : Dist) (hc : d.Constructed) (hN : d.outcomeCount ≠ 0) (v : Int) :
    probOf d (fun x => decide (x < v)) = 1 - probOf d (fun x => decide (v ≤ x)) := by
  have hQ : (d.outcomeCount : ℚ) ≠ 0 := by exact_mod_cast hN
  rw [eq_sub_iff_add_eq, probOf_eq d hc, probOf_eq d hc, ← add_div, div_eq_one_iff_eq hQ]
  have : wsum d.getResultMap (fun x => if decide (x < v) = true then (1 : Nat) else 0) +
      wsum d.getResultMap (fun x => if decide (v ≤ x) = true then (1 : Nat) else 0) = d.outcomeCount := by
    rw [← wsum_add, ← total_eq d hc]
    apply wsum_congr
    intro p _
    by_cases h : p.1 < v
    · simp [h]
    · simp [h, not_lt.mp h]
  exact_mod_cast this

theorem probOf_range (d : Dist) (hc : d.Constructed) (P : Int → Bool) : 0 ≤ probOf d P ∧ probOf d P ≤ 1 := by
  constructor
  · unfold probOf; positivity
  · rw [probOf_eq d hc]
    apply div_le_one_of_le₀ _ (by positivity)
    rw [← total_eq d hc]
    have : ∀ l : List (Int × Nat), wsum l (fun x => if P x = true then (1 : Nat) else 0) ≤ wsum l (fun _ => (1 : Nat)) := by
      intro l
      induction l with
      | nil => simp
      | cons p l ih =>
        rw [wsum_cons, wsum_cons]
        apply add_le_add _ ih
        by_cases h : P p.1 = true <;> simp [h]
    exact_mod_cast this _

omit R in
theorem pyRange_length (lo hi : Int) : (pyRange lo hi).length = (hi - lo).toNat := by simp [pyRange]

omit R in
theorem pyRange_snoc (lo v : Int) (h : lo ≤ v) : pyRange lo (v + 1) = pyRange lo v ++ [v] := by
  rw [pyRange_split lo (v + 1) v h (by omega)]
  congr 2
  simp [pyRange]

/-- `at_least` and `at_most` entry by entry. -/
theorem tailsF (d : Dist) (hc : d.Constructed) (hN : 0 < d.outcomeCount) :
    ∃ lo hi f g, d.min = .ok lo ∧ d.max = .ok hi ∧ d.atLeastF = .ok f ∧ d.atMostF = .ok g ∧
      f.map Prod.fst = pyRange lo (hi + 1) ∧ g.map Prod.fst = pyRange lo (hi + 1) ∧
      (∀ v, lo ≤ v → v ≤ hi →
        dictGet? f v = some ((pyRange lo v).foldl (fun a u => toDouble (a - toDouble (d.share u))) 1)) ∧
      (∀ v, lo ≤ v → v ≤ hi →
        dictGet? g v = some ((pyRange lo (v + 1)).foldl (fun a u => toDouble (a + toDouble (d.share u))) 0)) ∧
      (∀ v, hasKey d.getResultMap v → lo ≤ v ∧ v ≤ hi) ∧ lo ≤ hi := by
  have hN' : d.outcomeCount ≠ 0 := by omega
  obtain ⟨h, lo, hi, e, hlo, hhi, h1, h2, h3, h4⟩ := histogramF_spec d hc hN'
  have hkeys := sorted_keys_eq h lo hi h1 h2
  have hle : lo ≤ hi := (h4 lo ((listMin_spec _ _).mp hlo).1).2
  have hfun : (fun v => (dictGet? h v).getD 0) = fun v => toDouble (d.share v) := funext h3
  have hf : d.atLeastF = .ok (scanDownF (fun v => toDouble (d.share v)) (pyRange lo (hi + 1)) 1) := by
    have : d.atLeastF = (d.getDictFormF >>= getHistogramForm) >>= fun h =>
        .ok (atLeastLoopF h ((h.map Prod.fst).mergeSort (fun a b => decide (a ≤ b))) 1 []) := by
      unfold Dist.atLeastF; cases d.getDictFormF <;> rfl
    rw [this, e]
    show Except.ok _ = _
    rw [hkeys, atLeastLoopF_eq h _ 1 [] (pyRange_nodup _ _) (by simp [hasKey]), hfun]
    rfl
  have hg : d.atMostF = .ok (scanUpF (fun v => toDouble (d.share v)) (pyRange lo (hi + 1)) 0) := by
    have : d.atMostF = (d.getDictFormF >>= getHistogramForm) >>= fun h =>
        .ok (atMostLoopF h ((h.map Prod.fst).mergeSort (fun a b => decide (a ≤ b))) 0 []) := by
      unfold Dist.atMostF; cases d.getDictFormF <;> rfl
    rw [this, e]
    show Except.ok _ = _
    rw [hkeys, atMostLoopF_eq h _ 0 [] (pyRange_nodup _ _) (by simp [hasKey]), hfun]
    rfl
  refine ⟨lo, hi, _, _, hlo, hhi, hf, hg, scanDownF_keys _ _ _, scanUpF_keys _ _ _, ?_, ?_, h4, hle⟩
  · intro v hv1 hv2
    rw [pyRange_split lo (hi + 1) v hv1 (by omega),
      scanDownF_get _ _ _ _ _ (by simpa using isDouble_int (n := 1) (by norm_num)) (by rw [mem_pyRange]; omega)]
  · intro v hv1 hv2
    rw [pyRange_split lo (hi + 1) v hv1 (by omega), scanUpF_get _ _ _ _ _ (by rw [mem_pyRange]; omega), pyRange_snoc lo v hv1]

end

end PyDice
