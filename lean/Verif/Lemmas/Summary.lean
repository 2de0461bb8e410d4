import Verif.Lemmas.Hist
import Verif.Lemmas.Convolve
import Mathlib.Algebra.Order.BigOperators.Group.List
/-!
# Helpers for C08 - C11
-/

namespace PyDice

open PyRuntime

section
variable [R : PyRuntime]

omit R in
theorem countOf_le_total (m : List (Int × Nat)) (v : Int) : countOf m v ≤ wsum m (fun _ => (1 : Nat)) := by
  unfold countOf
  induction m with
  | nil => simp [dictGet?]
  | cons p m ih =>
    obtain ⟨k, c⟩ := p
    rw [wsum_cons]
    simp only [dictGet?]
    by_cases hk : k = v
    · simp [hk]
    · simp only [beq_iff_eq, hk, if_false]
      exact le_trans ih (by simp)

omit R in
theorem foldl_weighted (l : List (Int × Nat)) : ∀ t : Int,
    l.foldl (fun t p => t + p.1 * (p.2 : Int)) t = t + wsum l (fun x => x) := by
  induction l with
  | nil => intro t; simp
  | cons p l ih =>
    intro t
    rw [List.foldl_cons, ih, wsum_cons]
    simp only [nsmul_eq_mul]
    ring

theorem average_E (d : Dist) (hN : 0 < d.outcomeCount) :
    d.average = .ok (((d.E (fun x => x) : Int) : ℚ) / (d.outcomeCount : ℚ)) := by
  unfold Dist.average
  simp only [foldl_weighted, zero_add]
  rw [if_neg (by omega), wsum_getResultMap]

omit R in
theorem wsum_mono {κ : Type} (l : List (κ × Nat)) (f g : κ → Int) (h : ∀ p ∈ l, f p.1 ≤ g p.1) : wsum l f ≤ wsum l g := by
  induction l with
  | nil => simp
  | cons p l ih =>
    rw [wsum_cons, wsum_cons]
    have h1 := h p (by simp)
    have h2 := ih (fun q hq => h q (by simp [hq]))
    have h3 : p.2 • f p.1 ≤ p.2 • g p.1 := nsmul_le_nsmul_right h1 _
    exact add_le_add h3 h2

omit R in
theorem wsum_const {κ : Type} (l : List (κ × Nat)) (c : Int) : wsum l (fun _ => c) = ((wsum l (fun _ => (1 : Nat)) : Nat) : Int) * c := by
  induction l with
  | nil => simp
  | cons p l ih =>
    rw [wsum_cons, wsum_cons, ih]
    simp only [nsmul_eq_mul, smul_eq_mul]
    push_cast
    ring

theorem E_const (d : Dist) (hc : d.Constructed) (c : Int) : d.E (fun _ => c) = (d.outcomeCount : Int) * c := by
  unfold Dist.E; rw [wsum_const, outcomeCount_constructed hc]

theorem E_add (d : Dist) (f g : Int → Int) : d.E (fun x => f x + g x) = d.E f + d.E g := wsum_add _ _ _

theorem E_mul (d : Dist) (c : Int) (f : Int → Int) : d.E (fun x => c * f x) = c * d.E f := by
  unfold Dist.E
  generalize d.resultMap = l
  induction l with
  | nil => simp
  | cons p l ih => rw [wsum_cons, wsum_cons, ih, mul_add]; simp only [nsmul_eq_mul]; ring

theorem E_affine (d : Dist) (hc : d.Constructed) (α β : Int) :
    d.E (fun x => α * x + β) = α * d.E (fun x => x) + (d.outcomeCount : Int) * β := by
  rw [E_add d (fun x => α * x) (fun _ => β), E_mul d α (fun x => x), E_const d hc]

/-- The total count of a combination of untied distributions is the product. -/
theorem binop_total {op : BinOp} {a b d : Dist} (hd : Dist.binop op a b = .ok d) (ha : a.Proper) (ua : a.Untied)
    (ub : b.Untied) (ca : a.Constructed) (cb : b.Constructed) : d.outcomeCount = a.outcomeCount * b.outcomeCount := by
  have hok := (binop_ok_iff ha).mp ⟨d, hd⟩
  rw [← E_one d (binop_constructed hd), binop_E hd ha ua ub]
  have : ∀ p ∈ a.resultMap, b.E (fun y => onOk (op.apply p.1.value y) (fun _ => (1 : Nat))) = b.outcomeCount := by
    intro p hp
    rw [← E_one b cb]
    unfold Dist.E
    apply wsum_congr
    intro q hq
    obtain ⟨v, hv⟩ := hok p hp q hq
    show onOk (op.apply p.1.value q.1.value) _ = _
    rw [hv]; rfl
  unfold Dist.E at this ⊢
  rw [wsum_congr (g := fun _ => b.outcomeCount) this, outcomeCount_constructed ca]
  generalize a.resultMap = l
  induction l with
  | nil => simp
  | cons p l ih => rw [wsum_cons, wsum_cons, ih]; simp only [smul_eq_mul]; ring

/-- The probability that the value satisfies `P`, from the result map alone. -/
def probOf (d : Dist) (P : Int → Bool) : ℚ :=
  (((d.getResultMap.filter fun p => P p.1).map Prod.snd).sum : ℚ) / ((d.getResultMap.map Prod.snd).sum : ℚ)

omit R in
theorem filter_sum (m : List (Int × Nat)) (P : Int → Bool) :
    ((m.filter fun p => P p.1).map Prod.snd).sum = wsum m (fun x => if P x = true then 1 else 0) := by
  induction m with
  | nil => simp
  | cons p m ih =>
    rw [wsum_cons, ← ih]
    by_cases h : P p.1 = true <;> simp [h]

theorem probOf_eq (d : Dist) (hc : d.Constructed) (P : Int → Bool) :
    probOf d P = ((wsum d.getResultMap (fun x => if P x = true then (1 : Nat) else 0) : Nat) : ℚ) / (d.outcomeCount : ℚ) := by
  unfold probOf
  rw [filter_sum, ← total_eq d hc]
  unfold wsum
  simp

theorem tails (d : Dist) (hc : d.Constructed) (hN : 0 < d.outcomeCount) :
    ∃ h lo hi f g, (d.getDictForm >>= getHistogramForm) = .ok h ∧ d.min = .ok lo ∧ d.max = .ok hi ∧
      d.atLeast = .ok f ∧ d.atMost = .ok g ∧
      f.map Prod.fst = pyRange lo (hi + 1) ∧ g.map Prod.fst = pyRange lo (hi + 1) ∧
      (∀ v, lo ≤ v → v ≤ hi → dictGet? f v = some (probOf d (fun x => decide (v ≤ x)))) ∧
      (∀ v, lo ≤ v → v ≤ hi → dictGet? g v = some (probOf d (fun x => decide (x ≤ v)))) ∧
      (∀ v, hasKey d.getResultMap v → lo ≤ v ∧ v ≤ hi) ∧ lo ≤ hi := by
  have hN' : d.outcomeCount ≠ 0 := by omega
  have hQ : (d.outcomeCount : ℚ) ≠ 0 := by exact_mod_cast hN'
  obtain ⟨h, lo, hi, e, hlo, hhi, h1, h2, h3, h4⟩ := histogram_spec d hc hN'
  have hkeys := sorted_keys_eq h lo hi h1 h2
  have hle : lo ≤ hi := (h4 lo ((listMin_spec _ _).mp hlo).1).2
  have hsum : ∀ v, ((pyRange lo v).map fun u => (dictGet? h u).getD 0).sum =
      ((wsum d.getResultMap (fun x => if lo ≤ x ∧ x < v then (1 : Nat) else 0) : Nat) : ℚ) / (d.outcomeCount : ℚ) := by
    intro v
    rw [show (fun u => (dictGet? h u).getD 0) = (fun u => (countOf d.getResultMap u : ℚ) / (d.outcomeCount : ℚ)) from
      funext h3, sum_div_range, sum_counts_range _ (distinct_getResultMap d)]
  have hkey : ∀ p ∈ d.getResultMap, lo ≤ p.1 ∧ p.1 ≤ hi := fun p hp => h4 _ ((hasKey_iff _ _).mpr ⟨p, hp, rfl⟩)
  have hf : d.atLeast = .ok (scanDown (fun v => (dictGet? h v).getD 0) (pyRange lo (hi + 1)) 1) := by
    have : d.atLeast = (d.getDictForm >>= getHistogramForm) >>= fun h =>
        .ok (atLeastLoop h ((h.map Prod.fst).mergeSort (fun a b => decide (a ≤ b))) 1 []) := by
      unfold Dist.atLeast; cases d.getDictForm <;> rfl
    rw [this, e]
    show Except.ok _ = _
    rw [hkeys, atLeastLoop_eq h _ 1 [] (pyRange_nodup _ _) (by simp [hasKey])]
    rfl
  have hg : d.atMost = .ok (scanUp (fun v => (dictGet? h v).getD 0) (pyRange lo (hi + 1)) 0) := by
    have : d.atMost = (d.getDictForm >>= getHistogramForm) >>= fun h =>
        .ok (atMostLoop h ((h.map Prod.fst).mergeSort (fun a b => decide (a ≤ b))) 0 []) := by
      unfold Dist.atMost; cases d.getDictForm <;> rfl
    rw [this, e]
    show Except.ok _ = _
    rw [hkeys, atMostLoop_eq h _ 0 [] (pyRange_nodup _ _) (by simp [hasKey])]
    rfl
  refine ⟨h, lo, hi, _, _, e, hlo, hhi, hf, hg, scanDown_keys _ _ _, scanUp_keys _ _ _, ?_, ?_, h4, hle⟩
  · intro v hv1 hv2
    rw [pyRange_split lo (hi + 1) v hv1 (by omega), scanDown_get _ _ _ _ _ (by rw [mem_pyRange]; omega), hsum,
      probOf_eq d hc]
    congr 1
    rw [eq_div_iff hQ, sub_mul, div_mul_cancel₀ _ hQ, one_mul, sub_eq_iff_eq_add]
    have : d.outcomeCount = wsum d.getResultMap (fun x => if decide (v ≤ x) = true then (1 : Nat) else 0) +
        wsum d.getResultMap (fun x => if lo ≤ x ∧ x < v then (1 : Nat) else 0) := by
      rw [← wsum_add, ← total_eq d hc]
      apply wsum_congr
      intro p hp
      have := hkey p hp
      by_cases h : v ≤ p.1
      · have h' : ¬ (lo ≤ p.1 ∧ p.1 < v) := by omega
        simp [h, h']
      · have h' : (lo ≤ p.1 ∧ p.1 < v) := by omega
        simp [h, h']
    exact_mod_cast this
  · intro v hv1 hv2
    rw [pyRange_split lo (hi + 1) v hv1 (by omega), scanUp_get _ _ _ _ _ (by rw [mem_pyRange]; omega), hsum,
      probOf_eq d hc, h3, zero_add, ← add_div]
    congr 2
    rw [countOf_eq_wsum _ _ (distinct_getResultMap d)]
    have : wsum d.getResultMap (fun x => if lo ≤ x ∧ x < v then (1 : Nat) else 0) +
        wsum d.getResultMap (fun x => if x = v then (1 : Nat) else 0) =
        wsum d.getResultMap (fun x => if decide (x ≤ v) = true then (1 : Nat) else 0) := by
      rw [← wsum_add]
      apply wsum_congr
      intro p hp
      have := hkey p hp
      by_cases h : p.1 = v
      · have h' : ¬ (lo ≤ p.1 ∧ p.1 < v) := by omega
        have h'' : p.1 ≤ v := by omega
        simp [h]
      · by_cases h' : p.1 ≤ v
        · have h'' : (lo ≤ p.1 ∧ p.1 < v) := by omega
          simp [h, h', h'']
        · have h'' : ¬ (lo ≤ p.1 ∧ p.1 < v) := by omega
          simp [h, h', h'']
    exact_mod_cast this

/-- Probabilities grow with the event. -/
theorem probOf_mono (d : Dist) (P Q : Int → Bool) (h : ∀ x, P x = true → Q x = true) : probOf d P ≤ probOf d Q := by
  unfold probOf
  rw [filter_sum, filter_sum]
  apply div_le_div_of_nonneg_right _ (by positivity)
  have : ∀ l : List (Int × Nat), wsum l (fun x => if P x = true then (1 : Nat) else 0) ≤
      wsum l (fun x => if Q x = true then (1 : Nat) else 0) := by
    intro l
    induction l with
    | nil => simp
    | cons p l ih =>
      rw [wsum_cons, wsum_cons]
      apply Nat.add_le_add _ ih
      by_cases hp : P p.1 = true
      · simp [hp, h _ hp]
      · simp [hp]
  exact_mod_cast this d.getResultMap

end

end PyDice
