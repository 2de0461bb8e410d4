import Verif.Lemmas.SourceFloat
import Verif.Spec.SourceClass
import Verif.Lemmas.FloatPlot
/-!
# C77: the texts of the methods that make floats do what the model says

`get_dict_form`, `average`, `_get_histogram_form`, `at_least` and `at_most` of `ProbabilityDistribution`.
-/
namespace PyDice
open PyRuntime Source

section
variable [R : PyRuntime] (fl : ℚ → Res ℚ) (rd : ℚ → ℚ) (fu : Nat)
set_option linter.unusedSimpArgs false
set_option maxHeartbeats 1000000
local notation "W" => world fl rd fu

/-- `probability_distribution/probability_distribution.py:236-237`, with any rounding `fl` of the quotients. -/
theorem C77_dict_form (d : Dist) :
    Gives W Text.ProbabilityDistribution.get_dict_form [dV d] ((fun m => .dict (encQ m)) <$> liftR (dictFormG fl d)) := by
  have h := fun r => @dictForm_keys _ fl d r
  simp [src, Gives, Text.ProbabilityDistribution.get_dict_form, dictFormG, formComp_text fl rd fu] at h ⊢
  refine liftR_congr _ _ _ fun a ha => ?_
  rw [show ([] : List (V × V)) = encQ [] from rfl, foldl_encQ]
  · rfl
  · rw [List.nil_append, h _ ha]
    exact nodup_getResultMap d

/-- `probability_distribution/probability_distribution.py:193-197`. -/
theorem C77_average (d : Dist) :
    Gives W Text.ProbabilityDistribution.average [dV d] (.flt <$> liftR (averageG fl d)) := by
  simp [src, Gives, Text.ProbabilityDistribution.average, averageG]
  refine (averageLoop_text fl rd fu d.getResultMap _ _ _ _ _ (fun t => if d.outcomeCount = 0 then throwM .zeroDivision else .flt <$> liftR (fl ((t : ℚ) / (d.outcomeCount : ℚ)))) ?_).trans ?_
  · intro t v1 v2
    simp [src]
  · rfl

/-- `probability_distribution/probability_distribution.py:239-247`.  The list models a dict, so no key occurs twice. -/
theorem C77_histogram_form (base : List (Int × ℚ)) (h : (base.map Prod.fst).Nodup) :
    Gives W Text.ProbabilityDistribution._get_histogram_form [.dict (encQ base)] (.dict <$> liftR (histV base)) := by
  have hc := histComp_text fl rd fu base base (fun q hq => get_mem h hq)
  have hk : List.map Prod.fst (encQ base) = base.map fun q => (.int q.1 : V) := by simp [encQ]
  simp [src, Gives, Text.ProbabilityDistribution._get_histogram_form, hk, hc, sort_text]
  unfold histV
  generalize base.mergeSort (fun a b => decide (a.1 ≤ b.1)) = l
  cases l with
  | nil => simp [src, pyIndex]
  | cons q t =>
    have hz : (q :: t).getLast? = some ((q :: t).getLast (by simp)) := List.getLast?_eq_some_getLast _
    have hz' : pyLast (q :: t) = .ok ((q :: t).getLast (by simp)) := by unfold pyLast; rw [hz]
    generalize (q :: t).getLast (by simp) = z at hz hz'
    simp [src, pyIndex, hz, hz']
    refine (fillLoop_text fl rd fu _ _ _ _ _ (fun d => pure (.dict d)) ?_).trans ?_
    · intro d v
      simp [src]
    · rfl

/-- The dict of `_get_histogram_form` holds the numbers of the model's; they differ in that the code writes the int 0. -/
theorem C77_histogram_numbers (base : List (Int × ℚ)) :
    histV base = .error .index ∧ getHistogramForm base = .error .index ∨
      ∃ hv h, histV base = .ok hv ∧ getHistogramForm base = .ok h ∧ decQ hv = some h := by
  obtain ⟨e, e1, e2⟩ | ⟨hv, h, e1, e2, hh⟩ := holds_hist base
  · have : e = .index := by
      unfold getHistogramForm at e2
      simp only at e2
      split at e2
      · cases e2
      · cases e2; rfl
    subst this
    exact .inl ⟨e1, e2⟩
  · exact .inr ⟨hv, h, e1, e2, holds_dec hh⟩

/-- `probability_distribution/probability_distribution.py:199-208`.  `total_above` starts as the int 1, which `fl` and `rd` must leave alone, as rounding to doubles does. -/
theorem C77_at_least (h0 : fl 0 = .ok 0) (h1 : fl 1 = .ok 1) (r1 : rd 1 = 1) (d : Dist) :
    Gives W Text.ProbabilityDistribution.at_least [dV d] ((fun m => .dict (encQ m)) <$> liftR (atLeastG fl rd d)) := by
  simp [src, Gives, Text.ProbabilityDistribution.at_least, atLeastG, liftR_bind]
  refine congrArg _ (funext fun base => ?_)
  obtain ⟨e, e1, e2⟩ | ⟨hv, h, e1, e2, hh⟩ := holds_hist base
  · simp [e1, e2, src]
  · simp [e1, e2, src, holds_keys hh, intsOf_map]
    refine (leastLoop_text fl rd fu h0 h1 r1 hv h hh _ ?_ [] _ 1 (.inr ⟨rfl, rfl⟩) _ _ _ _ (fun m => pure (.dict (encQ m))) ?_).trans ?_
    · intro k hk
      exact (sortInts_perm _).mem_iff.mp hk
    · intro acc x v
      simp [src, tailEnv]
    · rfl

/-- `probability_distribution/probability_distribution.py:210-219`. -/
theorem C77_at_most (h0 : fl 0 = .ok 0) (h1 : fl 1 = .ok 1) (r0 : rd 0 = 0) (d : Dist) :
    Gives W Text.ProbabilityDistribution.at_most [dV d] ((fun m => .dict (encQ m)) <$> liftR (atMostG fl rd d)) := by
  simp [src, Gives, Text.ProbabilityDistribution.at_most, atMostG, liftR_bind]
  refine congrArg _ (funext fun base => ?_)
  obtain ⟨e, e1, e2⟩ | ⟨hv, h, e1, e2, hh⟩ := holds_hist base
  · simp [e1, e2, src]
  · simp [e1, e2, src, holds_keys hh, intsOf_map]
    refine (mostLoop_text fl rd fu h0 h1 r0 hv h hh _ ?_ [] _ 0 (.inr ⟨rfl, rfl⟩) _ _ _ _ (fun m => pure (.dict (encQ m))) ?_).trans ?_
    · intro k hk
      exact (sortInts_perm _).mem_iff.mp hk
    · intro acc x v
      simp [src, tailEnv]
    · rfl

/-- With exact arithmetic these are the figures of the model `Dist`. -/
theorem C77_exact (d : Dist) :
    Gives (world .ok id fu) Text.ProbabilityDistribution.get_dict_form [dV d] ((fun m => .dict (encQ m)) <$> liftR d.getDictForm) ∧
    Gives (world .ok id fu) Text.ProbabilityDistribution.average [dV d] (.flt <$> liftR d.average) ∧
    Gives (world .ok id fu) Text.ProbabilityDistribution.at_least [dV d] ((fun m => .dict (encQ m)) <$> liftR d.atLeast) ∧
    Gives (world .ok id fu) Text.ProbabilityDistribution.at_most [dV d] ((fun m => .dict (encQ m)) <$> liftR d.atMost) := by
  refine ⟨C77_dict_form _ _ fu d, C77_average _ _ fu d, ?_, ?_⟩
  · have e : ∀ h l t acc, atLeastLoopG id h l t acc = atLeastLoop h l t acc := by
      intro h l
      induction l with
      | nil => intros; rfl
      | cons k l ih => intros; simp [atLeastLoopG, atLeastLoop, ih]
    have := C77_at_least .ok id fu rfl rfl rfl d
    simp only [atLeastG, e] at this
    exact this
  · have e : ∀ h l t acc, atMostLoopG id h l t acc = atMostLoop h l t acc := by
      intro h l
      induction l with
      | nil => intros; rfl
      | cons k l ih => intros; simp [atMostLoopG, atMostLoop, ih]
    have := C77_at_most .ok id fu rfl rfl rfl d
    simp only [atMostG, e] at this
    exact this

/-- With arithmetic on doubles these are the figures of the model `FloatDist`. -/
theorem C77_floats (d : Dist) :
    Gives (world toFloat toDouble fu) Text.ProbabilityDistribution.get_dict_form [dV d] ((fun m => .dict (encQ m)) <$> liftR d.getDictFormF) ∧
    Gives (world toFloat toDouble fu) Text.ProbabilityDistribution.average [dV d] (.flt <$> liftR d.averageF) ∧
    Gives (world toFloat toDouble fu) Text.ProbabilityDistribution.at_least [dV d] ((fun m => .dict (encQ m)) <$> liftR d.atLeastF) ∧
    Gives (world toFloat toDouble fu) Text.ProbabilityDistribution.at_most [dV d] ((fun m => .dict (encQ m)) <$> liftR d.atMostF) := by
  have f0 : toFloat 0 = .ok 0 := by simpa using toFloat_int (v := 0) (by norm_num)
  have f1 : toFloat 1 = .ok 1 := by simpa using toFloat_int (v := 1) (by norm_num)
  refine ⟨C77_dict_form _ _ fu d, C77_average _ _ fu d, ?_, ?_⟩
  · have e : ∀ h l t acc, atLeastLoopG toDouble h l t acc = atLeastLoopF h l t acc := by
      intro h l
      induction l with
      | nil => intros; rfl
      | cons k l ih => intros; simp [atLeastLoopG, atLeastLoopF, ih]
    have := C77_at_least toFloat toDouble fu f0 f1 toDouble_one d
    simp only [atLeastG, e] at this
    exact this
  · have e : ∀ h l t acc, atMostLoopG toDouble h l t acc = atMostLoopF h l t acc := by
      intro h l
      induction l with
      | nil => intros; rfl
      | cons k l ih => intros; simp [atMostLoopG, atMostLoopF, ih]
    have := C77_at_most toFloat toDouble fu f0 f1 toDouble_zero d
    simp only [atMostG, e] at this
    exact this

end

section
attribute [local instance] listRuntime

example : (([(1, 1 / 2), (3, 1 / 2)] : List (Int × ℚ)).map Prod.fst).Nodup := by decide

example : toFloat 0 = .ok 0 ∧ toFloat 1 = .ok 1 ∧ toDouble 1 = 1 ∧ toDouble 0 = 0 :=
  ⟨by simpa using toFloat_int (v := 0) (by norm_num), by simpa using toFloat_int (v := 1) (by norm_num), toDouble_one, toDouble_zero⟩

example : PyFun.run (world .ok id 0) Text.ProbabilityDistribution.average [dV (mkDist [])] State.new = .pure (.error .zeroDivision, State.new) := by
  refine (congrFun (C77_average .ok id 0 (mkDist [])) State.new).trans ?_
  rfl

end
end PyDice
