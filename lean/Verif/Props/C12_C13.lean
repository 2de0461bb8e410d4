import Verif.Lemmas.KeepDrop
import Verif.Props.C08_C11
import Verif.Lemmas.DiceTerm
/-!
# C12, C13, C42: plain dice
-/

namespace PyDice

open PyRuntime

section
variable [R : PyRuntime]

/-! ## C12 -/

/-- C12: the count of `v` is the number of tuples of faces (each face listed as often as its weight) that sum to `v`; the
    listed values are the sums of tuples of listed faces; the total is the product of the totals. -/
theorem C12_dice_counts (t : DiceTerm) (hn : 1 ≤ t.number) : ∃ d, t.dist = .ok d ∧
    (∀ v, countOf d.getResultMap v = tupleCount t.table t.number List.sum v) ∧
    (∀ v, hasKey d.getResultMap v ↔ ∃ l ∈ tuples (t.table.map Prod.fst) t.number, v = l.sum) ∧
    (d.getResultMap.map Prod.snd).sum = (t.table.map Prod.snd).sum ^ t.number := by
  obtain ⟨d, h1, h2, h3, h4⟩ := diceDist_spec t hn
  refine ⟨d, h1, ?_, h4, ?_⟩
  · intro v
    rw [countOf_getResultMap, h3, tupleCount, ← count_filter]
  · rw [total_E h2, h3, ← length_facesOf, ← length_tuples]
    simp

/-- C12 for no dice at all: the code returns the distribution of one die ... -/
theorem C12_zero_dice (t : DiceTerm) (hn : t.number = 0) : t.dist = ({ t with number := 1 } : DiceTerm).dist :=
  diceDist_zero t hn

omit R in
/-- ... although `0d6` always rolls 0, and so the counting formula fails for it: the count of 0 is 0 where the single empty
    tuple sums to 0. -/
theorem C12_zero_dice_counterexample [PyRuntime] :
    ∃ t d, mkDice ['0', 'd', '6'] = .ok t ∧ t.dist = .ok d ∧ (∀ r, Rand.Possible r t.roll → r = .ok 0) ∧
      countOf d.getResultMap 0 = 0 ∧ tupleCount t.table t.number List.sum 0 = 1 := by
  refine ⟨⟨['0', 'd', '6'], [(1, 1), (2, 1), (3, 1), (4, 1), (5, 1), (6, 1)], 0⟩, ?_⟩
  have hd := diceDist_spec ⟨['0', 'd', '6'], [(1, 1), (2, 1), (3, 1), (4, 1), (5, 1), (6, 1)], 1⟩ (by decide)
  obtain ⟨d, h1, h2, h3, h4⟩ := hd
  refine ⟨d, by decide, ?_, ?_, ?_, by decide⟩
  · rw [C12_zero_dice _ rfl]; exact h1
  · intro r hr
    unfold DiceTerm.roll at hr
    rw [choices_eq _ (by decide)] at hr
    obtain ⟨a, ha, hb⟩ := Rand.possible_bind.mp hr
    rw [chooseMany_possible] at ha
    obtain ⟨l, hl, rfl⟩ := ha
    simp only [tuples, List.mem_singleton] at hl
    subst hl
    exact Rand.possible_pure.mp hb
  · rw [countOf_getResultMap, h3]; decide

/-- `3d[-1, 4*2, 4]` meets the hypothesis of C12. -/
example : ∃ t, mkDice ['3', 'd', '[', '-', '1', ',', ' ', '4', '*', '2', ',', '4', ']'] = .ok t ∧ 1 ≤ t.number ∧
    t.table = [(-1, 1), (4, 3)] ∧ tupleCount t.table t.number List.sum 7 = 27 := by
  refine ⟨⟨['3', 'd', '[', '-', '1', ',', ' ', '4', '*', '2', ',', '4', ']'], [(-1, 1), (4, 3)], 3⟩, by decide, by decide, rfl, by decide⟩

/-! ## C13 -/

/-- C13: with at least one die and at least one face, `max()` and `min()` of the dice term are those of its distribution. -/
theorem C13_max_min (t : DiceTerm) (hn : 1 ≤ t.number) (hne : t.table ≠ []) : ∃ d a b, t.dist = .ok d ∧
    t.extreme false = .ok a ∧ t.extreme true = .ok b ∧ d.min = .ok a ∧ d.max = .ok b := by
  obtain ⟨d, h1, _, _, h4⟩ := diceDist_spec t hn
  have hne' : t.table.map Prod.fst ≠ [] := by simpa using hne
  obtain ⟨hi, hhi, hhi1, hhi2⟩ := listMax_ok hne'
  obtain ⟨lo, hlo, hlo1, hlo2⟩ := listMin_ok hne'
  refine ⟨d, lo * t.number, hi * t.number, h1, ?_, ?_, ?_, ?_⟩
  · simp only [DiceTerm.extreme, Bool.false_eq_true, if_false, hlo, ok_bind]; rfl
  · simp only [DiceTerm.extreme, if_true, hhi, ok_bind]; rfl
  · rw [(C09_max_min d _).2]
    refine ⟨(h4 _).mpr ⟨_, replicate_mem_tuples hlo1 _, (sum_replicate_int _ _).symm⟩, ?_⟩
    intro x hx
    obtain ⟨l, hl, rfl⟩ := (h4 x).mp hx
    rw [mem_tuples] at hl
    rw [← hl.1]
    exact le_sum_of_forall (fun y hy => hlo2 y (hl.2 y hy))
  · rw [(C09_max_min d _).1]
    refine ⟨(h4 _).mpr ⟨_, replicate_mem_tuples hhi1 _, (sum_replicate_int _ _).symm⟩, ?_⟩
    intro x hx
    obtain ⟨l, hl, rfl⟩ := (h4 x).mp hx
    rw [mem_tuples] at hl
    rw [← hl.1]
    exact sum_le_of_forall (fun y hy => hhi2 y (hl.2 y hy))

omit R in
/-- C13: every roll of `n` dice (any `n`) lies between `min()` and `max()`. -/
theorem C13_roll_between (t : DiceTerm) (hw : 0 < (t.table.map Prod.snd).sum) : ∃ a b,
    t.extreme false = .ok a ∧ t.extreme true = .ok b ∧
      ∀ r, Rand.Possible r t.roll → ∃ v, r = .ok v ∧ a ≤ v ∧ v ≤ b := by
  have hne' : t.table.map Prod.fst ≠ [] := by intro h; simp at h; rw [h] at hw; simp at hw
  obtain ⟨hi, hhi, hhi1, hhi2⟩ := listMax_ok hne'
  obtain ⟨lo, hlo, hlo1, hlo2⟩ := listMin_ok hne'
  refine ⟨lo * t.number, hi * t.number, ?_, ?_, ?_⟩
  · simp only [DiceTerm.extreme, Bool.false_eq_true, if_false, hlo, ok_bind]; rfl
  · simp only [DiceTerm.extreme, if_true, hhi, ok_bind]; rfl
  · intro r hr
    obtain ⟨l, hl, rfl⟩ := (roll_possible t hw r).mp hr
    rw [mem_tuples] at hl
    rw [← hl.1]
    exact ⟨_, rfl, le_sum_of_forall (fun y hy => hlo2 y (facesOf_subset (hl.2 y hy))),
      sum_le_of_forall (fun y hy => hhi2 y (facesOf_subset (hl.2 y hy)))⟩

omit R in
/-- C13: a roll cannot be made when all weights are 0, and `max()` needs a face. -/
theorem C13_no_faces (t : DiceTerm) (hw : (t.table.map Prod.snd).sum = 0) :
    ∃ e, t.roll = .pure (.error e) ∧ (e = .value ∨ e = .index) ∧ (t.table = [] → t.extreme true = .error .value) := by
  unfold DiceTerm.roll choices
  by_cases h : t.table = []
  · rw [h]; exact ⟨.index, rfl, Or.inr rfl, fun _ => by unfold DiceTerm.extreme; rw [h]; rfl⟩
  · have hne : t.table.map Prod.snd ≠ [] := by simpa using h
    simp only [accumulate_getLast 0 _ hne, hw]
    exact ⟨.value, rfl, Or.inl rfl, fun h' => absurd h' h⟩

/-- `2dF` meets the hypotheses of C13: extremes -2 and 2. -/
example : ∃ t, mkDice ['2', 'd', 'F'] = .ok t ∧ 1 ≤ t.number ∧ 0 < (t.table.map Prod.snd).sum ∧
    t.extreme false = .ok (-2) ∧ t.extreme true = .ok 2 :=
  ⟨⟨['2', 'd', 'F'], [(-1, 1), (0, 1), (1, 1)], 2⟩, by decide, by decide, by decide, by decide, by decide⟩

/-! ## C42 -/

omit R in
/-- C42: of the equally likely draws below the total weight, each face is chosen by exactly as many as its weight, and every
    draw chooses a face of positive weight. -/
theorem C42_one_choice (t : List (Int × Nat)) :
    (∀ v, ((List.range (t.map Prod.snd).sum).filter fun x =>
        decide (choose (t.map Prod.fst) (accumulate 0 (t.map Prod.snd)) x = .ok v)).length = weightOf t v) ∧
    (∀ x < (t.map Prod.snd).sum, ∃ v, choose (t.map Prod.fst) (accumulate 0 (t.map Prod.snd)) x = .ok v ∧
      0 < weightOf t v) := by
  have hc : ∀ x v, (facesOf t)[x]? = some v → choose (t.map Prod.fst) (accumulate 0 (t.map Prod.snd)) x = .ok v := by
    intro x v h
    have := choose_eq t 0 x v h
    rwa [Nat.zero_add] at this
  constructor
  · intro v
    rw [weightOf_eq, ← length_facesOf, List.count_eq_countP, List.countP_eq_length_filter]
    have key : ∀ (l : List Int) (P : Nat → Bool) (Q : Int → Bool), (∀ x a, l[x]? = some a → P x = Q a) →
        ((List.range l.length).filter P).length = (l.filter Q).length := by
      intro l P Q h
      have := sum_range_getElem l (fun x => if P x then 1 else 0) (fun a => if Q a then 1 else 0)
        (fun x a hx => by rw [h x a hx])
      have cnt : ∀ {α : Type} (m : List α) (S : α → Bool), (m.map fun a => if S a then 1 else 0).sum = (m.filter S).length := by
        intro α m S
        induction m with
        | nil => rfl
        | cons a m ih => cases hs : S a <;> simp [hs, ih, Nat.add_comm]
      rw [cnt, cnt] at this
      exact this
    apply key
    intro x a hx
    rw [hc x a hx]
    simp only [Except.ok.injEq]
    rfl
  · intro x hx
    rw [← length_facesOf] at hx
    refine ⟨_, hc x _ (List.getElem?_eq_getElem hx), ?_⟩
    rw [weightOf_eq]
    exact List.count_pos_iff.mpr (List.getElem_mem hx)

omit R in
/-- C42: `random.choices(faces, weights, k)` returns the list `l` of length `k` with probability the product of its relative
    weights, and never fails. -/
theorem C42_choices_law (t : List (Int × Nat)) (hw : 0 < (t.map Prod.snd).sum) (k : Nat) :
    (∀ l : List Int, (choices t k).prob (fun r => decide (r = .ok l)) =
      if l.length = k then ((l.map fun v => weightOf t v).prod : ℚ) / ((t.map Prod.snd).sum : ℚ) ^ k else 0) ∧
    (∀ r, Rand.Possible r (choices t k) → ∃ l, r = .ok l ∧ l.length = k ∧ ∀ v ∈ l, 0 < weightOf t v) := by
  constructor
  · intro l
    unfold Rand.prob
    have hce := chooseMany_expect t (fun a => if decide (a = .ok l) = true then 1 else 0) k
    rw [length_facesOf] at hce
    rw [choices_eq t hw, hce]
    have h2 := tuples_count (facesOf t) k l
    have h3 : ((tuples (facesOf t) k).map fun m => if decide ((Except.ok m : Res (List Int)) = .ok l) = true then (1 : ℚ) else 0).sum =
        ((((tuples (facesOf t) k).map fun m => if m = l then 1 else 0).sum : Nat) : ℚ) := by
      generalize tuples (facesOf t) k = L
      induction L with
      | nil => simp
      | cons m L ih =>
        rw [List.map_cons, List.sum_cons, ih, List.map_cons, List.sum_cons]
        by_cases hm : m = l <;> simp [hm]
    rw [h3, h2]
    simp only [weightOf_eq]
    split <;> simp
  · intro r hr
    rw [choices_eq t hw, chooseMany_possible] at hr
    obtain ⟨l, hl, rfl⟩ := hr
    rw [mem_tuples] at hl
    refine ⟨l, rfl, hl.1, ?_⟩
    intro v hv
    rw [weightOf_eq]
    exact List.count_pos_iff.mpr (hl.2 v hv)

/-- A table with a face of weight 0 and a repeated weight meets the hypothesis of C42; here draw 2 of `[1*2, 2*0, 3]` is 3. -/
example : 0 < (([(1, 2), (2, 0), (3, 1)] : List (Int × Nat)).map Prod.snd).sum ∧
    choose [1, 2, 3] (accumulate 0 [2, 0, 1]) 2 = .ok 3 := by decide

end

end PyDice
