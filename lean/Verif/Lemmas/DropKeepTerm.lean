import Verif.Lemmas.DiceTerm
/-!
# Helpers for C16 - C20
-/

namespace PyDice

open PyRuntime

theorem mkDice_plain (n : Nat) (sides : Str) (table : List (Int × Nat)) (hs : ∀ c ∈ sides, (c == 'd') = false)
    (ht : singleDiceMap sides = .ok table) :
    mkDice (natStr n ++ 'd' :: sides) = .ok ⟨natStr n ++ 'd' :: sides, table, n⟩ := by
  have hd : ∀ c ∈ natStr n, (c == 'd') = false := by
    intro c hc
    have := natStr_digits n c hc
    by_contra hcon
    have : c = 'd' := by simpa using hcon
    rw [this] at hc
    have := natStr_digits n 'd' hc
    revert this; decide
  unfold mkDice
  rw [splitOn_sep hd (by simp), splitOn_clean hs]
  simp only [pyIndex, List.getElem?_cons_succ, List.getElem?_cons_zero, ok_bind, ht, diceNumber, natStr_ne_nil, if_false,
    pyInt_natStr]
  rfl

/-- The simplified form is chosen by the boundary rules, and a simplified plain roll has the same dice. -/
theorem mkDropKeep_spec {form : Str} {t : DropKeepTerm} (h : mkDropKeep form = .ok t) :
    (t.keep = form.contains 'k') ∧
    ((t.keep = true ∧ t.number ≤ t.count ∨ t.keep = false ∧ t.count = 0 ∧ 0 < t.number) →
      ∃ f, t.simplified = .dice ⟨f, t.table, t.number⟩) ∧
    ((t.keep = true ∧ t.count = 0 ∧ 0 < t.number ∨ t.keep = false ∧ t.number ≤ t.count) → t.simplified = .zero) ∧
    (0 < t.count → t.count < t.number → t.simplified = .none) := by
  unfold mkDropKeep at h
  dsimp only at h
  obtain ⟨p0, h0, h⟩ := bind_eq_ok.mp h
  obtain ⟨n, h1, h⟩ := bind_eq_ok.mp h
  obtain ⟨sides, h2, h⟩ := bind_eq_ok.mp h
  obtain ⟨table, h3, h⟩ := bind_eq_ok.mp h
  obtain ⟨p2, h4, h⟩ := bind_eq_ok.mp h
  obtain ⟨k0, h5, h⟩ := bind_eq_ok.mp h
  have hsides : ∀ c ∈ sides, (c == 'd') = false := by
    have hm : sides ∈ splitOn (fun c => c == 'd' || c == 'k') form := by
      unfold pyIndex at h2
      split at h2
      · rename_i x hx; injection h2 with h2; rw [← h2]; exact List.mem_of_getElem? hx
      · cases h2
    intro c hc
    have := splitOn_parts_clean _ _ sides hm c hc
    simp only [Bool.or_eq_false_iff] at this
    exact this.1
  have hm := mkDice_plain n sides table hsides h3
  simp only [hm, ok_bind] at h
  generalize hk : k0.toNat = k at h
  cases hkeep : form.contains 'k' with
  | true =>
    simp only [hkeep, if_true] at h
    by_cases hnk : n ≤ k
    · simp only [if_pos hnk] at h
      injection h with h; subst h
      simp only [true_and]
      refine ⟨fun _ => ⟨_, rfl⟩, fun h => ?_, fun _ _ => by omega⟩
      simp at h; omega
    · simp only [if_neg hnk] at h
      by_cases hk0 : k = 0
      · simp only [if_pos hk0] at h
        injection h with h; subst h
        simp only [true_and]
        refine ⟨fun h => ?_, fun _ => by trivial, fun _ _ => by omega⟩
        simp at h; omega
      · simp only [if_neg hk0] at h
        injection h with h; subst h
        simp only [true_and]
        refine ⟨fun h => ?_, fun h => ?_, fun _ _ => by trivial⟩
        · simp at h; omega
        · simp at h; omega
  | false =>
    simp only [hkeep, Bool.false_eq_true, if_false] at h
    by_cases hnk : n ≤ k
    · simp only [if_pos hnk] at h
      injection h with h; subst h
      simp only [true_and]
      refine ⟨fun h => ?_, fun _ => by trivial, fun _ _ => by omega⟩
      simp at h; omega
    · simp only [if_neg hnk] at h
      by_cases hk0 : k = 0
      · simp only [if_pos hk0] at h
        injection h with h; subst h
        simp only [true_and]
        refine ⟨fun _ => ⟨_, rfl⟩, fun h => ?_, fun _ _ => by omega⟩
        simp at h; omega
      · simp only [if_neg hk0] at h
        injection h with h; subst h
        simp only [true_and]
        refine ⟨fun h => ?_, fun h => ?_, fun _ _ => by trivial⟩
        · simp at h; omega
        · simp at h; omega

/-- A term that was not simplified keeps or drops some but not all of its dice. -/
theorem none_count {form : Str} {t : DropKeepTerm} (h : mkDropKeep form = .ok t) (hs : t.simplified = .none) :
    0 < t.count ∧ t.count < t.number := by
  obtain ⟨_, h1, h2, _⟩ := mkDropKeep_spec h
  rw [hs] at h1 h2
  simp only [reduceCtorEq, exists_false, imp_false] at h1 h2
  cases hk : t.keep <;> simp only [hk, true_and, false_and, false_or, or_false, reduceCtorEq] at h1 h2 <;> omega

section
variable [R : PyRuntime]

theorem dropKeepDist_spec (t : DropKeepTerm) (hs : t.simplified = .none) (hk : t.count ≤ t.number) :
    ∃ d, t.dist = .ok d ∧ d.Plain ∧
      (∀ {M : Type} [AddCommMonoid M] (f : Int → M), d.E f = ((tuples (facesOf t.table) t.number).map fun l => f (t.score l)).sum) ∧
      (∀ v, hasKey d.getResultMap v ↔ ∃ l ∈ tuples (t.table.map Prod.fst) t.number, v = t.score l) := by
  obtain ⟨m, h1, h2, h3⟩ := dropKeepMap_spec t hk
  obtain ⟨d, g1, g2, g3, g4⟩ := mkDistInt_plain m
  refine ⟨d, ?_, g2, ?_, ?_⟩
  · unfold DropKeepTerm.dist
    rw [hs]
    simp only [h1, ok_bind]
    exact g1
  · intro M _ f; rw [g3, h2]
  · intro v; rw [g4, h3]

omit R in
theorem topK_length (k : Nat) (l : List Int) (h : k ≤ l.length) : (topK k l).length = k := by
  unfold topK; rw [List.length_drop, length_sortInts]; omega

omit R in
theorem lowK_length (k : Nat) (l : List Int) (h : k ≤ l.length) : (lowK k l).length = k := by
  unfold lowK; rw [List.length_take, length_sortInts]; omega

omit R in
theorem mem_topK {k : Nat} {l : List Int} {x : Int} (h : x ∈ topK k l) : x ∈ l :=
  (sortInts_perm l).mem_iff.mp (List.mem_of_mem_drop h)

omit R in
theorem mem_lowK {k : Nat} {l : List Int} {x : Int} (h : x ∈ lowK k l) : x ∈ l :=
  (sortInts_perm l).mem_iff.mp (List.mem_of_mem_take h)

/-- How many dice count. -/
def DropKeepTerm.kept (t : DropKeepTerm) : Nat := if t.keep then t.count else t.number - t.count

omit R in
theorem score_bounds (t : DropKeepTerm) (hk : t.count ≤ t.number) {l : List Int} (hl : l.length = t.number) {a b : Int}
    (h : ∀ x ∈ l, a ≤ x ∧ x ≤ b) : a * t.kept ≤ t.score l ∧ t.score l ≤ b * t.kept := by
  unfold DropKeepTerm.score DropKeepTerm.kept
  split
  · rw [sumHighest_eq]
    have hlen := topK_length t.count l (by omega)
    constructor
    · have := le_sum_of_forall (l := topK t.count l) (b := a) (fun x hx => (h x (mem_topK hx)).1)
      rwa [hlen] at this
    · have := sum_le_of_forall (l := topK t.count l) (b := b) (fun x hx => (h x (mem_topK hx)).2)
      rwa [hlen] at this
  · rw [sumLowest_eq]
    have hlen := lowK_length (t.number - t.count) l (by omega)
    constructor
    · have := le_sum_of_forall (l := lowK (t.number - t.count) l) (b := a) (fun x hx => (h x (mem_lowK hx)).1)
      rwa [hlen] at this
    · have := sum_le_of_forall (l := lowK (t.number - t.count) l) (b := b) (fun x hx => (h x (mem_lowK hx)).2)
      rwa [hlen] at this

omit R in
theorem score_replicate (t : DropKeepTerm) (hk : t.count ≤ t.number) (v : Int) :
    t.score (List.replicate t.number v) = v * t.kept := by
  have := score_bounds t hk (l := List.replicate t.number v) (by simp) (a := v) (b := v)
    (fun x hx => by rw [List.eq_of_mem_replicate hx]; exact ⟨le_refl _, le_refl _⟩)
  omega

omit R in
theorem extreme_none (t : DropKeepTerm) (hs : t.simplified = .none) (hk : t.count ≤ t.number) (isMax : Bool) (v : Int)
    (h : (if isMax then listMax else listMin) (t.table.map Prod.fst) = .ok v) : t.extreme isMax = .ok (v * t.kept) := by
  unfold DropKeepTerm.extreme
  rw [hs]
  simp only [h, ok_bind]
  unfold DropKeepTerm.kept
  show Except.ok _ = _
  congr 1
  split
  · rw [Int.mul_comm]
  · rw [Int.mul_comm, Int.natCast_sub hk]

omit R in
theorem count_cases {form : Str} {t : DropKeepTerm} (ht : mkDropKeep form = .ok t) (hn : 1 ≤ t.number) :
    (0 < t.count ∧ t.count < t.number ∧ t.simplified = .none) ∨ (∃ f, t.simplified = .dice ⟨f, t.table, t.number⟩) ∨
      t.simplified = .zero := by
  obtain ⟨_, hp, hz, hnone⟩ := mkDropKeep_spec ht
  by_cases h0 : t.count = 0
  · cases hk : t.keep with
    | true => exact Or.inr (Or.inr (hz (Or.inl ⟨hk, h0, by omega⟩)))
    | false => exact Or.inr (Or.inl (hp (Or.inr ⟨hk, h0, by omega⟩)))
  · by_cases h1 : t.count < t.number
    · exact Or.inl ⟨by omega, h1, hnone (by omega) h1⟩
    · cases hk : t.keep with
      | true => exact Or.inr (Or.inl (hp (Or.inl ⟨hk, by omega⟩)))
      | false => exact Or.inr (Or.inr (hz (Or.inr ⟨hk, by omega⟩)))

/-- The distribution of the constant 0. -/
theorem constDist_spec (c : Int) : ∃ d, constDist c = .ok d ∧ d.Plain ∧
    (∀ {M : Type} [AddCommMonoid M] (f : Int → M), d.E f = f c) ∧ (∀ v, hasKey d.getResultMap v ↔ v = c) := by
  obtain ⟨d, h1, h2, h3, h4⟩ := mkDistInt_plain [(c, 1)]
  refine ⟨d, h1, h2, ?_, ?_⟩
  · intro M _ f; rw [h3]; simp
  · intro v; rw [h4]; simp [hasKey]

omit R in
theorem roll_score (t : DropKeepTerm) (h0 : 0 < t.count) (l : List Int) :
    (if t.keep then (pyTail (sortInts l) t.count).sum else ((sortInts l).take (t.number - t.count)).sum) = t.score l := by
  unfold DropKeepTerm.score
  split
  · rw [sumHighest_eq, pyTail, if_neg (by omega), topK, length_sortInts]
  · rw [sumLowest_eq, lowK]

omit R in
theorem dropKeepRoll_eq (t : DropKeepTerm) (hs : t.simplified = .none) (h0 : 0 < t.count)
    (hw : 0 < (t.table.map Prod.snd).sum) (F : Res Int → ℚ) :
    t.roll.expect F = ((tuples (facesOf t.table) t.number).map fun l => F (.ok (t.score l))).sum /
      ((facesOf t.table).length : ℚ) ^ t.number := by
  unfold DropKeepTerm.roll
  rw [hs]
  simp only
  rw [Rand.expect_bind, choices_eq _ hw, ← length_facesOf, chooseMany_expect]
  congr 2
  apply List.map_congr_left
  intro l hl
  show F _ = _
  rw [roll_score t h0 l]

omit R in
theorem dropKeepRoll_possible (t : DropKeepTerm) (hs : t.simplified = .none) (h0 : 0 < t.count)
    (hw : 0 < (t.table.map Prod.snd).sum) (r : Res Int) :
    Rand.Possible r t.roll ↔ ∃ l ∈ tuples (facesOf t.table) t.number, r = .ok (t.score l) := by
  unfold DropKeepTerm.roll
  rw [hs]
  simp only
  rw [choices_eq _ hw, Rand.possible_bind]
  constructor
  · rintro ⟨a, ha, hr⟩
    obtain ⟨l, hl, rfl⟩ := (chooseMany_possible _ _ _).mp ha
    simp only [roll_score t h0 l] at hr
    exact ⟨l, hl, Rand.possible_pure.mp hr⟩
  · rintro ⟨l, hl, rfl⟩
    refine ⟨.ok l, (chooseMany_possible _ _ _).mpr ⟨l, hl, rfl⟩, ?_⟩
    simp only [roll_score t h0 l]
    exact .pure

theorem prob_of_counts {d : Dist} (pd : d.Plain) (L : List (List Int)) (score : List Int → Int) (hL : L ≠ [])
    (hE : ∀ {M : Type} [AddCommMonoid M] (f : Int → M), d.E f = (L.map fun l => f (score l)).sum) :
    ∃ f, d.getDictForm = .ok f ∧ ∀ v, (dictGet? f v).getD 0 =
      (L.map fun l => if decide ((Except.ok (score l) : Res Int) = .ok v) = true then (1 : ℚ) else 0).sum / (L.length : ℚ) := by
  have hc : d.outcomeCount = L.length := by
    rw [← E_one d pd.constructed, hE]; simp
  have h0 : d.outcomeCount ≠ 0 := by rw [hc]; simpa using hL
  refine ⟨_, getDictForm_eq d h0, ?_⟩
  intro v
  rw [dictGet_dictForm, hc]
  congr 1
  rw [countOf_getResultMap, hE]
  clear hE hL hc
  induction L with
  | nil => simp
  | cons l L ih =>
    simp only [List.map_cons, List.sum_cons]
    rw [← ih]
    by_cases h : score l = v <;> simp [h]

omit R in
theorem roll_expect (t : DiceTerm) (hw : 0 < (t.table.map Prod.snd).sum) (F : Res Int → ℚ) :
    t.roll.expect F = ((tuples (facesOf t.table) t.number).map fun l => F (.ok l.sum)).sum /
      ((facesOf t.table).length : ℚ) ^ t.number := by
  unfold DiceTerm.roll
  rw [Rand.expect_bind, choices_eq _ hw, ← length_facesOf, chooseMany_expect]
  rfl

omit R in
theorem tuples_ne_nil (t : List (Int × Nat)) (hw : 0 < (t.map Prod.snd).sum) (n : Nat) : tuples (facesOf t) n ≠ [] := by
  intro h
  have := length_tuples (facesOf t) n
  rw [h, length_facesOf] at this
  simp only [List.length_nil] at this
  exact absurd this.symm (Nat.ne_of_gt (Nat.pow_pos hw))

end

end PyDice
