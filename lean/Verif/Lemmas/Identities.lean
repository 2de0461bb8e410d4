import Verif.Spec.Identities
import Verif.Lemmas.RollLaw
import Verif.Lemmas.Ways
/-!
# Helper lemmas for identities between dice expressions
-/

namespace PyDice

section
variable [R : PyRuntime]
open PyRuntime

/-- The mean of a function of the result. -/
def Dist.mean (d : Dist) (f : Int → ℚ) : ℚ := d.E f / (d.outcomeCount : ℚ)

omit R in
theorem wsum_cast {κ : Type} (l : List (κ × Nat)) (f : κ → Nat) : ((wsum l f : Nat) : ℚ) = wsum l (fun x => (f x : ℚ)) := by
  induction l with
  | nil => simp
  | cons p l ih => rw [wsum_cons, wsum_cons, ← ih]; simp

omit R in
theorem wsum_castInt {κ : Type} (l : List (κ × Nat)) (f : κ → Int) : ((wsum l f : Int) : ℚ) = wsum l (fun x => (f x : ℚ)) := by
  induction l with
  | nil => simp
  | cons p l ih => rw [wsum_cons, wsum_cons, ← ih]; simp

theorem probOf_mean (d : Dist) (hc : d.Constructed) (P : Int → Bool) :
    probOf d P = d.mean (fun x => if P x = true then 1 else 0) := by
  rw [probOf_eq d hc, wsum_cast, wsum_getResultMap]
  unfold Dist.mean
  congr 2
  funext x
  split <;> simp

theorem average_mean (d : Dist) (h : 0 < d.outcomeCount) : d.average = .ok (d.mean (fun x => (x : ℚ))) := by
  rw [average_E d h]
  unfold Dist.mean
  congr 2
  unfold Dist.E
  exact wsum_castInt _ _

/-- The distribution lists the scores of all tuples of `n` dice, each tuple as likely as the others. -/
structure ListsScores (d : Dist) (table : List (Int × Nat)) (n : Nat) (score : List Int → Int) : Prop where
  plain : d.Plain
  pos : 0 < d.outcomeCount
  mean : ∀ f : Int → ℚ, d.mean f = avg (tuples (facesOf table) n) (fun l => f (score l))
  keys : ∀ v, hasKey d.getResultMap v ↔ ∃ l ∈ tuples (table.map Prod.fst) n, v = score l

theorem follows_of_E {d : Dist} {table : List (Int × Nat)} {n : Nat} {score : List Int → Int} (pd : d.Plain)
    (hw : 0 < (table.map Prod.snd).sum)
    (hE : ∀ {M : Type} [AddCommMonoid M] (f : Int → M), d.E f = ((tuples (facesOf table) n).map fun l => f (score l)).sum)
    (hk : ∀ v, hasKey d.getResultMap v ↔ ∃ l ∈ tuples (table.map Prod.fst) n, v = score l) : ListsScores d table n score := by
  have hN : d.outcomeCount = (tuples (facesOf table) n).length := by
    rw [← E_one d pd.constructed, hE]; simp
  refine ⟨pd, ?_, ?_, hk⟩
  · rw [hN]; exact List.length_pos_iff.mpr (tuples_ne_nil table hw n)
  · intro f
    unfold Dist.mean avg
    rw [hN, hE]

theorem dice_follows (t : DiceTerm) (h : (Expr.dice t).Loaded) : ∃ d, t.dist = .ok d ∧ ListsScores d t.table t.number List.sum := by
  obtain ⟨d, h1, h2, h3, h4⟩ := diceDist_spec t h.1
  exact ⟨d, h1, follows_of_E h2 h.2 h3 h4⟩

omit R in
theorem table_tuples {table : List (Int × Nat)} (hw : 0 < (table.map Prod.snd).sum) (n : Nat) : ∃ l, l ∈ tuples (table.map Prod.fst) n := by
  cases table with
  | nil => simp at hw
  | cons p t => exact ⟨_, replicate_mem_tuples (x := p.1) (by simp) n⟩

theorem dropKeep_follows (t : DropKeepTerm) (h : (Expr.dropKeep t).Loaded) :
    ∃ d, t.dist = .ok d ∧ ListsScores d t.table t.number t.result := by
  obtain ⟨⟨form, ht⟩, hn, hw⟩ := h
  have hsc : t.score = t.result := rfl
  obtain ⟨hkeep, hp, hz, hnone⟩ := mkDropKeep_spec ht
  rcases count_cases ht hn with ⟨h0, h1, hs⟩ | ⟨f, hf⟩ | hzero
  · obtain ⟨d, g1, g2, g3, g4⟩ := dropKeepDist_spec t hs (by omega)
    exact ⟨d, g1, follows_of_E g2 hw g3 g4⟩
  · have hres : ∀ l : List Int, l.length = t.number → t.result l = l.sum := by
      intro l hl
      unfold DropKeepTerm.result
      cases hk : t.keep with
      | true =>
        simp only [if_true]
        apply sumHighest_all
        by_contra hlt
        by_cases h0 : t.count = 0
        · have := hz (Or.inl ⟨hk, h0, by omega⟩); rw [hf] at this; cases this
        · have := hnone (by omega) (by omega); rw [hf] at this; cases this
      | false =>
        simp only [Bool.false_eq_true, if_false]
        apply sumLowest_all
        by_contra hlt
        by_cases h0 : t.number ≤ t.count
        · have := hz (Or.inr ⟨hk, h0⟩); rw [hf] at this; cases this
        · have := hnone (by omega) (by omega); rw [hf] at this; cases this
    obtain ⟨d, g1, g2⟩ := dice_follows ⟨f, t.table, t.number⟩ ⟨hn, hw⟩
    refine ⟨d, by unfold DropKeepTerm.dist; rw [hf]; exact g1, g2.plain, g2.pos, ?_, ?_⟩
    · intro φ
      rw [g2.mean]
      apply avg_congr
      intro l hl
      rw [hres l ((mem_tuples _ _ _).mp hl).1]
    · intro v
      rw [g2.keys]
      refine exists_congr fun l => and_congr_right fun hl => ?_
      rw [hres l ((mem_tuples _ _ _).mp hl).1]
  · have hres : ∀ l : List Int, t.result l = 0 := by
      intro l
      unfold DropKeepTerm.result
      cases hk : t.keep with
      | true =>
        have : t.count = 0 := by
          by_contra h0
          by_cases h1 : t.number ≤ t.count
          · obtain ⟨f, hf⟩ := hp (Or.inl ⟨hk, h1⟩); rw [hzero] at hf; cases hf
          · have := hnone (by omega) (by omega); rw [hzero] at this; cases this
        simp [this, sumHighest]
      | false =>
        have : t.number ≤ t.count := by
          by_contra h0
          by_cases h1 : t.count = 0
          · obtain ⟨f, hf⟩ := hp (Or.inr ⟨hk, h1, by omega⟩); rw [hzero] at hf; cases hf
          · have := hnone (by omega) (by omega); rw [hzero] at this; cases this
        simp [show t.number - t.count = 0 by omega, sumLowest]
    obtain ⟨d, g1, g2, g3, g4⟩ := constDist_spec 0
    have hN : d.outcomeCount = 1 := by rw [← E_one d g2.constructed, g3]
    refine ⟨d, by unfold DropKeepTerm.dist; rw [hzero]; exact g1, g2, by omega, ?_, ?_⟩
    · intro φ
      unfold Dist.mean
      rw [hN, g3]
      simp only [hres]
      rw [avg_const (tuples_ne_nil t.table hw _)]
      simp
    · intro v
      rw [g4]
      simp only [hres]
      obtain ⟨l, hl⟩ := table_tuples hw t.number
      exact ⟨fun h => ⟨l, hl, h⟩, fun ⟨_, _, h⟩ => h⟩

/-- The combination of two such distributions under an operator that never fails. -/
theorem binop_mean {op : BinOp} {g : Int → Int → Int} (hop : ∀ x y, op.apply x y = .ok (g x y)) {a b : Dist} (pa : a.Plain)
    (pb : b.Plain) : ∃ d, Dist.binop op a b = .ok d ∧ d.Plain ∧ d.outcomeCount = a.outcomeCount * b.outcomeCount ∧
      (∀ f, d.mean f = a.mean (fun x => b.mean (fun y => f (g x y)))) ∧
      ∀ v, hasKey d.getResultMap v ↔ ∃ x y, hasKey a.getResultMap x ∧ hasKey b.getResultMap y ∧ v = g x y := by
  obtain ⟨d, hd⟩ := (binop_ok_iff (op := op) (b := b) pa.proper).mpr (fun p _ q _ => ⟨_, hop _ _⟩)
  have hN := binop_total hd pa.proper pa.untied pb.untied pa.constructed pb.constructed
  refine ⟨d, hd, binop_plain hd pa pb, hN, ?_, ?_⟩
  · intro f
    have hE := binop_E hd pa.proper pa.untied pb.untied f
    simp only [hop, onOk] at hE
    unfold Dist.mean
    rw [hE, hN]
    have : a.E (fun x => b.E (fun y => f (g x y)) / (b.outcomeCount : ℚ)) =
        a.E (fun x => b.E (fun y => f (g x y))) / (b.outcomeCount : ℚ) := by
      unfold Dist.E
      generalize a.resultMap = l
      induction l with
      | nil => simp
      | cons p l ih => rw [wsum_cons, wsum_cons, ih]; simp only [nsmul_eq_mul]; ring
    rw [this, div_div]
    push_cast
    rw [mul_comm (b.outcomeCount : ℚ)]
  · intro v
    rw [binop_hasKey hd pa pb]
    simp only [hop]
    constructor
    · rintro ⟨x, y, h1, h2, h3⟩; exact ⟨x, y, h1, h2, (Except.ok.inj h3).symm⟩
    · rintro ⟨x, y, h1, h2, h3⟩; exact ⟨x, y, h1, h2, by rw [h3]⟩

omit R in
theorem avg_tuples_add (fs : List Int) (a b : Nat) (F : List Int → ℚ) :
    avg (tuples fs (a + b)) F = avg (tuples fs a) (fun l => avg (tuples fs b) (fun m => F (l ++ m))) := by
  unfold avg
  rw [← sum_tuples_add]
  have : ∀ (L : List (List Int)) (G : List Int → ℚ) (c : ℚ), (L.map fun l => G l / c).sum = (L.map G).sum / c := by
    intro L G c
    induction L with
    | nil => simp
    | cons x L ih => simp only [List.map_cons, List.sum_cons, ih]; ring
  rw [this, div_div, length_tuples, length_tuples, length_tuples]
  push_cast
  rw [pow_add, mul_comm]

omit R in
theorem tuples_append {α : Type} (fs : List α) (a b : Nat) (x : List α) : x ∈ tuples fs (a + b) ↔ ∃ l ∈ tuples fs a, ∃ m ∈ tuples fs b, x = l ++ m := by
  simp only [mem_tuples]
  constructor
  · rintro ⟨h1, h2⟩
    exact ⟨x.take a, ⟨by rw [List.length_take]; omega, fun y hy => h2 y (List.mem_of_mem_take hy)⟩, x.drop a,
      ⟨by rw [List.length_drop]; omega, fun y hy => h2 y (List.mem_of_mem_drop hy)⟩, (List.take_append_drop a x).symm⟩
  · rintro ⟨l, ⟨h1, h2⟩, m, ⟨h3, h4⟩, rfl⟩
    refine ⟨by simp [h1, h3], fun y hy => ?_⟩
    rcases List.mem_append.mp hy with h | h
    · exact h2 y h
    · exact h4 y h

theorem SameChances.of_mean {d e : Dist} (hd : d.Constructed) (he : e.Constructed)
    (hk : ∀ v, hasKey d.getResultMap v ↔ hasKey e.getResultMap v) (h : ∀ f, d.mean f = e.mean f) : SameChances d e :=
  ⟨hk, fun P => by rw [probOf_mean d hd, probOf_mean e he, h]⟩

/-- Splitting the dice of a term into two groups whose scores combine to the score of all. -/
theorem split_follows {op : BinOp} {g : Int → Int → Int} (hop : ∀ x y, op.apply x y = .ok (g x y)) {table : List (Int × Nat)}
    {n m : Nat} {sa sb s : List Int → Int} {a b d : Dist} (fa : ListsScores a table n sa) (fb : ListsScores b table m sb)
    (fd : ListsScores d table (n + m) s) (h : ∀ l k : List Int, l.length = n → k.length = m → s (l ++ k) = g (sa l) (sb k)) :
    ∃ e, Dist.binop op a b = .ok e ∧ e.Plain ∧ 0 < e.outcomeCount ∧ (∀ f, d.mean f = e.mean f) ∧ SameChances d e := by
  obtain ⟨e, h1, h2, h3, h4, h5⟩ := binop_mean hop fa.plain fb.plain
  have hm : ∀ f, d.mean f = e.mean f := by
    intro f
    rw [fd.mean, h4, fa.mean, avg_tuples_add]
    apply avg_congr
    intro l hl
    rw [fb.mean]
    apply avg_congr
    intro k hk
    rw [h l k ((mem_tuples _ _ _).mp hl).1 ((mem_tuples _ _ _).mp hk).1]
  refine ⟨e, h1, h2, by rw [h3]; exact Nat.mul_pos fa.pos fb.pos, hm, .of_mean fd.plain.constructed h2.constructed ?_ hm⟩
  intro v
  rw [fd.keys, h5]
  simp only [fa.keys, fb.keys, tuples_append]
  constructor
  · rintro ⟨_, ⟨l, hl, k, hk, rfl⟩, rfl⟩
    exact ⟨_, _, ⟨l, hl, rfl⟩, ⟨k, hk, rfl⟩, h l k ((mem_tuples _ _ _).mp hl).1 ((mem_tuples _ _ _).mp hk).1⟩
  · rintro ⟨_, _, ⟨l, hl, rfl⟩, ⟨k, hk, rfl⟩, rfl⟩
    exact ⟨_, ⟨l, hl, k, hk, rfl⟩, (h l k ((mem_tuples _ _ _).mp hl).1 ((mem_tuples _ _ _).mp hk).1).symm⟩

/-- A pointwise larger score dominates. -/
theorem dominates_of_le {table : List (Int × Nat)} {n : Nat} {s s' : List Int → Int} {d e : Dist} (fd : ListsScores d table n s)
    (fe : ListsScores e table n s') (h : ∀ l ∈ tuples (facesOf table) n, s l ≤ s' l) (v : Int) :
    probOf d (fun x => decide (v ≤ x)) ≤ probOf e (fun x => decide (v ≤ x)) := by
  rw [probOf_mean d fd.plain.constructed, probOf_mean e fe.plain.constructed, fd.mean, fe.mean]
  unfold avg
  apply div_le_div_of_nonneg_right _ (by positivity)
  apply List.sum_le_sum
  intro l hl
  have := h l hl
  by_cases h1 : v ≤ s l
  · simp [h1, le_trans h1 this]
  · simp only [h1, decide_false, Bool.false_eq_true, if_false]
    split <;> norm_num

/-- Dice that are thrown but not looked at change nothing. -/
theorem ListsScores.extend {table : List (Int × Nat)} {n : Nat} {s : List Int → Int} {d : Dist} (fd : ListsScores d table n s)
    (hw : 0 < (table.map Prod.snd).sum) (m : Nat) : ListsScores d table (n + m) (fun l => s (l.take n)) := by
  refine ⟨fd.plain, fd.pos, ?_, ?_⟩
  · intro f
    rw [fd.mean, avg_tuples_add]
    apply avg_congr
    intro l hl
    have h1 := ((mem_tuples _ _ _).mp hl).1
    rw [avg_congr (ψ := fun _ => f (s l)), avg_const (tuples_ne_nil table hw m)]
    intro k _
    rw [List.take_left' h1]
  · intro v
    rw [fd.keys]
    simp only [tuples_append]
    obtain ⟨k, hk⟩ := table_tuples hw m
    constructor
    · rintro ⟨l, hl, rfl⟩
      exact ⟨_, ⟨l, hl, k, hk, rfl⟩, by rw [List.take_left' ((mem_tuples _ _ _).mp hl).1]⟩
    · rintro ⟨_, ⟨l, hl, k, hk, rfl⟩, rfl⟩
      exact ⟨l, hl, by rw [List.take_left' ((mem_tuples _ _ _).mp hl).1]⟩

omit R in
theorem sum_keep_drop (k : Nat) (l : List Int) : sumHighest k l + sumLowest (l.length - k) l = l.sum := by
  rw [sumHighest_eq, sumLowest_eq]
  unfold topK lowK
  rw [add_comm, ← List.sum_append, List.take_append_drop]
  exact (sortInts_perm l).sum_eq

omit R in
theorem one_highest {l : List Int} (h : l ≠ []) : sumHighest 1 l ∈ l ∧ ∀ y ∈ l, y ≤ sumHighest 1 l := by
  have hp : (l.mergeSort fun a b => decide (b ≤ a)).Perm l := List.mergeSort_perm _ _
  have hs : (l.mergeSort fun a b => decide (b ≤ a)).Pairwise (fun a b => decide (b ≤ a)) :=
    List.pairwise_mergeSort (by intro a b c; simp; omega) (by intro a b; simp; omega) l
  unfold sumHighest
  generalize (l.mergeSort fun a b => decide (b ≤ a)) = m at hp hs
  cases m with
  | nil => exact absurd (List.nil_perm.mp hp) h
  | cons x m =>
    simp only [List.take_succ_cons, List.take_zero, List.sum_cons, List.sum_nil, add_zero]
    refine ⟨hp.subset (by simp), fun y hy => ?_⟩
    rcases List.mem_cons.mp (hp.symm.subset hy) with rfl | h1
    · exact le_refl _
    · simpa using (List.pairwise_cons.mp hs).1 y h1

omit R in
theorem one_lowest {l : List Int} (h : l ≠ []) : sumLowest 1 l ∈ l ∧ ∀ y ∈ l, sumLowest 1 l ≤ y := by
  have hp : (l.mergeSort fun a b => decide (a ≤ b)).Perm l := List.mergeSort_perm _ _
  have hs : (l.mergeSort fun a b => decide (a ≤ b)).Pairwise (fun a b => decide (a ≤ b)) :=
    List.pairwise_mergeSort (by intro a b c; simp; omega) (by intro a b; simp; omega) l
  unfold sumLowest
  generalize (l.mergeSort fun a b => decide (a ≤ b)) = m at hp hs
  cases m with
  | nil => exact absurd (List.nil_perm.mp hp) h
  | cons x m =>
    simp only [List.take_succ_cons, List.take_zero, List.sum_cons, List.sum_nil, add_zero]
    refine ⟨hp.subset (by simp), fun y hy => ?_⟩
    rcases List.mem_cons.mp (hp.symm.subset hy) with rfl | h1
    · exact le_refl _
    · simpa using (List.pairwise_cons.mp hs).1 y h1

omit R in
theorem highest_append {l k : List Int} (hl : l ≠ []) (hk : k ≠ []) :
    sumHighest 1 (l ++ k) = if sumHighest 1 k > sumHighest 1 l then sumHighest 1 k else sumHighest 1 l := by
  obtain ⟨a1, a2⟩ := one_highest hl
  obtain ⟨b1, b2⟩ := one_highest hk
  obtain ⟨c1, c2⟩ := one_highest (l := l ++ k) (by simp [hl])
  have d1 := c2 _ (List.mem_append_left k a1)
  have d2 := c2 _ (List.mem_append_right l b1)
  rcases List.mem_append.mp c1 with h | h
  · have := a2 _ h; split <;> omega
  · have := b2 _ h; split <;> omega

omit R in
theorem lowest_append {l k : List Int} (hl : l ≠ []) (hk : k ≠ []) :
    sumLowest 1 (l ++ k) = if sumLowest 1 k < sumLowest 1 l then sumLowest 1 k else sumLowest 1 l := by
  obtain ⟨a1, a2⟩ := one_lowest hl
  obtain ⟨b1, b2⟩ := one_lowest hk
  obtain ⟨c1, c2⟩ := one_lowest (l := l ++ k) (by simp [hl])
  have d1 := c2 _ (List.mem_append_left k a1)
  have d2 := c2 _ (List.mem_append_right l b1)
  rcases List.mem_append.mp c1 with h | h
  · have := a2 _ h; split <;> omega
  · have := b2 _ h; split <;> omega

omit R in
theorem highest_more (k : Nat) (l : List Int) (h : k ≤ l.length) (m : List Int) : sumHighest k l ≤ sumHighest k (l ++ m) := by
  induction m generalizing l with
  | nil => simp
  | cons x m ih =>
    rw [show l ++ x :: m = (l ++ [x]) ++ m by simp]
    refine le_trans ?_ (ih (l ++ [x]) (by simp; omega))
    rw [sumHighest_eq, sumHighest_eq, ← topK_snoc k l x h]
    have hp := sortInts_perm (topK k l ++ [x])
    have hs := sortInts_sorted (topK k l ++ [x])
    have hsum := hp.sum_eq
    generalize sortInts (topK k l ++ [x]) = q at hp hs hsum
    rw [List.sum_append] at hsum
    cases q with
    | nil => exact absurd hp.symm (by simp)
    | cons y q =>
      have hx : x ∈ y :: q := hp.symm.subset (by simp)
      have : y ≤ x := by
        rcases List.mem_cons.mp hx with rfl | h1
        · exact le_refl _
        · exact (List.pairwise_cons.mp hs).1 x h1
      simp only [List.sum_cons, List.sum_nil, List.drop_succ_cons, List.drop_zero] at hsum ⊢
      omega

omit R in
theorem lowest_more (k : Nat) (l : List Int) (h : k ≤ l.length) (m : List Int) : sumLowest k (l ++ m) ≤ sumLowest k l := by
  induction m generalizing l with
  | nil => simp
  | cons x m ih =>
    rw [show l ++ x :: m = (l ++ [x]) ++ m by simp]
    refine le_trans (ih (l ++ [x]) (by simp; omega)) ?_
    rw [sumLowest_eq, sumLowest_eq, ← lowK_snoc k l x h]
    have hp := sortInts_perm (lowK k l ++ [x])
    have hs := sortInts_sorted (lowK k l ++ [x])
    have hsum := hp.sum_eq
    generalize sortInts (lowK k l ++ [x]) = q at hp hs hsum
    rw [List.sum_append] at hsum
    rcases List.eq_nil_or_concat q with rfl | ⟨q, y, rfl⟩
    · exact absurd hp.symm (by simp)
    · have hx : x ∈ q ++ [y] := by rw [← List.concat_eq_append]; exact hp.symm.subset (by simp)
      rw [List.concat_eq_append] at hs hsum ⊢
      have : x ≤ y := by
        rcases List.mem_append.mp hx with h1 | h1
        · exact (List.pairwise_append.mp hs).2.2 x h1 y (by simp)
        · simp only [List.mem_singleton] at h1; omega
      simp only [List.sum_append, List.sum_cons, List.sum_nil, List.dropLast_concat] at hsum ⊢
      omega

omit R in
theorem sum_take_mono {l : List Int} (h : ∀ x ∈ l, 0 ≤ x) {a b : Nat} (hab : a ≤ b) : (l.take a).sum ≤ (l.take b).sum := by
  induction l generalizing a b with
  | nil => simp
  | cons x l ih =>
    cases a with
    | zero =>
      simp only [List.take_zero, List.sum_nil]
      exact List.sum_nonneg (fun y hy => h y (List.mem_of_mem_take hy))
    | succ a =>
      cases b with
      | zero => omega
      | succ b =>
        simp only [List.take_succ_cons, List.sum_cons]
        have := ih (fun y hy => h y (by simp [hy])) (show a ≤ b by omega)
        omega

omit R in
theorem highest_mono {l : List Int} (h : ∀ x ∈ l, 0 ≤ x) {a b : Nat} (hab : a ≤ b) : sumHighest a l ≤ sumHighest b l :=
  sum_take_mono (fun x hx => h x ((List.mergeSort_perm _ _).subset hx)) hab

omit R in
theorem lowest_mono {l : List Int} (h : ∀ x ∈ l, 0 ≤ x) {a b : Nat} (hab : a ≤ b) : sumLowest a l ≤ sumLowest b l :=
  sum_take_mono (fun x hx => h x ((List.mergeSort_perm _ _).subset hx)) hab

omit R in
theorem lowest_le_highest (k : Nat) (l : List Int) (h : k ≤ l.length) : sumLowest k l ≤ sumHighest k l := by
  have h1 := highest_more k (lowK k l) (by rw [lowK_length k l h]) ((sortInts l).drop k)
  have h2 : lowK k l ++ (sortInts l).drop k = sortInts l := List.take_append_drop _ _
  rw [h2, sumHighest_all (by rw [lowK_length k l h]), ← sumLowest_eq] at h1
  rw [sumHighest_eq k (sortInts l)] at h1
  rw [sumHighest_eq k l]
  unfold topK at h1 ⊢
  rw [sortInts_idem, length_sortInts] at h1
  exact h1

omit R in
theorem sort_mirror (c : Int) (l : List Int) : sortInts (l.map (c - ·)) = ((sortInts l).map (c - ·)).reverse := by
  apply sorted_unique
  · exact (sortInts_perm _).trans (((sortInts_perm l).symm.map _).trans (List.reverse_perm _).symm)
  · exact sortInts_sorted _
  · rw [List.pairwise_reverse, List.pairwise_map]
    exact (sortInts_sorted l).imp (fun h => by omega)

omit R in
theorem sum_mirror (c : Int) (l : List Int) : (l.map (c - ·)).sum = l.length * c - l.sum := by
  induction l with
  | nil => simp
  | cons x l ih => simp only [List.map_cons, List.sum_cons, ih, List.length_cons]; push_cast; ring

omit R in
theorem highest_mirror (c : Int) (k : Nat) (l : List Int) (h : k ≤ l.length) :
    sumHighest k (l.map (c - ·)) = k * c - sumLowest k l := by
  rw [sumHighest_eq, sumLowest_eq]
  unfold topK
  rw [sort_mirror, List.drop_reverse, List.sum_reverse, List.length_map, List.length_map, length_sortInts, ← List.map_take,
    sum_mirror, show l.length - (l.length - k) = k by omega]
  show ((lowK k l).length : Int) * c - (lowK k l).sum = _
  rw [lowK_length k l h]

omit R in
theorem lowest_mirror (c : Int) (k : Nat) (l : List Int) (h : k ≤ l.length) :
    sumLowest k (l.map (c - ·)) = k * c - sumHighest k l := by
  have := highest_mirror c k (l.map (c - ·)) (by simpa using h)
  rw [List.map_map, show ((c - ·) ∘ (c - ·) : Int → Int) = id by funext x; simp, List.map_id] at this
  omega

omit R in
theorem sum_tuples_perm {M : Type} [AddCommMonoid M] {fs gs : List Int} (h : fs.Perm gs) (n : Nat) (F : List Int → M) :
    ((tuples fs n).map F).sum = ((tuples gs n).map F).sum := by
  induction n generalizing F with
  | zero => rfl
  | succ n ih =>
    rw [sum_tuples_succ, sum_tuples_succ]
    simp only [ih]
    exact (h.map _).sum_eq

omit R in
theorem tuples_map (g : Int → Int) (fs : List Int) (n : Nat) : tuples (fs.map g) n = (tuples fs n).map (List.map g) := by
  induction n with
  | zero => rfl
  | succ n ih =>
    simp only [tuples, ih, List.flatMap_map, List.map_flatMap, List.map_map]
    rfl

omit R in
theorem Mirrored.perm {table : List (Int × Nat)} {c : Int} (h : Mirrored table c) :
    ((facesOf table).map (c - ·)).Perm (facesOf table) := by
  rw [List.perm_iff_count]
  intro v
  rw [h v]
  have hinj : Function.Injective (fun x : Int => c - x) := fun a b hab => by simpa using hab
  have := List.count_map_of_injective (facesOf table) (fun x : Int => c - x) hinj (c - v)
  simpa using this

omit R in
theorem avg_mirror {table : List (Int × Nat)} {c : Int} (h : Mirrored table c) (n : Nat) (F : List Int → ℚ) :
    avg (tuples (facesOf table) n) F = avg (tuples (facesOf table) n) (fun l => F (l.map (c - ·))) := by
  unfold avg
  rw [← sum_tuples_perm h.perm n F, tuples_map, List.map_map]
  rfl

/-- Mirroring every die. -/
theorem mirror_follows {table : List (Int × Nat)} {c : Int} (hm : Mirrored table c) {n : Nat} {s s' : List Int → Int} {b : Int}
    {d e : Dist} (fd : ListsScores d table n s) (fe : ListsScores e table n s')
    (h : ∀ l : List Int, l.length = n → s (l.map (c - ·)) = b - s' l) (P : Int → Bool) :
    probOf d P = probOf e (fun v => P (b - v)) := by
  rw [probOf_mean d fd.plain.constructed, probOf_mean e fe.plain.constructed, fd.mean, fe.mean, avg_mirror hm]
  apply avg_congr
  intro l hl
  rw [h l ((mem_tuples _ _ _).mp hl).1]

omit R in
theorem avg_add {α : Type} (l : List α) (f g : α → ℚ) : avg l (fun x => f x + g x) = avg l f + avg l g := by
  unfold avg
  rw [← add_div]
  congr 1
  induction l with
  | nil => simp
  | cons x l ih => simp only [List.map_cons, List.sum_cons, ih]; ring

omit R in
theorem avg_mul {α : Type} (l : List α) (c : ℚ) (f : α → ℚ) : avg l (fun x => c * f x) = c * avg l f := by
  unfold avg
  rw [← mul_div_assoc]
  congr 1
  induction l with
  | nil => simp
  | cons x l ih => simp only [List.map_cons, List.sum_cons, ih]; ring

omit R in
/-- The mean of the sum of `n` dice. -/
theorem avg_sum (fs : List Int) (h : fs ≠ []) (n : Nat) : avg (tuples fs n) (fun l => ((l.sum : Int) : ℚ)) = n * avg fs (fun x => (x : ℚ)) := by
  have hne : ∀ n, tuples fs n ≠ [] := by
    intro n h0
    have := length_tuples fs n
    rw [h0] at this
    exact absurd this.symm (Nat.ne_of_gt (Nat.pow_pos (List.length_pos_iff.mpr h)))
  have h1 : ∀ F : List Int → ℚ, avg (tuples fs 1) F = avg fs (fun x => F [x]) := by
    intro F
    unfold avg
    rw [sum_tuples_succ, length_tuples]
    simp [tuples]
  induction n with
  | zero => simp [tuples, avg]
  | succ n ih =>
    rw [avg_tuples_add]
    have : ∀ l : List Int, avg (tuples fs 1) (fun m => (((l ++ m).sum : Int) : ℚ)) = ((l.sum : Int) : ℚ) + avg fs (fun x => (x : ℚ)) := by
      intro l
      rw [h1]
      have : (fun x : Int => (((l ++ [x]).sum : Int) : ℚ)) = fun x : Int => ((l.sum : Int) : ℚ) + (x : ℚ) := by funext x; simp
      rw [this, avg_add, avg_const h]
    simp only [this]
    rw [avg_add, ih, avg_const (hne n)]
    push_cast
    ring

theorem ListsScores.average {table : List (Int × Nat)} {n : Nat} {s : List Int → Int} {d : Dist} (fd : ListsScores d table n s) :
    d.average = .ok (avg (tuples (facesOf table) n) (fun l => ((s l : Int) : ℚ))) := by
  rw [average_mean d fd.pos, fd.mean]

theorem average_le_of_le {table : List (Int × Nat)} {n : Nat} {s s' : List Int → Int} {d e : Dist} (fd : ListsScores d table n s)
    (fe : ListsScores e table n s') (h : ∀ l ∈ tuples (facesOf table) n, s l ≤ s' l) :
    ∃ x y, d.average = .ok x ∧ e.average = .ok y ∧ x ≤ y := by
  refine ⟨_, _, fd.average, fe.average, ?_⟩
  unfold avg
  apply div_le_div_of_nonneg_right _ (by positivity)
  apply List.sum_le_sum
  intro l hl
  exact_mod_cast h l hl

theorem atLeastAsGood_of_le {table : List (Int × Nat)} {n : Nat} {s s' : List Int → Int} {d e : Dist} (fd : ListsScores d table n s)
    (fe : ListsScores e table n s') (h : ∀ l ∈ tuples (facesOf table) n, s l ≤ s' l) : Dominates d e :=
  ⟨dominates_of_le fd fe h, average_le_of_le fd fe h⟩

omit R in
theorem facesOf_ne_nil {table : List (Int × Nat)} (hw : 0 < (table.map Prod.snd).sum) : facesOf table ≠ [] := by
  intro h
  have := length_facesOf table
  rw [h] at this
  simp at this
  omega

omit R in
theorem mirrored_mean {table : List (Int × Nat)} (hw : 0 < (table.map Prod.snd).sum) {c : Int} (h : Mirrored table c) :
    avg (facesOf table) (fun x => (x : ℚ)) = (c : ℚ) / 2 := by
  have h1 : avg (facesOf table) (fun x => (x : ℚ)) = avg (facesOf table) (fun x => ((c - x : Int) : ℚ)) := by
    unfold avg
    rw [← (h.perm.map (fun x : Int => (x : ℚ))).sum_eq, List.map_map]
    rfl
  have h2 : avg (facesOf table) (fun x => ((c - x : Int) : ℚ)) = (c : ℚ) + (-1) * avg (facesOf table) (fun x => (x : ℚ)) := by
    rw [← avg_mul, ← avg_const (facesOf_ne_nil hw) (c : ℚ), ← avg_add]
    apply avg_congr
    intro x _
    push_cast
    ring
  rw [h2] at h1
  linarith

omit R in
theorem facesOf_ones (l : List Int) : facesOf (ones l) = l := by
  unfold facesOf ones
  induction l with
  | nil => rfl
  | cons x l ih => simpa using ih

omit R in
theorem count_range (a b v : Int) : (pyRange a b).count v = if a ≤ v ∧ v < b then 1 else 0 := by
  split
  · exact List.count_eq_one_of_mem (pyRange_nodup a b) ((mem_pyRange a b v).mpr (by assumption))
  · rename_i h
    exact List.count_eq_zero.mpr (fun hm => h ((mem_pyRange a b v).mp hm))

omit R in
/-- Ordinary dice are symmetric. -/
theorem mirrored_ordinary (n : Int) : Mirrored (ones (pyRange 1 (n + 1))) (n + 1) := by
  intro v
  rw [facesOf_ones, count_range, count_range]
  congr 1
  apply propext
  constructor <;> intro h <;> omega

end

end PyDice
